import Verif.Props.Decode
/-!
# C64: samples are read independently of each other; damage stays where it is
-/

namespace Atop
open Spec

theorem Spec.WSample.Valid.framed {Z : Zlib} {r : Row} {w : WSample} (W : w.Valid Z r) : w.Framed r :=
  ⟨W.record_len, W.scomplen, W.zsstat.pos, W.pcomplen, W.ccomplen, W.icomplen⟩

theorem unpack_append (Z : Bytes → Option Bytes) {n : Nat} {a : Bytes} (hn : n = a.length) (b : Bytes) :
    unpack Z true n (a ++ b) = match Z a with | none => .error .zlib | some d => .ok (d, b) := by
  subst hn
  unfold unpack
  rw [takeBytes_whole]
  simp only [List.take_left', List.drop_left']
  cases Z a <;> rfl

/-- The blocks of a sample, taken by themselves. -/
def ownSample (Z : Bytes → Option Bytes) (r : Row) (w : WSample) : Except Trouble Found :=
  match Z w.zsstat with
  | none => .error .zlib
  | some d =>
    if d.length < r.sstat then .error .short
    else match Z w.ztstats with
      | none => .error .zlib
      | some e =>
        match decodeTasks r.tstat (u32 w.record 28) e with
        | .error t => .error t
        | .ok ts =>
          if r.cstat.isSome = false then .ok ⟨w.record, d.take r.sstat, ts, []⟩
          else match Z w.zcstats with
            | none => .error .zlib
            | some d' =>
              match Z w.zpids with
              | none => .error .zlib
              | some p =>
                match decodeChain (r.cstat.getD 0) d' (u16 w.record 10) 0 p with
                | .error t => .error t
                | .ok gs => .ok ⟨w.record, d.take r.sstat, ts, gs⟩

theorem decodeSample_own (Z : Bytes → Option Bytes) {r : Row} {w : WSample} (F : w.Framed r) (rest : Bytes) :
    decodeSample Z r r.cstat.isSome true (w.bytes r ++ rest) =
      match ownSample Z r w with
      | .error t => .error t
      | .ok f => .ok (some (f, rest)) := by
  unfold decodeSample WSample.bytes
  rw [takeBytes_whole]
  simp only [List.append_assoc]
  rw [← F.record_len, List.take_left, List.drop_left]
  rw [Nat.sub_self, List.replicate_zero, List.append_nil]
  unfold decodeBlocks ownSample
  have hp := F.present
  rw [if_neg (by rw [F.scomplen]; omega), unpack_append Z F.scomplen]
  cases Z w.zsstat with
  | none => rfl
  | some d =>
    dsimp only
    split
    · rfl
    · rw [unpack_append Z F.pcomplen]
      cases Z w.ztstats with
      | none => rfl
      | some e =>
        dsimp only
        cases decodeTasks r.tstat (u32 w.record 28) e with
        | error t => rfl
        | ok ts =>
          dsimp only
          cases hc : r.cstat.isSome with
          | false => simp
          | true =>
            simp only [Bool.true_eq_false, ↓reduceIte, List.append_assoc]
            unfold decodeGroups
            rw [unpack_append Z (F.ccomplen hc)]
            cases Z w.zcstats with
            | none => rfl
            | some d' =>
              dsimp only
              rw [unpack_append Z (F.icomplen hc)]
              cases Z w.zpids with
              | none => rfl
              | some p =>
                dsimp only
                cases decodeChain (r.cstat.getD 0) d' (u16 w.record 10) 0 p <;> rfl

/-- What the samples of a log give, each read by itself, up to the first that cannot be read. -/
def ownLog (Z : Bytes → Option Bytes) (r : Row) : List WSample → List Found × Option Trouble
  | [] => ([], none)
  | w :: ws =>
    match ownSample Z r w with
    | .error t => ([], some t)
    | .ok f => (f :: (ownLog Z r ws).1, (ownLog Z r ws).2)

theorem decodeLog_own (Z : Bytes → Option Bytes) {r : Row} (hr : 20 ≤ r.record) : ∀ (ws : List WSample), (∀ w ∈ ws, w.Framed r) → ∀ n, ws.length ≤ n →
    decodeLog Z r r.cstat.isSome true n (body r ws) = ownLog Z r ws
  | [], F, 0, hn => rfl
  | [], F, n + 1, hn => by
    have : decodeSample Z r r.cstat.isSome true (body r []) = .ok none := by
      unfold decodeSample
      rw [takeBytes_whole]
      dsimp only
      unfold decodeBlocks
      rw [if_pos]
      simp [body, u32, u16, u8, List.getD_eq_getElem?_getD, List.getElem?_replicate]
      split_ifs <;> simp
    rw [decodeLog, this]; rfl
  | w :: ws, F, 0, hn => absurd hn (by simp)
  | w :: ws, F, n + 1, hn => by
    have hb : body r (w :: ws) = w.bytes r ++ body r ws := by simp [body]
    rw [decodeLog, hb, decodeSample_own Z (F w List.mem_cons_self), ownLog]
    cases ownSample Z r w with
    | error t => rfl
    | ok f =>
      dsimp only
      rw [decodeLog_own Z hr ws (fun w h => F w (List.mem_cons_of_mem _ h)) n (by simpa using hn)]

theorem run_own {Z : Zlib} {r : Row} (hr : r ∈ table) {hb : Bytes} (H : ValidHeader r hb) {ws : List WSample}
    (F : ∀ w ∈ ws, w.Framed r) (rot : Bool) (max : Int) (hmax : (ws.length : Int) ≤ max)
    {s : Stream} (hs : s.rest = hb ++ body r ws) (plain : s.short = none) :
    (generateStatistics Z none rot max s).1 = (ownLog Z r ws).1.map (fun f => presented (classFor hb) f.written) ∧
    (generateStatistics Z none rot max s).2.1 = match (ownLog Z r ws).2 with
      | none => .returned
      | some t => endOf rot (troubleExc none t) := by
  obtain ⟨h, rfl, hc, R, hrest, hgen, -⟩ := generate_valid hr H Z rot max hs
  rw [hgen]
  have h20 : 20 ≤ r.record := (by decide : ∀ r ∈ table, 20 ≤ r.record) r hr
  have := decode_loop R Z rot max.toNat (s.adv 480)
  rw [hrest, show (s.adv 480).short = none from plain] at this
  rw [show Option.isNone (none : Option Exc) = true from rfl, decodeLog_own Z h20 ws F max.toNat (by omega)] at this
  exact this

theorem troubleExc_kinds {Z : Zlib} {r : Row} {w : WSample} {t : Trouble} (h : ownSample Z r w = .error t) :
    t = .zlib ∨ t = .short ∨ t = .negative := by
  cases t with
  | zlib => exact .inl rfl
  | short => exact .inr (.inl rfl)
  | negative => exact .inr (.inr rfl)
  | container =>
    exfalso
    unfold ownSample at h
    split at h
    · cases h
    split at h
    · cases h
    split at h
    · cases h
    split at h
    · rename_i h'
      cases h
      unfold decodeTasks at h'
      split at h' <;> cases h'
    split at h
    · cases h
    split at h
    · cases h
    split at h
    · cases h
    split at h
    · rename_i h'
      cases h
      exact decodeChain_whole _ _ _ _ _ h'
    · cases h

theorem ownLog_get {Z : Zlib} {r : Row} : ∀ (ws : List WSample) (i : Nat) (f : Found), (ownLog Z r ws).1[i]? = some f →
    ∃ w, ws[i]? = some w ∧ ownSample Z r w = .ok f
  | [], i, f, h => by simp [ownLog] at h
  | w :: ws, i, f, h => by
    rw [ownLog] at h
    cases ho : ownSample Z r w with
    | error t => rw [ho] at h; simp at h
    | ok g =>
      rw [ho] at h
      cases i with
      | zero => simp at h; subst h; exact ⟨w, rfl, ho⟩
      | succ i => simp at h; simpa using ownLog_get ws i f h

theorem ownLog_end {Z : Zlib} {r : Row} : ∀ (ws : List WSample),
    ((ownLog Z r ws).1.length = ws.length ∧ (ownLog Z r ws).2 = none) ∨
    ∃ w t, ws[(ownLog Z r ws).1.length]? = some w ∧ ownSample Z r w = .error t ∧ (ownLog Z r ws).2 = some t
  | [] => .inl ⟨rfl, rfl⟩
  | w :: ws => by
    rw [ownLog]
    cases ho : ownSample Z r w with
    | error t => exact .inr ⟨w, t, rfl, ho, rfl⟩
    | ok g =>
      rcases ownLog_end (Z := Z) (r := r) ws with ⟨h1, h2⟩ | ⟨w', t, h1, h2, h3⟩
      · exact .inl ⟨by simp [h1], h2⟩
      · exact .inr ⟨w', t, by simpa using h1, h2, h3⟩

/-- **C64** Samples are read independently of each other.  Take a log whose samples are only laid out as their records
announce (nothing is required of their blocks).  Every sample obtained from it is the one obtained from the log
consisting of the header and that sample alone; and the iteration ends normally behind the last sample, or at the first
sample that cannot be read alone either, in the same way. -/
theorem C64_independent {Z : Zlib} {r : Row} (hr : r ∈ table) {hb : Bytes} (H : ValidHeader r hb) {ws : List WSample}
    (F : ∀ w ∈ ws, w.Framed r) (rot : Bool) (max : Int) (hmax : (ws.length : Int) ≤ max)
    {s : Stream} (hs : s.rest = hb ++ body r ws) (plain : s.short = none) :
    (∀ (i : Nat) w x, ws[i]? = some w → (generateStatistics Z none rot max s).1[i]? = some x →
      ∀ a : Stream, a.rest = hb ++ w.bytes r → a.short = none →
        (generateStatistics Z none rot max a).1 = [x] ∧ (generateStatistics Z none rot max a).2.1 = .returned) ∧
    (((generateStatistics Z none rot max s).1.length = ws.length ∧ (generateStatistics Z none rot max s).2.1 = .returned) ∨
      ∃ w, ws[(generateStatistics Z none rot max s).1.length]? = some w ∧
        ∀ a : Stream, a.rest = hb ++ w.bytes r → a.short = none →
          (generateStatistics Z none rot max a).1 = [] ∧
          (generateStatistics Z none rot max a).2.1 = (generateStatistics Z none rot max s).2.1 ∧
          ∃ e, (generateStatistics Z none true max a).2.1 = .raised e) := by
  have one : ∀ w ∈ ws, ∀ rot, ∀ a : Stream, a.rest = hb ++ w.bytes r → a.short = none →
      (generateStatistics Z none rot max a).1 = (ownLog Z r [w]).1.map (fun f => presented (classFor hb) f.written) ∧
      (generateStatistics Z none rot max a).2.1 = match (ownLog Z r [w]).2 with
        | none => .returned
        | some t => endOf rot (troubleExc none t) := by
    intro w hw rot a ha hp
    refine run_own hr H (ws := [w]) (by simpa using F w hw) rot max ?_ (by simpa [body] using ha) hp
    have := List.length_pos_of_mem hw
    simp; omega
  obtain ⟨r1, r2⟩ := run_own (Z := Z) hr H F rot max hmax hs plain
  rw [r1, r2]
  refine ⟨?_, ?_⟩
  · intro i w x hw hx a ha hp
    rw [List.getElem?_map] at hx
    cases hf : (ownLog Z r ws).1[i]? with
    | none => rw [hf] at hx; cases hx
    | some f =>
      rw [hf] at hx
      cases hx
      obtain ⟨w', h1, h2⟩ := ownLog_get ws i f hf
      rw [hw] at h1
      cases h1
      obtain ⟨o1, o2⟩ := one w (List.mem_of_getElem? hw) rot a ha hp
      rw [o1, o2]
      simp [ownLog, h2]
  · rcases ownLog_end (Z := Z) (r := r) ws with ⟨h1, h2⟩ | ⟨w, t, h1, h2, h3⟩
    · exact .inl ⟨by simpa using h1, by rw [h2]⟩
    · refine .inr ⟨w, by simpa using h1, ?_⟩
      intro a ha hp
      obtain ⟨o1, o2⟩ := one w (List.mem_of_getElem? h1) rot a ha hp
      obtain ⟨-, o3⟩ := one w (List.mem_of_getElem? h1) true a ha hp
      rw [o1, o2, o3, h3]
      simp only [ownLog, h2, List.map_nil, true_and]
      unfold endOf
      split <;> exact ⟨_, rfl⟩

theorem ownSample_ok {Z : Zlib} {r : Row} {w : WSample} {f : Found} (h : ownSample Z r w = .ok f) :
    f.record = w.record ∧ (∃ d, Z w.zsstat = some d ∧ f.sstat = d.take r.sstat) ∧
    (∃ e, Z w.ztstats = some e ∧ decodeTasks r.tstat (u32 w.record 28) e = .ok f.tstats) ∧
    (r.cstat.isSome = false → f.groups = []) ∧
    (r.cstat.isSome = true → ∃ d p, Z w.zcstats = some d ∧ Z w.zpids = some p ∧
      decodeChain (r.cstat.getD 0) d (u16 w.record 10) 0 p = .ok f.groups) := by
  unfold ownSample at h
  split at h
  · cases h
  rename_i d hd
  split at h
  · cases h
  split at h
  · cases h
  rename_i e he
  split at h
  · cases h
  rename_i ts hts
  split at h
  · rename_i hc
    cases h
    exact ⟨rfl, ⟨d, hd, rfl⟩, ⟨e, he, hts⟩, fun _ => rfl, fun hc' => absurd hc (by simp [hc'])⟩
  rename_i hc
  split at h
  · cases h
  rename_i d' hd'
  split at h
  · cases h
  rename_i p hp
  split at h
  · cases h
  rename_i gs hgs
  cases h
  exact ⟨rfl, ⟨d, hd, rfl⟩, ⟨e, he, hts⟩, fun hc' => absurd hc' hc, fun _ => ⟨d', p, hd', hp, hgs⟩⟩

/-- Only the blocks and the two counts of the record decide whether a sample can be read. -/
theorem ownSample_same {Z : Zlib} {r : Row} {w w' : WSample} {f : Found} (h : ownSample Z r w = .ok f)
    (h1 : w'.zsstat = w.zsstat) (h2 : w'.ztstats = w.ztstats) (h3 : u32 w'.record 28 = u32 w.record 28)
    (h4 : r.cstat.isSome → w'.zcstats = w.zcstats ∧ w'.zpids = w.zpids ∧ u16 w'.record 10 = u16 w.record 10) :
    ∃ f', ownSample Z r w' = .ok f' := by
  unfold ownSample at h ⊢
  rw [h1, h2, h3]
  split at h
  · cases h
  rename_i d hd
  try rw [hd]
  try dsimp only
  split at h
  · cases h
  rename_i hl
  try rw [if_neg hl]
  split at h
  · cases h
  rename_i e he
  try rw [he]
  try dsimp only
  split at h
  · cases h
  rename_i ts hts
  try rw [hts]
  try dsimp only
  split at h
  · rename_i hc
    rw [if_pos hc]
    exact ⟨_, rfl⟩
  rename_i hc
  rw [if_neg hc]
  obtain ⟨g1, g2, g3⟩ := h4 (Bool.eq_true_of_not_eq_false hc)
  rw [g1, g2, g3]
  split at h
  · cases h
  rename_i d' hd'
  try rw [hd']
  try dsimp only
  split at h
  · cases h
  rename_i p hp
  try rw [hp]
  try dsimp only
  split at h
  · cases h
  rename_i gs hgs
  try rw [hgs]
  exact ⟨_, rfl⟩

theorem ownLog_append {Z : Zlib} {r : Row} (zs : List WSample) : ∀ (ws : List WSample), (∀ w ∈ ws, ∃ f, ownSample Z r w = .ok f) →
    ownLog Z r (ws ++ zs) = ((ownLog Z r ws).1 ++ (ownLog Z r zs).1, (ownLog Z r zs).2)
  | [], _ => rfl
  | w :: ws, h => by
    obtain ⟨f, hf⟩ := h w List.mem_cons_self
    rw [List.cons_append, ownLog, ownLog, hf]
    dsimp only
    rw [ownLog_append zs ws (fun w hw => h w (List.mem_cons_of_mem _ hw))]
    rfl

theorem own_valid {Z : Zlib} {r : Row} (hr : r ∈ table) {hb : Bytes} (H : ValidHeader r hb) {w : WSample} (W : w.Valid Z r) :
    ∃ f, ownSample Z r w = .ok f ∧ presented (classFor hb) f.written = presented (classFor hb) w := by
  have hs : Stream.rest { data := hb ++ body r [w] } = hb ++ body r [w] := by simp [Stream.rest]
  obtain ⟨c, hc, hgen⟩ := C01_round_trip hr H (ws := [w]) (by simpa using W) true 1 (by simp) hs rfl
  obtain ⟨r1, r2⟩ := run_own (Z := Z) hr H (ws := [w]) (by simpa using W.framed) true 1 (by simp) hs rfl
  obtain ⟨-, -, -, hcls⟩ := valid_accepts hr H
  rw [hc] at hcls
  cases hcls
  rw [hgen] at r1
  rw [ownLog] at r1
  cases ho : ownSample Z r w with
  | error t => rw [ho] at r1; simp at r1
  | ok f =>
    rw [ho] at r1
    simp [ownLog] at r1
    exact ⟨f, rfl, r1.symm⟩

theorem ownLog_valid {Z : Zlib} {r : Row} (hr : r ∈ table) {hb : Bytes} (H : ValidHeader r hb) : ∀ (ws : List WSample),
    (∀ w ∈ ws, w.Valid Z r) → (ownLog Z r ws).1.map (fun f => presented (classFor hb) f.written) = ws.map (presented (classFor hb)) ∧
      (ownLog Z r ws).2 = none
  | [], _ => ⟨rfl, rfl⟩
  | w :: ws, W => by
    obtain ⟨f, h1, h2⟩ := own_valid hr H (W w List.mem_cons_self)
    obtain ⟨i1, i2⟩ := ownLog_valid hr H ws (fun w hw => W w (List.mem_cons_of_mem _ hw))
    rw [ownLog, h1]
    exact ⟨by simp only [List.map_cons, h2, i1], i2⟩

/-- **C64** Damage stays where it is.  Let one sample of a well-formed log be replaced by anything laid out as its record
announces (blocks overwritten, counts and other fields of the record changed).  Either the iteration stops there, after
exactly the samples before it and with an exception (`zlib.error` being swallowed without `raise_on_truncation`), and then
a block or a count was damaged; or the log is read to its end, every other sample is given as written, and of
the replaced one every part whose block and count are intact. -/
theorem C64_damage {Z : Zlib} {r : Row} (hr : r ∈ table) {hb : Bytes} (H : ValidHeader r hb) {before after : List WSample}
    {w w' : WSample} (W : ∀ v ∈ before ++ w :: after, v.Valid Z r) (F : w'.Framed r) (rot : Bool) (max : Int)
    (hmax : (before.length + 1 + after.length : Int) ≤ max)
    {s : Stream} (hs : s.rest = hb ++ body r (before ++ w' :: after)) (plain : s.short = none) :
    ∃ c, headerByVersion r.version = some c ∧
      (((generateStatistics Z none rot max s).1 = before.map (presented c) ∧
        (∃ e, (e = .zlibError ∨ e = .valueError .bufferTooSmall ∨ e = .valueError .negativeLength) ∧
          (generateStatistics Z none rot max s).2.1 = if e = .zlibError ∧ rot = false then .returned else .raised e) ∧
        ¬ (w'.zsstat = w.zsstat ∧ w'.ztstats = w.ztstats ∧ u32 w'.record 28 = u32 w.record 28 ∧
          (r.cstat.isSome → w'.zcstats = w.zcstats ∧ w'.zpids = w.zpids ∧ u16 w'.record 10 = u16 w.record 10))) ∨
       ∃ x, (generateStatistics Z none rot max s).1 = before.map (presented c) ++ x :: after.map (presented c) ∧
        (generateStatistics Z none rot max s).2.1 = .returned ∧
        x.record = ⟨c.Record, w'.record⟩ ∧
        (w'.zsstat = w.zsstat → x.sstat = (presented c w).sstat) ∧
        (w'.ztstats = w.ztstats → u32 w'.record 28 = u32 w.record 28 → x.tstats = (presented c w).tstats) ∧
        (w'.zcstats = w.zcstats → w'.zpids = w.zpids → u16 w'.record 10 = u16 w.record 10 →
          x.cgroups = (presented c w).cgroups)) := by
  obtain ⟨-, -, -, hcls⟩ := valid_accepts hr H
  refine ⟨_, hcls, ?_⟩
  have Wb : ∀ v ∈ before, v.Valid Z r := fun v hv => W v (List.mem_append_left _ hv)
  have Wa : ∀ v ∈ after, v.Valid Z r := fun v hv => W v (List.mem_append_right _ (List.mem_cons_of_mem _ hv))
  have Ww : w.Valid Z r := W w (List.mem_append_right _ List.mem_cons_self)
  obtain ⟨r1, r2⟩ := run_own (Z := Z) hr H (ws := before ++ w' :: after) (by
    intro v hv
    rcases List.mem_append.mp hv with hv | hv
    · exact (Wb v hv).framed
    · rcases List.mem_cons.mp hv with rfl | hv
      · exact F
      · exact (Wa v hv).framed) rot max (by simp; omega) hs plain
  rw [r1, r2, ownLog_append _ before (fun v hv => (own_valid hr H (Wb v hv)).imp fun _ h => h.1), ownLog]
  obtain ⟨b1, -⟩ := ownLog_valid hr H before Wb
  obtain ⟨a1, a2⟩ := ownLog_valid hr H after Wa
  obtain ⟨f, hf, hp⟩ := own_valid hr H Ww
  cases ho : ownSample Z r w' with
  | error t =>
    left
    dsimp only
    rw [List.append_nil]
    refine ⟨b1, ?_, ?_⟩
    · refine ⟨troubleExc none t, ?_, ?_⟩
      · rcases troubleExc_kinds ho with rfl | rfl | rfl
        · exact .inl rfl
        · exact .inr (.inl rfl)
        · exact .inr (.inr rfl)
      · unfold endOf
        by_cases he : troubleExc none t = .zlibError <;> cases rot <;> simp [he]
    · rintro ⟨h1, h2, h3, h4⟩
      obtain ⟨f', hf'⟩ := ownSample_same hf h1 h2 h3 h4
      rw [ho] at hf'
      cases hf'
  | ok f' =>
    right
    dsimp only
    obtain ⟨k1, ⟨d, kd, k2⟩, ⟨e, ke, k3⟩, k4, k5⟩ := ownSample_ok hf
    obtain ⟨l1, ⟨d', ld, l2⟩, ⟨e', le, l3⟩, l4, l5⟩ := ownSample_ok ho
    refine ⟨presented (classFor hb) f'.written, by rw [List.map_append, List.map_cons, b1, a1], by rw [a2], ?_, ?_, ?_, ?_⟩
    · show (⟨_, f'.record⟩ : Inst) = _
      rw [l1]
    · intro hz
      rw [← hp]
      show (⟨_, f'.sstat⟩ : Inst) = ⟨_, f.sstat⟩
      rw [hz, kd] at ld
      cases ld
      rw [k2, l2]
    · intro hz hn
      rw [← hp]
      show f'.tstats.map _ = f.tstats.map _
      rw [hz, ke] at le
      cases le
      rw [hn, k3] at l3
      injection l3 with l3
      rw [l3]
    · intro hz hz' hn
      rw [← hp]
      have : f'.groups = f.groups := by
        cases hc : r.cstat.isSome with
        | false => rw [k4 hc, l4 hc]
        | true =>
          obtain ⟨d1, p1, e1, e2, e3⟩ := k5 hc
          obtain ⟨d2, p2, g1, g2, g3⟩ := l5 hc
          rw [hz, e1] at g1
          rw [hz', e2] at g2
          cases g1
          cases g2
          rw [hn, e3] at g3
          injection g3 with g3
          exact g3.symm
      unfold presented
      show (match (classFor hb).CStat with | none => [] | some t => f'.groups.map _) = (match (classFor hb).CStat with | none => [] | some t => f.groups.map _)
      rw [this]

/-- The document of the samples `ws`. -/
def ownDoc (Z : Zlib) (r : Row) (o : Opts) (h : Header) (ws : List WSample) : Except Exc (List JVal) :=
  docOf o h ((ownLog Z r ws).1.map (fun f => presented h.cls f.written)) (match (ownLog Z r ws).2 with
    | none => .returned
    | some t => endOf false (troubleExc none t))

theorem ownDoc_cons (Z : Zlib) (r : Row) (o : Opts) (h : Header) (w : WSample) (ws : List WSample) :
    (∃ t, ownSample Z r w = .error t ∧ ownDoc Z r o h (w :: ws) = ownDoc Z r o h [w] ∧
      (troubleExc none t = .zlibError → ownDoc Z r o h [w] = .ok [])  ∧
      (troubleExc none t ≠ .zlibError → ownDoc Z r o h [w] = .error (troubleExc none t))) ∨
    (∃ e, ownDoc Z r o h (w :: ws) = .error e ∧ ownDoc Z r o h [w] = .error e) ∨
    (∃ d, ownDoc Z r o h [w] = .ok d ∧ (∃ f, ownSample Z r w = .ok f) ∧
      ownDoc Z r o h (w :: ws) = match ownDoc Z r o h ws with | .error e => .error e | .ok ds => .ok (d ++ ds)) := by
  unfold ownDoc
  simp only [ownLog]
  cases ho : ownSample Z r w with
  | error t =>
    left
    refine ⟨t, rfl, rfl, ?_, ?_⟩
    · intro ht
      simp only [docOf, sampleRowsAll, List.map_nil, endOf, ht, if_true]
      rfl
    · intro ht
      simp only [docOf, sampleRowsAll, List.map_nil, endOf, ht, if_false]
  | ok f =>
    right
    simp only [List.map_cons, docOf_cons, List.map_nil]
    cases sampleRows o h (presented h.cls f.written) with
    | error e => exact .inl ⟨e, rfl, rfl⟩
    | ok d => exact .inr ⟨d, by simp [docOf, sampleRowsAll], ⟨f, rfl⟩, rfl⟩

theorem parse_own {Z : Zlib} {r : Row} (hr : r ∈ table) {hb : Bytes} (H : ValidHeader r hb) {ws : List WSample}
    (F : ∀ w ∈ ws, w.Framed r) (hmax : ws.length ≤ 86400) {o : Opts} (hv : o.parseables = [] ∨ r.version = py!"1.26")
    (file : PyStr) {s : Stream} (hs : s.rest = hb ++ body r ws) (plain : s.short = none) :
    (parseFile Z o file s).1 = ownDoc Z r o ⟨classFor hb, hb, some (major hb, minor hb)⟩ ws := by
  obtain ⟨h, hh, hc, R, hrest, hgen, hg⟩ := generate_valid hr H Z false 86400 hs
  subst hh
  have e480 : first480 s.rest = hb := by
    rw [hs]
    unfold first480
    rw [← H.length, List.take_left]
    simp [H.length]
  rw [parseFile_ok hg o file (by
    rcases hv with hv | hv
    · exact .inl hv
    · right
      rw [e480, H.major, H.minor]
      exact (by decide : ∀ r ∈ table, r.version = py!"1.26" → r.major = 1 ∧ r.minor = 26) r hr hv)]
  obtain ⟨r1, r2⟩ := run_own (Z := Z) hr H F false 86400 (by omega) hs plain
  rw [r1, r2]
  rfl

/-- **C64** The same for what is printed (all samples in full, or parseables of version 1.26): a printed document is the
documents of the samples, each alone in a log, one after the other, up to the first that does not decompress alone
either; and if the call raises, it raises the same for one of the samples alone. -/
theorem C64_document {Z : Zlib} {r : Row} (hr : r ∈ table) {hb : Bytes} (H : ValidHeader r hb) {ws : List WSample}
    (F : ∀ w ∈ ws, w.Framed r) (hmax : ws.length ≤ 86400) {o : Opts} (hv : o.parseables = [] ∨ r.version = py!"1.26")
    (file : PyStr) {s : Stream} (hs : s.rest = hb ++ body r ws) (plain : s.short = none) :
    (∀ docs, (parseFile Z o file s).1 = .ok docs → ∃ ds : List (List JVal), docs = ds.flatten ∧ ds.length ≤ ws.length ∧
      (∀ (i : Nat) w d, ws[i]? = some w → ds[i]? = some d → ∀ a : Stream, a.rest = hb ++ w.bytes r → a.short = none →
        (parseFile Z o file a).1 = .ok d) ∧
      (∀ w, ws[ds.length]? = some w → ∀ a : Stream, a.rest = hb ++ w.bytes r → a.short = none →
        (generateStatistics Z none true 86400 a).2.1 = .raised .zlibError)) ∧
    (∀ e, (parseFile Z o file s).1 = .error e → ∃ w ∈ ws, ∀ a : Stream, a.rest = hb ++ w.bytes r → a.short = none →
      (parseFile Z o file a).1 = .error e) := by
  rw [parse_own hr H F hmax hv file hs plain]
  clear hs plain s
  have alone : ∀ w, w.Framed r → ∀ a : Stream, a.rest = hb ++ w.bytes r → a.short = none →
      (parseFile Z o file a).1 = ownDoc Z r o ⟨classFor hb, hb, some (major hb, minor hb)⟩ [w] := fun w hw a ha hp =>
    parse_own hr H (ws := [w]) (by simpa using hw) (by simp) hv file (by simpa [body] using ha) hp
  generalize hh : (⟨classFor hb, hb, some (major hb, minor hb)⟩ : Header) = h at alone ⊢
  induction ws with
  | nil =>
    constructor
    · intro docs hd
      simp [ownDoc, ownLog, docOf, sampleRowsAll] at hd
      exact ⟨[], by simp [hd], by simp, by simp, by simp⟩
    · intro e hd
      simp [ownDoc, ownLog, docOf, sampleRowsAll] at hd
  | cons w ws ih =>
    have Fw := F w List.mem_cons_self
    obtain ⟨i1, i2⟩ := ih (fun w hw => F w (List.mem_cons_of_mem _ hw)) (by simp at hmax; omega)
    rcases ownDoc_cons Z r o h w ws with ⟨t, ht, h1, h2, h3⟩ | ⟨e, h1, h2⟩ | ⟨d, h1, ⟨f, hf⟩, h2⟩
    · rw [h1]
      by_cases hz : troubleExc none t = .zlibError
      · rw [h2 hz]
        refine ⟨?_, nofun⟩
        rintro docs hd
        cases hd
        refine ⟨[], rfl, by simp, by simp, ?_⟩
        intro w' hw' a ha hp
        simp at hw'
        subst hw'
        obtain ⟨-, r2⟩ := run_own (Z := Z) hr H (ws := [w]) (by simpa using Fw) true 86400 (by simp) (by simpa [body] using ha) hp
        rw [r2]
        simp [ownLog, ht, endOf, hz]
      · rw [h3 hz]
        refine ⟨nofun, ?_⟩
        intro e he
        cases he
        exact ⟨w, List.mem_cons_self, fun a ha hp => by rw [alone w Fw a ha hp, h3 hz]⟩
    · rw [h1]
      refine ⟨nofun, ?_⟩
      intro e he
      cases he
      exact ⟨w, List.mem_cons_self, fun a ha hp => by rw [alone w Fw a ha hp, h2]⟩
    · rw [h2]
      cases hd : ownDoc Z r o h ws with
      | error e =>
        refine ⟨nofun, ?_⟩
        rintro e' he
        cases he
        obtain ⟨w', hw', h'⟩ := i2 e hd
        exact ⟨w', List.mem_cons_of_mem _ hw', h'⟩
      | ok rest =>
        refine ⟨?_, nofun⟩
        rintro docs hd'
        cases hd'
        obtain ⟨ds, rfl, j1, j2, j3⟩ := i1 rest hd
        refine ⟨d :: ds, by simp, by simpa using j1, ?_, ?_⟩
        · intro i w' d' hw' hd'' a ha hp
          cases i with
          | zero =>
            simp at hw' hd''
            subst hw' hd''
            rw [alone w Fw a ha hp, h1]
          | succ i => simp at hw' hd''; exact j2 i w' d' hw' hd'' a ha hp
        · intro w' hw'
          simp at hw'
          exact j3 w' hw'

/-! ## Concrete cases -/

/-- A toy sample whose task block is overwritten with garbage, and whose record is given another time. -/
def damagedSample (r : Row) : WSample :=
  { toySample r with record := 255 :: (toyRecord r).tail, ztstats := List.replicate (toySample r).ztstats.length 2 }

theorem damagedRecord_facts : ∀ r ∈ table, (damagedSample r).record.length = r.record ∧
    u32 (damagedSample r).record 16 = u32 (toySample r).record 16 ∧ u32 (damagedSample r).record 20 = u32 (toySample r).record 20 ∧
    u32 (damagedSample r).record 72 = u32 (toySample r).record 72 ∧ u32 (damagedSample r).record 84 = u32 (toySample r).record 84 := by
  have : ∀ r ∈ table, (255 :: (toyRecord r).tail).length = r.record ∧
    u32 (255 :: (toyRecord r).tail) 16 = u32 (toyRecord r) 16 ∧ u32 (255 :: (toyRecord r).tail) 20 = u32 (toyRecord r) 20 ∧
    u32 (255 :: (toyRecord r).tail) 72 = u32 (toyRecord r) 72 ∧ u32 (255 :: (toyRecord r).tail) 84 = u32 (toyRecord r) 84 := by
    decide +kernel
  exact this

theorem damaged_framed (r : Row) (hr : r ∈ table) : (damagedSample r).Framed r := by
  have V := toySample_valid r hr
  obtain ⟨f1, f2, f3, f4, f5⟩ := damagedRecord_facts r hr
  refine ⟨f1, f2.trans V.scomplen, V.zsstat.pos, (f3.trans V.pcomplen).trans ?_, fun h => f4.trans (V.ccomplen h), fun h => f5.trans (V.icomplen h)⟩
  show _ = (List.replicate (toySample r).ztstats.length (2 : UInt8)).length
  rw [List.length_replicate]

/-- In every version, a log of three samples with the middle one damaged gives the first one and then stops (quietly or
with `zlib.error`, as asked). -/
example (r : Row) (hr : r ∈ table) (rot : Bool) : ∃ c, headerByVersion r.version = some c ∧
    (generateStatistics toyZ none rot 9
      { data := toyHeader r ++ body r [toySample r, damagedSample r, toySample r] }).1 = [presented c (toySample r)] ∧
    (generateStatistics toyZ none rot 9
      { data := toyHeader r ++ body r [toySample r, damagedSample r, toySample r] }).2.1 =
        if rot = false then .returned else .raised .zlibError := by
  have H := toyHeader_valid r hr
  obtain ⟨c, hc, h⟩ := C64_damage (Z := toyZ) hr H (before := [toySample r]) (after := [toySample r]) (w := toySample r)
    (by simpa using toySample_valid r hr) (damaged_framed r hr) rot 9 (by simp) (s := { data := _ }) (by simp [Stream.rest]; rfl) rfl
  have hz : toyZ (damagedSample r).ztstats = none := by
    show toyZ (List.replicate (toySample r).ztstats.length 2) = none
    obtain ⟨n, hn⟩ : ∃ n, (toySample r).ztstats.length = n + 1 :=
      ⟨_, (Nat.succ_pred_eq_of_pos (toySample_valid r hr).ztstats.pos).symm⟩
    rw [hn]
    rfl
  have ho : ownSample toyZ r (damagedSample r) = .error .zlib := by
    have h1 : toyZ (damagedSample r).zsstat = some (List.replicate r.sstat 7) := (toySample_valid r hr).zsstat.inv
    unfold ownSample
    rw [h1, hz]
    simp
  have hrest : Stream.rest { data := toyHeader r ++ body r [toySample r, damagedSample r, toySample r] } =
    toyHeader r ++ body r [toySample r, damagedSample r, toySample r] := by simp [Stream.rest]
  obtain ⟨f, hf, hp⟩ := own_valid hr H (toySample_valid r hr)
  obtain ⟨r1, r2⟩ := run_own (Z := toyZ) hr H (ws := [toySample r, damagedSample r, toySample r]) (by
    intro w hw
    simp only [List.mem_cons, List.not_mem_nil, or_false] at hw
    rcases hw with rfl | rfl | rfl
    · exact (toySample_valid r hr).framed
    · exact damaged_framed r hr
    · exact (toySample_valid r hr).framed) rot 9 (by simp) hrest rfl
  obtain ⟨-, -, -, hcls⟩ := valid_accepts hr H
  refine ⟨_, hcls, ?_, ?_⟩
  · rw [r1]
    simp [ownLog, hf, ho, hp]
  · rw [r2]
    simp only [ownLog, hf, ho]
    cases rot <;> rfl

end Atop
