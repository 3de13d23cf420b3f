import Verif.Spec.Unchecked
import Verif.Spec.Expected
import Verif.Props.Stats
/-!
# The readers do what the reference decoder does
-/

namespace Atop
open Spec

/-- `m` on a stream does what the reference `f` does on its unread bytes. -/
def Does {α β} (m : Rd β) (s : Stream) (x : Except Trouble (α × Bytes)) (g : α → β) : Prop :=
  (∀ t, x = .error t → (m s).1 = .error (troubleExc s.short t)) ∧
  (∀ a b, x = .ok (a, b) → ∃ s', m s = (.ok (g a), s') ∧ s'.rest = b ∧ s'.short = s.short)

theorem does_takeBytes (n : Nat) (s : Stream) : Does (Stream.read n) s (takeBytes s.short.isNone n s.rest) id := by
  obtain ⟨r1, r2, r3⟩ := Stream.read_skip n s
  unfold takeBytes
  rcases hr : Stream.read n s with ⟨e | g, s'⟩
  · rw [hr] at r3
    obtain ⟨h1, h2⟩ := r3 e rfl
    rw [if_pos ⟨h2, by rw [h1]; rfl⟩]
    exact ⟨fun t ht => by cases ht; rw [hr, h1]; rfl, nofun⟩
  · rw [hr] at r1 r2
    obtain ⟨rfl, h2⟩ := r2 g rfl
    rw [if_neg (by rintro ⟨a, b⟩; rcases h2 with h | h; · rw [h] at b; cases b
                   · omega)]
    refine ⟨nofun, fun a b hab => ?_⟩
    cases hab
    dsimp only at r1
    exact ⟨s', hr, by rw [r1, Stream.skip_rest], by rw [r1]; rfl⟩

theorem does_unpack (Z : Zlib) (n : Nat) (s : Stream) : Does (block Z n) s (unpack Z s.short.isNone n s.rest) id := by
  have D := does_takeBytes n s
  unfold unpack block Does
  rw [Rd.bind_eq]
  cases hx : takeBytes s.short.isNone n s.rest with
  | error t =>
    have := D.1 t hx
    rcases hr : Stream.read n s with ⟨e | g, s'⟩
    · rw [hr] at this
      refine ⟨?_, nofun⟩
      intro t' ht; cases ht; exact this
    · rw [hr] at this; cases this
  | ok p =>
    obtain ⟨c, b⟩ := p
    obtain ⟨s', h1, h2, h3⟩ := D.2 c b hx
    rw [h1]
    dsimp only [id]
    simp only [Rd.lift_eq, zdecompress]
    cases Z c with
    | none => exact ⟨fun t ht => by cases ht; rfl, nofun⟩
    | some d => exact ⟨nofun, fun a b' hab => by cases hab; exact ⟨s', rfl, h2, h3⟩⟩

theorem does_bind {α β γ δ : Type} {m : Rd β} {s : Stream} {x : Except Trouble (α × Bytes)} {g : α → β} (D : Does m s x g)
    {k : β → Rd δ} {z : Except Trouble (γ × Bytes)} {g' : γ → δ} (he : ∀ t, x = .error t → z = .error t)
    (D' : ∀ a b, x = .ok (a, b) → ∀ (s' : Stream), s'.rest = b → s'.short = s.short → Does (k (g a)) s' z g') :
    Does (m >>= k) s z g' := by
  unfold Does
  rw [Rd.bind_eq]
  cases hx : x with
  | error t =>
    have := D.1 t hx
    rw [he t hx]
    rcases hr : m s with ⟨e | a, s'⟩
    · rw [hr] at this
      refine ⟨?_, nofun⟩
      intro t' ht; cases ht
      injection this with h
      rw [h]
    · rw [hr] at this; cases this
  | ok p =>
    obtain ⟨a, b⟩ := p
    obtain ⟨s', h1, h2, h3⟩ := D.2 a b hx
    rw [h1]
    dsimp only
    have := D' a b hx s' h2 h3
    unfold Does at this
    rw [h3] at this
    exact this

theorem does_readinto (n : Nat) (s : Stream) : Does (Stream.readinto n) s (takeBytes s.short.isNone n s.rest)
    (fun got => got ++ List.replicate (n - got.length) 0) := by
  unfold Stream.readinto
  refine does_bind (does_takeBytes n s) (fun t ht => ht) ?_
  intro a b hx s' hr hs
  rw [hx]
  exact ⟨nofun, fun a b hab => by cases hab; exact ⟨s', rfl, hr, rfl⟩⟩

theorem bind_fails {α β} {m : Rd α} {k : α → Rd β} {s : Stream} {e : Exc} (h : (m s).1 = .error e) : ((m >>= k) s).1 = .error e := by
  rw [Rd.bind_eq]
  rcases hr : m s with ⟨x | a, s'⟩
  · rw [hr] at h
    injection h with h
    rw [h]
  · rw [hr] at h; cases h

/-! ## Headers whose lengths need not match -/

/-- `header` can be used to read a body of version row `r` with task length `T` and cgroup length `C` recorded in it. -/
structure Usable (h : Header) (r : Row) (v : Nat × Nat) (cg : Bool) (T : Nat) (C : Int) : Prop where
  facts : Facts h.cls r
  len : h.buf.length = 480
  ver : h.version = .ok v
  old : (v.1 ≥ 2 ∧ v.2 ≥ 3) ↔ r.version ≠ py!"1.26"
  cg_iff : (v.1 ≥ 2 ∧ v.2 ≥ 11) ↔ cg = true
  tlen : u32 h.buf 32 = T
  clen : i32 h.buf 456 = C
  cgs : cg = true → r.cstat.isSome
  pos : 0 < r.tstat

theorem usable_cstat {h : Header} {r v T C} (R : Usable h r v true T C) :
    ∃ t n, h.cls.CStat = some t ∧ r.cstat = some n ∧ t.size = n := by
  have h1 := R.cgs rfl
  have h2 := R.facts.cstat
  obtain ⟨n, hn⟩ := Option.isSome_iff_exists.mp h1
  rw [hn] at h2
  cases ht : h.cls.CStat with
  | none => rw [ht] at h2; cases h2
  | some t =>
    rw [ht] at h2
    exact ⟨t, n, rfl, hn, by simpa using h2⟩

theorem getSStat_facts {h : Header} {r} (F : Facts h.cls r) (Z : Zlib) (rec : Bytes) :
    getSStat Z h ⟨h.cls.Record, rec⟩ = (do
      let d ← block Z (u32 rec 16)
      Rd.lift (fromBufferCopy h.cls.SStat d)) := by
  funext s
  unfold getSStat block
  simp only [Rd.bind_eq, Rd.lift_eq, intAttr_u32 F.scomplen, Int.toNat_natCast]
  rcases Stream.read (u32 rec 16) s with ⟨_ | _, _⟩ <;> rfl

theorem getTStat_usable {h : Header} {r v cg T C} (R : Usable h r v cg T C) (Z : Zlib) (rec : Bytes) :
    getTStat Z h ⟨h.cls.Record, rec⟩ = (do
      let d ← block Z (u32 rec 20)
      Rd.lift (tstatLoop h.cls.TStat d T (u32 rec 28) 0)) := by
  funext s
  have h126 : (Inst.mk h.cls.Record rec).isRecord126 = decide (r.version = py!"1.26") := R.facts.is126
  have hcount : (if (Inst.mk h.cls.Record rec).isRecord126 then (Inst.mk h.cls.Record rec).intAttr py!"nlist"
      else (Inst.mk h.cls.Record rec).intAttr py!"ndeviat") = .ok (u32 rec 28 : Int) := by
    rw [h126]
    by_cases hv : r.version = py!"1.26"
    · rw [if_pos (by simpa using hv), intAttr_u32 (R.facts.nlist hv)]
    · rw [if_neg (by simpa using hv), intAttr_u32 (R.facts.ndeviat hv)]
  have hlen : (if v.1 ≥ 2 ∧ v.2 ≥ 3 then h.inst.intAttr py!"tstatlen" else h.inst.intAttr py!"pstatlen")
      = .ok (T : Int) := by
    by_cases hv : r.version = py!"1.26"
    · have := R.facts.pstatlen
      rw [if_pos hv] at this
      rw [if_neg (by rw [R.old]; simp [hv])]
      have e := intAttr_u32 (t := h.inst.ty) this h.inst.buf
      rw [← R.tlen]; exact e
    · have := R.facts.tstatlen
      rw [if_neg hv] at this
      rw [if_pos (by rw [R.old]; exact hv)]
      have e := intAttr_u32 (t := h.inst.ty) this h.inst.buf
      rw [← R.tlen]; exact e
  unfold getTStat block
  simp only [Rd.bind_eq, Rd.lift_eq, intAttr_u32 R.facts.pcomplen, Int.toNat_natCast, hcount, R.ver, hlen]
  rcases Stream.read (u32 rec 20) s with ⟨_ | b, _⟩
  · rfl
  · dsimp only

theorem getCStat_usable {h : Header} {r v T C} (R : Usable h r v true T C) (Z : Zlib) (rec : Bytes) {t : CType}
    (ht : h.cls.CStat = some t) :
    getCStat Z h ⟨h.cls.Record, rec⟩ = (do
      let d ← block Z (u32 rec 72)
      let pids ← block Z (u32 rec 84)
      Rd.lift (cstatLoop t d pids C (u16 rec 10) 0 0)) := by
  funext s
  have hs : r.cstat.isSome = true := R.cgs rfl
  have hcl : h.inst.intAttr py!"cstatlen" = .ok C := by
    have := R.facts.cstatlen
    rw [if_pos hs] at this
    have e := intAttr_i32 (t := h.inst.ty) this h.inst.buf (by show 456 + 4 ≤ h.buf.length; rw [R.len]; omega)
    rw [← R.clen]; exact e
  unfold getCStat block
  simp only [Rd.bind_eq, Rd.lift_eq, intAttr_u32 (R.facts.ccomplen hs), intAttr_u32 (R.facts.icomplen hs),
    intAttr_u16 (R.facts.ncgroups hs), hcl, Int.toNat_natCast, ht]
  rcases Stream.read (u32 rec 72) s with ⟨_ | b, s1⟩
  · rfl
  · dsimp only
    cases zdecompress Z b
    · rfl
    · dsimp only
      rcases Stream.read (u32 rec 84) s1 with ⟨_ | b2, s2⟩
      · rfl
      · dsimp only

theorem readSample_facts {h : Header} {r} (F : Facts h.cls r) {v : Nat × Nat} {cg : Bool} (hcg : (v.1 ≥ 2 ∧ v.2 ≥ 11) ↔ cg = true)
    (Z : Zlib) (s : Stream) :
    readSample Z h v s = (do
      let rec ← Stream.readinto r.record
      if u32 rec 16 = 0 then pure none
      else do
        let sstat ← getSStat Z h ⟨h.cls.Record, rec⟩
        let tstats ← getTStat Z h ⟨h.cls.Record, rec⟩
        let cgroups ← if cg then getCStat Z h ⟨h.cls.Record, rec⟩ else pure []
        pure (some ⟨⟨h.cls.Record, rec⟩, sstat, tstats, cgroups⟩) : Rd (Option Sample)) s := by
  unfold readSample getRecord
  rw [F.record]
  simp only [Rd.bind_eq]
  rcases Stream.readinto r.record s with ⟨_ | rec, s1⟩
  · rfl
  · dsimp only [Rd.pure_eq]
    have hc : (((u32 rec 16 : Nat) : Int) ≤ 0) = (u32 rec 16 = 0) := by
      apply propext; omega
    have hcg : (v.1 ≥ 2 ∧ v.2 ≥ 11) = (cg = true) := propext hcg
    show (do
      let n ← Rd.lift ((Inst.mk h.cls.Record rec).intAttr py!"scomplen")
      if n ≤ 0 then pure none
      else do
        let sstat ← getSStat Z h ⟨h.cls.Record, rec⟩
        let tstats ← getTStat Z h ⟨h.cls.Record, rec⟩
        let cgroups ← if v.1 ≥ 2 ∧ v.2 ≥ 11 then getCStat Z h ⟨h.cls.Record, rec⟩ else pure []
        pure (some ⟨⟨h.cls.Record, rec⟩, sstat, tstats, cgroups⟩) : Rd (Option Sample)) s1 = _
    simp only [Rd.bind_eq, Rd.lift_eq, intAttr_u32 F.scomplen, hc, hcg]

theorem readSample_usable {h : Header} {r v cg T C} (R : Usable h r v cg T C) (Z : Zlib) (s : Stream) :
    readSample Z h v s = (do
      let rec ← Stream.readinto r.record
      if u32 rec 16 = 0 then pure none
      else do
        let sstat ← getSStat Z h ⟨h.cls.Record, rec⟩
        let tstats ← getTStat Z h ⟨h.cls.Record, rec⟩
        let cgroups ← if cg then getCStat Z h ⟨h.cls.Record, rec⟩ else pure []
        pure (some ⟨⟨h.cls.Record, rec⟩, sstat, tstats, cgroups⟩) : Rd (Option Sample)) s :=
  readSample_facts R.facts R.cg_iff Z s

/-! ## Slots -/

theorem tstatLoop_slots (t : CType) (h0 : 0 < t.size) (d : Bytes) (T : Nat) : ∀ (k i : Nat),
    tstatLoop t d T k i =
      if k ≠ 0 ∧ (T < t.size ∨ d.length < (i + k - 1) * T + t.size) then .error (.valueError .bufferTooSmall)
      else .ok ((List.range' i k).map fun j => ⟨t, (d.drop (j * T)).take t.size⟩)
  | 0, i => by simp [tstatLoop]
  | k + 1, i => by
    rw [tstatLoop, tstat_slice, tstatLoop_slots t h0 d T k (i + 1)]
    have hm : i * T ≤ (i + (k + 1) - 1) * T := Nat.mul_le_mul_right _ (by omega)
    by_cases h : T < t.size ∨ d.length < i * T + t.size
    · rw [fromBufferCopy_err (by rw [List.length_take, List.length_drop]; rcases h with h | h <;> omega)]
      simp only [bind, Except.bind]
      rw [if_pos ⟨by omega, by rcases h with h | h; exact .inl h; exact .inr (by omega)⟩]
    · rw [fromBufferCopy_ok (by rw [List.length_take, List.length_drop]; omega)]
      have e : i + 1 + k - 1 = i + (k + 1) - 1 := by omega
      rw [e]
      by_cases hk : k = 0
      · subst hk
        rw [if_neg (by simp), if_neg (by simp; simp at h; omega)]
        simp [bind, Except.bind, pure, Except.pure, List.take_take, Nat.min_eq_left (by omega : t.size ≤ T)]
      · by_cases hd : d.length < (i + (k + 1) - 1) * T + t.size
        · rw [if_pos ⟨hk, .inr hd⟩, if_pos ⟨by omega, .inr hd⟩]; rfl
        · rw [if_neg (by omega), if_neg (by omega)]
          simp [bind, Except.bind, pure, Except.pure, List.take_take, Nat.min_eq_left (by omega : t.size ≤ T), List.range'_succ]

theorem does_chainIn {t g : CType} (hgen : t.look py!"gen" = some (0, g)) (hs : g.isStruct = true) (h20 : 20 ≤ g.size)
    (hgt : g.size ≤ t.size) (hsl : g.look py!"structlen" = some (0, c_int)) (hnp : g.look py!"nprocs" = some (16, c_int))
    (d p : Bytes) (C : Int) (short : Option Exc) : ∀ (k : Nat) (S : Int) (P : Nat),
    cstatLoop t d p C k S ((4 * P : Nat) : Int) =
      match decodeChainIn C t.size d k S (p.drop (4 * P)) with
      | .error e => .error (troubleExc short e)
      | .ok gs => .ok (gs.map (presentedGroup t))
  | 0, S, P => rfl
  | k + 1, S, P => by
    rw [cstatLoop, decodeChainIn]
    generalize pySlice d S (S + C) = e
    by_cases hlen : e.length < t.size
    · rw [fromBufferCopy_err hlen, if_pos hlen]; rfl
    · rw [fromBufferCopy_ok (by omega), if_neg hlen]
      have hcl : (e.take t.size).length = t.size := by rw [List.length_take]; omega
      generalize e.take t.size = c at hcl
      have e1 : (Inst.mk t c).genInt py!"structlen" = .ok (i32 c 0) := genInt_eq hgen hs hsl c (by omega) (by omega)
      have e2 : (Inst.mk t c).genInt py!"nprocs" = .ok (i32 c 16) := genInt_eq hgen hs hnp c (by omega) (by omega)
      simp only [bind, Except.bind, e1, e2, pidArray_eq]
      by_cases hn : i32 c 16 < 0
      · rw [if_pos hn, if_pos hn]; rfl
      · rw [if_neg hn, if_neg hn]
        by_cases hq : (p.drop (4 * P)).length < 4 * (i32 c 16).toNat
        · rw [if_pos hq, if_neg (by rw [List.length_take]; omega)]; rfl
        · rw [if_neg hq, if_pos (by rw [List.length_take]; omega)]
          dsimp only
          have hnext : (((4 * P : Nat) : Int) + ((CType.array pid_t (i32 c 16).toNat).size : Int)) =
              ((4 * (P + (i32 c 16).toNat) : Nat) : Int) := by rw [pid_size]; omega
          rw [hnext, does_chainIn hgen hs h20 hgt hsl hnp d p C short k, List.drop_drop, Nat.mul_add]
          cases decodeChainIn C t.size d k (S + i32 c 0) (p.drop (4 * P + 4 * (i32 c 16).toNat)) with
          | error e => rfl
          | ok gs =>
            dsimp only
            rw [List.map_cons]
            unfold presentedGroup
            dsimp only
            rw [List.take_of_length_le (Nat.le_of_eq hcl), List.length_take, Nat.min_eq_left (by omega),
              Nat.mul_div_cancel_left _ (by omega)]
            rfl

theorem does_sstatIn {h : Header} {r} (F : Facts h.cls r) (Z : Zlib) (rec : Bytes) (s : Stream) :
    Does (getSStat Z h ⟨h.cls.Record, rec⟩) s (match unpack Z s.short.isNone (u32 rec 16) s.rest with
      | .error t => .error t
      | .ok (d, b) => if d.length < r.sstat then .error .short else .ok (d.take r.sstat, b)) (fun d => ⟨h.cls.SStat, d⟩) := by
  rw [getSStat_facts F]
  refine does_bind (does_unpack Z _ s) (fun t ht => by rw [ht]) ?_
  intro d b hx s' hr hs
  have hz := F.sstat
  rw [hx]
  unfold Does
  rw [Rd.lift_eq]
  dsimp only [id]
  by_cases hd : d.length < r.sstat
  · rw [if_pos hd, fromBufferCopy_err (by omega)]
    exact ⟨fun t ht => by cases ht; rfl, nofun⟩
  · rw [if_neg hd, fromBufferCopy_ok (by omega), hz]
    exact ⟨nofun, fun a b hab => by cases hab; exact ⟨s', rfl, hr, rfl⟩⟩

theorem does_tstatIn {h : Header} {r v cg T C} (R : Usable h r v cg T C) (Z : Zlib) (rec : Bytes) (s : Stream) :
    Does (getTStat Z h ⟨h.cls.Record, rec⟩) s (match unpack Z s.short.isNone (u32 rec 20) s.rest with
      | .error t => .error t
      | .ok (d, b) => match decodeTasksIn T r.tstat (u32 rec 28) d with
        | .error t => .error t
        | .ok ts => .ok (ts, b)) (fun ts => ts.map fun t => ⟨h.cls.TStat, t⟩) := by
  rw [getTStat_usable R]
  refine does_bind (does_unpack Z _ s) (fun t ht => by rw [ht]) ?_
  intro d b hx s' hr hs
  have hz := R.facts.tstat
  rw [hx, ← hz, ← hr]
  unfold decodeTasksIn
  dsimp only [id]
  unfold Does
  rw [Rd.lift_eq, tstatLoop_slots _ (by rw [hz]; exact R.pos), Nat.zero_add]
  by_cases hd : u32 rec 28 ≠ 0 ∧ (T < h.cls.TStat.size ∨ d.length < (u32 rec 28 - 1) * T + h.cls.TStat.size)
  · rw [if_pos hd, if_pos hd]
    exact ⟨fun t ht => by cases ht; rfl, nofun⟩
  · rw [if_neg hd, if_neg hd]
    refine ⟨nofun, fun a b hab => ?_⟩
    cases hab
    exact ⟨s', by dsimp only; rw [List.range_eq_range', List.map_map]; rfl, rfl, rfl⟩

theorem does_cstatIn {h : Header} {r v T C} (R : Usable h r v true T C) (Z : Zlib) (rec : Bytes) {t : CType}
    (ht : h.cls.CStat = some t) (s : Stream) :
    Does (getCStat Z h ⟨h.cls.Record, rec⟩) s (decodeGroupsIn Z C (r.cstat.getD 0) s.short.isNone rec s.rest)
      (fun gs => gs.map (presentedGroup t)) := by
  obtain ⟨t', n, c1, c2, c3⟩ := usable_cstat R
  rw [ht] at c1; cases c1
  obtain ⟨g, g1, g2, g3, g4, g5, g6⟩ := R.facts.gen t ht
  rw [getCStat_usable R Z rec ht, c2, Option.getD_some, ← c3]
  unfold decodeGroupsIn
  refine does_bind (does_unpack Z _ s) (fun t ht => by rw [ht]) ?_
  intro d b hx s1 hr1 hs1
  rw [hx, ← hr1, ← hs1]
  dsimp only [id]
  refine does_bind (does_unpack Z _ s1) (fun t ht => by rw [ht]) ?_
  intro p b hx s2 hr2 hs2
  rw [hx, ← hr2]
  dsimp only [id]
  have := does_chainIn g1 g2 g3 g4 g5 g6 d p C s2.short (u16 rec 10) 0 0
  simp only [Nat.mul_zero, List.drop_zero, Int.ofNat_zero] at this
  unfold Does
  rw [Rd.lift_eq]
  refine ⟨?_, ?_⟩
  · intro e he
    cases hd : decodeChainIn C t.size d (u16 rec 10) 0 p with
    | error e' => rw [hd] at this he; cases he; exact this
    | ok gs => rw [hd] at he; cases he
  · intro gs b he
    cases hd : decodeChainIn C t.size d (u16 rec 10) 0 p with
    | error e' => rw [hd] at he; cases he
    | ok gs => rw [hd] at this he; cases he; exact ⟨s2, by rw [this], rfl, rfl⟩

/-- One turn of the loop, behind the record. -/
theorem decode_blocksIn {h : Header} {r v cg T C} (R : Usable h r v cg T C) (Z : Zlib) (rec : Bytes) (s s0 : Stream) (b0 : Bytes)
    (hb0 : s0.rest = b0) (hs0 : s0.short = s.short) {m : Rd (Option Sample)}
    (hm : m = if u32 rec 16 = 0 then pure none
      else do
        let sstat ← getSStat Z h ⟨h.cls.Record, rec⟩
        let tstats ← getTStat Z h ⟨h.cls.Record, rec⟩
        let cgroups ← if cg then getCStat Z h ⟨h.cls.Record, rec⟩ else pure []
        pure (some ⟨⟨h.cls.Record, rec⟩, sstat, tstats, cgroups⟩)) :
    match decodeBlocksIn Z r T C cg s.short.isNone rec b0 with
    | .error t => (m s0).1 = .error (troubleExc s.short t)
    | .ok none => ∃ s', m s0 = (.ok none, s')
    | .ok (some (f, b)) => ∃ s', m s0 = (.ok (some (presented h.cls f.written)), s') ∧ s'.rest = b ∧ s'.short = s.short := by
  unfold decodeBlocksIn
  by_cases h16 : u32 rec 16 = 0
  · rw [if_pos h16] at hm ⊢; subst hm; exact ⟨s0, rfl⟩
  · rw [if_neg h16] at hm ⊢; subst hm
    have D1 := does_sstatIn R.facts Z rec s0
    rw [hs0, hb0] at D1
    cases h1 : unpack Z s.short.isNone (u32 rec 16) b0 with
    | error t =>
      rw [h1] at D1
      rw [← hs0]
      exact bind_fails (D1.1 t rfl)
    | ok q =>
      obtain ⟨d, b1⟩ := q
      rw [h1] at D1
      dsimp only at D1 ⊢
      by_cases hd : d.length < r.sstat
      · rw [if_pos hd] at D1 ⊢
        rw [← hs0]
        exact bind_fails (D1.1 _ rfl)
      · rw [if_neg hd] at D1 ⊢
        obtain ⟨s1, e1, hb1, hs1⟩ := D1.2 _ _ rfl
        rw [bind_ok e1]
        have D2 := does_tstatIn R Z rec s1
        rw [hs1, hs0, hb1] at D2
        cases h2 : unpack Z s.short.isNone (u32 rec 20) b1 with
        | error t =>
          rw [h2] at D2
          rw [← hs0, ← hs1]
          exact bind_fails (D2.1 t rfl)
        | ok q =>
          obtain ⟨e, b2⟩ := q
          rw [h2] at D2
          dsimp only at D2 ⊢
          cases h3 : decodeTasksIn T r.tstat (u32 rec 28) e with
          | error t =>
            rw [h3] at D2
            rw [← hs0, ← hs1]
            exact bind_fails (D2.1 t rfl)
          | ok ts =>
            rw [h3] at D2
            obtain ⟨s2, e2, hb2, hs2⟩ := D2.2 _ _ rfl
            rw [bind_ok e2]
            cases cg with
            | false =>
              refine ⟨s2, ?_, hb2, by rw [hs2, hs1, hs0]⟩
              show ((.ok (some ⟨⟨h.cls.Record, rec⟩, _, _, []⟩) : Except Exc (Option Sample)), _) = _
              unfold presented Found.written
              dsimp only
              cases h.cls.CStat <;> rfl
            | true =>
              dsimp only
              rw [if_neg (show ¬ (true = false) by decide), if_pos rfl]
              obtain ⟨t, n, c1, -⟩ := usable_cstat R
              have D3 := does_cstatIn R Z rec c1 s2
              rw [hs2, hs1, hs0, hb2] at D3
              cases h4 : decodeGroupsIn Z C (r.cstat.getD 0) s.short.isNone rec b2 with
              | error e =>
                rw [← hs0, ← hs1, ← hs2]
                exact bind_fails (D3.1 e h4)
              | ok q =>
                obtain ⟨gs, b3⟩ := q
                obtain ⟨s3, e3, hb3, hs3⟩ := D3.2 _ _ h4
                dsimp only
                rw [bind_ok e3]
                refine ⟨s3, ?_, hb3, by rw [hs3, hs2, hs1, hs0]⟩
                show ((.ok (some ⟨⟨h.cls.Record, rec⟩, _, _, gs.map (presentedGroup t)⟩) : Except Exc (Option Sample)), _) = _
                unfold presented Found.written
                dsimp only
                rw [c1]

/-- One turn of the loop. -/
theorem decode_sampleIn {h : Header} {r v cg T C} (R : Usable h r v cg T C) (Z : Zlib) (s : Stream) :
    match decodeSampleIn Z r T C cg s.short.isNone s.rest with
    | .error t => (readSample Z h v s).1 = .error (troubleExc s.short t)
    | .ok none => ∃ s', readSample Z h v s = (.ok none, s')
    | .ok (some (f, b)) => ∃ s', readSample Z h v s = (.ok (some (presented h.cls f.written)), s') ∧ s'.rest = b ∧ s'.short = s.short := by
  rw [readSample_usable R]
  unfold decodeSampleIn
  have D0 := does_readinto r.record s
  cases h0 : takeBytes s.short.isNone r.record s.rest with
  | error t => exact bind_fails (D0.1 t h0)
  | ok q =>
    obtain ⟨got, b0⟩ := q
    obtain ⟨s0, e0, hb0, hs0⟩ := D0.2 got b0 h0
    rw [bind_ok e0]
    exact decode_blocksIn R Z _ s s0 b0 hb0 hs0 rfl

theorem decode_loopIn {h : Header} {r v cg T C} (R : Usable h r v cg T C) (Z : Zlib) (rot : Bool) : ∀ (n : Nat) (s : Stream),
    (runLoop Z rot h v n s).1 = (decodeLogIn Z r T C cg s.short.isNone n s.rest).1.map (fun f => presented h.cls f.written) ∧
    (runLoop Z rot h v n s).2.1 = match (decodeLogIn Z r T C cg s.short.isNone n s.rest).2 with
      | none => .returned
      | some t => endOf rot (troubleExc s.short t)
  | 0, s => ⟨rfl, rfl⟩
  | n + 1, s => by
    have D := decode_sampleIn R Z s
    rw [runLoop, decodeLogIn]
    cases hd : decodeSampleIn Z r T C cg s.short.isNone s.rest with
    | error t =>
      rw [hd] at D
      rcases hr : readSample Z h v s with ⟨e | x, s'⟩
      · rw [hr] at D
        dsimp only at D
        injection D with D
        rw [D]
        exact ⟨rfl, rfl⟩
      · rw [hr] at D; cases D
    | ok q =>
      rw [hd] at D
      cases q with
      | none =>
        obtain ⟨s', hs⟩ := D
        rw [hs]
        exact ⟨rfl, rfl⟩
      | some q =>
        obtain ⟨f, b⟩ := q
        obtain ⟨s', hs, hb, hsh⟩ := D
        rw [hs]
        obtain ⟨i1, i2⟩ := decode_loopIn R Z rot n s'
        rw [hb, hsh] at i1 i2
        dsimp only
        rw [i1, i2]
        exact ⟨rfl, rfl⟩


/-! ## When the recorded lengths are the structure sizes -/

theorem decodeTasksIn_same (L n : Nat) (d : Bytes) : decodeTasksIn L L n d = decodeTasks L n d := by
  unfold decodeTasksIn decodeTasks
  cases n with
  | zero => simp
  | succ n =>
    have : (n + 1 - 1) * L + L = (n + 1) * L := by rw [Nat.add_sub_cancel, Nat.succ_mul]
    rw [this]
    by_cases h : d.length < (n + 1) * L
    · rw [if_pos ⟨by omega, .inr h⟩, if_pos h]
    · rw [if_neg (by simp; omega), if_neg h]

theorem decodeChainIn_same (L : Nat) (d : Bytes) : ∀ (k : Nat) (S : Int) (p : Bytes), decodeChainIn L L d k S p = decodeChain L d k S p
  | 0, S, p => rfl
  | k + 1, S, p => by
    rw [decodeChainIn, decodeChain]
    rw [List.take_of_length_le (slice_width d S L), decodeChainIn_same L d k]
    rfl

theorem decodeGroupsIn_same (Z : Bytes → Option Bytes) (L : Nat) (whole : Bool) (head b : Bytes) :
    decodeGroupsIn Z L L whole head b = decodeGroups Z L whole head b := by
  unfold decodeGroupsIn decodeGroups
  rcases unpack Z whole (u32 head 72) b with t | ⟨d, b⟩
  · rfl
  · dsimp only
    rcases unpack Z whole (u32 head 84) b with t | ⟨p, b⟩
    · rfl
    · dsimp only
      rw [decodeChainIn_same]
      rcases decodeChain L d (u16 head 10) 0 p with t | gs <;> rfl

theorem decodeBlocksIn_same (Z : Bytes → Option Bytes) (r : Row) (cg whole : Bool) (C : Int) (hC : cg = true → C = (r.cstat.getD 0 : Nat))
    (head b : Bytes) : decodeBlocksIn Z r r.tstat C cg whole head b = decodeBlocks Z r cg whole head b := by
  unfold decodeBlocksIn decodeBlocks
  by_cases h16 : u32 head 16 = 0
  · rw [if_pos h16, if_pos h16]
  · rw [if_neg h16, if_neg h16]
    rcases unpack Z whole (u32 head 16) b with t | ⟨d, b⟩
    · rfl
    · dsimp only
      by_cases hd : d.length < r.sstat
      · rw [if_pos hd, if_pos hd]
      · rw [if_neg hd, if_neg hd]
        rcases unpack Z whole (u32 head 20) b with t | ⟨e, b⟩
        · rfl
        · dsimp only
          rw [decodeTasksIn_same]
          rcases decodeTasks r.tstat (u32 head 28) e with t | ts
          · rfl
          · dsimp only
            cases cg with
            | false => rw [if_pos rfl, if_pos rfl]
            | true =>
              rw [if_neg (by decide), if_neg (by decide), hC rfl, decodeGroupsIn_same]
              generalize decodeGroups Z (r.cstat.getD 0) whole head b = x
              rcases x with t | ⟨gs, b⟩
              · dsimp only
              · dsimp only

theorem decodeLogIn_same (Z : Bytes → Option Bytes) (r : Row) (cg whole : Bool) (C : Int) (hC : cg = true → C = (r.cstat.getD 0 : Nat)) :
    ∀ (n : Nat) (b : Bytes), decodeLogIn Z r r.tstat C cg whole n b = decodeLog Z r cg whole n b
  | 0, b => rfl
  | n + 1, b => by
    have hs : decodeSampleIn Z r r.tstat C cg whole b = decodeSample Z r cg whole b := by
      unfold decodeSampleIn decodeSample
      rcases takeBytes whole r.record b with t | ⟨got, b⟩
      · rfl
      · dsimp only
        rw [decodeBlocksIn_same Z r cg whole C hC]
    rw [decodeLogIn, decodeLog, hs]
    rcases decodeSample Z r cg whole b with t | q
    · rfl
    · cases q with
      | none => rfl
      | some q => dsimp only; rw [decodeLogIn_same Z r cg whole C hC n]

/-- A checked header is usable, and its recorded lengths are the structure sizes. -/
theorem usable_of_ready {h : Header} {r v cg} (R : Ready h r v cg) : Usable h r v cg r.tstat (i32 h.buf 456) ∧
    (cg = true → i32 h.buf 456 = (r.cstat.getD 0 : Nat)) := by
  refine ⟨⟨R.facts, R.len, R.ver, R.old, R.cg_iff, R.tlen, rfl, fun hc => by rw [← R.clen hc]; rfl, R.small.1⟩, ?_⟩
  intro hc
  have h1 := R.clen hc
  obtain ⟨-, h2, -⟩ := R.csmall _ h1.symm
  rw [← h1, Option.getD_some]
  exact i32_of_u32_lt rfl h2

/-- A header that was read without being checked, and is not too old, is usable. -/
theorem usable_of {hb : Bytes} (hl : hb.length = 480) (ho : ¬ tooOld hb) (k)
    (hk : k = none ∨ k = some (major hb, minor hb)) :
    Usable ⟨classFor hb, hb, k⟩ (usedRow hb) (major hb, minor hb) (readsCGroups hb) (u32 hb 32) (i32 hb 456) := by
  obtain ⟨F, hnone, hsome⟩ := classFor_facts hb
  obtain ⟨-, -, -, t1, t2, -, t3, t4⟩ := table_versionString _ (usedRow_mem hb)
  refine ⟨F, hl, ?_, ?_, ?_, rfl, rfl, ?_, t3.1⟩
  · rcases hk with rfl | rfl
    · exact header_version_of_none F hb
    · rfl
  · by_cases hr : rowFor (major hb) (minor hb) = none
    · rw [(hnone hr).2]
      have : 2 ≤ major hb ∧ 3 ≤ minor hb := by
        apply Classical.byContradiction
        intro h; exact ho ⟨hr, h⟩
      simp [newest, this]
    · obtain ⟨r, hr⟩ := Option.ne_none_iff_exists'.mp hr
      obtain ⟨_, he, hM, hmi, _⟩ := hsome r hr
      rw [← t1, he, hM, hmi]
  · simp [readsCGroups]
  · intro hc
    have hc : 2 ≤ major hb ∧ 11 ≤ minor hb := by simpa [readsCGroups] using hc
    by_cases hr : rowFor (major hb) (minor hb) = none
    · rw [(hnone hr).2]; rfl
    · obtain ⟨r, hr⟩ := Option.ne_none_iff_exists'.mp hr
      obtain ⟨_, he, hM, hmi, _⟩ := hsome r hr
      rw [← t2, he, hM, hmi]; exact hc

theorem decode_loop {h : Header} {r v cg} (R : Ready h r v cg) (Z : Zlib) (rot : Bool) (n : Nat) (s : Stream) :
    (runLoop Z rot h v n s).1 = (decodeLog Z r cg s.short.isNone n s.rest).1.map (fun f => presented h.cls f.written) ∧
    (runLoop Z rot h v n s).2.1 = match (decodeLog Z r cg s.short.isNone n s.rest).2 with
      | none => .returned
      | some t => endOf rot (troubleExc s.short t) := by
  obtain ⟨U, hC⟩ := usable_of_ready R
  have := decode_loopIn U Z rot n s
  rwa [decodeLogIn_same Z r cg _ _ hC] at this

end Atop
