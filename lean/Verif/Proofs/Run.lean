import Verif.Proofs.Log
/-!
# The whole loop on written logs and on cut logs
-/

namespace Atop
open Spec

theorem block_short {Z : Zlib} {s : Stream} {n : Nat} (hs : s.short = none) (h : s.rest.length < n)
    (hz : Z s.rest = none) : block Z n s = (.error .zlibError, s.adv s.rest.length) := by
  unfold block
  rw [Rd.bind_eq, Stream.read_short h hs]
  simp [Rd.lift_eq, zdecompress, hz]

theorem block_cut {Z : Zlib} {s : Stream} {a d : Bytes} {n j : Nat} (hs : s.short = none) (h : s.rest = a.take j)
    (hj : j < a.length) (hn : n = a.length) (P : Packs Z a d) : ∃ s', block Z n s = (.error .zlibError, s') := by
  refine ⟨_, block_short hs ?_ ?_⟩
  · rw [h, List.length_take]; omega
  · rw [h]; exact P.cut j hj

theorem bind_err {α β} {m : Rd α} {f : α → Rd β} {s s' : Stream} {e : Exc} (h : m s = (.error e, s')) :
    (m >>= f) s = (.error e, s') := by rw [Rd.bind_eq, h]

theorem bind_ok {α β} {m : Rd α} {f : α → Rd β} {s s' : Stream} {a : α} (h : m s = (.ok a, s')) :
    (m >>= f) s = f a s' := by rw [Rd.bind_eq, h]

/-- A sample cut anywhere: nothing is produced; the loop stops or decompression fails. -/
theorem readSample_cut {h : Header} {r v} (R : Ready h r v r.cstat.isSome) {Z : Zlib} {w : WSample}
    (W : w.Valid Z r) {s : Stream} {k : Nat} (hk : k < (w.bytes r).length) (hs : s.rest = (w.bytes r).take k)
    (hshort : s.short = none) :
    if u32 s.rest 16 = 0 then readSample Z h v s = (.ok none, s.adv (min r.record k))
    else ∃ s', readSample Z h v s = (.error .zlibError, s') := by
  rw [readSample_eq R, Rd.bind_eq, Stream.readinto_none hshort]
  have hrl : s.rest.length = k := by rw [hs, List.length_take]; omega
  have h32 : 32 ≤ r.record := R.small.2.1
  have hu : u32 (s.rest.take r.record ++ List.replicate (r.record - s.rest.length) 0) 16 = u32 s.rest 16 := by
    rw [u32_append_zeros, u32_take _ _ _ (by omega)]
  dsimp only
  rw [hu, hrl]
  split
  · rename_i h0
    rfl
  · rename_i h0
    generalize hrec : s.rest.take r.record ++ List.replicate (r.record - k) 0 = rec
    rw [hrl, hrec] at hu
    by_cases hkr : k ≤ r.record
    · -- the record itself is not complete (or nothing follows it)
      rw [Nat.min_eq_right hkr]
      have hr1 : (s.adv k).rest = [] := by rw [Stream.rest_adv, List.drop_eq_nil_of_le (by omega)]
      refine ⟨(s.adv k).adv 0, ?_⟩
      apply bind_err
      rw [getSStat_eq R]
      apply bind_err
      have hb := block_short (Z := Z) (s := s.adv k) (n := u32 rec 16) hshort (by rw [hr1, hu]; simp; omega)
        (by rw [hr1]; have := W.zsstat.cut 0 W.zsstat.pos; simpa using this)
      rw [hr1] at hb
      exact hb
    · have hrec' : rec = w.record := by
        rw [← hrec, hs, show r.record - k = 0 by omega, List.replicate_zero, List.append_nil, List.take_take,
          Nat.min_eq_left (by omega), WSample.bytes, List.append_assoc, List.append_assoc,
          List.take_append_of_le_length (by rw [W.record_len]; exact Nat.le_refl _), List.take_of_length_le
          (by rw [W.record_len]; exact Nat.le_refl _)]
      rw [hrec', Nat.min_eq_left (by omega)]
      -- what is left after the record
      have hs1 : (s.adv r.record).rest =
          (w.zsstat ++ (w.ztstats ++ if r.cstat.isSome then w.zcstats ++ w.zpids else [])).take (k - r.record) := by
        rw [Stream.rest_adv, hs, List.drop_take, WSample.bytes]
        simp only [List.append_assoc]
        rw [List.drop_append_of_le_length (by rw [W.record_len]; exact Nat.le_refl _),
          List.drop_eq_nil_of_le (by rw [W.record_len]; exact Nat.le_refl _), List.nil_append]
      have hlen : k < r.record + (w.zsstat.length + (w.ztstats.length +
          (if r.cstat.isSome then w.zcstats ++ w.zpids else []).length)) := by
        rw [WSample.bytes] at hk
        simp only [List.length_append, List.append_assoc, W.record_len] at hk
        exact hk
      by_cases c1 : k - r.record < w.zsstat.length
      · rw [List.take_append_of_le_length (by omega)] at hs1
        obtain ⟨s', hb⟩ := block_cut (s := s.adv r.record) (n := u32 w.record 16) hshort hs1 c1 W.scomplen W.zsstat
        exact ⟨s', bind_err (by rw [getSStat_eq R]; exact bind_err hb)⟩
      · have hs1' := hs1
        rw [List.take_append, List.take_of_length_le (by omega)] at hs1'
        have hss : getSStat Z h ⟨h.cls.Record, w.record⟩ (s.adv r.record) =
            (.ok ⟨h.cls.SStat, w.sstat⟩, (s.adv r.record).adv w.zsstat.length) := by
          rw [getSStat_eq R, bind_ok (block_full hs1' W.scomplen W.zsstat.inv), Rd.lift_eq,
            fromBufferCopy_ok (by rw [R.facts.sstat, W.sstat_len]; exact Nat.le_refl _),
            List.take_of_length_le (by rw [R.facts.sstat, W.sstat_len]; exact Nat.le_refl _), W.scomplen]
        rw [bind_ok hss]
        have hs2 := rest_adv_append hs1'
        by_cases c2 : k - r.record - w.zsstat.length < w.ztstats.length
        · rw [List.take_append_of_le_length (by omega)] at hs2
          obtain ⟨s', hb⟩ := block_cut (s := (s.adv r.record).adv w.zsstat.length) (n := u32 w.record 20) hshort hs2 c2
            W.pcomplen W.ztstats
          exact ⟨s', bind_err (by rw [getTStat_eq R]; exact bind_err hb)⟩
        · have hs2' := hs2
          rw [List.take_append, List.take_of_length_le (by omega)] at hs2'
          have hts : getTStat Z h ⟨h.cls.Record, w.record⟩ ((s.adv r.record).adv w.zsstat.length) =
              (.ok (w.tstats.map fun b => ⟨h.cls.TStat, b⟩), ((s.adv r.record).adv w.zsstat.length).adv w.ztstats.length) := by
            rw [getTStat_eq R, bind_ok (block_full hs2' W.pcomplen W.ztstats.inv), Rd.lift_eq, W.ntasks, ← R.facts.tstat,
              tstatLoop_flatten _ _ (by rw [R.facts.tstat]; exact W.tstat_len), W.pcomplen]
          rw [bind_ok hts]
          have hs3 := rest_adv_append hs2'
          cases hcs : r.cstat with
          | none =>
            rw [hcs] at hlen
            simp at hlen
            omega
          | some n =>
            have hsome : r.cstat.isSome = true := by rw [hcs]; rfl
            rw [hsome] at R
            rw [hcs] at hs3 hlen
            simp only [Option.isSome_some, if_true, List.length_append] at hs3 hlen ⊢
            obtain ⟨t, n', ht, hn', hsz, hu⟩ := cstat_some R
            rw [hcs] at hn'; cases hn'
            by_cases c3 : k - r.record - w.zsstat.length - w.ztstats.length < w.zcstats.length
            · rw [List.take_append_of_le_length (by omega)] at hs3
              obtain ⟨s', hb⟩ := block_cut (n := u32 w.record 72) (by exact hshort) hs3 c3 (W.ccomplen hsome) (W.zcstats hsome)
              exact ⟨s', bind_err (by rw [getCStat_eq R Z _ ht]; exact bind_err hb)⟩
            · have hs3' := hs3
              rw [List.take_append, List.take_of_length_le (by omega)] at hs3'
              have hs4 := rest_adv_append hs3'
              obtain ⟨s', hb⟩ := block_cut (n := u32 w.record 84) (by exact hshort) hs4 (by omega) (W.icomplen hsome) (W.zpids hsome)
              refine ⟨s', bind_err ?_⟩
              rw [getCStat_eq R Z _ ht, bind_ok (block_full hs3' (W.ccomplen hsome) (W.zcstats hsome).inv), W.ccomplen hsome]
              exact bind_err hb

/-! ## The loop -/

theorem body_cons (r : Row) (w : WSample) (ws : List WSample) : body r (w :: ws) = w.bytes r ++ body r ws := by
  simp [body]

theorem body_append (r : Row) (ws vs : List WSample) : body r (ws ++ vs) = body r ws ++ body r vs := by
  simp [body]

theorem runLoop_written {h : Header} {r v} (R : Ready h r v r.cstat.isSome) {Z : Zlib} (rot : Bool) (m : Nat) {tail : Bytes} :
    ∀ (ws : List WSample), (∀ w ∈ ws, w.Valid Z r) → ∀ {s : Stream}, s.rest = body r ws ++ tail →
    runLoop Z rot h v (ws.length + m) s =
      (ws.map (presented h.cls) ++ (runLoop Z rot h v m (s.adv (body r ws).length)).1,
        (runLoop Z rot h v m (s.adv (body r ws).length)).2)
  | [], _, s, _ => by
    simp only [List.length_nil, Nat.zero_add, List.map_nil, List.nil_append, body, List.flatten_nil, Stream.adv_zero]
  | w :: ws, hw, s, hs => by
    rw [body_cons, List.append_assoc] at hs
    have ih := runLoop_written R rot m ws (fun x hx => hw x (by simp [hx])) (rest_adv_append hs)
    rw [List.length_cons, Nat.succ_add, runLoop, readSample_written R (hw w (by simp)) hs]
    dsimp only
    rw [ih]
    simp only [List.map_cons, List.cons_append, body_cons, List.length_append, Stream.adv_adv]

theorem readSample_eof {h : Header} {r v cg} (R : Ready h r v cg) (Z : Zlib) {s : Stream} (hs : s.rest = [])
    (hshort : s.short = none) : readSample Z h v s = (.ok none, s) := by
  rw [readSample_eq R, Rd.bind_eq, Stream.readinto_none hshort, hs]
  have : u32 (List.take r.record [] ++ List.replicate (r.record - ([] : Bytes).length) 0) 16 = 0 := by
    rw [u32_append_zeros]; simp [u32_nil]
  dsimp only
  rw [if_pos this, List.length_nil, Nat.min_zero]; rfl

theorem runLoop_eof {h : Header} {r v cg} (R : Ready h r v cg) (Z : Zlib) (rot : Bool) {s : Stream} (hs : s.rest = [])
    (hshort : s.short = none) (m : Nat) : runLoop Z rot h v m s = ([], .returned, s) := by
  cases m with
  | zero => rfl
  | succ m => rw [runLoop, readSample_eof R Z hs hshort]

theorem parsedVersion_ready {h : Header} {r v cg} (R : Ready h r v cg) (h1 : v.1 < 256) (h2 : v.2 < 256) :
    parsedVersion h = .ok v := by
  unfold parsedVersion Header.semanticVersion
  rw [R.ver]
  exact parse_versionString v h1 h2

/-- With a header from `get_header` the iteration is the loop. -/
theorem generate_ready {h : Header} {r v cg} (R : Ready h r v cg) (hc : h.cache = some v) (h1 : v.1 < 256) (h2 : v.2 < 256)
    (Z : Zlib) (rot : Bool) (max : Int) (s : Stream) :
    generateStatistics Z (some h) rot max s = runLoop Z rot h v max.toNat s := by
  unfold generateStatistics
  dsimp only
  rw [parsedVersion_ready R h1 h2]
  dsimp only
  have : h.latched = h := by
    unfold Header.latched; rw [R.ver]; rcases h with ⟨c, b, k⟩; dsimp only at hc ⊢; rw [hc]
  rw [this]

/-! ## Headers of supported versions -/

theorem rowFor_table : ∀ r ∈ table, rowFor r.major r.minor = some r := by decide +kernel

theorem valid_accepts {r : Row} (hr : r ∈ table) {hb : Bytes} (H : ValidHeader r hb) :
    usedRow hb = r ∧ readsCGroups hb = r.cstat.isSome ∧ Accepts hb ∧ headerByVersion r.version = some (classFor hb) := by
  have h1 : rowFor (major hb) (minor hb) = some r := by rw [H.major, H.minor]; exact rowFor_table r hr
  have h2 : usedRow hb = r := by unfold usedRow; rw [h1]; rfl
  obtain ⟨e1, -, -, -, t2, -⟩ := table_versionString r hr
  have h3 : readsCGroups hb = r.cstat.isSome := by
    rw [Bool.eq_iff_iff, ← t2]; unfold readsCGroups; rw [H.major, H.minor]; simp
  refine ⟨h2, h3, ⟨H.magic, fun h => ?_, ?_⟩, ?_⟩
  · have := h.1; rw [h1] at this; cases this
  · rw [h2, h3]; exact H.lengths
  · have := (classFor_facts hb).2.2 r h1
    rw [e1, ← H.major, ← H.minor] ; exact this.2.2.2.2.2

theorem headerOf_accepts {hb : Bytes} (A : Accepts hb) :
    headerOf true hb = .ok ⟨classFor hb, hb, some (major hb, minor hb)⟩ := by
  unfold headerOf
  rw [if_neg (by simp [A.1]), if_neg (show ¬ (true = false) by simp), if_neg A.2.1, if_pos A.2.2]

/-- Reading a file that starts with a valid header: the loop on what follows. -/
theorem generate_valid {r : Row} (hr : r ∈ table) {hb : Bytes} (H : ValidHeader r hb) (Z : Zlib) (rot : Bool) (max : Int)
    {s : Stream} {rest : Bytes} (hs : s.rest = hb ++ rest) :
    ∃ h, h = ⟨classFor hb, hb, some (major hb, minor hb)⟩ ∧ headerByVersion r.version = some h.cls ∧
      Ready h r (major hb, minor hb) r.cstat.isSome ∧ (s.adv 480).rest = rest ∧
      generateStatistics Z none rot max s = runLoop Z rot h (major hb, minor hb) max.toNat (s.adv 480) ∧
      getHeader true s = (.ok h, s.adv 480) := by
  obtain ⟨h1, h2, A, h4⟩ := valid_accepts hr H
  have hg : getHeader true s = (.ok ⟨classFor hb, hb, some (major hb, minor hb)⟩, s.adv 480) := by
    rw [getHeader_eq, Stream.readinto_full hs H.length.symm]
    dsimp only
    rw [headerOf_accepts A]
  have R := ready_of H.length A.2.1 A.2.2 (some (major hb, minor hb)) (.inr rfl)
  rw [h1, h2] at R
  have hM := major_lt hb
  refine ⟨_, rfl, h4, R, ?_, ?_, hg⟩
  · rw [← H.length]; exact rest_adv_append hs
  · have := generate_ready R rfl (by show major hb < 256; omega) (minor_lt hb) Z rot max (s.adv 480)
    rw [← this]
    unfold generateStatistics
    dsimp only
    rw [hg]

/-! ## Cut logs -/

theorem runLoop_cut {h : Header} {r v} (R : Ready h r v r.cstat.isSome) {Z : Zlib} (rot : Bool) :
    ∀ (ws : List WSample), (∀ w ∈ ws, w.Valid Z r) → ∀ (k m : Nat), (completeWithin r ws k).length < m →
      ∀ {s : Stream}, s.rest = (body r ws).take k → s.short = none →
      (runLoop Z rot h v m s).1 = (completeWithin r ws k).map (presented h.cls) ∧
      (runLoop Z rot h v m s).2.1 =
        if rot = true ∧ u32 (interrupted r ws k) 16 ≠ 0 then .raised .zlibError else .returned
  | [], _, k, m, hm, s, hs, hp => by
    rw [runLoop_eof R Z rot (by rw [hs]; simp [body]) hp]
    simp [completeWithin, interrupted, u32_nil]
  | w :: ws, hw, k, m, hm, s, hs, hp => by
    rw [body_cons] at hs
    unfold completeWithin interrupted at *
    by_cases hk : (w.bytes r).length ≤ k
    · rw [if_pos hk] at hm ⊢
      rw [if_pos hk]
      rw [List.take_append, List.take_of_length_le hk] at hs
      obtain ⟨m', rfl⟩ : ∃ m', m = m' + 1 := ⟨m - 1, by omega⟩
      have ih := runLoop_cut R rot ws (fun x hx => hw x (by simp [hx])) (k - (w.bytes r).length) m'
        (by simpa using hm) (rest_adv_append hs) hp
      rw [runLoop, readSample_written R (hw w (by simp)) hs]
      dsimp only
      exact ⟨by rw [ih.1]; rfl, ih.2⟩
    · rw [if_neg hk] at hm ⊢
      rw [if_neg hk]
      rw [List.take_append_of_le_length (by omega)] at hs
      obtain ⟨m', rfl⟩ : ∃ m', m = m' + 1 := ⟨m - 1, by simp at hm; omega⟩
      have hc := readSample_cut R (hw w (by simp)) (by omega) hs hp
      rw [hs] at hc
      split at hc
      · rename_i h0
        rw [runLoop, hc]
        simp [h0]
      · rename_i h0
        obtain ⟨s', hc⟩ := hc
        rw [runLoop, hc]
        cases rot <;> simp [endOf, h0]

theorem completeWithin_le (r : Row) : ∀ (ws : List WSample) k, (completeWithin r ws k).length ≤ ws.length := by
  intro ws
  induction ws with
  | nil => intro k; simp [completeWithin]
  | cons w ws ih =>
    intro k; unfold completeWithin; split
    · have := ih (k - (w.bytes r).length); simp; omega
    · simp

theorem u32_ne_zero_iff (b : Bytes) (o : Nat) : u32 b o ≠ 0 ↔ ∃ i, o ≤ i ∧ i < o + 4 ∧ u8 b i ≠ 0 := by
  unfold u32 u16
  constructor
  · intro hne
    apply Classical.byContradiction
    intro hall
    have hz : ∀ i, o ≤ i → i < o + 4 → u8 b i = 0 := by
      intro i h1 h2
      apply Classical.byContradiction
      intro h3; exact hall ⟨i, h1, h2, h3⟩
    apply hne
    rw [hz o (by omega) (by omega), hz (o + 1) (by omega) (by omega), hz (o + 2) (by omega) (by omega),
      hz (o + 2 + 1) (by omega) (by omega)]
  · rintro ⟨i, h1, h2, h3⟩
    obtain rfl | rfl | rfl | rfl : i = o ∨ i = o + 1 ∨ i = o + 2 ∨ i = o + 2 + 1 := by omega
    all_goals omega

end Atop
