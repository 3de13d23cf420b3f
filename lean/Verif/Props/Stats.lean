import Verif.Props.Iteration
import Verif.Props.Header
/-!
# C13, C14: task and cgroup statistics
-/

namespace Atop
open Spec

/-! ## C13 -/

/-- **C13** `get_tstat` on a plain file, for any record memory `rec` (compressed length at 20, count at 28): it reads the
announced bytes, decompresses them and returns exactly the announced number of structures, the `i`-th being bytes
`[i*L, (i+1)*L)` of the decompressed data; or it raises, `ValueError` exactly when the data is too short. -/
theorem C13_task_statistics (Z : Zlib) {s0 s1 : Stream} {h : Header} (hg : getHeader true s0 = (.ok h, s1))
    (rec : Bytes) (s : Stream) (plain : s.short = none) :
    ∃ L, L = (usedRow (first480 s0.rest)).tstat ∧ h.cls.TStat.size = L ∧ u32 h.buf 32 = L ∧
    getTStat Z h ⟨h.cls.Record, rec⟩ s =
      (match Z (s.rest.take (u32 rec 20)) with
        | none => .error .zlibError
        | some d =>
          if u32 rec 28 * L ≤ d.length then
            .ok ((List.range (u32 rec 28)).map fun i => ⟨h.cls.TStat, (d.drop (i * L)).take L⟩)
          else .error (.valueError .bufferTooSmall),
       { s with pos := s.pos + min (u32 rec 20) s.rest.length }) := by
  obtain ⟨h1, R, A, -, -⟩ := getHeader_ok hg
  refine ⟨_, rfl, R.facts.tstat, R.tlen, ?_⟩
  rw [getTStat_eq R]
  unfold block
  rw [← R.facts.tstat]
  simp only [Rd.bind_eq, Stream.read_none plain, Rd.lift_eq, zdecompress]
  cases hz : Z (s.rest.take (u32 rec 20)) with
  | none => rfl
  | some d =>
    dsimp only
    split
    · rename_i hle
      rw [tstatLoop_ok _ _ _ _ (by rw [Nat.zero_add]; exact hle), List.range_eq_range']; rfl
    · rename_i hle
      rw [tstatLoop_err _ _ _ _ (by simp) (by rw [Nat.zero_add]; omega)]; rfl

/-- **C13** The count used is the attribute `nlist` of 1.26 records and `ndeviat` of all later ones. -/
theorem C13_count_attribute {s0 s1 : Stream} {h : Header} (hg : getHeader true s0 = (.ok h, s1)) (rec : Bytes) :
    (Inst.mk h.cls.Record rec).intAttr (if h.cls.supportedVersion = py!"1.26" then py!"nlist" else py!"ndeviat") =
      .ok (u32 rec 28 : Int) := by
  obtain ⟨h1, R, A, -, -⟩ := getHeader_ok hg
  rw [R.facts.version]
  split
  · rename_i hv; exact intAttr_u32 (R.facts.nlist hv) rec
  · rename_i hv; exact intAttr_u32 (R.facts.ndeviat hv) rec

/-- **C13** On a damaged container the only further outcome is the container's error. -/
theorem C13_damaged_container (Z : Zlib) {s0 s1 : Stream} {h : Header} (hg : getHeader true s0 = (.ok h, s1))
    (rec : Bytes) (s : Stream) (e : Exc) (damaged : s.short = some e) (hlen : s.rest.length < u32 rec 20) :
    (getTStat Z h ⟨h.cls.Record, rec⟩ s).1 = .error e := by
  obtain ⟨h1, R, A, -, -⟩ := getHeader_ok hg
  rw [getTStat_eq R]
  unfold block
  simp only [Rd.bind_eq, Stream.read_raise hlen damaged]

/-- Headers of every version are accepted: the hypothesis of C13 and C14 is met. -/
theorem toy_header_accepted (r : Row) (hr : r ∈ table) (rest : Bytes) :
    ∃ h, getHeader true { data := toyHeader r ++ rest } = (.ok h, { data := toyHeader r ++ rest, pos := 480 }) ∧
      h.buf = toyHeader r ∧ h.version = .ok (r.major, r.minor) ∧ headerByVersion r.version = some h.cls := by
  have H := toyHeader_valid r hr
  have e : first480 (Stream.rest { data := toyHeader r ++ rest }) = toyHeader r := by
    unfold first480 Stream.rest
    simp only [List.drop_zero]
    rw [List.take_append_of_le_length (by rw [H.length]; omega), ← H.length, List.take_length]
    simp [H.length]
  have A : Accepts (first480 (Stream.rest { data := toyHeader r ++ rest })) := by rw [e]; exact (valid_accepts hr H).2.2.1
  obtain ⟨c, hc, hg⟩ := C08_header_result { data := toyHeader r ++ rest } (.inl rfl) A
  have hlen : min 480 (Stream.rest { data := toyHeader r ++ rest }).length = 480 := by
    simp [Stream.rest, H.length]
  rw [hlen, e] at hg
  rw [e] at hc
  have hu : usedRow (toyHeader r) = r := by
    unfold usedRow; rw [H.major, H.minor, rowFor_table r hr]; rfl
  rw [hu] at hc
  exact ⟨_, hg, rfl, by rw [H.major, H.minor]; rfl, hc⟩

/-- A concrete case: in every version, a record announcing two tasks and data holding two and a half gives two. -/
example (r : Row) (hr : r ∈ table) (rest : Bytes) : ∃ h, (getHeader true { data := toyHeader r ++ rest }).1 = .ok h ∧
    ((getTStat toyZ h ⟨h.cls.Record, toyRecord r⟩
      { data := toyComp (List.replicate (2 * r.tstat) 9) }).1 =
      .ok [⟨h.cls.TStat, List.replicate r.tstat 9⟩, ⟨h.cls.TStat, List.replicate r.tstat 9⟩]) := by
  obtain ⟨h, hg, hb, hv, hc⟩ := toy_header_accepted r hr rest
  refine ⟨h, by rw [hg], ?_⟩
  have H := toyHeader_valid r hr
  have e : first480 (Stream.rest { data := toyHeader r ++ rest }) = toyHeader r := by
    have := congrArg Header.buf (getHeader_ok hg).1
    rw [hb] at this; exact this.symm
  obtain ⟨L, hL, -, -, ht⟩ := C13_task_statistics toyZ hg (toyRecord r)
    { data := toyComp (List.replicate (2 * r.tstat) 9) } rfl
  obtain ⟨-, -, h3, h4, -⟩ := toyRecord_facts r hr
  have hu : usedRow (toyHeader r) = r := by
    unfold usedRow; rw [H.major, H.minor, rowFor_table r hr]; rfl
  rw [e, hu] at hL
  subst hL
  rw [ht, h3, h4]
  have hz : toyZ ((Stream.rest { data := toyComp (List.replicate (2 * r.tstat) 9) }).take (2 * (2 * r.tstat) + 1)) =
      some (List.replicate (2 * r.tstat) 9) := by
    have := (toy_packs (List.replicate (2 * r.tstat) (9 : UInt8))).inv
    unfold Stream.rest
    rw [List.drop_zero, List.take_of_length_le (by rw [toyComp_length]; simp)]
    exact this
  rw [hz]
  simp [List.range_succ, show 2 * r.tstat - r.tstat = r.tstat by omega]; omega

/-! ## C14 -/

/-- Sum of a signed 32-bit field over the first `k` structures. -/
def sumOf (o : Nat) (bufs : List Bytes) (k : Nat) : Int := ((bufs.take k).map (fun b => i32 b o)).sum

/-- What "walking the chain" means for the cgroup structures `cs` and pid lists `ps`, given the decompressed chain `d`
and pid data `p` and the structure size `L`: entry `k` starts at the sum of the recorded lengths (field at 0) of its
predecessors; its pid list starts at the sum of their process counts (field at 16), four bytes each. -/
structure WalksChain (L : Nat) (d p : Bytes) (cs ps : List Bytes) : Prop where
  same : ps.length = cs.length
  entry : ∀ (k : Nat) (c : Bytes), cs[k]? = some c → c.length = L ∧ c = pySlice d (sumOf 0 cs k) (sumOf 0 cs k + L)
  procs : ∀ (k : Nat) (c : Bytes), cs[k]? = some c → 0 ≤ i32 c 16
  pids : ∀ (k : Nat) (c q : Bytes), cs[k]? = some c → ps[k]? = some q →
    q.length = 4 * (i32 c 16).toNat ∧ q = (p.drop (4 * (sumOf 16 cs k).toNat)).take (4 * (i32 c 16).toNat)

/-- What `from_buffer_copy` sees has never more than `L` bytes, even for negative starts. -/
theorem slice_width (d : Bytes) (cs : Int) (L : Nat) : (pySlice d cs (cs + L)).length ≤ L := by
  unfold pySlice sliceBound
  by_cases h1 : cs < 0 <;> by_cases h2 : cs + L < 0 <;> simp only [h1, h2, if_true, if_false, List.length_drop, List.length_take] <;> omega

/-- The chain walk from a running start. -/
structure WalksFrom (L : Nat) (d p : Bytes) (S : Int) (P : Nat) (cs ps : List Bytes) : Prop where
  same : ps.length = cs.length
  entry : ∀ (k : Nat) (c : Bytes), cs[k]? = some c → c.length = L ∧ c = pySlice d (S + sumOf 0 cs k) (S + sumOf 0 cs k + L)
  procs : ∀ (k : Nat) (c : Bytes), cs[k]? = some c → 0 ≤ i32 c 16
  pids : ∀ (k : Nat) (c q : Bytes), cs[k]? = some c → ps[k]? = some q →
    q.length = 4 * (i32 c 16).toNat ∧ q = (p.drop (4 * (P + (sumOf 16 cs k).toNat))).take (4 * (i32 c 16).toNat)

theorem sumOf_zero (o : Nat) (cs : List Bytes) : sumOf o cs 0 = 0 := by simp [sumOf]
theorem sumOf_succ (o : Nat) (c : Bytes) (cs : List Bytes) (k : Nat) : sumOf o (c :: cs) (k + 1) = i32 c o + sumOf o cs k := by
  simp [sumOf]

theorem sumOf_nonneg (o : Nat) : ∀ (cs : List Bytes) (k : Nat), (∀ (j : Nat) (c : Bytes), cs[j]? = some c → 0 ≤ i32 c o) → 0 ≤ sumOf o cs k
  | [], k, _ => by simp [sumOf]
  | c :: cs, 0, _ => by simp [sumOf]
  | c :: cs, k + 1, h => by
    rw [sumOf_succ]
    have h1 := h 0 c rfl
    have h2 := sumOf_nonneg o cs k (fun j c' hj => h (j + 1) c' (by simpa using hj))
    omega

theorem walksFrom_cons (L : Nat) (d p : Bytes) (S : Int) (P : Nat) (c q : Bytes) (cs ps : List Bytes) :
    WalksFrom L d p S P (c :: cs) (q :: ps) ↔
      (c.length = L ∧ c = pySlice d S (S + L) ∧ 0 ≤ i32 c 16 ∧ q.length = 4 * (i32 c 16).toNat ∧
        q = (p.drop (4 * P)).take (4 * (i32 c 16).toNat)) ∧
      WalksFrom L d p (S + i32 c 0) (P + (i32 c 16).toNat) cs ps := by
  constructor
  · rintro ⟨h1, h2, h3, h4⟩
    have a := h2 0 c rfl
    have b := h3 0 c rfl
    have e := h4 0 c q rfl rfl
    simp only [sumOf_zero, Int.add_zero, Int.toNat_zero, Nat.add_zero] at a e
    have hp : ∀ (j : Nat) (c' : Bytes), cs[j]? = some c' → 0 ≤ i32 c' 16 := fun j c' hj => h3 (j + 1) c' (by simpa using hj)
    refine ⟨⟨a.1, a.2, b, e.1, e.2⟩, by simpa using h1, ?_, hp, ?_⟩
    · intro k c' hk
      have := h2 (k + 1) c' (by simpa using hk)
      rw [sumOf_succ] at this
      rw [Int.add_assoc]; exact this
    · intro k c' q' hk hq
      have := h4 (k + 1) c' q' (by simpa using hk) (by simpa using hq)
      rw [sumOf_succ, Int.toNat_add b (sumOf_nonneg 16 cs k hp)] at this
      rw [Nat.add_assoc]; exact this
  · rintro ⟨⟨a1, a2, b, e1, e2⟩, h1, h2, h3, h4⟩
    refine ⟨by simpa using h1, ?_, ?_, ?_⟩
    · intro k c' hk
      cases k with
      | zero => simp at hk; subst hk; simp only [sumOf_zero, Int.add_zero]; exact ⟨a1, a2⟩
      | succ k =>
        have := h2 k c' (by simpa using hk)
        rw [sumOf_succ, ← Int.add_assoc]; exact this
    · intro k c' hk
      cases k with
      | zero => simp at hk; subst hk; exact b
      | succ k => exact h3 k c' (by simpa using hk)
    · intro k c' q' hk hq
      cases k with
      | zero => simp at hk hq; subst hk; subst hq; simp only [sumOf_zero, Int.toNat_zero, Nat.add_zero]; exact ⟨e1, e2⟩
      | succ k =>
        have := h4 k c' q' (by simpa using hk) (by simpa using hq)
        rw [sumOf_succ, Int.toNat_add b (sumOf_nonneg 16 cs k h3), ← Nat.add_assoc]; exact this

/-- A cgroup of structure type `t` with memory `c` and pid memory `q`. -/
def groupOf (t : CType) (c q : Bytes) : CGroup := ⟨⟨t, c⟩, ⟨.array pid_t (q.length / 4), q⟩⟩

theorem fromBufferCopy_slice_ok (t : CType) (d : Bytes) (S : Int) :
    fromBufferCopy t (pySlice d S (S + t.size)) =
      if (pySlice d S (S + t.size)).length = t.size then .ok ⟨t, pySlice d S (S + t.size)⟩
      else .error (.valueError .bufferTooSmall) := by
  have := slice_width d S t.size
  split
  · rename_i h; rw [fromBufferCopy_ok (by omega), List.take_of_length_le (by omega)]
  · rw [fromBufferCopy_err (by omega)]

theorem pidArray_eq (n : Int) (p : Bytes) (P : Nat) :
    pidArray n p ((4 * P : Nat) : Int) =
      if n < 0 then .error (.valueError .negativeLength)
      else if ((p.drop (4 * P)).take (4 * n.toNat)).length = 4 * n.toNat then
        .ok ⟨.array pid_t n.toNat, (p.drop (4 * P)).take (4 * n.toNat)⟩
      else .error (.valueError .bufferTooSmall) := by
  unfold pidArray
  split
  · rfl
  · dsimp only
    have hs : (CType.array pid_t n.toNat).size = 4 * n.toNat := by rw [pid_size]; omega
    rw [fromBufferCopy_slice_ok, hs]
    have : (((4 * P : Nat) : Int) + ((4 * n.toNat : Nat) : Int)) = ((4 * P + 4 * n.toNat : Nat) : Int) := by omega
    rw [this, pySlice_nat, show 4 * P + 4 * n.toNat - 4 * P = 4 * n.toNat by omega]

theorem cstatLoop_iff {t g : CType} (hgen : t.look py!"gen" = some (0, g)) (hs : g.isStruct = true) (h20 : 20 ≤ g.size)
    (hgt : g.size ≤ t.size) (hsl : g.look py!"structlen" = some (0, c_int)) (hnp : g.look py!"nprocs" = some (16, c_int))
    (d p : Bytes) : ∀ (k : Nat) (S : Int) (P : Nat),
    (∀ gs, cstatLoop t d p t.size k S ((4 * P : Nat) : Int) = .ok gs ↔
      ∃ cs ps, gs = List.zipWith (groupOf t) cs ps ∧ cs.length = k ∧ WalksFrom t.size d p S P cs ps) ∧
    (∀ e, cstatLoop t d p t.size k S ((4 * P : Nat) : Int) = .error e →
      e = .valueError .bufferTooSmall ∨ e = .valueError .negativeLength) := by
  intro k
  induction k with
  | zero =>
    intro S P
    refine ⟨?_, nofun⟩
    intro gs
    constructor
    · intro h; cases h
      exact ⟨[], [], rfl, rfl, rfl, nofun, nofun, nofun⟩
    · rintro ⟨cs, ps, rfl, h, -⟩
      rw [List.length_eq_zero_iff.mp h]; rfl
  | succ k ih =>
    intro S P
    rw [cstatLoop, fromBufferCopy_slice_ok]
    by_cases hlen : (pySlice d S (S + t.size)).length = t.size
    · rw [if_pos hlen]
      generalize hc : pySlice d S (S + t.size) = c at hlen
      have e1 : (Inst.mk t c).genInt py!"structlen" = .ok (i32 c 0) := genInt_eq hgen hs hsl c (by omega) (by omega)
      have e2 : (Inst.mk t c).genInt py!"nprocs" = .ok (i32 c 16) := genInt_eq hgen hs hnp c (by omega) (by omega)
      simp only [bind, Except.bind, e1, e2, pidArray_eq]
      by_cases hn : i32 c 16 < 0
      · rw [if_pos hn]
        refine ⟨?_, ?_⟩
        · intro gs
          refine ⟨nofun, ?_⟩
          rintro ⟨cs, ps, -, hk, W⟩
          match cs, ps, hk, W with
          | c' :: cs, q :: ps, hk, W =>
            obtain ⟨⟨-, w2, w3, -⟩, -⟩ := (walksFrom_cons ..).mp W
            rw [hc] at w2; subst w2; omega
          | c' :: cs, [], hk, W => have := W.same; cases this
        · intro e he; cases he; exact .inr rfl
      · rw [if_neg hn]
        generalize hq : (p.drop (4 * P)).take (4 * (i32 c 16).toNat) = q
        by_cases hql : q.length = 4 * (i32 c 16).toNat
        · rw [if_pos hql]
          simp only
          have hnext : (((4 * P : Nat) : Int) + ((CType.array pid_t (i32 c 16).toNat).size : Int)) =
              ((4 * (P + (i32 c 16).toNat) : Nat) : Int) := by rw [pid_size]; omega
          rw [hnext]
          obtain ⟨ih1, ih2⟩ := ih (S + i32 c 0) (P + (i32 c 16).toNat)
          have hgrp : groupOf t c q = ⟨⟨t, c⟩, ⟨.array pid_t (i32 c 16).toNat, q⟩⟩ := by
            unfold groupOf; rw [hql, Nat.mul_div_cancel_left _ (by omega)]
          cases hr : cstatLoop t d p t.size k (S + i32 c 0) ((4 * (P + (i32 c 16).toNat) : Nat) : Int) with
          | error e =>
            refine ⟨?_, ?_⟩
            · intro gs
              refine ⟨nofun, ?_⟩
              rintro ⟨cs, ps, -, hk, W⟩
              match cs, ps, hk, W with
              | c' :: cs, q' :: ps, hk, W =>
                obtain ⟨⟨w1, w2, w3, w4, w5⟩, W'⟩ := (walksFrom_cons ..).mp W
                rw [hc] at w2; subst w2
                have := (ih1 _).mpr ⟨cs, ps, rfl, by simpa using hk, W'⟩
                rw [hr] at this; cases this
              | c' :: cs, [], hk, W => have := W.same; cases this
            · intro e' he; cases he; exact ih2 e hr
          | ok gs' =>
            refine ⟨?_, nofun⟩
            intro gs
            constructor
            · intro h; cases h
              obtain ⟨cs, ps, h1, h2, h3⟩ := (ih1 gs').mp hr
              refine ⟨c :: cs, q :: ps, by rw [List.zipWith_cons_cons, hgrp, h1], by simp [h2], ?_⟩
              rw [walksFrom_cons]
              exact ⟨⟨hlen, hc.symm, by omega, hql, hq.symm⟩, h3⟩
            · rintro ⟨cs, ps, rfl, hk, W⟩
              match cs, ps, hk, W with
              | c' :: cs, q' :: ps, hk, W =>
                obtain ⟨⟨w1, w2, w3, w4, w5⟩, W'⟩ := (walksFrom_cons ..).mp W
                rw [hc] at w2; subst w2
                rw [hq] at w5; subst w5
                have := (ih1 _).mpr ⟨cs, ps, rfl, by simpa using hk, W'⟩
                rw [hr] at this
                injection this with this
                rw [List.zipWith_cons_cons, hgrp, ← this]
                rfl
              | c' :: cs, [], hk, W => have := W.same; cases this
        · rw [if_neg hql]
          refine ⟨?_, ?_⟩
          · intro gs
            refine ⟨nofun, ?_⟩
            rintro ⟨cs, ps, -, hk, W⟩
            match cs, ps, hk, W with
            | c' :: cs, q' :: ps, hk, W =>
              obtain ⟨⟨w1, w2, w3, w4, w5⟩, -⟩ := (walksFrom_cons ..).mp W
              rw [hc] at w2; subst w2
              rw [hq] at w5; subst w5
              exact absurd w4 hql
            | c' :: cs, [], hk, W => have := W.same; cases this
          · intro e he; cases he; exact .inl rfl
    · rw [if_neg hlen]
      refine ⟨?_, ?_⟩
      · intro gs
        refine ⟨nofun, ?_⟩
        rintro ⟨cs, ps, -, hk, W⟩
        match cs, ps, hk, W with
        | c' :: cs, q :: ps, hk, W =>
          obtain ⟨⟨w1, w2, -⟩, -⟩ := (walksFrom_cons ..).mp W
          rw [← w2] at hlen; exact absurd w1 hlen
        | c' :: cs, [], hk, W => have := W.same; cases this
      · intro e he; cases he; exact .inl rfl

theorem walksFrom_zero (L : Nat) (d p : Bytes) (cs ps : List Bytes) :
    WalksFrom L d p 0 0 cs ps ↔ WalksChain L d p cs ps := by
  constructor
  · rintro ⟨h1, h2, h3, h4⟩
    simp only [Int.zero_add, Nat.zero_add] at h2 h4
    exact ⟨h1, h2, h3, h4⟩
  · rintro ⟨h1, h2, h3, h4⟩
    refine ⟨h1, ?_, h3, ?_⟩ <;> simpa using (by assumption)

/-- **C14** `get_cstat` on a plain file, for a header whose cgroups are read and any record memory `rec` (compressed
lengths at 72 and 84, count at 10): both blocks are read and decompressed; the result is exactly the list of the
announced number of cgroups found by walking the chain; when there is no such walk it is a `ValueError`. -/
theorem C14_cgroup_statistics (Z : Zlib) {s0 s1 : Stream} {h : Header} (hg : getHeader true s0 = (.ok h, s1))
    (hcg : readsCGroups (first480 s0.rest) = true) (rec : Bytes) (s : Stream) (plain : s.short = none) :
    ∃ t, h.cls.CStat = some t ∧ some t.size = (usedRow (first480 s0.rest)).cstat ∧
    (∀ gs, (getCStat Z h ⟨h.cls.Record, rec⟩ s).1 = .ok gs ↔
      ∃ d p cs ps, Z (s.rest.take (u32 rec 72)) = some d ∧ Z ((s.rest.drop (u32 rec 72)).take (u32 rec 84)) = some p ∧
        gs = List.zipWith (groupOf t) cs ps ∧ cs.length = u16 rec 10 ∧ WalksChain t.size d p cs ps) ∧
    (∀ e, (getCStat Z h ⟨h.cls.Record, rec⟩ s).1 = .error e →
      (e = .zlibError ∧ (Z (s.rest.take (u32 rec 72)) = none ∨ Z ((s.rest.drop (u32 rec 72)).take (u32 rec 84)) = none)) ∨
      e = .valueError .bufferTooSmall ∨ e = .valueError .negativeLength) := by
  obtain ⟨h1, R, A, -, -⟩ := getHeader_ok hg
  rw [hcg] at R
  obtain ⟨t, n, c1, c2, c3, c4⟩ := cstat_some R
  refine ⟨t, c1, by rw [c2, c3], ?_⟩
  obtain ⟨g, g1, g2, g3, g4, g5, g6⟩ := R.facts.gen t c1
  rw [getCStat_eq R Z rec c1]
  unfold block
  simp only [Rd.bind_eq, Stream.read_none plain, Rd.lift_eq, zdecompress]
  have hrest : ∀ n, (s.adv (min n s.rest.length)).rest = s.rest.drop n := fun n => Stream.skip_rest s n
  cases hz1 : Z (s.rest.take (u32 rec 72)) with
  | none =>
    refine ⟨fun gs => ⟨nofun, ?_⟩, ?_⟩
    · rintro ⟨d, p, cs, ps, hd, -⟩; cases hd
    · intro e he; cases he; exact .inl ⟨rfl, .inl rfl⟩
  | some d =>
    dsimp only
    rw [Stream.read_none (s := s.adv _) plain, hrest]
    dsimp only
    cases hz2 : Z ((s.rest.drop (u32 rec 72)).take (u32 rec 84)) with
    | none =>
      refine ⟨fun gs => ⟨nofun, ?_⟩, ?_⟩
      · rintro ⟨d, p, cs, ps, -, hd, -⟩; cases hd
      · intro e he; cases he; exact .inl ⟨rfl, .inr rfl⟩
    | some p =>
      dsimp only
      obtain ⟨i1, i2⟩ := cstatLoop_iff g1 g2 g3 g4 g5 g6 d p (u16 rec 10) 0 0
      refine ⟨?_, fun e he => .inr (i2 e he)⟩
      intro gs
      rw [show (cstatLoop t d p t.size (u16 rec 10) 0 0 = .ok gs ↔ _) from i1 gs]
      constructor
      · rintro ⟨cs, ps, e1, e2, W⟩
        exact ⟨d, p, cs, ps, rfl, rfl, e1, e2, (walksFrom_zero ..).mp W⟩
      · rintro ⟨d', p', cs, ps, ed, ep, e1, e2, W⟩
        cases ed; cases ep
        exact ⟨cs, ps, e1, e2, (walksFrom_zero ..).mpr W⟩

/-- **C14** In a chain walk whose running start is not negative, entry `k` is the `L` bytes of the chain at that start. -/
theorem C14_entry_bytes {L : Nat} {d p : Bytes} {cs ps : List Bytes} (W : WalksChain L d p cs ps) {k : Nat} {c : Bytes}
    (hk : cs[k]? = some c) (hpos : 0 ≤ sumOf 0 cs k) : c = (d.drop (sumOf 0 cs k).toNat).take L := by
  obtain ⟨-, e⟩ := W.entry k c hk
  obtain ⟨n, hn⟩ := Int.eq_ofNat_of_zero_le hpos
  rw [hn] at e ⊢
  rw [e, show ((n : Int) + (L : Int)) = ((n + L : Nat) : Int) by omega, pySlice_nat, Int.toNat_natCast, Nat.add_sub_cancel_left]

/-- **C14** The pid lists are consecutive, disjoint pieces of the pid data: together they are its first
`4 * (total number of processes)` bytes. -/
theorem C14_pid_partition {L : Nat} {d p : Bytes} : ∀ {cs ps : List Bytes}, WalksChain L d p cs ps →
    ps.flatten = p.take (4 * (sumOf 16 cs cs.length).toNat) ∧ 4 * (sumOf 16 cs cs.length).toNat ≤ p.length := by
  have gen : ∀ (cs ps : List Bytes) (S : Int) (P : Nat), 4 * P ≤ p.length → WalksFrom L d p S P cs ps →
      ps.flatten = (p.drop (4 * P)).take (4 * (sumOf 16 cs cs.length).toNat) ∧
      4 * (P + (sumOf 16 cs cs.length).toNat) ≤ p.length := by
    intro cs
    induction cs with
    | nil =>
      intro ps S P hP W
      have : ps = [] := List.length_eq_zero_iff.mp W.same
      subst this; simp [sumOf]; exact hP
    | cons c cs ih =>
      intro ps S P hP W
      match ps, W with
      | q :: ps, W =>
        obtain ⟨⟨w1, w2, w3, w4, w5⟩, W'⟩ := (walksFrom_cons ..).mp W
        have hnn := sumOf_nonneg 16 cs cs.length W'.procs
        have hq : 4 * (P + (i32 c 16).toNat) ≤ p.length := by
          have := congrArg List.length w5
          rw [w4, List.length_take, List.length_drop] at this
          omega
        obtain ⟨i1, i2⟩ := ih ps _ _ hq W'
        rw [List.length_cons, sumOf_succ, Int.toNat_add w3 hnn]
        refine ⟨?_, by omega⟩
        rw [List.flatten_cons, i1, Nat.mul_add 4 (i32 c 16).toNat, List.take_add, ← w5, List.drop_drop, Nat.mul_add]
      | [], W => have := W.same; cases this
  intro cs ps W
  obtain ⟨a, b⟩ := gen cs ps 0 0 (by omega) ((walksFrom_zero ..).mpr W)
  simpa using And.intro a b

/-- A concrete chain: the two cgroups of the toy sample (entries of 440 and 436 bytes, one and two pids). -/
example : WalksChain 432 (toyGroups.map WGroup.entry).flatten (toyGroups.map WGroup.pids).flatten
    (toyGroups.map fun g => g.entry.take 432) (toyGroups.map WGroup.pids) := by
  refine ⟨rfl, ?_, ?_, ?_⟩
  · have : ∀ k < 2, ∀ c ∈ (toyGroups.map fun g => g.entry.take 432)[k]?, c.length = 432 ∧
        c = pySlice (toyGroups.map WGroup.entry).flatten (sumOf 0 (toyGroups.map fun g => g.entry.take 432) k)
          (sumOf 0 (toyGroups.map fun g => g.entry.take 432) k + 432) := by decide +kernel
    intro k c hk
    exact this k (by have := (List.getElem?_eq_some_iff.mp hk).1; simpa [toyGroups] using this) c hk
  · have : ∀ k < 2, ∀ c ∈ (toyGroups.map fun g => g.entry.take 432)[k]?, 0 ≤ i32 c 16 := by decide +kernel
    intro k c hk
    exact this k (by have := (List.getElem?_eq_some_iff.mp hk).1; simpa [toyGroups] using this) c hk
  · have : ∀ k < 2, ∀ c ∈ (toyGroups.map fun g => g.entry.take 432)[k]?, ∀ q ∈ (toyGroups.map WGroup.pids)[k]?,
        q.length = 4 * (i32 c 16).toNat ∧ q = ((toyGroups.map WGroup.pids).flatten.drop
          (4 * (sumOf 16 (toyGroups.map fun g => g.entry.take 432) k).toNat)).take (4 * (i32 c 16).toNat) := by decide +kernel
    intro k c q hk hq
    exact this k (by have := (List.getElem?_eq_some_iff.mp hk).1; simpa [toyGroups] using this) c hk q hq

end Atop
