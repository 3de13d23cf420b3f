import Verif.Proofs.Bytes
/-!
# Normal forms of the readers under a checked header
-/

namespace Atop
open Spec

/-- `header` can be used to read a body of version row `r`; `cg` says whether cgroups are read and `v` is
the version the loop uses. -/
structure Ready (h : Header) (r : Row) (v : Nat × Nat) (cg : Bool) : Prop where
  facts : Facts h.cls r
  len : h.buf.length = 480
  ver : h.version = .ok v
  old : (v.1 ≥ 2 ∧ v.2 ≥ 3) ↔ r.version ≠ py!"1.26"
  cg_iff : (v.1 ≥ 2 ∧ v.2 ≥ 11) ↔ cg = true
  tlen : u32 h.buf 32 = r.tstat
  clen : cg = true → some (u32 h.buf 456) = r.cstat
  small : 0 < r.tstat ∧ 32 ≤ r.record ∧ 0 < r.sstat
  csmall : ∀ n, r.cstat = some n → 20 ≤ n ∧ n < 2147483648 ∧ 88 ≤ r.record

/-- Read `n` bytes and decompress them. -/
def block (Z : Zlib) (n : Nat) : Rd Bytes := do
  let b ← Stream.read n
  Rd.lift (zdecompress Z b)

theorem hdr_look {c : HeaderClass} {n : PyStr} (buf : Bytes) (k) :
    (Header.inst ⟨c, buf, k⟩).ty.look n = c.fields.lookup n 0 := rfl

theorem getRecord_eq {h : Header} {r v cg} (R : Ready h r v cg) (s : Stream) :
    getRecord h s = match Stream.readinto r.record s with
      | (.ok b, s') => (.ok ⟨h.cls.Record, b⟩, s')
      | (.error e, s') => (.error e, s') := by
  unfold getRecord; rw [R.facts.record, Rd.bind_eq]
  rcases Stream.readinto r.record s with ⟨_ | _, _⟩ <;> rfl

theorem getSStat_eq {h : Header} {r v cg} (R : Ready h r v cg) (Z : Zlib) (rec : Bytes) :
    getSStat Z h ⟨h.cls.Record, rec⟩ = (do
      let d ← block Z (u32 rec 16)
      Rd.lift (fromBufferCopy h.cls.SStat d)) := by
  funext s
  unfold getSStat block
  simp only [Rd.bind_eq, Rd.lift_eq, intAttr_u32 R.facts.scomplen, Int.toNat_natCast]
  rcases Stream.read (u32 rec 16) s with ⟨_ | _, _⟩ <;> rfl

theorem tstat_fields {h : Header} {r v cg} (R : Ready h r v cg) (rec : Bytes) :
    (if (Inst.mk h.cls.Record rec).isRecord126 then (Inst.mk h.cls.Record rec).intAttr py!"nlist"
      else (Inst.mk h.cls.Record rec).intAttr py!"ndeviat") = .ok (u32 rec 28 : Int) ∧
    (if v.1 ≥ 2 ∧ v.2 ≥ 3 then h.inst.intAttr py!"tstatlen" else h.inst.intAttr py!"pstatlen") = .ok (r.tstat : Int) := by
  have h126 : (Inst.mk h.cls.Record rec).isRecord126 = decide (r.version = py!"1.26") := R.facts.is126
  constructor
  · rw [h126]
    by_cases hv : r.version = py!"1.26"
    · rw [if_pos (by simpa using hv), intAttr_u32 (R.facts.nlist hv)]
    · rw [if_neg (by simpa using hv), intAttr_u32 (R.facts.ndeviat hv)]
  · by_cases hv : r.version = py!"1.26"
    · have := R.facts.pstatlen
      rw [if_pos hv] at this
      rw [if_neg (by rw [R.old]; simp [hv])]
      have e := intAttr_u32 (t := h.inst.ty) this h.inst.buf
      rw [← R.tlen]; exact e
    · have := R.facts.tstatlen
      rw [if_neg hv] at this
      rw [if_pos (by rw [R.old]; exact hv)]
      have e := intAttr_u32 (t := h.inst.ty) this h.inst.buf
      rw [← R.tlen]; exact e

theorem getTStat_eq {h : Header} {r v cg} (R : Ready h r v cg) (Z : Zlib) (rec : Bytes) :
    getTStat Z h ⟨h.cls.Record, rec⟩ = (do
      let d ← block Z (u32 rec 20)
      Rd.lift (tstatLoop h.cls.TStat d r.tstat (u32 rec 28) 0)) := by
  funext s
  obtain ⟨hcount, hlen⟩ := tstat_fields R rec
  unfold getTStat block
  simp only [Rd.bind_eq, Rd.lift_eq, intAttr_u32 R.facts.pcomplen, Int.toNat_natCast, hcount, R.ver, hlen]
  rcases Stream.read (u32 rec 20) s with ⟨_ | b, _⟩
  · rfl
  · dsimp only

theorem cstat_some {h : Header} {r v} (R : Ready h r v true) :
    ∃ t n, h.cls.CStat = some t ∧ r.cstat = some n ∧ t.size = n ∧ u32 h.buf 456 = n := by
  have h1 := R.clen rfl
  have h2 := R.facts.cstat
  rw [← h1] at h2
  cases ht : h.cls.CStat with
  | none => rw [ht] at h2; cases h2
  | some t =>
    rw [ht] at h2
    exact ⟨t, _, rfl, h1.symm, by simpa using h2, rfl⟩

theorem cstat_fields {h : Header} {r v} (R : Ready h r v true) {t : CType} (ht : h.cls.CStat = some t) :
    r.cstat.isSome = true ∧ h.inst.intAttr py!"cstatlen" = .ok (t.size : Int) := by
  obtain ⟨t', n, ht', hn, hsz, hu⟩ := cstat_some R
  rw [ht] at ht'; cases ht'
  have hs : r.cstat.isSome = true := by rw [hn]; rfl
  refine ⟨hs, ?_⟩
  have := R.facts.cstatlen
  rw [if_pos hs] at this
  have e := intAttr_i32 (t := h.inst.ty) this h.inst.buf (by show 456 + 4 ≤ h.buf.length; rw [R.len]; omega)
  refine Eq.trans e ?_
  rw [hsz, ← i32_of_u32_lt hu (R.csmall n hn).2.1]; rfl

theorem getCStat_eq {h : Header} {r v} (R : Ready h r v true) (Z : Zlib) (rec : Bytes) {t : CType}
    (ht : h.cls.CStat = some t) :
    getCStat Z h ⟨h.cls.Record, rec⟩ = (do
      let d ← block Z (u32 rec 72)
      let pids ← block Z (u32 rec 84)
      Rd.lift (cstatLoop t d pids t.size (u16 rec 10) 0 0)) := by
  funext s
  obtain ⟨hs, hcl⟩ := cstat_fields R ht
  unfold getCStat block
  simp only [Rd.bind_eq, Rd.lift_eq, intAttr_u32 (R.facts.ccomplen hs), intAttr_u32 (R.facts.icomplen hs),
    intAttr_u16 (R.facts.ncgroups hs), hcl, Int.toNat_natCast, ht]
  rcases Stream.read (u32 rec 72) s with ⟨_ | b, s1⟩
  · rfl
  · dsimp only
    cases zdecompress Z b
    · rfl
    · dsimp only
      rcases Stream.read (u32 rec 84) s1 with ⟨_ | b2, s2⟩
      · rfl
      · dsimp only

/-- One iteration of the loop, in terms of offsets. -/
theorem readSample_eq {h : Header} {r v cg} (R : Ready h r v cg) (Z : Zlib) (s : Stream) :
    readSample Z h v s = (do
      let rec ← Stream.readinto r.record
      if u32 rec 16 = 0 then pure none
      else do
        let sstat ← getSStat Z h ⟨h.cls.Record, rec⟩
        let tstats ← getTStat Z h ⟨h.cls.Record, rec⟩
        let cgroups ← if cg then getCStat Z h ⟨h.cls.Record, rec⟩ else pure []
        pure (some ⟨⟨h.cls.Record, rec⟩, sstat, tstats, cgroups⟩) : Rd (Option Sample)) s := by
  unfold readSample
  simp only [Rd.bind_eq, getRecord_eq R]
  rcases Stream.readinto r.record s with ⟨_ | rec, s1⟩
  · rfl
  · dsimp only
    simp only [Rd.lift_eq, intAttr_u32 R.facts.scomplen]
    have hc : (((u32 rec 16 : Nat) : Int) ≤ 0) = (u32 rec 16 = 0) := by
      apply propext; omega
    simp only [hc]
    have hcg : (v.1 ≥ 2 ∧ v.2 ≥ 11) = (cg = true) := propext R.cg_iff
    simp only [hcg]

/-! ## Slices and loops -/

theorem pySlice_nat {α} (xs : List α) (a b : Nat) : pySlice xs a b = (xs.drop a).take (b - a) := by
  unfold pySlice sliceBound
  rw [if_neg (by omega), if_neg (by omega), Int.toNat_natCast, Int.toNat_natCast]
  have h1 : xs.take (min b xs.length) = xs.take b := by
    by_cases h : b ≤ xs.length
    · rw [Nat.min_eq_left h]
    · rw [Nat.min_eq_right (by omega), List.take_length, List.take_of_length_le (by omega)]
  rw [h1]
  by_cases h : a ≤ xs.length
  · rw [Nat.min_eq_left h, List.drop_take]
  · rw [Nat.min_eq_right (by omega), List.drop_eq_nil_of_le (by simp; omega),
      List.drop_eq_nil_of_le (by omega), List.take_nil]

theorem fromBufferCopy_ok {t : CType} {d : Bytes} (h : t.size ≤ d.length) :
    fromBufferCopy t d = .ok ⟨t, d.take t.size⟩ := by
  unfold fromBufferCopy; rw [if_neg (by omega)]

theorem fromBufferCopy_err {t : CType} {d : Bytes} (h : d.length < t.size) :
    fromBufferCopy t d = .error (.valueError .bufferTooSmall) := by
  unfold fromBufferCopy; rw [if_pos h]

theorem tstat_slice (d : Bytes) (i L : Nat) :
    pySlice d ((i : Int) * (L : Int)) ((L : Int) * ((i : Int) + 1)) = (d.drop (i * L)).take L := by
  have h1 : ((i : Int) * (L : Int)) = ((i * L : Nat) : Int) := by simp
  have h2 : ((L : Int) * ((i : Int) + 1)) = ((L * (i + 1) : Nat) : Int) := by simp
  rw [h1, h2, pySlice_nat]
  congr 1
  rw [Nat.mul_succ, Nat.mul_comm]; omega

theorem tstatLoop_ok (t : CType) (d : Bytes) (k i : Nat) (h : (i + k) * t.size ≤ d.length) :
    tstatLoop t d t.size k i = .ok ((List.range' i k).map fun j => ⟨t, (d.drop (j * t.size)).take t.size⟩) := by
  induction k generalizing i with
  | zero => rfl
  | succ k ih =>
    unfold tstatLoop
    have hi : (i + 1) * t.size ≤ d.length :=
      Nat.le_trans (Nat.mul_le_mul_right _ (by omega)) h
    rw [Nat.succ_mul] at hi
    rw [tstat_slice, fromBufferCopy_ok (by simp; omega), ih (i + 1) (by rw [show i + 1 + k = i + (k + 1) by omega]; exact h)]
    simp [List.range'_succ, bind, Except.bind, pure, Except.pure, List.take_take]

theorem tstatLoop_err (t : CType) (d : Bytes) (k i : Nat) (hi : i * t.size ≤ d.length)
    (h : d.length < (i + k) * t.size) :
    tstatLoop t d t.size k i = .error (.valueError .bufferTooSmall) := by
  induction k generalizing i with
  | zero => simp at h; omega
  | succ k ih =>
    unfold tstatLoop
    rw [tstat_slice]
    by_cases hc : (i + 1) * t.size ≤ d.length
    · rw [ih (i + 1) hc (by rw [show i + 1 + k = i + (k + 1) by omega]; exact h)]
      rw [Nat.succ_mul] at hc
      rw [fromBufferCopy_ok (by simp; omega)]; rfl
    · rw [Nat.succ_mul] at hc
      rw [fromBufferCopy_err (by simp; omega)]; rfl

end Atop
