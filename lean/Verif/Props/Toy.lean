import Verif.Spec.Format
/-!
# Concrete, non-trivial data for the "hypotheses are met" examples

A toy compressor/decompressor pair satisfying everything the theorems assume about zlib, and for every supported
version a header and a sample (two tasks; from 2.11 on two cgroups with one and two pids).
-/

namespace Atop
open Spec

/-- Toy decompressor: `1 b` stands for byte `b`, `0` ends the stream, the rest is ignored. -/
def toyZ : Bytes → Option Bytes
  | 0 :: _ => some []
  | 1 :: b :: r => (toyZ r).map (b :: ·)
  | _ => none

/-- Toy compressor. -/
def toyComp : Bytes → Bytes
  | [] => [0]
  | b :: r => 1 :: b :: toyComp r

theorem toyComp_length (x : Bytes) : (toyComp x).length = 2 * x.length + 1 := by
  induction x with
  | nil => rfl
  | cons b r ih => simp only [toyComp, List.length_cons, ih]; omega

theorem toyZ_inv (x e : Bytes) : toyZ (toyComp x ++ e) = some x := by
  induction x with
  | nil => rfl
  | cons b r ih => simp [toyComp, toyZ, ih]

theorem toyZ_cut (x : Bytes) : ∀ k, k < (toyComp x).length → toyZ ((toyComp x).take k) = none := by
  induction x with
  | nil => intro k hk; simp [toyComp] at hk; subst hk; rfl
  | cons b r ih =>
    intro k hk
    match k with
    | 0 => rfl
    | 1 => rfl
    | k + 2 =>
      have := ih k (by simp [toyComp] at hk; omega)
      simp [toyComp, toyZ, this]

/-- The toy codec meets the format's requirement on compressed blocks. -/
theorem toy_packs (x : Bytes) : Packs toyZ (toyComp x) x :=
  ⟨by have := toyZ_inv x []; simpa using this, toyZ_cut x, by rw [toyComp_length]; omega⟩

theorem toyZ_nil : toyZ [] = none := rfl

theorem toyZ_append : ∀ (b e d : Bytes), toyZ b = some d → toyZ (b ++ e) = some d
  | b, e, d => by
    intro h
    match b with
    | [] => cases h
    | [x] =>
      by_cases hx : x = 0
      · subst hx; simpa [toyZ] using h
      · rw [toyZ] at h
        · cases h
        · exact fun _ hh => hx (by injection hh)
        · exact fun _ _ hh => by cases hh
    | x :: y :: r =>
      by_cases hx : x = 0
      · subst hx; simpa [toyZ] using h
      · by_cases h1 : x = 1
        · subst h1
          simp only [toyZ, Option.map_eq_some_iff, List.cons_append] at h ⊢
          obtain ⟨d', hd, rfl⟩ := h
          exact ⟨d', toyZ_append r e d' hd, rfl⟩
        · rw [toyZ] at h
          · cases h
          · exact fun _ hh => hx (by injection hh)
          · exact fun _ _ hh => h1 (by injection hh)

/-- `w` little-endian bytes of `n`. -/
def le : (w n : Nat) → Bytes
  | 0, _ => []
  | w + 1, n => UInt8.ofNat n :: le w (n / 256)

/-- `n` zero bytes. -/
def zeros (n : Nat) : Bytes := List.replicate n 0

/-- A valid header of version `r`. -/
def toyHeader (r : Row) : Bytes :=
  le 4 0xFEEDBEEF ++ [UInt8.ofNat r.minor, UInt8.ofNat (r.major + 128)] ++ zeros 4 ++ le 2 480 ++ le 2 r.record ++
  le 2 100 ++ zeros 12 ++ le 4 r.sstat ++ le 4 r.tstat ++ List.replicate 400 65 ++ le 4 4096 ++ le 4 6 ++ zeros 12 ++
  le 4 (r.cstat.getD 0) ++ zeros 20

theorem toyHeader_valid : ∀ r ∈ table, ValidHeader r (toyHeader r) := by
  have h : ∀ r ∈ table, (toyHeader r).length = 480 ∧ u32 (toyHeader r) 0 = magic ∧ major (toyHeader r) = r.major ∧
      minor (toyHeader r) = r.minor ∧ lengthsMatch r r.cstat.isSome (toyHeader r) := by decide +kernel
  intro r hr
  obtain ⟨h1, h2, h3, h4, h5⟩ := h r hr
  exact ⟨h1, h2, h3, h4, h5⟩

/-- Two cgroups: chain entries of 440 and 436 bytes, one and two processes. -/
def toyGroups : List WGroup := [
  ⟨le 4 440 ++ zeros 12 ++ le 4 1 ++ zeros 412 ++ [97, 98, 99, 0, 0, 0, 0, 0], le 4 4242⟩,
  ⟨le 4 436 ++ zeros 12 ++ le 4 2 ++ zeros 412 ++ [100, 0, 0, 0], le 4 1 ++ le 4 77⟩]

/-- The cgroups of the toy sample of version `r`. -/
def toyGroupsOf (r : Row) : List WGroup := if r.cstat.isSome then toyGroups else []

/-- The record of the toy sample. -/
def toyRecord (r : Row) : Bytes :=
  (le 8 1700000000 ++ le 2 0 ++ le 2 (toyGroupsOf r).length ++ zeros 4 ++ le 4 (2 * r.sstat + 1) ++
  le 4 (2 * (2 * r.tstat) + 1) ++ le 4 600 ++ le 4 2 ++ zeros 40 ++ le 4 (2 * 876 + 1) ++ zeros 8 ++
  le 4 (2 * 12 + 1) ++ zeros 8).take r.record

/-- A sample of version `r`. -/
def toySample (r : Row) : WSample where
  record := toyRecord r
  sstat := List.replicate r.sstat 7
  tstats := [List.replicate r.tstat 1, List.replicate r.tstat 2]
  groups := toyGroupsOf r
  zsstat := toyComp (List.replicate r.sstat 7)
  ztstats := toyComp ([List.replicate r.tstat 1, List.replicate r.tstat 2] : List Bytes).flatten
  zcstats := toyComp ((toyGroupsOf r).map WGroup.entry).flatten
  zpids := toyComp ((toyGroupsOf r).map WGroup.pids).flatten

theorem toyRecord_facts : ∀ r ∈ table, (toyRecord r).length = r.record ∧ u32 (toyRecord r) 16 = 2 * r.sstat + 1 ∧
    u32 (toyRecord r) 20 = 2 * (2 * r.tstat) + 1 ∧ u32 (toyRecord r) 28 = 2 ∧
    (r.cstat.isSome → u16 (toyRecord r) 10 = 2 ∧ u32 (toyRecord r) 72 = 2 * 876 + 1 ∧
      u32 (toyRecord r) 84 = 2 * 12 + 1) ∧ (∀ n ∈ r.cstat, n = 432) := by decide +kernel

theorem toyGroups_facts : (toyGroups.map WGroup.entry).flatten.length = 876 ∧
    (toyGroups.map WGroup.pids).flatten.length = 12 ∧
    ∀ g ∈ toyGroups, 432 ≤ g.entry.length ∧ i32 g.entry 0 = g.entry.length ∧ 4 * i32 g.entry 16 = g.pids.length := by
  refine ⟨by decide +kernel, by decide +kernel, ?_⟩
  intro g hg
  simp only [toyGroups, List.mem_cons, List.not_mem_nil, or_false] at hg
  rcases hg with rfl | rfl <;> decide +kernel

/-- The toy sample is a valid sample of its version. -/
theorem toySample_valid (r : Row) (hr : r ∈ table) : (toySample r).Valid toyZ r := by
  obtain ⟨h1, h2, h3, h4, h5, h6⟩ := toyRecord_facts r hr
  obtain ⟨g1, g2, g3⟩ := toyGroups_facts
  have hg : r.cstat.isSome → toyGroupsOf r = toyGroups := fun h => by unfold toyGroupsOf; rw [if_pos h]
  constructor
  · exact h1
  · simp [toySample]
  · intro t ht
    simp only [toySample, List.mem_cons, List.not_mem_nil, or_false] at ht
    rcases ht with rfl | rfl <;> simp
  · exact toy_packs _
  · exact toy_packs _
  · show u32 (toyRecord r) 16 = (toyComp _).length
    rw [h2, toyComp_length, List.length_replicate]
  · show u32 (toyRecord r) 20 = (toyComp _).length
    rw [h3, toyComp_length]; simp; omega
  · exact h4
  · intro h; show toyGroupsOf r = []; unfold toyGroupsOf; rw [h]; rfl
  · intro _; exact toy_packs _
  · intro _; exact toy_packs _
  · intro h; show u16 (toyRecord r) 10 = (toyGroupsOf r).length; rw [(h5 h).1, hg h]; rfl
  · intro h; show u32 (toyRecord r) 72 = (toyComp _).length; rw [(h5 h).2.1, toyComp_length, hg h, g1]
  · intro h; show u32 (toyRecord r) 84 = (toyComp _).length; rw [(h5 h).2.2, toyComp_length, hg h, g2]
  · intro g hgm n hn
    have hs : r.cstat.isSome := by rw [hn]; rfl
    have : g ∈ toyGroups := by rw [← hg hs]; exact hgm
    rw [h6 n hn]
    exact g3 g this

/-- A log of version `r` with three samples. -/
def toyLog (r : Row) : List WSample := [toySample r, toySample r, toySample r]

theorem toyLog_valid (r : Row) (hr : r ∈ table) : ∀ w ∈ toyLog r, w.Valid toyZ r := by
  intro w hw
  simp only [toyLog, List.mem_cons, List.not_mem_nil, or_false, or_self] at hw
  rw [hw]; exact toySample_valid r hr

end Atop
