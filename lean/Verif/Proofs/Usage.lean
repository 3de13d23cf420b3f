import Verif.Proofs.Floats
import Verif.Proofs.Messages
import Verif.Proofs.FloatRepr
import Verif.Spec.Readme
import Mathlib.Tactic.Linarith
import Mathlib.Tactic.Positivity
import Mathlib.Tactic.NormNum
import Mathlib.Tactic.FieldSimp
/-!
# The number the example of the README prints
-/

namespace Atop.Src
open Spec Dbl

theorem natRepr_numeral (n : Nat) : Numeral 10 (intRepr (n : Int)) n := by
  rcases decimal_intRepr (n : Int) with ⟨-, h⟩ | ⟨h, -⟩
  · simpa using h
  · omega

theorem hundredths_text (neg : Bool) (n : Nat) :
    PercentText ((if neg then -1 else 1) * ((n : Rat) / 100)) ((if neg then py!"-" else []) ++ hundredths n ++ py!"%") := by
  refine ⟨neg, intRepr ((n / 100 : Nat) : Int), n / 100, n / 10 % 10, n % 10, natRepr_numeral _, by omega, by omega, ?_, ?_⟩
  · unfold hundredths
    simp only [List.append_assoc]
    rfl
  · congr 1
    have h : n = 100 * (n / 100) + 10 * (n / 10 % 10) + n % 10 := by omega
    have h' : (n : ℚ) = 100 * ((n / 100 : Nat) : ℚ) + 10 * ((n / 10 % 10 : Nat) : ℚ) + ((n % 10 : Nat) : ℚ) := by
      exact_mod_cast h
    generalize ((n / 100 : Nat) : ℚ) = a at *
    generalize ((n / 10 % 10 : Nat) : ℚ) = b at *
    generalize ((n % 10 : Nat) : ℚ) = c at *
    rw [h']; ring

theorem hundredths_plain (n : Nat) : 45 ∉ hundredths n ++ py!"%" := by
  have hd : ∀ c ∈ intRepr ((n / 100 : Nat) : Int), c ≠ 45 := by
    intro c hc e
    obtain ⟨d, h1, -⟩ := (natRepr_numeral (n / 100)).digits c hc
    subst e
    cases h1
  intro h
  unfold hundredths at h
  simp only [List.mem_append, List.mem_cons, List.not_mem_nil, or_false] at h
  rcases h with ((h | h) | h | h) | h
  · exact hd 45 h rfl
  · revert h; decide
  · omega
  · omega
  · revert h; decide

/-- Rounding with names for the two constants. -/
theorem round_near {δ η : ℚ} (hδ : δ = (2 : ℚ) ^ (-53 : ℤ)) (hη : η = (2 : ℚ) ^ (-1075 : ℤ)) {q : ℚ} (h : 0 ≤ q) :
    Dbl.round q ≤ q + (q * δ + η) ∧ q ≤ Dbl.round q + (q * δ + η) := by
  subst hδ hη; exact round_err h

theorem make_ok (neg : Bool) {q : Rat} (h : Dbl.round q < 2 ^ 1024) : make neg q = some ⟨neg, Dbl.round q⟩ := if_pos h

theorem usage_text {a b : Int} (hb : b ≠ 0) (ha : a.natAbs ≤ 2 ^ 63) : ∃ x y p, Dbl.div a b = some x ∧ Dbl.intSub 1 x = some y ∧
    y.percent = some p ∧ UsageLine a b (py!"CPU usage was " ++ p ++ py!"\n") := by
  obtain ⟨δ, hδ⟩ : ∃ δ : ℚ, δ = (2 : ℚ) ^ (-53 : ℤ) := ⟨_, rfl⟩
  obtain ⟨η, hη⟩ : ∃ η : ℚ, η = (2 : ℚ) ^ (-1075 : ℤ) := ⟨_, rfl⟩
  have near := @round_near δ η hδ hη
  have hδ0 : 0 < δ := hδ ▸ two_pos _
  have hη0 : 0 < η := hη ▸ two_pos _
  have hδ1 : δ * 1024 = 1 / 2 ^ 43 := by rw [hδ]; norm_num
  have hηδ : η ≤ δ / 1000 := by
    have h1 : (2 : ℚ) ^ (-1075 : ℤ) ≤ 2 ^ (-63 : ℤ) := two_mono (by omega)
    have h2 : (2 : ℚ) ^ (-63 : ℤ) = δ / 1024 := by rw [hδ]; norm_num
    rw [hη]
    rw [h2] at h1
    refine h1.trans ?_
    rw [div_le_div_iff₀ (by norm_num) (by norm_num)]
    nlinarith
  have hδs : δ ≤ 1 / 1000 := by rw [hδ]; norm_num
  have big : ∀ q : ℚ, q ≤ 2 ^ 100 → q < 2 ^ 1024 := fun q h => lt_of_le_of_lt h (pow_lt_pow_right₀ (by norm_num) (by norm_num))
  -- the quotient
  obtain ⟨r, hr⟩ : ∃ r : ℚ, r = (a.natAbs : ℚ) / (b.natAbs : ℚ) := ⟨_, rfl⟩
  have hb1 : (1 : ℚ) ≤ (b.natAbs : ℚ) := by exact_mod_cast Nat.one_le_iff_ne_zero.mpr (Int.natAbs_ne_zero.mpr hb)
  have hr0 : 0 ≤ r := by rw [hr]; positivity
  have hr1 : r ≤ 2 ^ 63 := by
    rw [hr, div_le_iff₀ (by linarith)]
    have : (a.natAbs : ℚ) ≤ 2 ^ 63 := by exact_mod_cast ha
    nlinarith
  have hrδ : 0 ≤ r * δ := by positivity
  have hrδ1 : r * δ ≤ r / 1000 := by nlinarith
  obtain ⟨X, hX⟩ : ∃ X, X = Dbl.round r := ⟨_, rfl⟩
  obtain ⟨x1, x2⟩ := near hr0
  have hX0 : 0 ≤ X := hX ▸ round_nonneg hr0
  rw [← hX] at x1 x2
  obtain ⟨s, hs⟩ : ∃ s : Bool, s = (decide (a < 0) != decide (b < 0)) := ⟨_, rfl⟩
  have ex : Dbl.div a b = some ⟨s, X⟩ := by
    unfold Dbl.div
    rw [← hs, hX, hr]
    refine make_ok _ ?_
    rw [← hr, ← hX]
    exact big _ (by linarith)
  obtain ⟨sg, hsg⟩ : ∃ sg : ℚ, sg = if s then -1 else 1 := ⟨_, rfl⟩
  have hsg2 : sg = 1 ∨ sg = -1 := by rw [hsg]; cases s <;> simp
  have hρ : (a : ℚ) / (b : ℚ) = sg * r := by
    have ea : (a : ℚ) = (if a < 0 then -1 else 1) * (a.natAbs : ℚ) := by
      split
      · have : (a : ℤ) = -(a.natAbs : ℤ) := by omega
        have h2 : (a : ℚ) = -(a.natAbs : ℚ) := by exact_mod_cast this
        rw [h2]; ring
      · have : (a : ℤ) = (a.natAbs : ℤ) := by omega
        have h2 : (a : ℚ) = (a.natAbs : ℚ) := (congrArg (Int.cast : ℤ → ℚ) this).trans (Int.cast_natCast _)
        rw [h2, one_mul]
    have eb : (b : ℚ) = (if b < 0 then -1 else 1) * (b.natAbs : ℚ) := by
      split
      · have : (b : ℤ) = -(b.natAbs : ℤ) := by omega
        have h2 : (b : ℚ) = -(b.natAbs : ℚ) := by exact_mod_cast this
        rw [h2]; ring
      · have : (b : ℤ) = (b.natAbs : ℤ) := by omega
        have h2 : (b : ℚ) = (b.natAbs : ℚ) := (congrArg (Int.cast : ℤ → ℚ) this).trans (Int.cast_natCast _)
        rw [h2, one_mul]
    rw [hsg, hs, hr, ea, eb]
    by_cases p1 : a < 0 <;> by_cases p2 : b < 0 <;> simp [p1, p2] <;> ring
  -- the difference
  obtain ⟨d, hd⟩ : ∃ d : ℚ, d = 1 - sg * X := ⟨_, rfl⟩
  have hval : (1 : ℚ) - (⟨s, X⟩ : Dbl).val = d := by
    rw [hd, hsg]; unfold Dbl.val; cases s <;> simp
  obtain ⟨m, hm⟩ : ∃ m : ℚ, m = Rat.abs d := ⟨_, rfl⟩
  obtain ⟨sd, hsd⟩ : ∃ sd : ℚ, sd = if d < 0 then -1 else 1 := ⟨_, rfl⟩
  have hsd2 : sd = 1 ∨ sd = -1 := by rw [hsd]; split <;> simp
  have hdm : d = sd * m := by
    rw [hsd, hm]
    split
    · rename_i h
      rw [Rat.abs_of_nonpos (le_of_lt h)]; ring
    · rename_i h
      rw [Rat.abs_of_nonneg (not_lt.mp h)]; ring
  have hm0 : 0 ≤ m := hm ▸ Rat.abs_nonneg
  have hm1 : m ≤ 1 + X := by
    rcases hsd2 with h | h <;> rcases hsg2 with h' | h' <;> rw [h] at hdm <;> rw [h'] at hd <;> linarith
  obtain ⟨Y, hY⟩ : ∃ Y, Y = Dbl.round m := ⟨_, rfl⟩
  obtain ⟨y1, y2⟩ := near hm0
  have hY0 : 0 ≤ Y := hY ▸ round_nonneg hm0
  rw [← hY] at y1 y2
  have hX2 : X ≤ 2 * r + 1 := by linarith
  have hmδ : m * δ ≤ 2 * δ + 2 * (r * δ) := by nlinarith
  have hY2 : Y ≤ 2 * r + 3 := by nlinarith
  have ey : Dbl.intSub 1 ⟨s, X⟩ = some ⟨decide (d < 0), Y⟩ := by
    unfold Dbl.intSub
    rw [if_pos (by decide)]
    have h1 : (((1 : Int) : Rat) - (⟨s, X⟩ : Dbl).val) = d := hval
    rw [h1, ← hm, hY]
    refine make_ok _ ?_
    rw [← hY]
    exact big _ (by linarith)
  -- the percentage
  have hw0 : 0 ≤ Y * 100 := by linarith
  obtain ⟨V, hV⟩ : ∃ V, V = Dbl.round (Y * 100) := ⟨_, rfl⟩
  obtain ⟨v1, v2⟩ := near hw0
  have hV0 : 0 ≤ V := hV ▸ round_nonneg hw0
  rw [← hV] at v1 v2
  have hYδ : Y * δ ≤ 3 * δ + 2 * (r * δ) := by nlinarith
  have em : make (decide (d < 0)) (Y * 100) = some ⟨decide (d < 0), V⟩ := by
    rw [hV]
    refine make_ok _ ?_
    rw [← hV]
    exact big _ (by linarith)
  obtain ⟨n, hn⟩ : ∃ n : Nat, n = (nearest (V * 100)).toNat := ⟨_, rfl⟩
  have hv100 : 0 ≤ V * 100 := by linarith
  have hn' : (n : ℚ) = ((nearest (V * 100) : ℤ) : ℚ) := by
    rw [hn]
    have := Int.toNat_of_nonneg (nearest_nonneg hv100)
    exact_mod_cast this
  have n1 : (n : ℚ) ≤ V * 100 + 1 / 2 := hn' ▸ nearest_le _
  have n2 : V * 100 - 1 / 2 ≤ (n : ℚ) := hn' ▸ nearest_ge _
  refine ⟨_, _, (if decide (d < 0) then py!"-" else []) ++ hundredths n ++ py!"%", ex, ey, ?_, ?_⟩
  · unfold Dbl.percent
    dsimp only
    rw [em, hn]
  · refine ⟨_, _, rfl, hundredths_text _ n, ?_, ?_⟩
    · have hsd' : (if decide (d < 0) = true then (-1 : ℚ) else 1) = sd := by rw [hsd]; simp
      rw [hsd', hρ, ← hr]
      have hbound : (1 + r) / 2 ^ 43 = 1024 * δ + 1024 * (r * δ) := by
        rw [show (1 + r) / 2 ^ 43 = (1 + r) * (1 / 2 ^ 43) by ring, ← hδ1]; ring
      rw [hbound]
      -- |n/100 - V| ≤ 1/200, |V - 100 Y| ≤ ..., |Y - m| ≤ ..., m = sd * d, |X - r| ≤ ...
      have hYδ0 : 0 ≤ Y * δ := by positivity
      have hVe1 : V ≤ 100 * Y + (300 * δ + 200 * (r * δ) + η) := by linarith
      have hVe2 : 100 * Y ≤ V + (300 * δ + 200 * (r * δ) + η) := by linarith
      have hYe1 : Y ≤ m + (2 * δ + 2 * (r * δ) + η) := by linarith
      have hYe2 : m ≤ Y + (2 * δ + 2 * (r * δ) + η) := by linarith
      unfold Near
      have key1 : (n : ℚ) / 100 ≤ 100 * m + (1 / 200 + 500 * δ + 400 * (r * δ) + 101 * η) := by linarith
      have key2 : 100 * m ≤ (n : ℚ) / 100 + (1 / 200 + 500 * δ + 400 * (r * δ) + 101 * η) := by linarith
      have dm1 : 100 * d ≤ 100 * (1 - sg * r) + (100 * (r * δ) + 100 * η) := by
        rw [hd]; rcases hsg2 with h | h <;> rw [h] <;> linarith
      have dm2 : 100 * (1 - sg * r) ≤ 100 * d + (100 * (r * δ) + 100 * η) := by
        rw [hd]; rcases hsg2 with h | h <;> rw [h] <;> linarith
      generalize (n : ℚ) / 100 = N at *
      rcases hsd2 with h | h <;> rw [h] at hdm ⊢ <;> constructor <;> linarith
    · intro h0 h1
      have hbpos : 0 < b := lt_of_le_of_ne (h0.trans h1) (Ne.symm hb)
      have hr1' : r ≤ ((1 : Nat) : ℚ) := by
        rw [hr, div_le_iff₀ (by linarith), Nat.cast_one, one_mul]
        have : a.natAbs ≤ b.natAbs := by omega
        exact_mod_cast this
      have hX1 : X ≤ ((1 : Nat) : ℚ) := hX ▸ round_le_nat hr0 (by norm_num) hr1'
      rw [Nat.cast_one] at hX1
      have hsf : s = false := by
        rw [hs, decide_eq_false (not_lt.mpr h0), decide_eq_false (not_lt.mpr hbpos.le)]; rfl
      have hsg1 : sg = 1 := by rw [hsg, hsf]; rfl
      have hd0 : 0 ≤ d := by rw [hd, hsg1]; linarith
      have hmd : m = d := by rw [hm, Rat.abs_of_nonneg hd0]
      have hY1 : Y ≤ ((1 : Nat) : ℚ) := by
        rw [hY]; refine round_le_nat hm0 (by norm_num) ?_
        rw [Nat.cast_one, hmd, hd, hsg1]; linarith
      rw [Nat.cast_one] at hY1
      have hV1 : V ≤ ((100 : Nat) : ℚ) := by
        rw [hV]; refine round_le_nat hw0 (by norm_num) ?_
        have : ((100 : Nat) : ℚ) = 100 := by norm_num
        rw [this]; linarith
      have hV1' : V ≤ 100 := by simpa using hV1
      have hnn : nearest (V * 100) ≤ 10000 := nearest_le_int (by
        have : (((10000 : Int)) : ℚ) = 10000 := by norm_num
        rw [this]; linarith)
      have hnb : n ≤ 10000 := by omega
      have hnq : (n : ℚ) ≤ 10000 := by exact_mod_cast hnb
      have hnq0 : (0 : ℚ) ≤ n := Nat.cast_nonneg n
      have hneg : decide (d < 0) = false := decide_eq_false (not_lt.mpr hd0)
      rw [hneg]
      refine ⟨?_, ?_, ?_⟩
      · show 0 ≤ (1 : ℚ) * ((n : ℚ) / 100); linarith
      · show (1 : ℚ) * ((n : ℚ) / 100) ≤ 100; linarith
      · exact hundredths_plain n
end Atop.Src
