import Verif.Source.Floats
/-!
# How far rounding can go
-/

namespace Atop.Src.Dbl

theorem two_pos (k : Int) : (0 : Rat) < 2 ^ k := Rat.zpow_pos (by decide)

theorem two_add (a b : Int) : (2 : Rat) ^ (a + b) = 2 ^ a * 2 ^ b := Rat.zpow_add (by decide) a b

theorem two_nat (n : Nat) : (2 : Rat) ^ (n : Int) = ((2 ^ n : Nat) : Rat) := by
  rw [Rat.zpow_natCast, Rat.natCast_pow]; rfl

theorem two_one_le (n : Nat) : (1 : Rat) ≤ 2 ^ (n : Int) := by
  rw [two_nat]
  have : ((1 : Nat) : Rat) ≤ ((2 ^ n : Nat) : Rat) := Rat.natCast_le_natCast.mpr Nat.one_le_two_pow
  exact this

theorem two_mono {a b : Int} (h : a ≤ b) : (2 : Rat) ^ a ≤ 2 ^ b := by
  obtain ⟨n, hn⟩ := Int.eq_ofNat_of_zero_le (Int.sub_nonneg.mpr h)
  have e : b = a + n := by omega
  rw [e, two_add]
  have := Rat.mul_le_mul_of_nonneg_left (two_one_le n) (Rat.le_of_lt (two_pos a))
  rw [Rat.mul_one] at this
  exact this

theorem two_lt {a b : Int} (h : (2 : Rat) ^ a ≤ 2 ^ b) : a ≤ b := by
  by_cases hab : a ≤ b
  · exact hab
  · have h1 : (2 : Rat) ^ (b + 1) ≤ 2 ^ a := two_mono (by omega)
    rw [two_add, Rat.zpow_one] at h1
    have := two_pos b
    grind

/-! ## `nearest` -/

theorem nearest_ge (q : Rat) : q - 1 / 2 ≤ nearest q := by
  unfold nearest
  have h1 := Rat.floor_le q
  have h2 := Rat.lt_floor_add_one q
  split
  · grind
  · split
    · rw [Rat.intCast_add]; grind
    · split
      · grind
      · rw [Rat.intCast_add]; grind

theorem nearest_le (q : Rat) : (nearest q : Rat) ≤ q + 1 / 2 := by
  unfold nearest
  have h1 := Rat.floor_le q
  split
  · grind
  · split
    · rw [Rat.intCast_add]; grind
    · split
      · grind
      · rw [Rat.intCast_add]; grind

theorem nearest_nonneg {q : Rat} (h : 0 ≤ q) : 0 ≤ nearest q := by
  have : (0 : Int) ≤ q.floor := Rat.le_floor_iff.mpr h
  unfold nearest
  split
  · exact this
  · split
    · omega
    · split <;> omega

/-- An integer that is not exceeded is not exceeded after rounding. -/
theorem nearest_le_int {q : Rat} {k : Int} (h : q ≤ k) : nearest q ≤ k := by
  have h1 := nearest_le q
  have h2 : (nearest q : Rat) ≤ k + 1 / 2 := by grind
  have h3 : (nearest q : Rat) < ((k + 1 : Int) : Rat) := by rw [Rat.intCast_add]; grind
  have := Rat.intCast_lt_intCast.mp h3
  omega

/-! ## `exponent` -/

theorem rat_eq {q : Rat} (h : 0 ≤ q) : q = (q.num.toNat : Rat) / (q.den : Rat) := by
  have h0 : (0 : Int) ≤ q.num := Rat.num_nonneg.mpr h
  have e : ((q.num.toNat : Nat) : Rat) = (q.num : Rat) := by
    rw [← Rat.intCast_natCast, Int.toNat_of_nonneg h0]
  rw [e]
  have h1 := Rat.divInt_eq_div q.num q.den
  rw [Rat.num_divInt_den] at h1
  rw [Rat.intCast_natCast] at h1
  exact h1

theorem exponent_le {q : Rat} (h : 0 < q) : (2 : Rat) ^ exponent q ≤ q := by
  unfold exponent
  dsimp only
  split
  · -- below 2 ^ (log2 num - log2 den)
    have hn : q.num.toNat ≠ 0 := by
      intro hz
      have := rat_eq (Rat.le_of_lt h)
      rw [hz, Rat.div_def, show ((0 : Nat) : Rat) = 0 from rfl, Rat.zero_mul] at this
      rw [this] at h
      exact absurd h (by decide)
    have h1 : 2 ^ q.num.toNat.log2 ≤ q.num.toNat := Nat.log2_self_le hn
    have h2 : q.den < 2 ^ (q.den.log2 + 1) := Nat.lt_log2_self
    have hd : (0 : Rat) < q.den := Rat.natCast_pos.mpr (Rat.den_pos q)
    refine Rat.le_of_lt ?_
    conv => rhs; rw [rat_eq (Rat.le_of_lt h)]
    rw [Rat.lt_div_iff hd]
    have e : (2 : Rat) ^ ((q.num.toNat.log2 : Int) - q.den.log2 - 1) * 2 ^ ((q.den.log2 + 1 : Nat) : Int) = 2 ^ (q.num.toNat.log2 : Int) := by
      rw [← two_add]; congr 1; omega
    have a1 : ((q.den : Nat) : Rat) < 2 ^ ((q.den.log2 + 1 : Nat) : Int) := by
      rw [two_nat]; exact Rat.natCast_lt_natCast.mpr h2
    have a2 : (2 : Rat) ^ (q.num.toNat.log2 : Int) ≤ (q.num.toNat : Rat) := by
      rw [two_nat]; exact Rat.natCast_le_natCast.mpr h1
    have a3 := Rat.mul_lt_mul_of_pos_left a1 (two_pos ((q.num.toNat.log2 : Int) - q.den.log2 - 1))
    rw [e] at a3
    exact Std.lt_of_lt_of_le a3 a2
  · rename_i hh
    exact Rat.not_lt.mp hh

/-- The other half of what `exponent` is. -/
theorem lt_exponent {q : Rat} (h : 0 < q) : q < (2 : Rat) ^ (exponent q + 1) := by
  unfold exponent
  dsimp only
  split
  · rename_i hh
    rw [Int.sub_add_cancel]
    exact hh
  · have h1 : q.num.toNat < 2 ^ (q.num.toNat.log2 + 1) := Nat.lt_log2_self
    have h2 : 2 ^ q.den.log2 ≤ q.den := Nat.log2_self_le (Rat.den_nz q)
    have hd : (0 : Rat) < q.den := Rat.natCast_pos.mpr (Rat.den_pos q)
    conv => lhs; rw [rat_eq (Rat.le_of_lt h)]
    rw [Rat.div_lt_iff hd]
    have e : (2 : Rat) ^ ((q.num.toNat.log2 : Int) - q.den.log2 + 1) * 2 ^ (q.den.log2 : Int) = 2 ^ ((q.num.toNat.log2 + 1 : Nat) : Int) := by
      rw [← two_add]; congr 1; omega
    have a1 : (q.num.toNat : Rat) < 2 ^ ((q.num.toNat.log2 + 1 : Nat) : Int) := by
      rw [two_nat]; exact Rat.natCast_lt_natCast.mpr h1
    have a2 : (2 : Rat) ^ (q.den.log2 : Int) ≤ (q.den : Rat) := by
      rw [two_nat]; exact Rat.natCast_le_natCast.mpr h2
    have a3 := Rat.mul_le_mul_of_nonneg_left a2 (Rat.le_of_lt (two_pos ((q.num.toNat.log2 : Int) - q.den.log2 + 1)))
    rw [e] at a3
    exact Std.lt_of_lt_of_le a1 a3

/-! ## `round` -/

theorem ulp_pos (q : Rat) : 0 < ulp q := two_pos _

theorem ulp_half {q : Rat} (h : 0 < q) : ulp q ≤ 2 * (q * 2 ^ (-53 : Int) + 2 ^ (-1075 : Int)) := by
  have h1 := exponent_le h
  have h2 : ulp q ≤ 2 ^ (exponent q - 52) + 2 ^ (-1074 : Int) := by
    unfold ulp
    have p1 := two_pos (exponent q - 52)
    have p2 := two_pos (-1074)
    rcases Int.le_total (exponent q) (-1022) with hh | hh
    · rw [Int.max_eq_right hh]
      show (2 : Rat) ^ (-1074 : Int) ≤ _
      grind
    · rw [Int.max_eq_left hh]
      grind
  have e1 : (2 : Rat) ^ (exponent q - 52) = 2 * (2 ^ exponent q * 2 ^ (-53 : Int)) := by
    rw [← two_add, show exponent q - 52 = (exponent q + -53) + 1 by omega, two_add (exponent q + -53) 1, Rat.zpow_one, Rat.mul_comm]
  have e2 : (2 : Rat) ^ (-1074 : Int) = 2 * 2 ^ (-1075 : Int) := by
    rw [show (-1074 : Int) = -1075 + 1 by omega, two_add, Rat.zpow_one, Rat.mul_comm]
  have h3 := Rat.mul_le_mul_of_nonneg_right h1 (Rat.le_of_lt (two_pos (-53)))
  rw [e1, e2] at h2
  generalize (2 : Rat) ^ (-1075 : Int) = x at *
  generalize (2 : Rat) ^ exponent q * 2 ^ (-53 : Int) = y at *
  generalize q * 2 ^ (-53 : Int) = z at *
  grind

theorem round_nonneg {q : Rat} (h : 0 ≤ q) : 0 ≤ round q := by
  unfold round
  split
  · exact Rat.le_refl
  · refine Rat.mul_nonneg ?_ (Rat.le_of_lt (ulp_pos q))
    have hq : 0 ≤ q / ulp q := by
      rw [Rat.div_def]
      exact Rat.mul_nonneg h (Rat.le_of_lt (Rat.inv_pos.mpr (ulp_pos q)))
    exact Rat.intCast_nonneg.mpr (nearest_nonneg hq)

/-- Rounding moves a number by at most half the distance of the numbers there. -/
theorem round_err {q : Rat} (h : 0 ≤ q) : round q ≤ q + (q * 2 ^ (-53 : Int) + 2 ^ (-1075 : Int)) ∧
    q ≤ round q + (q * 2 ^ (-53 : Int) + 2 ^ (-1075 : Int)) := by
  by_cases hz : q = 0
  · subst hz
    rw [Rat.zero_mul]
    have := two_pos (-1075)
    unfold round
    rw [if_pos rfl]
    constructor <;> grind
  · have hp : 0 < q := Rat.lt_of_le_of_ne h (Ne.symm hz)
    have hu := ulp_half hp
    unfold round
    rw [if_neg hz]
    have hc : q / ulp q * ulp q = q := Rat.div_mul_cancel (Rat.ne_of_gt (ulp_pos q))
    have a1 := Rat.mul_le_mul_of_nonneg_right (nearest_le (q / ulp q)) (Rat.le_of_lt (ulp_pos q))
    have a2 := Rat.mul_le_mul_of_nonneg_right (nearest_ge (q / ulp q)) (Rat.le_of_lt (ulp_pos q))
    rw [Rat.add_mul, hc] at a1
    rw [Rat.sub_eq_add_neg, Rat.add_mul, hc] at a2
    generalize (nearest (q / ulp q) : Rat) * ulp q = y at *
    generalize q * 2 ^ (-53 : Int) + 2 ^ (-1075 : Int) = b at *
    constructor <;> grind

/-- A natural number of at most 53 bits that is not exceeded is not exceeded after rounding. -/
theorem round_le_nat {q : Rat} (h : 0 ≤ q) {N : Nat} (hN : N ≤ 2 ^ 52) (hq : q ≤ N) : round q ≤ N := by
  by_cases hz : q = 0
  · unfold round
    rw [if_pos hz]
    exact Rat.natCast_nonneg
  · have hp : 0 < q := Rat.lt_of_le_of_ne h (Ne.symm hz)
    have he : exponent q ≤ 52 := by
      refine two_lt (Std.le_trans (exponent_le hp) (Std.le_trans hq ?_))
      rw [show (52 : Int) = ((52 : Nat) : Int) from rfl, two_nat]
      exact Rat.natCast_le_natCast.mpr hN
    -- the distance is 2 ^ -k
    obtain ⟨k, hk⟩ : ∃ k : Nat, max (exponent q) (-1022) - 52 = -(k : Int) := by
      refine ⟨(52 - max (exponent q) (-1022)).toNat, ?_⟩
      omega
    have hu : ulp q * 2 ^ (k : Int) = 1 := by
      unfold ulp
      rw [hk, ← two_add, Int.add_left_neg, Rat.zpow_zero]
    have hle : q / ulp q ≤ ((N * 2 ^ k : Nat) : Int) := by
      rw [Rat.intCast_natCast, Rat.natCast_mul, ← two_nat]
      have hinv : (ulp q)⁻¹ = 2 ^ (k : Int) := Rat.inv_eq_of_mul_eq_one hu
      rw [Rat.div_def, hinv]
      exact Rat.mul_le_mul_of_nonneg_right hq (Rat.le_of_lt (two_pos _))
    have := nearest_le_int hle
    have h2 : (nearest (q / ulp q) : Rat) ≤ (((N * 2 ^ k : Nat) : Int) : Rat) := Rat.intCast_le_intCast.mpr this
    unfold round
    rw [if_neg hz]
    refine Std.le_trans (Rat.mul_le_mul_of_nonneg_right h2 (Rat.le_of_lt (ulp_pos q))) ?_
    rw [Rat.intCast_natCast, Rat.natCast_mul, ← two_nat, Rat.mul_assoc, Rat.mul_comm (2 ^ (k : Int)), hu, Rat.mul_one]
    exact Rat.le_refl

end Atop.Src.Dbl
