import Verif.Spec.Repr
import Verif.Proofs.FloatRepr
import Verif.Spec.Printed
namespace Atop
open Spec

/-! ## What reads back lies in the interval -/

theorem near_of_readsAs {M E : ℤ} {g : ℚ} (hg : g = if M = 2 ^ 52 then 2 ^ (E - 1) else 2 ^ E) (hM : 2 ^ 52 ≤ M)
    (hM' : M < 2 ^ 53) (hE : -1074 < E) {q : ℚ} (h : ReadsAs q ((M : ℚ) * 2 ^ E)) :
    (M : ℚ) * 2 ^ E - g / 2 ≤ q ∧ q ≤ (M : ℚ) * 2 ^ E + 2 ^ E / 2 := by
  have h2 : (2:ℚ) ≠ 0 := by norm_num
  have hp : (0:ℚ) < 2 ^ E := by positivity
  have hE1 : (2:ℚ) ^ E = 2 * 2 ^ (E - 1) := by
    rw [show E = (E - 1) + 1 by omega, zpow_add₀ h2]; simp; ring
  have h0 : 0 < g := by rw [hg]; split <;> positivity
  have up : IsDouble ((M : ℚ) * 2 ^ E + 2 ^ E) := by
    by_cases hm : M + 1 = 2 ^ 53
    · refine ⟨2 ^ 52, E + 1, by norm_num, by omega, ?_⟩
      have : (M : ℚ) = 2 ^ 53 - 1 := by
        have : M = 2 ^ 53 - 1 := by omega
        rw [this]; norm_num
      rw [this, zpow_add₀ h2, zpow_one]; push_cast; ring
    · exact ⟨M + 1, E, abs_lt.mpr ⟨by omega, by omega⟩, by omega, by push_cast; ring⟩
  have down : IsDouble ((M : ℚ) * 2 ^ E - g) := by
    by_cases hm : M = 2 ^ 52
    · refine ⟨2 ^ 53 - 1, E - 1, by norm_num, by omega, ?_⟩
      rw [hg, if_pos hm, hE1, hm]; push_cast; ring
    · exact ⟨M - 1, E, abs_lt.mpr ⟨by omega, by omega⟩, by omega, by rw [hg, if_neg hm]; push_cast; ring⟩
  have a := h.2 _ up (by intro hc; linarith)
  have b := h.2 _ down (by intro hc; linarith)
  have a' := a.elim le_of_lt (fun h => h.1.le)
  have b' := b.elim le_of_lt (fun h => h.1.le)
  clear a b
  constructor
  · by_contra hc
    push Not at hc
    rw [abs_of_nonpos (a := q - (M : ℚ) * 2 ^ E) (by linarith), le_abs] at b'
    rcases b' with b' | b' <;> linarith
  · by_contra hc
    push Not at hc
    rw [abs_of_nonneg (a := q - (M : ℚ) * 2 ^ E) (by linarith), le_abs] at a'
    rcases a' with a' | a' <;> linarith

/-! ## The choice among decimals, over the rationals -/

theorem hasDigits_pos {d k : Nat} (h : HasDigits d k) : 0 < k ∧ 0 < d := by
  obtain ⟨h1, h2⟩ := h
  constructor
  · rcases Nat.eq_zero_or_pos k with rfl | h
    · simp at h1 h2; omega
    · exact h
  · rcases Nat.eq_zero_or_pos d with rfl | h
    · have : 0 < 10 ^ k := by positivity
      omega
    · exact h

theorem hasDigits_decade {d k : Nat} (h : HasDigits d k) (j : ℤ) :
    (10:ℚ) ^ (j + k - 1) ≤ d * (10:ℚ) ^ j ∧ (d : ℚ) * 10 ^ j < 10 ^ (j + k) := by
  obtain ⟨h1, h2⟩ := h
  have hp : (0:ℚ) < 10 ^ j := by positivity
  have h1' : (10:ℚ) ^ k ≤ 10 * d := by exact_mod_cast h1
  have h2' : (d:ℚ) < 10 ^ k := by exact_mod_cast h2
  have e : (10:ℚ) ^ (j + k) = 10 ^ j * 10 ^ k := by rw [zpow_add₀ (by norm_num), zpow_natCast]
  have e1 : (10:ℚ) ^ (j + k - 1) = 10 ^ j * 10 ^ k / 10 := by rw [zpow_sub₀ (by norm_num), e, zpow_one]
  rw [e, e1]
  constructor <;> nlinarith

theorem pow10_lt {a b : ℤ} (h : (10:ℚ) ^ a < 10 ^ b) : a < b := (zpow_lt_zpow_iff_right₀ (by norm_num)).mp h

theorem pow10_le {a b : ℤ} (h : a ≤ b) : (10:ℚ) ^ a ≤ 10 ^ b := zpow_le_zpow_right₀ (by norm_num) h

/-- The decade of a decimal tells its exponent. -/
theorem decade_unique {q : ℚ} {a b : ℤ} (ha : (10:ℚ) ^ (a - 1) ≤ q) (ha' : q < 10 ^ a) (hb : (10:ℚ) ^ (b - 1) ≤ q)
    (hb' : q < 10 ^ b) : a = b := by
  have h1 := pow10_lt (lt_of_le_of_lt ha hb')
  have h2 := pow10_lt (lt_of_le_of_lt hb ha')
  omega

/-- Multiples of the same power of ten that are less than it apart are equal. -/
theorem multiples_eq {a b : ℕ} {i j c : ℤ} (hi : c ≤ i) (hj : c ≤ j)
    (h : |(a:ℚ) * 10 ^ i - b * 10 ^ j| < 10 ^ c) : (a:ℚ) * 10 ^ i = b * 10 ^ j := by
  obtain ⟨n, rfl⟩ : ∃ n : ℕ, i = n + c := ⟨(i - c).toNat, by omega⟩
  obtain ⟨m, rfl⟩ : ∃ m : ℕ, j = m + c := ⟨(j - c).toNat, by omega⟩
  have hp : (0:ℚ) < 10 ^ c := by positivity
  rw [zpow_add₀ (by norm_num), zpow_add₀ (by norm_num), zpow_natCast, zpow_natCast] at h ⊢
  have e : (a:ℚ) * (10 ^ n * 10 ^ c) - b * (10 ^ m * 10 ^ c) = ((a * 10 ^ n : ℤ) - (b * 10 ^ m : ℤ) : ℤ) * 10 ^ c := by
    push_cast; ring
  rw [e, abs_mul, abs_of_pos hp] at h
  have h1 : |(((a * 10 ^ n : ℤ) - (b * 10 ^ m : ℤ) : ℤ) : ℚ)| < 1 := by
    by_contra hc
    push Not at hc
    nlinarith
  have h2 : |(a * 10 ^ n : ℤ) - (b * 10 ^ m : ℤ)| < 1 := by exact_mod_cast h1
  have h3 : (a * 10 ^ n : ℤ) - (b * 10 ^ m : ℤ) = 0 := Int.abs_lt_one_iff.mp h2
  rw [h3] at e
  simp only [Int.cast_zero, zero_mul] at e
  linarith

/-- What the search found: `J` is the highest level (below the first digit) with a multiple of `10 ^ J` in the
interval, and `d` is the neighbour of `x` chosen there. -/
structure Found10 (x lo hi : ℚ) (P J : ℤ) (d0 d : ℕ) : Prop where
  dec1 : (10:ℚ) ^ (P - 1) ≤ x
  dec2 : x < 10 ^ P
  lox : lo ≤ x
  xhi : x ≤ hi
  width : hi - lo < 10 ^ (P - 2)
  level : J ≤ P - 1
  below : (d0 : ℚ) * 10 ^ J ≤ x
  above : x < (d0 + 1) * 10 ^ J
  none_above : ∀ (i : ℤ) (n : ℕ), J < i → i ≤ P - 1 → lo ≤ (n:ℚ) * 10 ^ i → (n:ℚ) * 10 ^ i ≤ hi → False
  inlo : lo ≤ (d:ℚ) * 10 ^ J
  inhi : (d:ℚ) * 10 ^ J ≤ hi
  choice : (d = d0 ∧ ((d0 + 1 : ℚ) * 10 ^ J ≤ hi →
      2 * (x - d0 * 10 ^ J) < 10 ^ J ∨ (2 * (x - d0 * 10 ^ J) = 10 ^ J ∧ d0 % 2 = 0))) ∨
    (d = d0 + 1 ∧ (lo ≤ (d0 : ℚ) * 10 ^ J →
      10 ^ J < 2 * (x - d0 * 10 ^ J) ∨ (2 * (x - d0 * 10 ^ J) = 10 ^ J ∧ d0 % 2 = 1)))

variable {x lo hi : ℚ} {P J : ℤ} {d0 d : ℕ}

/-- The chosen decimal has at most as many digits as the level. -/
theorem Found10.le_pow (F : Found10 x lo hi P J d0 d) : d0 < 10 ^ (P - J).toNat ∧ d ≤ 10 ^ (P - J).toNat := by
  have hp : (0:ℚ) < 10 ^ J := by positivity
  have e : (10:ℚ) ^ P = ((10 ^ (P - J).toNat : ℕ) : ℚ) * 10 ^ J := by
    have h := F.level
    rw [show P = ((P - J).toNat : ℤ) + J by omega, zpow_add₀ (by norm_num), zpow_natCast]
    push_cast
    congr 3
    omega
  have h1 : (d0 : ℚ) * 10 ^ J < ((10 ^ (P - J).toNat : ℕ) : ℚ) * 10 ^ J := by
    rw [← e]; exact lt_of_le_of_lt F.below F.dec2
  have h2 : (d0 : ℚ) < ((10 ^ (P - J).toNat : ℕ) : ℚ) := lt_of_mul_lt_mul_right h1 hp.le
  have h3 : d0 < 10 ^ (P - J).toNat := by exact_mod_cast h2
  refine ⟨h3, ?_⟩
  rcases F.choice with ⟨h, -⟩ | ⟨h, -⟩ <;> omega

/-- Every decimal in the interval has at least as many digits as the level. -/
theorem Found10.digits_le (F : Found10 x lo hi P J d0 d) {d' k' : ℕ} {j' : ℤ} (hd : HasDigits d' k')
    (hlo : lo ≤ d' * (10:ℚ) ^ j') (hhi : d' * (10:ℚ) ^ j' ≤ hi) : P - J ≤ k' := by
  have hk := (hasDigits_pos hd).1
  obtain ⟨g1, g2⟩ := hasDigits_decade hd j'
  by_cases h1 : (10:ℚ) ^ P ≤ d' * (10:ℚ) ^ j'
  · by_contra hc
    refine F.none_above (P - 1) 10 (by omega) le_rfl ?_ ?_
    · have : ((10:ℕ):ℚ) * 10 ^ (P - 1) = 10 ^ P := by
        rw [zpow_sub₀ (by norm_num), zpow_one]; push_cast; field_simp
      rw [this]; exact F.lox.trans F.dec2.le
    · have : ((10:ℕ):ℚ) * 10 ^ (P - 1) = 10 ^ P := by
        rw [zpow_sub₀ (by norm_num), zpow_one]; push_cast; field_simp
      rw [this]; exact h1.trans hhi
  · push Not at h1
    by_cases h2 : d' * (10:ℚ) ^ j' < 10 ^ (P - 1)
    · by_contra hc
      refine F.none_above (P - 1) 1 (by omega) le_rfl ?_ ?_
      · rw [Nat.cast_one, one_mul]; exact hlo.trans h2.le
      · rw [Nat.cast_one, one_mul]; exact F.dec1.trans F.xhi
    · push Not at h2
      have := decade_unique (a := j' + k') (b := P) g1 g2 h2 h1
      by_contra hc
      exact F.none_above j' d' (by omega) (by omega) hlo hhi

theorem pow10_strip {s z n : ℕ} (h : s * 10 ^ z = 10 ^ n) (hs : s % 10 ≠ 0) : s = 1 := by
  rcases Nat.lt_or_ge z n with hz | hz
  · exfalso
    obtain ⟨m, rfl⟩ : ∃ m, n = m + 1 + z := ⟨n - z - 1, by omega⟩
    rw [pow_add] at h
    have := Nat.eq_of_mul_eq_mul_right (by positivity) h
    rw [pow_succ] at this
    omega
  · obtain ⟨m, rfl⟩ : ∃ m, z = n + m := ⟨z - n, by omega⟩
    rw [pow_add, mul_left_comm] at h
    have h2 : 10 ^ n * (s * 10 ^ m) = 10 ^ n * 1 := by rw [h, mul_one]
    have := Nat.eq_of_mul_eq_mul_left (by positivity) h2
    exact Nat.eq_one_of_mul_eq_one_right this

/-- The decimal found, without trailing zeros, beats every other decimal in the interval. -/
theorem Found10.best (F : Found10 x lo hi P J d0 d) {s k z : ℕ} (hs : HasDigits s k) (hz : s * 10 ^ z = d)
    (hs10 : s % 10 ≠ 0) {d' k' : ℕ} {j' : ℤ} (hd : HasDigits d' k')
    (hlo : lo ≤ d' * (10:ℚ) ^ j') (hhi : d' * (10:ℚ) ^ j' ≤ hi) :
    k ≤ k' ∧ (k' = k → d' * (10 : ℚ) ^ j' = d * 10 ^ J ∨ |d * 10 ^ J - x| < |d' * (10 : ℚ) ^ j' - x| ∨
        (|d * 10 ^ J - x| = |d' * (10 : ℚ) ^ j' - x| ∧ s % 2 = 0 ∧ d' % 2 = 1)) := by
  have hp : (0:ℚ) < 10 ^ J := by positivity
  have hlev := F.level
  obtain ⟨hd0, hdd⟩ := F.le_pow
  have h1 := F.digits_le hd hlo hhi
  obtain ⟨hk, hs0⟩ := hasDigits_pos hs
  have hsd : s ≤ d := by rw [← hz]; exact Nat.le_mul_of_pos_right _ (by positivity)
  obtain ⟨n, hn⟩ : ∃ n : ℕ, P - J = n := ⟨(P - J).toNat, by omega⟩
  rw [hn] at h1
  rw [hn, Int.toNat_natCast] at hd0 hdd
  have hn1 : 1 ≤ n := by omega
  -- the digits of `s`
  have hkn : k ≤ n := by
    rcases Nat.lt_or_ge d (10 ^ n) with h | h
    · by_contra hc
      have : 10 ^ (n + 1) ≤ 10 ^ k := Nat.pow_le_pow_right (by omega) (by omega)
      rw [pow_succ] at this
      have := hs.1
      omega
    · have hd10 : d = 10 ^ n := by omega
      rw [hd10] at hz
      have h4 := pow10_strip hz hs10
      subst h4
      by_contra hc
      have h3 : 10 ^ (1 + 1) ≤ 10 ^ k := Nat.pow_le_pow_right (by omega) (by omega)
      have := hs.1
      norm_num at h3
      omega
  refine ⟨by omega, fun hkk => ?_⟩
  have hkn' : k = n := by omega
  rcases Nat.lt_or_ge 1 n with hn2 | hn2
  swap
  · -- one digit
    left
    have hk1 : k = 1 := by omega
    have hk1' : k' = 1 := by omega
    have hgap : (10:ℚ) ^ (P - 1) = 10 * 10 ^ (P - 2) := by
      rw [show P - 1 = 1 + (P - 2) by ring, zpow_add₀ (by norm_num), zpow_one]
    have hw := F.width
    have hj' : P - 2 ≤ j' := by
      obtain ⟨-, g2⟩ := hasDigits_decade hd j'
      have : (10:ℚ) ^ (P - 2) < 10 ^ (j' + k') := by
        have := F.dec1; have := F.xhi
        have h0 : (0:ℚ) < 10 ^ (P - 2) := by positivity
        linarith
      have := pow10_lt this
      omega
    refine multiples_eq (c := P - 2) hj' (by omega) ?_
    have := F.inlo; have := F.inhi
    rw [abs_lt]; constructor <;> linarith
  · have nodec : ∀ c : ℕ, ¬ (lo ≤ (c:ℚ) * 10 ^ (P - 1) ∧ (c:ℚ) * 10 ^ (P - 1) ≤ hi) := fun c ⟨a, b⟩ =>
      F.none_above (P - 1) c (by omega) le_rfl a b
    have e10 : ((10:ℕ):ℚ) * 10 ^ (P - 1) = 10 ^ P := by
      rw [zpow_sub₀ (by norm_num), zpow_one]; push_cast; field_simp
    have hq1 : (10:ℚ) ^ (P - 1) ≤ d' * (10:ℚ) ^ j' := by
      by_contra hc
      push Not at hc
      refine nodec 1 ⟨?_, ?_⟩
      · rw [Nat.cast_one, one_mul]; exact hlo.trans hc.le
      · rw [Nat.cast_one, one_mul]; exact F.dec1.trans F.xhi
    have hq2 : d' * (10:ℚ) ^ j' < 10 ^ P := by
      by_contra hc
      push Not at hc
      refine nodec 10 ⟨?_, ?_⟩
      · rw [e10]; exact F.lox.trans F.dec2.le
      · rw [e10]; exact hc.trans hhi
    obtain ⟨g1, g2⟩ := hasDigits_decade hd j'
    have hj : j' = J := by
      have := decade_unique (a := j' + k') (b := P) g1 g2 hq1 hq2
      omega
    subst hj
    -- nothing was stripped
    have hdlt : d < 10 ^ n := by
      rcases Nat.lt_or_ge d (10 ^ n) with h | h
      · exact h
      · exfalso
        have hd10 : d = 10 ^ n := by omega
        have e : (d:ℚ) * 10 ^ j' = 10 ^ P := by
          rw [hd10, show P = n + j' by omega, zpow_add₀ (by norm_num), zpow_natCast]; push_cast; rfl
        have a := F.inlo
        have b := F.inhi
        rw [e, ← e10] at a b
        exact nodec 10 ⟨a, b⟩
    have hz0 : z = 0 := by
      by_contra hc
      obtain ⟨y, rfl⟩ : ∃ y, z = y + 1 := ⟨z - 1, by omega⟩
      have h5 := hs.1
      rw [hkn'] at h5
      have h6 : s * 10 ≤ d := by
        rw [← hz, pow_succ, ← mul_assoc, mul_right_comm]
        exact Nat.le_mul_of_pos_right _ (by positivity)
      omega
    subst hz0
    have hsd' : s = d := by simpa using hz
    subst hsd'
    have bl := F.below
    have ab := F.above
    rcases Nat.lt_or_ge d0 d' with hc | hc
    · -- the other one lies above
      have hc1 : (d0 : ℚ) + 1 ≤ d' := by exact_mod_cast hc
      have hge : (d0 + 1 : ℚ) * 10 ^ j' ≤ d' * 10 ^ j' := mul_le_mul_of_nonneg_right hc1 hp.le
      have habs : |d' * (10 : ℚ) ^ j' - x| = d' * (10 : ℚ) ^ j' - x := abs_of_nonneg (by linarith)
      rw [habs]
      rcases F.choice with ⟨e, hch⟩ | ⟨e, hch⟩
      · subst e
        right
        rw [abs_of_nonpos (by linarith)]
        rcases hch (hge.trans hhi) with h | ⟨h, h'⟩
        · left; linarith
        · rcases Nat.lt_or_ge (s + 1) d' with hc2 | hc2
          · left
            have hc3 : (s : ℚ) + 1 + 1 ≤ d' := by exact_mod_cast hc2
            have : (s + 1 + 1 : ℚ) * 10 ^ j' ≤ d' * 10 ^ j' := mul_le_mul_of_nonneg_right hc3 hp.le
            linarith
          · right
            have e2 : d' = s + 1 := by omega
            subst e2
            refine ⟨?_, h', by omega⟩
            push_cast
            linarith
      · subst e
        push_cast
        rw [abs_of_nonneg (by linarith)]
        rcases eq_or_lt_of_le hge with h | h
        · left; exact h.symm
        · right; left; linarith
    · -- the other one lies below
      have hc1 : (d' : ℚ) ≤ d0 := by exact_mod_cast hc
      have hge : (d' : ℚ) * 10 ^ j' ≤ d0 * 10 ^ j' := mul_le_mul_of_nonneg_right hc1 hp.le
      have habs : |d' * (10 : ℚ) ^ j' - x| = x - d' * (10 : ℚ) ^ j' := by
        rw [abs_of_nonpos (by linarith)]; ring
      rw [habs]
      rcases F.choice with ⟨e, hch⟩ | ⟨e, hch⟩
      · subst e
        rw [abs_of_nonpos (by linarith)]
        rcases eq_or_lt_of_le hge with h | h
        · left; exact h
        · right; left; linarith
      · subst e
        right
        push_cast
        rw [abs_of_nonneg (by linarith)]
        rcases hch (hlo.trans hge) with h | ⟨h, h'⟩
        · left; linarith
        · rcases Nat.lt_or_ge d' d0 with hc2 | hc2
          · left
            have hc3 : (d' : ℚ) + 1 ≤ d0 := by exact_mod_cast hc2
            have : (d' + 1 : ℚ) * 10 ^ j' ≤ d0 * 10 ^ j' := mul_le_mul_of_nonneg_right hc3 hp.le
            linarith
          · right
            have e2 : d' = d0 := by omega
            subst e2
            exact ⟨by linarith, by omega, h'⟩

/-! ## The search of the model -/

theorem firstDown_first (f : Nat → Option Nat) : ∀ (n j d i : Nat), firstDown f n j = some (d, i) →
    f i = some d ∧ i ≤ j ∧ (n ≤ j + 1 → j < i + n) ∧ ∀ i', i < i' → i' ≤ j → f i' = none
  | 0, _, _, _, h => by simp [firstDown] at h
  | n + 1, j, d, i, h => by
    rw [firstDown] at h
    cases hj : f j with
    | some d1 =>
      rw [hj] at h
      simp only [Option.some.injEq, Prod.mk.injEq] at h
      obtain ⟨rfl, rfl⟩ := h
      exact ⟨hj, le_rfl, by omega, fun i' h1 h2 => by omega⟩
    | none =>
      rw [hj] at h
      obtain ⟨h1, h2, h3, h4⟩ := firstDown_first f n (j - 1) d i h
      refine ⟨h1, by omega, by omega, fun i' a b => ?_⟩
      rcases Nat.lt_or_ge i' j with hc | hc
      · exact h4 i' a (by omega)
      · rw [show i' = j by omega]; exact hj

theorem pick_none {a b c : Bool} {d : Nat} (h : pick a b c d = none) : a = false ∧ b = false := by
  cases a <;> cases b <;> cases c <;> simp_all [pick]

theorem pick_choice {a b c : Bool} {d x : Nat} (h : pick a b c d = some x) :
    (x = d ∧ (b = true → c = true)) ∨ (x = d + 1 ∧ (a = true → c = false)) := by
  cases a <;> cases b <;> cases c <;> simp_all [pick]

theorem low_le (m e : Nat) : scaledLow m e ≤ scaledValue m e := Nat.sub_le _ _
theorem le_high (m e : Nat) : scaledValue m e ≤ scaledHigh m e := Nat.le_add_right _ _

theorem div_facts (V u : Nat) (hu : 0 < u) : V / u * u ≤ V ∧ V < (V / u + 1) * u :=
  ⟨Nat.div_mul_le_self V u, by rw [Nat.mul_comm]; exact Nat.lt_mul_div_succ V hu⟩

theorem unit_pos (j : Nat) : 0 < 2 ^ 204 * 10 ^ j := by positivity

theorem candidate_none {m e j : Nat} (h : candidate m e j = none) (n : Nat)
    (h1 : scaledLow m e ≤ scaledDecimal n j) (h2 : scaledDecimal n j ≤ scaledHigh m e) : False := by
  unfold candidate at h
  obtain ⟨ha, hb⟩ := pick_none h
  have hu := unit_pos j
  have hL := low_le m e
  have hH := le_high m e
  unfold readsBack scaledDecimal at *
  generalize 2 ^ 204 * 10 ^ j = u at *
  generalize scaledValue m e = V at *
  generalize scaledLow m e = L at *
  generalize scaledHigh m e = H at *
  obtain ⟨g1, g2⟩ := div_facts V u hu
  simp only [Bool.and_eq_false_iff, decide_eq_false_iff_not] at ha hb
  rcases Nat.lt_or_ge (V / u) n with hc | hc
  · have : (V / u + 1) * u ≤ n * u := Nat.mul_le_mul_right _ hc
    omega
  · have : n * u ≤ V / u * u := Nat.mul_le_mul_right _ hc
    omega

theorem candidate_choice {m e j d : Nat} (h : candidate m e j = some d) :
    ∃ d0, scaledDecimal d0 j ≤ scaledValue m e ∧ scaledValue m e < scaledDecimal (d0 + 1) j ∧
      ((d = d0 ∧ (scaledDecimal (d0 + 1) j ≤ scaledHigh m e →
          2 * scaledValue m e < 2 * scaledDecimal d0 j + scaledDecimal 1 j ∨
          (2 * scaledValue m e = 2 * scaledDecimal d0 j + scaledDecimal 1 j ∧ d0 % 2 = 0))) ∨
       (d = d0 + 1 ∧ (scaledLow m e ≤ scaledDecimal d0 j →
          2 * scaledDecimal d0 j + scaledDecimal 1 j < 2 * scaledValue m e ∨
          (2 * scaledValue m e = 2 * scaledDecimal d0 j + scaledDecimal 1 j ∧ d0 % 2 = 1)))) := by
  unfold candidate at h
  have hu := unit_pos j
  have hL := low_le m e
  have hH := le_high m e
  unfold readsBack scaledDecimal at *
  generalize 2 ^ 204 * 10 ^ j = u at *
  generalize scaledValue m e = V at *
  generalize scaledLow m e = L at *
  generalize scaledHigh m e = H at *
  obtain ⟨g1, g2⟩ := div_facts V u hu
  have g3 : V / u * u + V % u = V := by rw [Nat.mul_comm]; exact Nat.div_add_mod _ _
  refine ⟨V / u, g1, g2, ?_⟩
  rw [Nat.one_mul]
  have hh := pick_choice h
  simp only [Bool.and_eq_true, decide_eq_true_eq, decide_eq_false_iff_not] at hh
  generalize V / u = q at *
  generalize V % u = r at *
  rcases hh with ⟨e1, hc⟩ | ⟨e1, hc⟩
  · refine .inl ⟨e1, fun hx => ?_⟩
    rcases hc ⟨by omega, hx⟩ with a | ⟨a, b⟩
    · left; omega
    · right; omega
  · refine .inr ⟨e1, fun hx => ?_⟩
    have := hc ⟨hx, by omega⟩
    omega

theorem stripZeros_last : ∀ (n d z : Nat), 0 < d → d < 10 ^ (n + 1) → (stripZeros n d z).1 % 10 ≠ 0
  | 0, d, z, h, h' => by simp only [stripZeros]; norm_num at h'; omega
  | n + 1, d, z, h, h' => by
    rw [stripZeros]
    split
    · exact stripZeros_last n (d / 10) (z + 1) (by omega) (by rw [pow_succ] at h'; omega)
    · assumption

/-- The model's search, over the rationals. -/
theorem shortest_found {m e d j : Nat} (hm : 0 < m) (hm' : m < 2 ^ 24) (he : e ≤ 253)
    (h : shortest m e = some (d, j)) : ∃ P d0, P - (j - 70 : ℤ) ≤ 17 ∧
      Found10 ((m : ℚ) * 2 ^ ((e : ℤ) - 149)) (scaledLow m e / scale) (scaledHigh m e / scale) P (j - 70) d0 d := by
  obtain ⟨p, hp, h1, h2⟩ := decimalPoint_bounds hm hm' he
  unfold shortest at h
  rw [hp, show p + 18 - 1 = p + 17 by omega] at h
  obtain ⟨c1, c2, c3, c4⟩ := firstDown_first _ _ _ _ _ h
  have c3 := c3 (by omega)
  obtain ⟨d0, a1, a2, a3⟩ := candidate_choice c1
  have c5 := candidate_some c1
  unfold readsBack at c5
  simp only [Bool.and_eq_true, decide_eq_true_eq] at c5
  have hx : (m : ℚ) * 2 ^ ((e : ℤ) - 149) = scaledValue m e / scale := by
    rw [scaledValue_eq]; field_simp [scale_pos.ne']
  have hdec : ∀ n i : ℕ, (n : ℚ) * 10 ^ ((i : ℤ) - 70) = scaledDecimal n i / scale := fun n i => by
    rw [scaledDecimal_eq]; field_simp [scale_pos.ne']
  have hone : ∀ i : ℕ, (10:ℚ) ^ ((i : ℤ) - 70) = scaledDecimal 1 i / scale := fun i => by
    rw [← hdec, Nat.cast_one, one_mul]
  have hdiv : ∀ {a b : ℕ}, a ≤ b → (a : ℚ) / scale ≤ b / scale := fun h =>
    div_le_div_of_nonneg_right (by exact_mod_cast h) scale_pos.le
  have hdivlt : ∀ {a b : ℕ}, a < b → (a : ℚ) / scale < b / scale := fun h =>
    div_lt_div_of_pos_right (by exact_mod_cast h) scale_pos
  have hundiv : ∀ {a b : ℕ}, (a : ℚ) / scale ≤ b / scale → a ≤ b := fun h => by
    have := (div_le_div_iff_of_pos_right scale_pos).mp h
    exact_mod_cast this
  have hU : ∀ i, 2 ^ 204 * 10 ^ i = scaledDecimal 1 i := fun i => (Nat.one_mul _).symm
  rw [hU] at h1 h2
  refine ⟨((p + 18 : ℕ) : ℤ) - 70, d0, by push_cast; omega, ?_⟩
  constructor
  · rw [show ((p + 18 : ℕ) : ℤ) - 70 - 1 = ((p + 17 : ℕ) : ℤ) - 70 by push_cast; ring, hone, hx]; exact hdiv h1
  · rw [hone, hx]; exact hdivlt h2
  · rw [hx]; exact hdiv (low_le m e)
  · rw [hx]; exact hdiv (le_high m e)
  · rw [show ((p + 18 : ℕ) : ℤ) - 70 - 2 = ((p + 16 : ℕ) : ℤ) - 70 by push_cast; ring, hone]
    rw [← sub_div]
    refine div_lt_div_of_pos_right ?_ scale_pos
    have hw : scaledHigh m e < scaledLow m e + scaledDecimal 1 (p + 16) := by
      obtain ⟨q1, q2, -⟩ := quarter_bounds hm e
      rw [show 2 ^ 54 = 18014398509481984 by norm_num] at q1
      have h10 : scaledDecimal 1 (p + 18) = 100 * scaledDecimal 1 (p + 16) := by
        unfold scaledDecimal; rw [show p + 18 = p + 16 + 2 by omega, pow_add]; ring
      rw [h10] at h2
      have hq : 0 < scaledQuarter m e := by unfold scaledQuarter; positivity
      unfold scaledHigh scaledLow
      generalize scaledValue m e = V at *
      generalize scaledQuarter m e = Q at *
      split <;> omega
    have : ((scaledHigh m e : ℕ) : ℚ) < (scaledLow m e : ℕ) + (scaledDecimal 1 (p + 16) : ℕ) := by exact_mod_cast hw
    linarith
  · push_cast; omega
  · rw [hx, hdec]; exact hdiv a1
  · have : ((d0 : ℚ) + 1) = ((d0 + 1 : ℕ) : ℚ) := by push_cast; rfl
    rw [hx, this, hdec]; exact hdivlt a2
  · intro i n hi1 hi2 l1 l2
    obtain ⟨i', rfl⟩ : ∃ i' : ℕ, i = (i' : ℤ) - 70 := ⟨(i + 70).toNat, by omega⟩
    rw [hdec] at l1 l2
    exact candidate_none (c4 i' (by omega) (by omega)) n (hundiv l1) (hundiv l2)
  · rw [hdec]; exact hdiv c5.1
  · rw [hdec]; exact hdiv c5.2
  · have e1 : ((d0 : ℚ) + 1) = ((d0 + 1 : ℕ) : ℚ) := by push_cast; rfl
    have e2 : ∀ s : ℚ, 2 * ((m : ℚ) * 2 ^ ((e : ℤ) - 149) - d0 * 10 ^ ((j : ℤ) - 70)) - 10 ^ ((j : ℤ) - 70) =
        (2 * (scaledValue m e : ℚ) - (2 * scaledDecimal d0 j + scaledDecimal 1 j)) / scale := fun _ => by
      rw [hx, hdec, hone]; ring
    have e2 := e2 0
    rcases a3 with ⟨a, b⟩ | ⟨a, b⟩
    · refine .inl ⟨a, fun l => ?_⟩
      rw [e1, hdec] at l
      rcases b (hundiv l) with c | ⟨c, c'⟩
      · left
        have c : (2 * (scaledValue m e : ℚ)) < 2 * scaledDecimal d0 j + scaledDecimal 1 j := by exact_mod_cast c
        have : (2 * (scaledValue m e : ℚ) - (2 * scaledDecimal d0 j + scaledDecimal 1 j)) / scale < 0 :=
          div_neg_of_neg_of_pos (by linarith) scale_pos
        linarith
      · right
        have c : (2 * (scaledValue m e : ℚ)) = 2 * scaledDecimal d0 j + scaledDecimal 1 j := by exact_mod_cast c
        rw [c, sub_self, zero_div] at e2
        exact ⟨by linarith, c'⟩
    · refine .inr ⟨a, fun l => ?_⟩
      rw [hdec] at l
      rcases b (hundiv l) with c | ⟨c, c'⟩
      · left
        have c : 2 * (scaledDecimal d0 j : ℚ) + scaledDecimal 1 j < (2 * (scaledValue m e : ℚ)) := by exact_mod_cast c
        have : 0 < (2 * (scaledValue m e : ℚ) - (2 * scaledDecimal d0 j + scaledDecimal 1 j)) / scale :=
          div_pos (by linarith) scale_pos
        linarith
      · right
        have c : (2 * (scaledValue m e : ℚ)) = 2 * scaledDecimal d0 j + scaledDecimal 1 j := by exact_mod_cast c
        rw [c, sub_self, zero_div] at e2
        exact ⟨by linarith, c'⟩

/-! ## Digits -/

theorem digitsNat_lt {a : PyStr} (h : ∀ c ∈ a, isDigit c) : digitsNat a < 10 ^ a.length := by
  induction a using List.reverseRecOn with
  | nil => simp [digitsNat]
  | append_singleton b c ih =>
    have h1 := ih fun x hx => h x (by simp [hx])
    have h2 := h c (by simp)
    unfold isDigit at h2
    rw [digitsNat_snoc, List.length_append, List.length_singleton, pow_succ]
    omega

theorem digitsNat_inj : ∀ {a b : PyStr}, (∀ c ∈ a, isDigit c) → (∀ c ∈ b, isDigit c) → a.length = b.length →
    digitsNat a = digitsNat b → a = b := by
  intro a
  induction a using List.reverseRecOn with
  | nil => intro b _ _ h _; exact (List.length_eq_zero_iff.mp h.symm).symm
  | append_singleton a c ih =>
    intro b ha hb hl hd
    rcases List.eq_nil_or_concat b with rfl | ⟨b, c', rfl⟩
    · simp at hl
    · rw [List.concat_eq_append] at *
      rw [digitsNat_snoc, digitsNat_snoc] at hd
      have h1 := ha c (by simp)
      have h2 := hb c' (by simp)
      unfold isDigit at h1 h2
      have h3 := ih (b := b) (fun x hx => ha x (by simp [hx])) (fun x hx => hb x (by simp [hx])) (by simpa using hl) (by omega)
      rw [h3, show c = c' by omega]

/-- Digits without a leading zero tell their number how long it is. -/
theorem digitsNat_hasDigits {a : PyStr} (h : Digits a) (h0 : a.head? ≠ some 48) : HasDigits (digitsNat a) a.length := by
  refine ⟨?_, digitsNat_lt h.2⟩
  cases a with
  | nil => exact absurd rfl h.1
  | cons c t =>
    have h1 := h.2 c (by simp)
    unfold isDigit at h1
    have h2 : c ≠ 48 := by simpa using h0
    rw [show c :: t = [c] ++ t from rfl, digitsNat_append, List.length_append, List.length_singleton, pow_add]
    have : digitsNat [c] = c - 48 := by simp [digitsNat]
    rw [this]
    have : 1 * 10 ^ t.length ≤ (c - 48) * 10 ^ t.length := Nat.mul_le_mul_right _ (by omega)
    omega

theorem hasDigits_unique {d k k' : Nat} (h : HasDigits d k) (h' : HasDigits d k') : k = k' := by
  rcases Nat.lt_trichotomy k k' with hc | hc | hc
  · have : 10 ^ (k + 1) ≤ 10 ^ k' := Nat.pow_le_pow_right (by omega) hc
    rw [pow_succ] at this
    have := h.2; have := h'.1; omega
  · exact hc
  · have : 10 ^ (k' + 1) ≤ 10 ^ k := Nat.pow_le_pow_right (by omega) hc
    rw [pow_succ] at this
    have := h'.2; have := h.1; omega

/-- Digits without a needless leading zero are determined by their number. -/
theorem digitsNat_inj' {a b : PyStr} (ha : Digits a) (hb : Digits b) (ha0 : a.head? = some 48 → a.length = 1)
    (hb0 : b.head? = some 48 → b.length = 1) (h : digitsNat a = digitsNat b) : a = b := by
  have zero : ∀ {c : PyStr}, Digits c → (c.head? = some 48 → c.length = 1) → (c.head? = some 48 ↔ digitsNat c = 0) := by
    intro c hc hc0
    constructor
    · intro hh
      have hl := hc0 hh
      match c, hl with
      | [x], _ => simp at hh; subst hh; rfl
    · intro hz
      by_contra hh
      have := (hasDigits_pos (digitsNat_hasDigits hc hh)).2
      omega
  refine digitsNat_inj ha.2 hb.2 ?_ h
  by_cases hz : a.head? = some 48
  · have : b.head? = some 48 := (zero hb hb0).mpr (by rw [← h]; exact (zero ha ha0).mp hz)
    rw [ha0 hz, hb0 this]
  · have hz' : b.head? ≠ some 48 := fun hc => hz ((zero ha ha0).mpr (by rw [h]; exact (zero hb hb0).mp hc))
    exact hasDigits_unique (digitsNat_hasDigits ha hz) (by rw [h]; exact digitsNat_hasDigits hb hz')

theorem digitsNat_last {a : PyStr} (h : Digits a) : (a.getLast? = some 48 ↔ digitsNat a % 10 = 0) := by
  rcases List.eq_nil_or_concat a with rfl | ⟨b, c, rfl⟩
  · exact absurd rfl h.1
  · rw [List.concat_eq_append] at *
    have h1 := h.2 c (by simp)
    unfold isDigit at h1
    rw [digitsNat_snoc, List.getLast?_concat, Option.some.injEq]
    omega

theorem pyStrNat_hasDigits {d : Nat} (h : 0 < d) : HasDigits d (pyStrNat d).length := by
  have := digitsNat_hasDigits (pyStrNat_digits d) (fun hc => absurd (pyStrNat_head d hc) (by omega))
  rwa [digitsNat_pyStrNat] at this

/-! ## The literal printed -/

theorem readsAs_interval {m e : Nat} (hm : 0 < m) (hm' : m < 2 ^ 24) {q : ℚ}
    (h : ReadsAs q ((m : ℚ) * 2 ^ ((e : ℤ) - 149))) : scaledLow m e / scale ≤ q ∧ q ≤ scaledHigh m e / scale := by
  obtain ⟨M, E, hM, hM', hE, ev, -, eL, eH⟩ := interval_facts e hm hm'
  rw [ev] at h
  obtain ⟨a, b⟩ := near_of_readsAs rfl hM hM' hE h
  rw [eL, eH]
  rw [mul_div_cancel_right₀ _ scale_pos.ne', mul_div_cancel_right₀ _ scale_pos.ne']
  exact ⟨a, b⟩

/-- The digits the model prints form the best decimal. -/
theorem shortest_best {m e d j : Nat} (hm : 0 < m) (hm' : m < 2 ^ 24) (he : e ≤ 253)
    (h : shortest m e = some (d, j)) : (stripZeros 17 d 0).1 % 10 ≠ 0 ∧ 0 < (stripZeros 17 d 0).1 ∧
      BestDecimal ((stripZeros 17 d 0).1 * 10 ^ ((j : ℤ) + (stripZeros 17 d 0).2 - 70)) ((m : ℚ) * 2 ^ ((e : ℤ) - 149)) := by
  obtain ⟨P, d0, hP, F⟩ := shortest_found hm hm' he h
  obtain ⟨d1, j1, s1, s2, s3, s4⟩ := shortest_some hm hm' he
  rw [h] at s1
  injection s1 with s1
  injection s1 with e1 e2
  subst e1 e2
  obtain ⟨z1, z2⟩ := stripZeros_spec 17 d 0
  have hd17 : d ≤ 10 ^ 17 := F.le_pow.2.trans (Nat.pow_le_pow_right (by omega) (by omega))
  have hlast := stripZeros_last 17 d 0 s4 (by omega)
  have hpos := z2 s4
  have hread := shortest_reads hm hm' s2 s3
  generalize (stripZeros 17 d 0).1 = s at *
  generalize (stripZeros 17 d 0).2 = z at *
  rw [pow_zero, mul_one] at z1
  have e : (s : ℚ) * 10 ^ ((j : ℤ) + z - 70) = (d : ℚ) * 10 ^ ((j : ℤ) - 70) := by
    have : (s : ℚ) * 10 ^ z = d := by exact_mod_cast z1
    rw [← this, show (j : ℤ) + z - 70 = z + (j - 70) by ring, zpow_add₀ (by norm_num), zpow_natCast]
    ring
  refine ⟨hlast, hpos, s, _, _, pyStrNat_hasDigits hpos, rfl, by rw [e]; exact hread, fun d' k' j' hd hr => ?_⟩
  obtain ⟨a, b⟩ := readsAs_interval hm hm' hr
  rw [e]
  exact F.best (pyStrNat_hasDigits hpos) z1 hlast hd a b

/-- The laid out literal of digits without needless zeros has Python's shape. -/
theorem layoutShape_python {ds : PyStr} {decpt : Int} {n : Num} (h : Digits ds) (h0 : ds.head? ≠ some 48)
    (h9 : ds.getLast? ≠ some 48) (L : LayoutShape ds decpt n)
    (hv : |n.value| = (digitsNat ds : ℚ) * (10 : ℚ) ^ (decpt - ds.length)) : PythonShape n := by
  obtain ⟨g1, g2⟩ := hasDigits_decade (digitsNat_hasDigits h h0) (decpt - ds.length)
  rw [← hv, show decpt - ds.length + ds.length = decpt by ring] at g1 g2
  have hne : n.value ≠ 0 := by
    intro hc
    rw [hc, abs_zero] at g1
    have : (0:ℚ) < 10 ^ (decpt - 1) := by positivity
    linarith
  constructor
  · rw [L.positional]
    constructor
    · rintro ⟨a, b⟩
      right
      constructor
      · refine le_trans ?_ g1
        have : (1 / 10 ^ 4 : ℚ) = 10 ^ (-4 : ℤ) := by norm_num
        rw [this]; exact pow10_le (by omega)
      · refine lt_of_lt_of_le g2 ?_
        have : (10 ^ 16 : ℚ) = 10 ^ (16 : ℤ) := by norm_num
        rw [this]; exact pow10_le b
    · rintro (hc | ⟨a, b⟩)
      · exact absurd hc hne
      · have e4 : (1 / 10 ^ 4 : ℚ) = 10 ^ (-4 : ℤ) := by norm_num
        have e16 : (10 ^ 16 : ℚ) = 10 ^ (16 : ℤ) := by norm_num
        rw [e4] at a
        rw [e16] at b
        have h1 := pow10_lt (lt_of_le_of_lt a g2)
        have h2 := pow10_lt (lt_of_le_of_lt g1 b)
        omega
  · intro hc
    obtain ⟨f, hf, hh⟩ := L.point hc
    exact ⟨f, hf, hh.imp id fun hh => by rw [hh]; exact h9⟩
  · intro hc
    obtain ⟨a, b, c⟩ := L.mantissa hc
    refine ⟨a, ?_, fun f hf => by rw [c f hf]; exact h9⟩
    intro hi
    rw [hi] at b
    exact h0 b.symm
  · exact L.exponent

/-- The text of a finite float is the literal Python prints, and reads back as the float. -/
theorem floatRepr_spec {b : Nat} (hb : b / 2 ^ 23 % 256 ≠ 255) : ∃ n : Num, n.Valid ∧ floatRepr b = n.text ∧
    (n.frac ≠ none ∨ n.exp ≠ none) ∧ PythonFloat b n ∧ ReadsAs n.value (floatValue b) := by
  have hsign : (f32Neg b = true ↔ b / 2 ^ 31 % 2 = 1) := by unfold f32Neg; exact decide_eq_true_iff
  have habs : ∀ v : ℚ, 0 ≤ v → |(if b / 2 ^ 31 % 2 = 1 then -1 else 1) * v| = v := by
    intro v hv
    split
    · rw [neg_one_mul, abs_neg, abs_of_nonneg hv]
    · rw [one_mul, abs_of_nonneg hv]
  by_cases hm : f32Mant b = 0
  · have hv0 : floatValue b = 0 := by rw [floatValue_eq, hm]; simp
    rw [floatRepr_zero hm]
    have e1 : Num.value ⟨f32Neg b, [48], some [48], none⟩ = 0 := by simp [Num.value, digitsNat]
    refine ⟨⟨f32Neg b, [48], some [48], none⟩, ⟨?_, ?_, ?_, ?_⟩, ?_, .inl (by simp), ?_, ?_⟩
    · exact ⟨by simp, by simp [isDigit]⟩
    · simp
    · intro f hf; injection hf with hf; subst hf; exact ⟨by simp, by simp [isDigit]⟩
    · intro s d hd; cases hd
    · simp [Num.text]
    · refine ⟨hsign, ⟨⟨fun _ => .inl e1, fun _ => rfl⟩, fun _ => ⟨_, rfl, .inl rfl⟩, fun h => absurd rfl h,
        fun s xs h => by cases h⟩, fun _ => e1, fun h => absurd hv0 h⟩
    · rw [e1, hv0]
      exact readsAs_zero
  · have hm0 := Nat.pos_of_ne_zero hm
    obtain ⟨d, j, h1, h2, h3, h4⟩ := shortest_some hm0 (f32Mant_lt b) (f32Exp_le hb)
    rw [floatRepr_pos hm h1]
    obtain ⟨hlast, hpos, hbest⟩ := shortest_best hm0 (f32Mant_lt b) (f32Exp_le hb) h1
    generalize (stripZeros 17 d 0).1 = d' at *
    generalize (stripZeros 17 d 0).2 = z at *
    have hx0 : 0 < (f32Mant b : ℚ) * 2 ^ ((f32Exp b : ℤ) - 149) := by positivity
    have hv : |floatValue b| = (f32Mant b : ℚ) * 2 ^ ((f32Exp b : ℤ) - 149) := by
      rw [floatValue_eq]; exact habs _ hx0.le
    have h48 : (pyStrNat d').head? ≠ some 48 := fun h => absurd (pyStrNat_head d' h) (by omega)
    have h49 : (pyStrNat d').getLast? ≠ some 48 := fun h => by
      have := (digitsNat_last (pyStrNat_digits d')).mp h
      rw [digitsNat_pyStrNat] at this
      exact hlast this
    obtain ⟨n, v1, v2, v3, v4, v6, v5⟩ := layoutFloat_spec (pyStrNat_digits d') h48
      (((pyStrNat d').length : ℤ) + j + z - 70) (f32Neg b)
    have hq : (0:ℚ) ≤ (d' : ℚ) * 10 ^ ((j : ℤ) + z - 70) := by positivity
    have hif : (if f32Neg b = true then -1 else 1 : ℚ) = if b / 2 ^ 31 % 2 = 1 then -1 else 1 := by
      by_cases hs : b / 2 ^ 31 % 2 = 1
      · rw [if_pos hs, if_pos (hsign.mpr hs)]
      · rw [if_neg hs, if_neg (fun h => hs (hsign.mp h))]
    have hnv : n.value = (if b / 2 ^ 31 % 2 = 1 then -1 else 1) * ((d' : ℚ) * 10 ^ ((j : ℤ) + z - 70)) := by
      rw [v5, digitsNat_pyStrNat, show ((pyStrNat d').length : ℤ) + j + z - 70 - (pyStrNat d').length = (j : ℤ) + z - 70 by ring,
        mul_assoc, hif]
    have hna : |n.value| = (d' : ℚ) * 10 ^ ((j : ℤ) + z - 70) := by rw [hnv]; exact habs _ hq
    refine ⟨n, v1, v3, v4, ⟨by rw [v2]; exact hsign, ?_, ?_, ?_⟩, ?_⟩
    · refine layoutShape_python (pyStrNat_digits d') h48 h49 v6 ?_
      rw [hna, digitsNat_pyStrNat]
      congr 2; ring
    · intro h0
      rw [h0, abs_zero] at hv
      linarith
    · intro _
      rw [hna, hv]
      exact hbest
    · have hread : ReadsAs ((d' : ℚ) * 10 ^ ((j : ℤ) + z - 70)) ((f32Mant b : ℚ) * 2 ^ ((f32Exp b : ℤ) - 149)) := by
        obtain ⟨_, _, _, _, hqe, hr, _⟩ := hbest
        exact hr
      rw [hnv, floatValue_eq]
      split
      · rw [neg_one_mul, neg_one_mul]; exact readsAs_neg hread
      · rw [one_mul, one_mul]; exact hread

/-! ## Only one literal will do -/

/-- Two positive decimals that are both best are the same. -/
theorem best_unique {q q' x : ℚ} (h : BestDecimal q x) (h' : BestDecimal q' x) : q = q' := by
  obtain ⟨d, k, j, h1, h2, h3, h4⟩ := h
  obtain ⟨d', k', j', h1', h2', h3', h4'⟩ := h'
  have a := h4 d' k' j' h1' (by rw [← h2']; exact h3')
  have b := h4' d k j h1 (by rw [← h2]; exact h3)
  have hk : k' = k := by have := a.1; have := b.1; omega
  have a := a.2 hk
  have b := b.2 hk.symm
  rw [← h2'] at a
  rw [← h2] at b
  rcases a with a | a | ⟨a, a1, a2⟩
  · exact a.symm
  · rcases b with b | b | ⟨b, b1, b2⟩
    · exact b
    · linarith
    · linarith
  · rcases b with b | b | ⟨b, b1, b2⟩
    · exact b
    · linarith
    · omega

/-- Digits before and after the point that denote the same number, without needless zeros at the end. -/
theorem fraction_length {D D' : ℕ} {l l' : ℕ} (h : (D : ℚ) * 10 ^ (-(l : ℤ)) = D' * 10 ^ (-(l' : ℤ)))
    (h1 : l < l' → D' % 10 ≠ 0) (h2 : l' < l → D % 10 ≠ 0) : l = l' ∧ D = D' := by
  have key : D * 10 ^ l' = D' * 10 ^ l := by
    rw [zpow_neg, zpow_neg, zpow_natCast, zpow_natCast, ← div_eq_mul_inv, ← div_eq_mul_inv,
      div_eq_div_iff (by positivity) (by positivity)] at h
    exact_mod_cast h
  rcases Nat.lt_trichotomy l l' with hc | hc | hc
  · exfalso
    obtain ⟨c, rfl⟩ : ∃ c, l' = c + 1 + l := ⟨l' - l - 1, by omega⟩
    rw [pow_add, ← mul_assoc] at key
    have := Nat.eq_of_mul_eq_mul_right (by positivity) key
    rw [pow_succ, ← mul_assoc] at this
    have := h1 hc
    omega
  · subst hc
    exact ⟨rfl, Nat.eq_of_mul_eq_mul_right (by positivity) key⟩
  · exfalso
    obtain ⟨c, rfl⟩ : ∃ c, l = c + 1 + l' := ⟨l - l' - 1, by omega⟩
    rw [pow_add, ← mul_assoc] at key
    have := Nat.eq_of_mul_eq_mul_right (by positivity) key
    rw [pow_succ, ← mul_assoc] at this
    have := h2 hc
    omega

theorem digits_split {a b c d : PyStr} (ha : ∀ x ∈ a, isDigit x) (hb : ∀ x ∈ b, isDigit x) (hl : a.length = b.length)
    (h : digitsNat (c ++ a) = digitsNat (d ++ b)) : digitsNat c = digitsNat d ∧ a = b := by
  rw [digitsNat_append, digitsNat_append, ← hl] at h
  have h1 := digitsNat_lt ha
  have h2 := digitsNat_lt hb
  rw [← hl] at h2
  generalize 10 ^ a.length = T at *
  have e1 : (digitsNat c * T + digitsNat a) / T = digitsNat c := by
    rw [Nat.mul_comm, Nat.mul_add_div (by omega), Nat.div_eq_of_lt h1]; rfl
  have e2 : (digitsNat d * T + digitsNat b) / T = digitsNat d := by
    rw [Nat.mul_comm, Nat.mul_add_div (by omega), Nat.div_eq_of_lt h2]; rfl
  have e : digitsNat c = digitsNat d := by rw [← e1, ← e2, h]
  rw [e] at h
  exact ⟨e, digitsNat_inj ha hb hl (by omega)⟩

theorem last_append {a b : PyStr} (h : Digits b) (h' : b.getLast? ≠ some 48) : digitsNat (a ++ b) % 10 ≠ 0 := by
  intro hc
  apply h'
  rcases List.eq_nil_or_concat b with rfl | ⟨b, c, rfl⟩
  · exact absurd rfl h.1
  · rw [List.concat_eq_append] at *
    have h1 := h.2 c (by simp)
    unfold isDigit at h1
    rw [← List.append_assoc, digitsNat_snoc] at hc
    rw [List.getLast?_concat, Option.some.injEq]
    omega

theorem Num.abs_value (n : Num) : |n.value| = (digitsNat (n.int ++ n.frac.getD []) : ℚ) *
    (10 : ℚ) ^ (n.exponent - (n.frac.getD []).length) := by
  unfold Num.value
  rw [mul_assoc]
  split
  · rw [neg_one_mul, abs_neg, abs_of_nonneg (by positivity)]
  · rw [one_mul, abs_of_nonneg (by positivity)]

/-- Literals of Python's shape with the same sign and value are the same. -/
theorem shape_unique {n n' : Num} (hv : n.Valid) (hv' : n'.Valid) (s : PythonShape n) (s' : PythonShape n')
    (hneg : n.neg = n'.neg) (h : |n.value| = |n'.value|) : n = n' := by
  have hzero : n.value = 0 ↔ n'.value = 0 := by rw [← abs_eq_zero, h, abs_eq_zero]
  have hexp : n.exp = none ↔ n'.exp = none := by rw [s.positional, s'.positional, hzero, h]
  have hval := h
  rw [Num.abs_value, Num.abs_value] at hval
  obtain ⟨neg, int, frac, exp⟩ := n
  obtain ⟨neg', int', frac', exp'⟩ := n'
  dsimp only at hneg hexp hval
  subst hneg
  cases exp with
  | none =>
    obtain rfl := hexp.mp rfl
    obtain ⟨f, hf, hl⟩ := s.point rfl
    obtain ⟨f', hf', hl'⟩ := s'.point rfl
    dsimp only at hf hf'
    subst hf hf'
    have df := hv.frac f rfl
    have df' := hv'.frac f' rfl
    have lf : 1 ≤ f.length := List.length_pos_iff.mpr df.1
    have lf' : 1 ≤ f'.length := List.length_pos_iff.mpr df'.1
    simp only [Num.exponent, Option.getD_some, zero_sub] at hval
    obtain ⟨l, hD⟩ := fraction_length hval
      (fun hlt => last_append df' (hl'.resolve_left fun hc => by rw [hc] at hlt; simp at hlt; exact df.1 hlt))
      (fun hlt => last_append df (hl.resolve_left fun hc => by rw [hc] at hlt; simp at hlt; exact df'.1 hlt))
    obtain ⟨e1, rfl⟩ := digits_split df.2 df'.2 l hD
    obtain rfl := digitsNat_inj' hv.int hv'.int hv.noLeadingZero hv'.noLeadingZero e1
    rfl
  | some sx =>
    cases exp' with
    | none => exact absurd (hexp.mpr rfl) (by simp)
    | some sx' =>
      obtain ⟨sg, xs⟩ := sx
      obtain ⟨sg', xs'⟩ := sx'
      obtain ⟨m1, m2, m3⟩ := s.mantissa (by simp)
      obtain ⟨m1', m2', m3'⟩ := s'.mantissa (by simp)
      obtain ⟨x1, x2, x3, x4⟩ := s.exponent sg xs rfl
      obtain ⟨x1', x2', x3', x4'⟩ := s'.exponent sg' xs' rfl
      obtain ⟨dx, hsg⟩ := hv.exp sg xs rfl
      obtain ⟨dx', hsg'⟩ := hv'.exp sg' xs' rfl
      dsimp only at m1 m2 m3 m1' m2' m3'
      have hfr : ∀ {fr : Option PyStr}, (∀ f, fr = some f → Digits f) → ∀ c ∈ fr.getD [], isDigit c := by
        intro fr hfr c hc
        cases fr with
        | none => simp at hc
        | some f => exact (hfr f rfl).2 c hc
      have hd := hfr hv.frac
      have hd' := hfr hv'.frac
      -- leading digit nonzero: the decade gives the exponent
      have lead : ∀ {i fr : PyStr}, Digits i → i.length = 1 → i ≠ [48] → (∀ c ∈ fr, isDigit c) →
          HasDigits (digitsNat (i ++ fr)) (fr.length + 1) := by
        intro i fr hi hl hne hf
        have := digitsNat_hasDigits (a := i ++ fr) (digits_append hi hf) (by
          rw [List.head?_append_of_ne_nil _ hi.1]
          match i, hl with
          | [c], _ => simpa using hne)
        rwa [List.length_append, hl, Nat.add_comm] at this
      have L := hasDigits_decade (lead hv.int m1 m2 hd)
        ((Num.mk neg int frac (some (sg, xs))).exponent - (frac.getD []).length)
      have L' := hasDigits_decade (lead hv'.int m1' m2' hd')
        ((Num.mk neg int' frac' (some (sg', xs'))).exponent - (frac'.getD []).length)
      rw [hval] at L
      have hE := decade_unique L.1 L.2 L'.1 L'.2
      push_cast at hE
      have hE : (Num.mk neg int frac (some (sg, xs))).exponent = (Num.mk neg int' frac' (some (sg', xs'))).exponent := by
        linarith
      rw [hE] at hval
      have hval2 : (digitsNat (int ++ frac.getD []) : ℚ) * 10 ^ (-((frac.getD []).length : ℤ)) =
          digitsNat (int' ++ frac'.getD []) * 10 ^ (-((frac'.getD []).length : ℤ)) := by
        rw [sub_eq_add_neg, zpow_add₀ (by norm_num), sub_eq_add_neg, zpow_add₀ (by norm_num)] at hval
        have h0 : (10:ℚ) ^ (Num.mk neg int' frac' (some (sg', xs'))).exponent ≠ 0 := by positivity
        apply mul_left_cancel₀ h0
        linarith
      have nz : ∀ {i : PyStr} {fr : Option PyStr}, (∀ f, fr = some f → Digits f) →
          (∀ f, fr = some f → f.getLast? ≠ some 48) → 0 < (fr.getD []).length → digitsNat (i ++ fr.getD []) % 10 ≠ 0 := by
        intro i fr h1 h2 h3
        cases fr with
        | none => simp at h3
        | some f => exact last_append (h1 f rfl) (h2 f rfl)
      obtain ⟨l, hD⟩ := fraction_length hval2 (fun hlt => nz hv'.frac m3' (by omega)) (fun hlt => nz hv.frac m3 (by omega))
      obtain ⟨e1, e2⟩ := digits_split hd hd' l hD
      obtain rfl := digitsNat_inj' hv.int hv'.int hv.noLeadingZero hv'.noLeadingZero e1
      have hfrac : frac = frac' := by
        cases frac with
        | none =>
          cases frac' with
          | none => rfl
          | some f => exact absurd e2.symm (hv'.frac f rfl).1
        | some f =>
          cases frac' with
          | none => exact absurd e2 (hv.frac f rfl).1
          | some f' => exact congrArg some e2
      subst hfrac
      -- the exponent
      have hsgs : sg = sg' ∧ digitsNat xs = digitsNat xs' := by
        simp only [Num.exponent] at hE
        rcases hsg with rfl | rfl | rfl
        · exact absurd rfl x1
        · rcases hsg' with rfl | rfl | rfl
          · exact absurd rfl x1'
          · simp at hE; exact ⟨rfl, hE⟩
          · simp at hE; omega
        · rcases hsg' with rfl | rfl | rfl
          · exact absurd rfl x1'
          · simp at hE; omega
          · simp at hE; exact ⟨rfl, hE⟩
      obtain ⟨rfl, hx⟩ := hsgs
      have hlen : xs.length = xs'.length := by
        have big : ∀ {a : PyStr}, Digits a → 2 < a.length → (2 < a.length → a.head? ≠ some 48) →
            10 ^ (a.length) ≤ 10 * digitsNat a := fun h1 h2 h3 => (digitsNat_hasDigits h1 (h3 h2)).1
        have hlt := digitsNat_lt dx.2
        have hlt' := digitsNat_lt dx'.2
        rcases Nat.lt_trichotomy xs.length xs'.length with hc | hc | hc
        · exfalso
          have b := big dx' (by omega) x3'
          have : 10 ^ (xs.length + 1) ≤ 10 ^ xs'.length := Nat.pow_le_pow_right (by omega) hc
          rw [pow_succ] at this
          omega
        · exact hc
        · exfalso
          have b := big dx (by omega) x3
          have : 10 ^ (xs'.length + 1) ≤ 10 ^ xs.length := Nat.pow_le_pow_right (by omega) hc
          rw [pow_succ] at this
          omega
      obtain rfl := digitsNat_inj dx.2 dx'.2 hlen hx
      rfl

/-- Python prints one literal for a float. -/
theorem pythonFloat_unique {b : Nat} {n n' : Num} (hv : n.Valid) (hv' : n'.Valid) (h : PythonFloat b n)
    (h' : PythonFloat b n') : n = n' := by
  refine shape_unique hv hv' h.shape h'.shape ?_ ?_
  · have := h.sign.trans h'.sign.symm
    cases h1 : n.neg <;> cases h2 : n'.neg <;> simp_all
  · by_cases h0 : floatValue b = 0
    · rw [h.zero h0, h'.zero h0]
    · exact best_unique (h.best h0) (h'.best h0)

end Atop
