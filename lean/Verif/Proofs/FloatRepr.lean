import Verif.Spec.Repr
import Verif.Model.FloatRepr
import Mathlib.Tactic.Linarith
import Mathlib.Tactic.Positivity
import Mathlib.Tactic.FieldSimp
import Mathlib.Tactic.Ring
import Mathlib.Tactic.NormNum
import Mathlib.Tactic.GCongr
namespace Atop
open Spec

/-! ## Spacing of binary64 numbers -/

theorem double_above {M E : ℤ} (hM : 2 ^ 52 ≤ M) {y : ℚ} (hy : IsDouble y) (h : (M : ℚ) * 2 ^ E < y) :
    (M : ℚ) * 2 ^ E + 2 ^ E ≤ y := by
  obtain ⟨n, f, hn, -, rfl⟩ := hy
  have h2 : (0:ℚ) < 2 ^ E := by positivity
  by_cases hf : E ≤ f
  · obtain ⟨k, rfl⟩ : ∃ k : ℕ, f = E + k := ⟨(f - E).toNat, by omega⟩
    rw [zpow_add₀ (by norm_num), zpow_natCast] at h ⊢
    have h' : (M : ℚ) * 2 ^ E < (n * 2 ^ k) * 2 ^ E := by linarith
    have h3 : (M : ℚ) < n * 2 ^ k := lt_of_mul_lt_mul_right h' h2.le
    have h4 : M < n * 2 ^ k := by exact_mod_cast h3
    have h5 : (M : ℚ) + 1 ≤ n * 2 ^ k := by exact_mod_cast h4
    nlinarith
  · exfalso
    have h3 : (2:ℚ) ^ (f + 1) ≤ 2 ^ E := zpow_le_zpow_right₀ (by norm_num) (by omega)
    rw [zpow_add₀ (by norm_num), zpow_one] at h3
    have h4 : n < 2 ^ 53 := (abs_lt.mp hn).2
    have h5 : (n:ℚ) < 2 ^ 53 := by exact_mod_cast h4
    have h6 : (2:ℚ) ^ 52 ≤ M := by exact_mod_cast hM
    have h7 : (0:ℚ) < 2 ^ f := by positivity
    nlinarith

theorem double_below {M E : ℤ} (hM : 2 ^ 52 ≤ M) {y : ℚ} (hy : IsDouble y) (h : y < (M : ℚ) * 2 ^ E) :
    y ≤ (M : ℚ) * 2 ^ E - (if M = 2 ^ 52 then 2 ^ (E - 1) else 2 ^ E) := by
  obtain ⟨n, f, hn, -, rfl⟩ := hy
  have h2 : (0:ℚ) < 2 ^ E := by positivity
  have hE1 : (2:ℚ) ^ E = 2 * 2 ^ (E - 1) := by
    rw [show E = (E - 1) + 1 by omega, zpow_add₀ (by norm_num)]; simp; ring
  have h21 : (0:ℚ) < 2 ^ (E - 1) := by positivity
  have h4 : n < 2 ^ 53 := (abs_lt.mp hn).2
  have h5 : (n:ℚ) ≤ 2 ^ 53 - 1 := by
    have : n ≤ 2 ^ 53 - 1 := by omega
    exact_mod_cast this
  by_cases hf : E ≤ f
  · obtain ⟨k, rfl⟩ : ∃ k : ℕ, f = E + k := ⟨(f - E).toNat, by omega⟩
    rw [zpow_add₀ (by norm_num), zpow_natCast] at h ⊢
    have h' : (n * 2 ^ k) * 2 ^ E < (M : ℚ) * 2 ^ E := by linarith
    have h3 : (n * 2 ^ k : ℚ) < M := lt_of_mul_lt_mul_right h' h2.le
    have h4 : n * 2 ^ k < M := by exact_mod_cast h3
    have h5 : (n * 2 ^ k + 1 : ℚ) ≤ M := by exact_mod_cast h4
    have : (n:ℚ) * (2 ^ E * 2 ^ k) ≤ (M : ℚ) * 2 ^ E - 2 ^ E := by nlinarith
    split <;> linarith
  · have h7 : (0:ℚ) < 2 ^ f := by positivity
    have h8 : (n:ℚ) * 2 ^ f ≤ (2 ^ 53 - 1) * 2 ^ f := by nlinarith
    have h3 : (2:ℚ) ^ f ≤ 2 ^ (E - 1) := zpow_le_zpow_right₀ (by norm_num) (by omega)
    have h9 : (n:ℚ) * 2 ^ f ≤ (2 ^ 53 - 1) * 2 ^ (E - 1) := by nlinarith
    split
    · rename_i he
      subst he
      push_cast
      nlinarith
    · have : (2:ℚ) ^ 52 + 1 ≤ M := by
        have : 2 ^ 52 + 1 ≤ M := by omega
        exact_mod_cast this
      nlinarith

theorem readsAs_of_near {M E : ℤ} {g : ℚ} (hg : g = if M = 2 ^ 52 then 2 ^ (E - 1) else 2 ^ E) (hM : 2 ^ 52 ≤ M) (hM' : M < 2 ^ 53) (hE : -1074 ≤ E)
    (hev : EvenDouble ((M : ℚ) * 2 ^ E)) {q : ℚ}
    (hlo : (M : ℚ) * 2 ^ E - g / 2 ≤ q)
    (hhi : q ≤ (M : ℚ) * 2 ^ E + 2 ^ E / 2) : ReadsAs q ((M : ℚ) * 2 ^ E) := by
  refine ⟨⟨M, E, abs_lt.mpr ⟨by omega, hM'⟩, hE, rfl⟩, fun y hy hne => ?_⟩
  suffices h : |q - (M : ℚ) * 2 ^ E| ≤ |q - y| by
    rcases lt_or_eq_of_le h with h | h
    · exact .inl h
    · exact .inr ⟨h, hev⟩
  rcases lt_or_gt_of_ne hne with h | h
  · have h1 := double_below hM hy h
    rw [← hg] at h1
    have h0 : 0 < g := by rw [hg]; split <;> positivity
    rw [abs_of_nonneg (a := q - y) (by linarith)]
    rw [abs_le]; constructor <;> linarith
  · have h1 := double_above hM hy h
    have h0 : 0 < g := by rw [hg]; split <;> positivity
    have : (0:ℚ) < 2 ^ E := by positivity
    rw [abs_of_nonpos (a := q - y) (by linarith)]
    rw [abs_le]
    constructor <;> linarith

theorem isDouble_neg {x : ℚ} (h : IsDouble x) : IsDouble (-x) := by
  obtain ⟨m, e, h1, h2, rfl⟩ := h
  exact ⟨-m, e, by rwa [abs_neg], h2, by push_cast; ring⟩

theorem evenDouble_neg {x : ℚ} (h : EvenDouble x) : EvenDouble (-x) := by
  obtain ⟨m, e, h1, h2, rfl⟩ := h
  exact ⟨-m, e, by rwa [abs_neg], h2, by push_cast; ring⟩

theorem readsAs_neg {q x : ℚ} (h : ReadsAs q x) : ReadsAs (-q) (-x) := by
  refine ⟨isDouble_neg h.1, fun y hy hne => ?_⟩
  have h1 := h.2 (-y) (isDouble_neg hy) (fun e => hne (by rw [← e, neg_neg]))
  have e1 : |-q - -x| = |q - x| := by rw [← abs_neg]; congr 1; ring
  have e2 : |-q - y| = |q - -y| := by rw [← abs_neg]; congr 1; ring
  rw [e1, e2]
  exact h1.imp id fun h => ⟨h.1, evenDouble_neg h.2⟩

theorem readsAs_zero : ReadsAs 0 0 := by
  refine ⟨⟨0, 0, by norm_num, by norm_num, by norm_num⟩, fun y _ hne => .inl ?_⟩
  simpa using hne

/-! ## The search always succeeds -/

theorem quarter_bounds {m : Nat} (hm : 0 < m) (e : Nat) :
    2 ^ 54 * scaledQuarter m e ≤ scaledValue m e ∧ scaledValue m e < 2 ^ 55 * scaledQuarter m e ∧
      (m = 2 ^ m.log2 ↔ scaledValue m e = 2 ^ 54 * scaledQuarter m e) := by
  have h1 : 2 ^ m.log2 ≤ m := Nat.log2_self_le (by omega)
  have h2 : m < 2 ^ (m.log2 + 1) := Nat.lt_log2_self
  have hV : scaledValue m e = m * (2 ^ (e + 55) * 10 ^ 70) := by unfold scaledValue; ring
  have hQ : 2 ^ 54 * scaledQuarter m e = 2 ^ m.log2 * (2 ^ (e + 55) * 10 ^ 70) := by
    unfold scaledQuarter; rw [show e + 1 + m.log2 = e + 1 + m.log2 from rfl, pow_add, pow_add, pow_add]; ring
  have hQ2 : 2 ^ 55 * scaledQuarter m e = 2 ^ (m.log2 + 1) * (2 ^ (e + 55) * 10 ^ 70) := by
    rw [pow_succ 2 54, pow_succ 2 m.log2, mul_assoc, mul_comm 2 (scaledQuarter m e), ← mul_assoc, hQ]; ring
  have hU : 0 < 2 ^ (e + 55) * 10 ^ 70 := by positivity
  rw [hQ, hQ2, hV]
  refine ⟨Nat.mul_le_mul_right _ h1, Nat.mul_lt_mul_of_pos_right h2 hU, ?_⟩
  constructor
  · intro h; rw [← h]
  · intro h; exact Nat.eq_of_mul_eq_mul_right hU h

theorem leastFrom_spec (f : Nat → Bool) : ∀ (n j : Nat), f (j + n) = true → (0 < j → f (j - 1) = false) →
    f (leastFrom f n j) = true ∧ (0 < leastFrom f n j → f (leastFrom f n j - 1) = false)
  | 0, j, h, h' => ⟨h, h'⟩
  | n + 1, j, h, h' => by
    rw [leastFrom]
    cases hj : f j with
    | true => exact ⟨hj, h'⟩
    | false =>
      exact leastFrom_spec f n (j + 1) (by rw [show j + 1 + n = j + (n + 1) by omega]; exact h)
        (fun _ => by simpa using hj)

set_option exponentiation.threshold 400 in
theorem decimalPoint_bounds {m e : Nat} (hm : 0 < m) (hm' : m < 2 ^ 24) (he : e ≤ 253) :
    ∃ p, decimalPoint m e = p + 18 ∧ 2 ^ 204 * 10 ^ (p + 17) ≤ scaledValue m e ∧
      scaledValue m e < 2 ^ 204 * 10 ^ (p + 18) := by
  have hV1 : 2 ^ 55 * 10 ^ 70 ≤ scaledValue m e := by
    unfold scaledValue
    apply Nat.mul_le_mul_right
    calc 2 ^ 55 ≤ 2 ^ (e + 55) := Nat.pow_le_pow_right (by omega) (by omega)
      _ ≤ m * 2 ^ (e + 55) := Nat.le_mul_of_pos_left _ hm
  have hV2 : scaledValue m e < 2 ^ 204 * 10 ^ (0 + 200) := by
    unfold scaledValue
    have : m * 2 ^ (e + 55) ≤ 2 ^ 24 * 2 ^ 308 :=
      Nat.mul_le_mul (by omega) (Nat.pow_le_pow_right (by decide) (by omega))
    calc m * 2 ^ (e + 55) * 10 ^ 70 ≤ 2 ^ 24 * 2 ^ 308 * 10 ^ 70 := Nat.mul_le_mul_right _ this
      _ < 2 ^ 204 * 10 ^ (0 + 200) := by decide +kernel
  obtain ⟨h1, h2⟩ := leastFrom_spec (fun j => decide (scaledValue m e < 2 ^ 204 * 10 ^ j)) 200 0
    (decide_eq_true hV2) (fun h => absurd h (by omega))
  change decide (scaledValue m e < 2 ^ 204 * 10 ^ (decimalPoint m e)) = true at h1
  change 0 < decimalPoint m e → decide (scaledValue m e < 2 ^ 204 * 10 ^ (decimalPoint m e - 1)) = false at h2
  have h1 := of_decide_eq_true h1
  generalize decimalPoint m e = P at *
  have h3 : 2 ^ 204 * 10 ^ 17 ≤ 2 ^ 55 * 10 ^ 70 := by decide +kernel
  have hp : 18 ≤ P := by
    by_contra hc
    have : 2 ^ 204 * 10 ^ P ≤ 2 ^ 204 * 10 ^ 17 :=
      Nat.mul_le_mul_left _ (Nat.pow_le_pow_right (by omega) (by omega))
    exact absurd (lt_of_lt_of_le h1 (this.trans (h3.trans hV1))) (lt_irrefl _)
  obtain ⟨p, rfl⟩ : ∃ p, P = p + 18 := ⟨P - 18, by omega⟩
  have h4 := of_decide_eq_false (h2 (by omega))
  rw [show p + 18 - 1 = p + 17 by omega] at h4
  exact ⟨p, rfl, not_lt.mp h4, h1⟩

theorem pick_some {a b c : Bool} {d x : Nat} (h : pick a b c d = some x) : (a = true ∧ x = d) ∨ (b = true ∧ x = d + 1) := by
  cases a <;> cases b <;> cases c <;> simp [pick] at h <;> simp [h]

theorem pick_exists {a b : Bool} (c : Bool) (d : Nat) (h : a = true ∨ b = true) : ∃ x, pick a b c d = some x := by
  cases a <;> cases b <;> cases c <;> simp [pick] at h ⊢

theorem candidate_some {m e j d : Nat} (h : candidate m e j = some d) : readsBack m e d j = true := by
  unfold candidate at h
  rcases pick_some h with ⟨h1, h2⟩ | ⟨h1, h2⟩ <;> (rw [h2]; exact h1)

/-- Rounding to seventeen digits stays inside the interval. -/
theorem near_17 {V L H u d r : Nat} (hL : V ≤ 18014398509481984 * (V - L)) (hLV : L ≤ V)
    (hH : V ≤ 18014398509481984 * (H - V)) (hVH : V ≤ H) (h : 10000000000000000 * u ≤ V) (hr : r < u) (e : d * u + r = V) :
    (L ≤ d * u ∧ d * u ≤ H) ∨ (L ≤ (d + 1) * u ∧ (d + 1) * u ≤ H) := by
  rw [Nat.add_mul, Nat.one_mul]
  generalize d * u = x at *
  omega

theorem candidate_17 {m e p : Nat} (hm : 0 < m) (h : 2 ^ 204 * 10 ^ (p + 17) ≤ scaledValue m e) :
    ∃ d, candidate m e (p + 1) = some d := by
  obtain ⟨q1, q2, q3⟩ := quarter_bounds hm e
  rw [show 2 ^ 54 = 18014398509481984 by norm_num] at q1 q3
  rw [show 2 ^ 55 = 36028797018963968 by norm_num] at q2
  have hlow : scaledValue m e ≤ 18014398509481984 * (scaledValue m e - scaledLow m e) ∧ scaledLow m e ≤ scaledValue m e := by
    unfold scaledLow
    split
    · rename_i hp
      have := q3.mp hp
      generalize scaledValue m e = V at *
      generalize scaledQuarter m e = Q at *
      omega
    · generalize scaledValue m e = V at *
      generalize scaledQuarter m e = Q at *
      omega
  have hhigh : scaledValue m e ≤ 18014398509481984 * (scaledHigh m e - scaledValue m e) ∧ scaledValue m e ≤ scaledHigh m e := by
    unfold scaledHigh
    generalize scaledValue m e = V at *
    generalize scaledQuarter m e = Q at *
    omega
  have hU : 2 ^ 204 * 10 ^ (p + 17) = 10000000000000000 * (2 ^ 204 * 10 ^ (p + 1)) := by
    rw [show p + 17 = 16 + (p + 1) by omega, pow_add, show 10 ^ 16 = 10000000000000000 by norm_num, Nat.mul_left_comm]
  rw [hU] at h
  unfold candidate
  apply pick_exists
  unfold readsBack scaledDecimal
  simp only [Bool.and_eq_true, decide_eq_true_eq]
  have hpos : 0 < 2 ^ 204 * 10 ^ (p + 1) := by positivity
  generalize 2 ^ 204 * 10 ^ (p + 1) = u at *
  refine near_17 (r := scaledValue m e % u) hlow.1 hlow.2 hhigh.1 hhigh.2 h (Nat.mod_lt _ hpos) ?_
  rw [Nat.mul_comm]; exact Nat.div_add_mod _ _

theorem firstDown_some (f : Nat → Option Nat) : ∀ (n j i : Nat), i < n → i ≤ j → (∃ d, f (j - i) = some d) →
    ∃ d i', firstDown f n j = some (d, j - i') ∧ f (j - i') = some d
  | 0, _, _, h, _, _ => absurd h (by omega)
  | n + 1, j, i, h, hij, hc => by
    rw [firstDown]
    cases hj : f j with
    | some d => exact ⟨d, 0, by simp, by simpa using hj⟩
    | none =>
      cases i with
      | zero => obtain ⟨d, hd⟩ := hc; simp [hj] at hd
      | succ i =>
        obtain ⟨d, i', h2, h3⟩ := firstDown_some f n (j - 1) i (by omega) (by omega)
          (by rw [show j - 1 - i = j - (i + 1) by omega]; exact hc)
        refine ⟨d, i' + 1, ?_, ?_⟩
        · rw [show j - (i' + 1) = j - 1 - i' by omega]; exact h2
        · rw [show j - (i' + 1) = j - 1 - i' by omega]; exact h3

/-- The shortest decimal exists; it reads back and is positive. -/
theorem shortest_some {m e : Nat} (hm : 0 < m) (hm' : m < 2 ^ 24) (he : e ≤ 253) :
    ∃ d j, shortest m e = some (d, j) ∧ scaledLow m e ≤ scaledDecimal d j ∧ scaledDecimal d j ≤ scaledHigh m e ∧ 0 < d := by
  obtain ⟨p, hp, h1, h2⟩ := decimalPoint_bounds hm hm' he
  obtain ⟨d, i, h3, h4⟩ := firstDown_some (candidate m e) 17 (p + 17) 16 (by omega) (by omega)
    (by rw [show p + 17 - 16 = p + 1 by omega]; exact candidate_17 hm h1)
  have h5 := candidate_some h4
  unfold readsBack at h5
  simp only [Bool.and_eq_true, decide_eq_true_eq] at h5
  refine ⟨d, _, ?_, h5.1, h5.2, ?_⟩
  · unfold shortest; rw [hp]; exact h3
  · rcases Nat.eq_zero_or_pos d with rfl | h
    · exfalso
      have h0 : scaledDecimal 0 (p + 17 - i) = 0 := by unfold scaledDecimal; exact Nat.zero_mul _
      have h6 := h5.1
      rw [h0] at h6
      obtain ⟨q1, -, -⟩ := quarter_bounds hm e
      rw [show 2 ^ 54 = 18014398509481984 by norm_num] at q1
      have hqp : 0 < scaledQuarter m e := by unfold scaledQuarter; positivity
      unfold scaledLow at h6
      generalize scaledValue m e = V at *
      generalize scaledQuarter m e = Q at *
      split at h6 <;> omega
    · exact h

/-! ## Decimal digits -/

theorem digitChar_toNat (d : Nat) (h : d < 10) : (Nat.digitChar d).toNat = 48 + d := by
  revert h; revert d; decide

theorem pyStrNat_eq (n : Nat) : pyStrNat n = if n < 10 then [48 + n] else pyStrNat (n / 10) ++ [48 + n % 10] := by
  unfold pyStrNat
  rw [Nat.toDigits_eq_if (by omega)]
  split
  · rename_i h; rw [List.map_singleton, digitChar_toNat n h]
  · rw [List.map_append, List.map_singleton, digitChar_toNat _ (Nat.mod_lt _ (by omega))]

theorem digitsNat_snoc (a : PyStr) (c : Nat) : digitsNat (a ++ [c]) = 10 * digitsNat a + (c - 48) := by
  unfold digitsNat; rw [List.foldl_append]; rfl

theorem digitsNat_append (a b : PyStr) : digitsNat (a ++ b) = digitsNat a * 10 ^ b.length + digitsNat b := by
  induction b using List.reverseRecOn with
  | nil => simp [digitsNat]
  | append_singleton b c ih =>
    rw [← List.append_assoc, digitsNat_snoc, ih, digitsNat_snoc, List.length_append, List.length_singleton, pow_succ]
    ring

theorem digitsNat_zeros (k : Nat) : digitsNat (zeroDigits k) = 0 := by
  induction k with
  | zero => rfl
  | succ k ih => rw [zeroDigits, List.replicate_succ', digitsNat_snoc]; rw [zeroDigits] at ih; rw [ih]

theorem digitsNat_pyStrNat (n : Nat) : digitsNat (pyStrNat n) = n := by
  induction n using Nat.strongRecOn with
  | ind n ih =>
    rw [pyStrNat_eq]
    split
    · simp [digitsNat]
    · rw [digitsNat_snoc, ih (n / 10) (by omega)]; omega

theorem pyStrNat_digits (n : Nat) : Digits (pyStrNat n) := by
  induction n using Nat.strongRecOn with
  | ind n ih =>
    rw [pyStrNat_eq]
    split
    · exact ⟨by simp, by simp [isDigit]; omega⟩
    · refine ⟨by simp, fun c hc => ?_⟩
      rcases List.mem_append.mp hc with h | h
      · exact (ih (n / 10) (by omega)).2 c h
      · rw [List.mem_singleton] at h; subst h; unfold isDigit; omega

theorem pyStrNat_head (n : Nat) (h : (pyStrNat n).head? = some 48) : n = 0 := by
  induction n using Nat.strongRecOn with
  | ind n ih =>
    rw [pyStrNat_eq] at h
    split at h
    · simpa using h
    · rw [List.head?_append_of_ne_nil _ (pyStrNat_digits _).1] at h
      have := ih (n / 10) (by omega) h
      omega

theorem digits_append {a b : PyStr} (ha : Digits a) (hb : ∀ c ∈ b, isDigit c) : Digits (a ++ b) :=
  ⟨by simp [ha.1], fun c hc => (List.mem_append.mp hc).elim (ha.2 c) (hb c)⟩

theorem zeroDigits_digit (k : Nat) : ∀ c ∈ zeroDigits k, isDigit c := fun c hc => by
  rw [List.eq_of_mem_replicate hc]; exact ⟨by omega, by omega⟩

theorem zeros_length (k : Nat) : (zeroDigits k).length = k := List.length_replicate

/-! ## Layout -/

/-- The shape of a literal with significant digits `ds` and decimal point at `decpt`. -/
structure LayoutShape (ds : PyStr) (decpt : Int) (n : Num) : Prop where
  positional : n.exp = none ↔ -4 < decpt ∧ decpt ≤ 16
  point : n.exp = none → ∃ f, n.frac = some f ∧ (f = [48] ∨ f.getLast? = ds.getLast?)
  mantissa : n.exp ≠ none → n.int.length = 1 ∧ n.int.head? = ds.head? ∧ ∀ f, n.frac = some f → f.getLast? = ds.getLast?
  exponent : ∀ s xs, n.exp = some (s, xs) →
    s ≠ none ∧ 2 ≤ xs.length ∧ (2 < xs.length → xs.head? ≠ some 48) ∧ digitsNat xs ≠ 0

theorem getLast?_drop {l : PyStr} {k : Nat} (h : k < l.length) : (l.drop k).getLast? = l.getLast? := by
  rw [List.getLast?_drop, if_neg (by omega)]

theorem numText_text (n : Num) : NumText n n.text := by
  have := NumText.intro n 101 (.inl rfl)
  refine cast (congrArg _ ?_) this
  unfold Num.text
  cases n.frac <;> cases n.exp <;> simp

/-- A laid out float is a number literal with a point or an exponent, denoting its digits times a power of ten. -/
theorem layoutFloat_spec {ds : PyStr} (h : Digits ds) (h0 : ds.head? ≠ some 48) (decpt : Int) (neg : Bool) :
    ∃ n : Num, n.Valid ∧ n.neg = neg ∧ (if neg then [45] else []) ++ layoutFloat ds decpt = n.text ∧
      (n.frac ≠ none ∨ n.exp ≠ none) ∧ LayoutShape ds decpt n ∧
      n.value = (if neg then -1 else 1) * (digitsNat ds : ℚ) * (10 : ℚ) ^ (decpt - ds.length) := by
  have hlen : 0 < ds.length := List.length_pos_iff.mpr h.1
  unfold layoutFloat
  by_cases h1 : -4 < decpt ∧ decpt ≤ 16
  · rw [if_pos h1]
    by_cases h2 : decpt ≤ 0
    · rw [if_pos h2]
      refine ⟨⟨neg, [48], some (zeroDigits (-decpt).toNat ++ ds), none⟩, ⟨?_, ?_, ?_, ?_⟩, rfl, ?_, .inl (by simp), ⟨⟨fun _ => h1, fun _ => rfl⟩, fun _ => ⟨_, rfl, .inr (List.getLast?_append_of_ne_nil _ h.1)⟩, fun h => absurd rfl h, fun s xs h => by cases h⟩, ?_⟩
      · exact ⟨by simp, by simp [isDigit]⟩
      · simp
      · intro f hf; injection hf with hf; subst hf
        exact ⟨by simp [h.1], fun c hc => (List.mem_append.mp hc).elim (zeroDigits_digit _ c) (h.2 c)⟩
      · intro s d hd; cases hd
      · simp [Num.text]
      · have e : (0:ℤ) - ((zeroDigits (-decpt).toNat ++ ds).length : ℕ) = decpt - ds.length := by
          rw [List.length_append, zeros_length]; omega
        have e2 : digitsNat ([48] ++ (zeroDigits (-decpt).toNat ++ ds)) = digitsNat ds := by
          rw [digitsNat_append, digitsNat_append, digitsNat_zeros]; simp [digitsNat]
        simp only [Num.value, Num.exponent, Option.getD_some]
        rw [e, e2]
    · rw [if_neg h2]
      by_cases h3 : decpt.toNat < ds.length
      · rw [if_pos h3]
        obtain ⟨k, rfl⟩ : ∃ k : ℕ, decpt = k := ⟨decpt.toNat, by omega⟩
        rw [Int.toNat_natCast] at h3 ⊢
        refine ⟨⟨neg, ds.take k, some (ds.drop k), none⟩, ⟨?_, ?_, ?_, ?_⟩, rfl, ?_, .inl (by simp), ⟨⟨fun _ => h1, fun _ => rfl⟩, fun _ => ⟨_, rfl, .inr (getLast?_drop h3)⟩, fun h => absurd rfl h, fun s xs h => by cases h⟩, ?_⟩
        · refine ⟨?_, fun c hc => h.2 c (List.mem_of_mem_take hc)⟩
          intro hn
          have := congrArg List.length hn
          rw [List.length_take, List.length_nil] at this; omega
        · intro hh
          rw [List.head?_take] at hh
          split at hh
          · cases hh
          · exact absurd hh h0
        · intro f hf; injection hf with hf; subst hf
          refine ⟨?_, fun c hc => h.2 c (List.mem_of_mem_drop hc)⟩
          intro hn
          have := congrArg List.length hn
          rw [List.length_drop, List.length_nil] at this; omega
        · intro s d hd; cases hd
        · simp [Num.text]
        · have e : (0:ℤ) - ((ds.drop k).length : ℕ) = (k : ℤ) - ds.length := by
            rw [List.length_drop]; omega
          simp only [Num.value, Num.exponent, Option.getD_some]
          rw [e, List.take_append_drop]
      · rw [if_neg h3]
        obtain ⟨k, rfl⟩ : ∃ k : ℕ, decpt = k := ⟨decpt.toNat, by omega⟩
        rw [Int.toNat_natCast] at h3 ⊢
        refine ⟨⟨neg, ds ++ zeroDigits (k - ds.length), some [48], none⟩, ⟨?_, ?_, ?_, ?_⟩, rfl, ?_, .inl (by simp), ⟨⟨fun _ => h1, fun _ => rfl⟩, fun _ => ⟨_, rfl, .inl rfl⟩, fun h => absurd rfl h, fun s xs h => by cases h⟩, ?_⟩
        · exact digits_append h (zeroDigits_digit _)
        · intro hh
          rw [List.head?_append_of_ne_nil _ h.1] at hh
          exact absurd hh h0
        · intro f hf; injection hf with hf; subst hf
          exact ⟨by simp, by simp [isDigit]⟩
        · intro s d hd; cases hd
        · simp [Num.text]
        · have e2 : digitsNat (ds ++ zeroDigits (k - ds.length) ++ [48]) = digitsNat ds * 10 ^ (k - ds.length) * 10 := by
            rw [digitsNat_append, digitsNat_append, digitsNat_zeros, zeros_length]; simp [digitsNat]
          have e3 : (10:ℚ) ^ ((k : ℤ) - ds.length) = 10 ^ (k - ds.length) := by
            rw [← zpow_natCast]; congr 1; omega
          simp only [Num.value, Num.exponent, Option.getD_some]
          rw [e2, e3]
          push_cast
          simp
  · -- exponent notation
    rw [if_neg h1]
    dsimp only
    have hx : Digits (zeroDigits (2 - (pyStrNat (decpt - 1).natAbs).length) ++ pyStrNat (decpt - 1).natAbs) :=
      ⟨by simp [(pyStrNat_digits _).1],
        fun c hc => (List.mem_append.mp hc).elim (zeroDigits_digit _ c) ((pyStrNat_digits _).2 c)⟩
    have hxv : digitsNat (zeroDigits (2 - (pyStrNat (decpt - 1).natAbs).length) ++ pyStrNat (decpt - 1).natAbs) =
        (decpt - 1).natAbs := by
      rw [digitsNat_append, digitsNat_zeros, digitsNat_pyStrNat]; simp
    generalize hxs : zeroDigits (2 - (pyStrNat (decpt - 1).natAbs).length) ++ pyStrNat (decpt - 1).natAbs = xs at hx hxv
    rw [List.append_assoc _ (zeroDigits _) (pyStrNat _), hxs]
    have hfrac : ∀ f, (if ds.length ≤ 1 then none else some (ds.drop 1)) = some f → f = ds.drop 1 ∧ 1 < ds.length := by
      intro f hf
      split at hf
      · cases hf
      · injection hf with hf; exact ⟨hf.symm, by omega⟩
    have hge : (if ds.length ≤ 1 then none else some (ds.drop 1) : Option PyStr).getD [] = ds.drop 1 := by
      split
      · rename_i hl; rw [List.drop_eq_nil_of_le hl]; rfl
      · rfl
    refine ⟨⟨neg, ds.take 1, if ds.length ≤ 1 then none else some (ds.drop 1),
      some (some (if decpt - 1 < 0 then 45 else 43), xs)⟩, ⟨?_, ?_, ?_, ?_⟩, rfl, ?_, .inr (by simp), ?_, ?_⟩
    · refine ⟨?_, fun c hc => h.2 c (List.mem_of_mem_take hc)⟩
      intro hn
      have := congrArg List.length hn
      rw [List.length_take, List.length_nil] at this; omega
    · intro _; rw [List.length_take]; omega
    · intro f hf
      obtain ⟨rfl, hl⟩ := hfrac f hf
      refine ⟨?_, fun c hc => h.2 c (List.mem_of_mem_drop hc)⟩
      intro hn
      have := congrArg List.length hn
      rw [List.length_drop, List.length_nil] at this; omega
    · intro s d hd
      injection hd with hd
      injection hd with h1 h2
      subst h1 h2
      refine ⟨hx, .inr ?_⟩
      split <;> simp
    · by_cases hl : ds.length ≤ 1 <;> by_cases hd : decpt - 1 < 0 <;> simp [hl, hd, Num.text]
    · refine ⟨⟨(fun hc => by cases hc), (fun hc => absurd hc h1)⟩, (fun hc => by cases hc), fun _ => ⟨?_, ?_, ?_⟩, ?_⟩
      · rw [List.length_take]; omega
      · rw [List.head?_take]; rfl
      · intro f hf
        obtain ⟨rfl, hl⟩ := hfrac f hf
        exact getLast?_drop hl
      · intro s ys hs
        injection hs with hs
        injection hs with e1 e2
        subst e1 e2
        refine ⟨by simp, ?_, ?_, by rw [hxv]; omega⟩
        · rw [← hxs, List.length_append, zeros_length]; omega
        · intro hl hh
          rw [← hxs, List.length_append, zeros_length] at hl
          rw [← hxs, show 2 - (pyStrNat (decpt - 1).natAbs).length = 0 by omega] at hh
          have := pyStrNat_head _ hh
          omega
    · simp only [Num.value, Num.exponent]
      rw [hge, List.take_append_drop, hxv, List.length_drop]
      congr 2
      by_cases hd : decpt - 1 < 0
      · simp only [hd, if_true]; omega
      · simp only [hd, if_false]; rw [if_neg (by decide)]; omega

theorem stripZeros_spec : ∀ (n d z : Nat), (stripZeros n d z).1 * 10 ^ (stripZeros n d z).2 = d * 10 ^ z ∧
    (0 < d → 0 < (stripZeros n d z).1)
  | 0, d, z => ⟨rfl, id⟩
  | n + 1, d, z => by
    rw [stripZeros]
    split
    · rename_i h
      obtain ⟨h1, h2⟩ := stripZeros_spec n (d / 10) (z + 1)
      refine ⟨?_, fun hd => h2 (by omega)⟩
      rw [h1, pow_succ, mul_comm (10 ^ z) 10, ← mul_assoc]
      congr 1
      omega
    · exact ⟨rfl, id⟩

/-! ## Reading the text back -/

/-- The factor of the scaled integers. -/
def scale : ℚ := 2 ^ (204:ℤ) * 10 ^ (70:ℤ)

theorem scale_pos : 0 < scale := by unfold scale; positivity

theorem scaledDecimal_eq (d j : Nat) : ((scaledDecimal d j : ℕ) : ℚ) = (d : ℚ) * 10 ^ ((j : ℤ) - 70) * scale := by
  unfold scaledDecimal scale
  rw [zpow_sub₀ (by norm_num)]
  push_cast
  have h10 : (10:ℚ) ^ (70:ℤ) ≠ 0 := by positivity
  rw [zpow_natCast]
  field_simp

theorem scaledValue_eq (m e : Nat) : ((scaledValue m e : ℕ) : ℚ) = (m : ℚ) * 2 ^ ((e : ℤ) - 149) * scale := by
  have h2 : (2:ℚ) ≠ 0 := by norm_num
  unfold scaledValue scale
  rw [show (e : ℤ) - 149 = ((e + 55 : ℕ) : ℤ) - 204 by push_cast; ring, zpow_sub₀ h2, zpow_natCast]
  push_cast
  have h204 : (2:ℚ) ^ (204:ℤ) ≠ 0 := by positivity
  field_simp

/-- The number as a normalised binary64 number, and the ends of the interval in terms of its neighbours. -/
theorem interval_facts {m : Nat} (e : Nat) (hm : 0 < m) (hm' : m < 2 ^ 24) : ∃ M E : ℤ,
    2 ^ 52 ≤ M ∧ M < 2 ^ 53 ∧ -1074 < E ∧ (m : ℚ) * 2 ^ ((e : ℤ) - 149) = (M : ℚ) * 2 ^ E ∧
    EvenDouble ((M : ℚ) * 2 ^ E) ∧
    ((scaledLow m e : ℕ) : ℚ) = ((M : ℚ) * 2 ^ E - (if M = 2 ^ 52 then 2 ^ (E - 1) else 2 ^ E) / 2) * scale ∧
    ((scaledHigh m e : ℕ) : ℚ) = ((M : ℚ) * 2 ^ E + 2 ^ E / 2) * scale := by
  have hlog : m.log2 < 24 := (Nat.log2_lt (by omega)).mpr hm'
  have hl1 : 2 ^ m.log2 ≤ m := Nat.log2_self_le (by omega)
  have hl2 : m < 2 ^ (m.log2 + 1) := Nat.lt_log2_self
  obtain ⟨q1, q2, q3⟩ := quarter_bounds hm e
  have h2 : (2:ℚ) ≠ 0 := by norm_num
  have eV := scaledValue_eq m e
  obtain ⟨E, hE⟩ : ∃ E : ℤ, E = (e : ℤ) - 201 + m.log2 := ⟨_, rfl⟩
  have eQ : ((scaledQuarter m e : ℕ) : ℚ) = 2 ^ E / 4 * scale := by
    unfold scaledQuarter
    rw [scale, show E = ((e + 1 + m.log2 : ℕ) : ℤ) - 202 by rw [hE]; push_cast; ring, zpow_sub₀ h2, zpow_natCast,
      show (204:ℤ) = 202 + 2 by norm_num, zpow_add₀ h2]
    push_cast
    have h202 : (2:ℚ) ^ (202:ℤ) ≠ 0 := by positivity
    field_simp
  obtain ⟨M, hM⟩ : ∃ M : ℤ, M = m * 2 ^ (52 - m.log2) := ⟨_, rfl⟩
  have ev : (m : ℚ) * 2 ^ ((e : ℤ) - 149) = (M : ℚ) * 2 ^ E := by
    rw [hM, hE, show (e : ℤ) - 149 = ((52 - m.log2 : ℕ) : ℤ) + ((e : ℤ) - 201 + m.log2) by omega, zpow_add₀ h2,
      zpow_natCast]
    push_cast
    ring
  have hpw : (2:ℕ) ^ m.log2 * 2 ^ (52 - m.log2) = 2 ^ 52 := by rw [← pow_add]; congr 1; omega
  have hMlo : 2 ^ 52 ≤ M := by
    rw [hM]
    have : 2 ^ 52 ≤ m * 2 ^ (52 - m.log2) := by rw [← hpw]; exact Nat.mul_le_mul_right _ hl1
    exact_mod_cast this
  have hMhi : M < 2 ^ 53 := by
    rw [hM]
    have : m * 2 ^ (52 - m.log2) < 2 ^ 53 := by
      calc m * 2 ^ (52 - m.log2) < 2 ^ (m.log2 + 1) * 2 ^ (52 - m.log2) :=
            Nat.mul_lt_mul_of_pos_right hl2 (by positivity)
        _ = 2 ^ 53 := by rw [← pow_add]; congr 1; omega
    exact_mod_cast this
  have hMeq : M = 2 ^ 52 ↔ m = 2 ^ m.log2 := by
    rw [hM]
    constructor
    · intro h
      have h' : m * 2 ^ (52 - m.log2) = 2 ^ 52 := by exact_mod_cast h
      rw [← hpw] at h'
      exact Nat.eq_of_mul_eq_mul_right (by positivity) h'
    · intro h
      have h' : m * 2 ^ (52 - m.log2) = 2 ^ 52 := by rw [← hpw, ← h]
      exact_mod_cast h'
  have hev : EvenDouble ((M : ℚ) * 2 ^ E) := by
    refine ⟨m, (e : ℤ) - 149, ?_, by omega, ?_⟩
    · rw [abs_of_nonneg (by positivity)]
      have h52 : (m : ℤ) < ((2 ^ 52 : ℕ) : ℤ) := Int.ofNat_lt.mpr (lt_of_lt_of_le hm' (Nat.pow_le_pow_right (by omega) (by omega)))
      rwa [Nat.cast_pow, Nat.cast_ofNat] at h52
    · rw [← ev, Int.cast_natCast]
  rw [ev] at eV
  have hE1 : (2:ℚ) ^ E = 2 * 2 ^ (E - 1) := by
    rw [show E = (E - 1) + 1 by omega, zpow_add₀ h2]; simp; ring
  refine ⟨M, E, hMlo, hMhi, by omega, ev, hev, ?_, ?_⟩
  · unfold scaledLow
    split
    · rename_i h
      rw [if_pos (hMeq.mpr h), Nat.cast_sub (by omega), eV, eQ, show (2:ℚ) ^ (E - 1) = 2 ^ E / 2 by rw [hE1]; ring]; ring
    · rename_i h
      rw [if_neg (fun hc => h (hMeq.mp hc)), Nat.cast_sub (by omega), eV]; push_cast; rw [eQ]; ring
  · unfold scaledHigh
    push_cast
    rw [eV, eQ]; ring

theorem shortest_reads {m e d j : Nat} (hm : 0 < m) (hm' : m < 2 ^ 24)
    (hlo : scaledLow m e ≤ scaledDecimal d j) (hhi : scaledDecimal d j ≤ scaledHigh m e) :
    ReadsAs ((d : ℚ) * 10 ^ ((j : ℤ) - 70)) ((m : ℚ) * 2 ^ ((e : ℤ) - 149)) := by
  obtain ⟨M, E, hM, hM', hE, ev, hev, eL, eH⟩ := interval_facts e hm hm'
  have hloQ : ((scaledLow m e : ℕ) : ℚ) ≤ (scaledDecimal d j : ℕ) := by exact_mod_cast hlo
  have hhiQ : ((scaledDecimal d j : ℕ) : ℚ) ≤ (scaledHigh m e : ℕ) := by exact_mod_cast hhi
  rw [eL, scaledDecimal_eq] at hloQ
  rw [eH, scaledDecimal_eq] at hhiQ
  rw [ev]
  exact readsAs_of_near rfl hM hM' hE.le hev (le_of_mul_le_mul_right hloQ scale_pos)
    (le_of_mul_le_mul_right hhiQ scale_pos)

theorem f32Mant_lt (b : Nat) : f32Mant b < 2 ^ 24 := by
  unfold f32Mant f32Frac; split <;> omega

theorem f32Exp_le {b : Nat} (h : b / 2 ^ 23 % 256 ≠ 255) : f32Exp b ≤ 253 := by
  unfold f32Exp f32ExpField; split <;> omega

theorem floatValue_eq (b : Nat) : floatValue b =
    (if b / 2 ^ 31 % 2 = 1 then -1 else 1) * ((f32Mant b : ℚ) * 2 ^ ((f32Exp b : ℤ) - 149)) := by
  unfold floatValue f32Mant f32Exp f32ExpField f32Frac
  congr 1
  by_cases h : b / 2 ^ 23 % 256 = 0
  · rw [if_pos h, if_pos h, if_pos h]; norm_num
  · rw [if_neg h, if_neg h, if_neg h, Nat.add_comm]
    congr 2
    omega

theorem floatRepr_zero {b : Nat} (h : f32Mant b = 0) :
    floatRepr b = (if f32Neg b then py!"-" else []) ++ py!"0.0" := by
  unfold floatRepr; exact if_pos h

theorem floatRepr_pos {b d j : Nat} (h : ¬ f32Mant b = 0) (hs : shortest (f32Mant b) (f32Exp b) = some (d, j)) :
    floatRepr b = (if f32Neg b then py!"-" else []) ++ layoutFloat (pyStrNat (stripZeros 17 d 0).1)
      (((pyStrNat (stripZeros 17 d 0).1).length : Int) + j + (stripZeros 17 d 0).2 - 70) := by
  unfold floatRepr
  refine (if_neg h).trans ?_
  rw [hs]

end Atop
