import Verif.Spec.Messages
import Verif.Proofs.Header
import Mathlib.Data.List.Induction
/-!
# Numerals and the messages of `get_header`
-/

namespace Atop
open Spec

theorem head?_append_ne {a b : PyStr} (h : a ≠ []) : (a ++ b).head? = a.head? := by
  cases a with
  | nil => exact absurd rfl h
  | cons x r => rfl

theorem digitsValue_snoc (base : Nat) (a : PyStr) (c : Nat) :
    digitsValue base (a ++ [c]) = base * digitsValue base a + (digitValue c).getD 0 := by
  unfold digitsValue; rw [List.foldl_append]; rfl

theorem digitValue_char : ∀ d < 16, digitValue (Nat.digitChar d).toNat = some d := by decide +kernel
theorem digitChar_zero : ∀ d < 16, (Nat.digitChar d).toNat = 48 → d = 0 := by decide +kernel
theorem digitValue_inj {a b d : Nat} (ha : digitValue a = some d) (hb : digitValue b = some d) : a = b := by
  unfold digitValue at ha hb
  split at ha <;> split at hb <;> (try split at ha) <;> (try split at hb) <;> simp at ha hb <;> omega

/-- The numeral `Nat.toDigits` produces. -/
def baseText (base n : Nat) : PyStr := (Nat.toDigits base n).map Char.toNat

theorem baseText_eq {base : Nat} (h : 1 < base) (n : Nat) :
    baseText base n = if n < base then [(Nat.digitChar n).toNat]
      else baseText base (n / base) ++ [(Nat.digitChar (n % base)).toNat] := by
  unfold baseText
  rw [Nat.toDigits_eq_if h]
  split
  · rfl
  · rw [List.map_append, List.map_singleton]

theorem baseText_numeral {base : Nat} (h1 : 1 < base) (h2 : base ≤ 16) (n : Nat) : Numeral base (baseText base n) n ∧
    ((baseText base n).head? = some 48 → n = 0) := by
  induction n using Nat.strongRecOn with
  | ind n ih =>
    rw [baseText_eq h1]
    split
    · rename_i h
      have hv := digitValue_char n (by omega)
      refine ⟨⟨by simp, ?_, by simp, ?_⟩, ?_⟩
      · intro c hc
        rw [List.mem_singleton] at hc; subst hc
        exact ⟨n, hv, h⟩
      · simp [digitsValue, hv]
      · intro hh
        exact digitChar_zero n (by omega) (by simpa using hh)
    · rename_i h
      have hd : n / base < n := Nat.div_lt_self (by omega) h1
      have hp : 0 < n / base := Nat.div_pos (by omega) (by omega)
      have hm : n % base < base := Nat.mod_lt _ (by omega)
      have hv := digitValue_char (n % base) (by omega)
      obtain ⟨H, Hz⟩ := ih (n / base) hd
      have hhead : (baseText base (n / base) ++ [(Nat.digitChar (n % base)).toNat]).head? ≠ some 48 := by
        rw [head?_append_ne H.nonempty]
        intro e; have := Hz e; omega
      refine ⟨⟨by simp, ?_, fun e => absurd e hhead, ?_⟩, fun e => absurd e hhead⟩
      · intro c hc
        rcases List.mem_append.mp hc with hc | hc
        · exact H.digits c hc
        · rw [List.mem_singleton] at hc; subst hc
          exact ⟨_, hv, hm⟩
      · rw [digitsValue_snoc, H.value, hv]
        exact Nat.div_add_mod n base

theorem digitsValue_pos {base : Nat} (h : 0 < base) : ∀ (s : PyStr), s ≠ [] → (∀ c ∈ s, ∃ d, digitValue c = some d ∧ d < base) →
    s.head? ≠ some 48 → 0 < digitsValue base s := by
  intro s
  induction s using List.reverseRecOn with
  | nil => intro h; exact absurd rfl h
  | append_singleton s c ih =>
    intro _ hd hh
    rw [digitsValue_snoc]
    by_cases hs : s = []
    · subst hs
      obtain ⟨d, e, -⟩ := hd c (by simp)
      rw [e]
      have : d ≠ 0 := by
        rintro rfl
        exact hh (by simpa using digitValue_inj e (show digitValue 48 = some 0 by decide))
      simp; omega
    · have := ih hs (fun x hx => hd x (by simp [hx])) (by rwa [head?_append_ne hs] at hh)
      have := Nat.mul_pos h this
      omega

theorem numeral_unique {base : Nat} (h : 1 < base) {s t : PyStr} {n : Nat} (hs : Numeral base s n)
    (ht : Numeral base t n) : s = t := by
  induction n using Nat.strongRecOn generalizing s t with
  | ind n ih =>
    -- peel the last digit
    have peel : ∀ {u : PyStr}, Numeral base u n → ∃ u' c d, u = u' ++ [c] ∧ digitValue c = some d ∧ d = n % base ∧
        digitsValue base u' = n / base ∧ (n / base = 0 → u' = []) ∧ (n / base ≠ 0 → Numeral base u' (n / base)) := by
      intro u hu
      rcases List.eq_nil_or_concat u with e | ⟨u', c, e⟩
      · exact absurd e hu.nonempty
      rw [List.concat_eq_append] at e
      subst e
      obtain ⟨d, hd, hlt⟩ := hu.digits c (by simp)
      have hv := hu.value
      rw [digitsValue_snoc, hd, Option.getD_some] at hv
      have hdiv : digitsValue base u' = n / base := by
        rw [← hv, Nat.mul_add_div (by omega), Nat.div_eq_of_lt hlt]; omega
      have hmod : d = n % base := by rw [← hv, Nat.mul_add_mod, Nat.mod_eq_of_lt hlt]
      have hne : u' ≠ [] → u'.head? ≠ some 48 := fun hn e => by
        have h1 := hu.noLeadingZero (by rw [head?_append_ne hn]; exact e)
        have h2 : 0 < u'.length := List.length_pos_iff.mpr hn
        rw [List.length_append, List.length_singleton] at h1; omega
      refine ⟨u', c, d, rfl, hd, hmod, hdiv, ?_, ?_⟩
      · intro h0
        by_contra hn
        have := digitsValue_pos (by omega : 0 < base) u' hn (fun x hx => hu.digits x (by simp [hx])) (hne hn)
        omega
      · intro h0
        have hn : u' ≠ [] := by rintro rfl; exact h0 (by rw [← hdiv]; rfl)
        exact ⟨hn, fun x hx => hu.digits x (by simp [hx]), fun e => absurd e (hne hn), hdiv⟩
    obtain ⟨s', c, d, rfl, hc, hd, -, hs0, hs1⟩ := peel hs
    obtain ⟨t', c', d', rfl, hc', hd', -, ht0, ht1⟩ := peel ht
    rw [← hd] at hd'; subst hd'
    rw [digitValue_inj hc hc']
    by_cases h0 : n / base = 0
    · rw [hs0 h0, ht0 h0]
    · have hn : 0 < n := by rcases Nat.eq_zero_or_pos n with e | e; · subst e; simp at h0
                            · exact e
      rw [ih (n / base) (Nat.div_lt_self hn h) (hs1 h0) (ht1 h0)]

theorem decimal_intRepr (i : Int) : Decimal (intRepr i) i := by
  unfold Decimal intRepr
  have key : ∀ n, Numeral 10 (pyStrNat n) n := fun n => (baseText_numeral (by omega) (by omega) n).1
  by_cases h : i < 0
  · right
    refine ⟨h, pyStrNat i.natAbs, by rw [if_pos h], ?_⟩
    rw [show (-i).toNat = i.natAbs by omega]; exact key _
  · left
    refine ⟨by omega, ?_⟩
    rw [if_neg h, List.nil_append, show i.toNat = i.natAbs by omega]; exact key _

theorem decimal_unique {s t : PyStr} {i : Int} (hs : Decimal s i) (ht : Decimal t i) : s = t := by
  rcases hs with ⟨h, hs⟩ | ⟨h, s', rfl, hs⟩ <;> rcases ht with ⟨h', ht⟩ | ⟨h', t', rfl, ht⟩
  · exact numeral_unique (by omega) hs ht
  · omega
  · omega
  · rw [numeral_unique (by omega) hs ht]

theorem magicMessage_iff (hb : Bytes) (text : PyStr) : MagicMessage hb text ↔ text = magicText (u32 hb 0) := by
  have key : Numeral 16 ((Nat.toDigits 16 (u32 hb 0)).map Char.toNat) (u32 hb 0) :=
    (baseText_numeral (by omega) (by omega) _).1
  constructor
  · rintro ⟨s, hs, rfl⟩
    rw [numeral_unique (by omega) hs key]; rfl
  · rintro rfl
    exact ⟨_, key, rfl⟩

theorem entry_iff (name : PyStr) (found : Int) (expected : Nat) (text : PyStr) :
    Entry name found expected text ↔ text = sizeRepr (name, found, (expected : Int)) := by
  constructor
  · rintro ⟨f, e, hf, he, rfl⟩
    rw [decimal_unique hf (decimal_intRepr _), decimal_unique he (decimal_intRepr _)]; rfl
  · rintro rfl
    exact ⟨_, _, decimal_intRepr _, decimal_intRepr _, rfl⟩

theorem sizesMessage_iff (hb : Bytes) (text : PyStr) (hc : readsCGroups hb = true → ∃ n, (usedRow hb).cstat = some n) :
    SizesMessage hb text ↔
      text = incompatibleText (sizeRows (usedRow hb) hb ++ cgroupRow (usedRow hb) (readsCGroups hb) hb) := by
  unfold SizesMessage sizeRows cgroupRow
  simp only [entry_iff]
  have e480 : ((480 : Nat) : Int) = 480 := rfl
  cases hr : readsCGroups hb with
  | false =>
    simp only [reduceCtorEq, false_and, or_false, true_and, e480]
    constructor
    · rintro ⟨_, _, _, _, rfl, rfl, rfl, rfl, rfl⟩
      simp [incompatibleText, commaJoin]
    · rintro rfl
      exact ⟨_, _, _, _, rfl, rfl, rfl, rfl, by simp [incompatibleText, commaJoin]⟩
  | true =>
    obtain ⟨n, hn⟩ := hc hr
    simp only [reduceCtorEq, false_and, false_or, true_and, e480, hn]
    constructor
    · rintro ⟨_, _, _, _, rfl, rfl, rfl, rfl, _, n', hn', rfl, rfl⟩
      cases hn'
      simp [incompatibleText, commaJoin]
    · rintro rfl
      exact ⟨_, _, _, _, rfl, rfl, rfl, rfl, _, n, rfl, rfl, by simp [incompatibleText, commaJoin]⟩

end Atop
