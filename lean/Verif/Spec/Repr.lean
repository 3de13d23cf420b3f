import Verif.Spec.JsonText
/-!
# The decimal Python prints for a float

`repr` of a Python float (the Python documentation, "Floating-point arithmetic: issues and limitations"; PEP 3101
and bpo-1580): the shortest decimal that reads back as the float; among those the closest one; exponent notation
for the very large and the very small.
-/

namespace Atop.Spec

/-- `x` is an IEEE 754 binary64 number: at most 53 significant bits, exponent at least -1074.  (Overflow is not
considered: the numbers compared with are far below it.) -/
def IsDouble (x : ℚ) : Prop := ∃ (m : ℤ) (e : ℤ), |m| < 2 ^ 53 ∧ -1074 ≤ e ∧ x = m * (2 : ℚ) ^ e

/-- `x` is a binary64 number whose 53-bit significand is even. -/
def EvenDouble (x : ℚ) : Prop := ∃ (m : ℤ) (e : ℤ), |m| < 2 ^ 52 ∧ -1074 < e ∧ x = m * (2 : ℚ) ^ e

/-- Reading the decimal number `q` as a binary64 number gives `x`: no binary64 number is closer to `q`, and if
another one is equally close then `x` is the even one. -/
def ReadsAs (q x : ℚ) : Prop :=
  IsDouble x ∧ ∀ y, IsDouble y → y ≠ x → |q - x| < |q - y| ∨ (|q - x| = |q - y| ∧ EvenDouble x)

/-- The number a `c_float` with the given 32 bits holds (IEEE 754 binary32), when its exponent field is not 255:
sign bit 31, exponent field bits 23 to 30, fraction bits 0 to 22. -/
def floatValue (bits : Nat) : ℚ :=
  (if bits / 2 ^ 31 % 2 = 1 then -1 else 1) *
    (if bits / 2 ^ 23 % 256 = 0 then (bits % 2 ^ 23 : ℕ) * (2 : ℚ) ^ (-149 : ℤ)
     else ((2 ^ 23 + bits % 2 ^ 23 : ℕ) : ℚ) * (2 : ℚ) ^ ((bits / 2 ^ 23 % 256 : ℕ) - 150 : ℤ))

/-- The characters of a number literal, with the exponent letter `e`. -/
def Num.text (n : Num) : PyStr :=
  (if n.neg then py!"-" else []) ++ n.int ++ (match n.frac with | none => [] | some f => py!"." ++ f) ++
    (match n.exp with | none => [] | some (s, ds) => py!"e" ++ s.toList ++ ds)

/-- `d` is written with exactly `k` digits. -/
def HasDigits (d k : Nat) : Prop := 10 ^ k ≤ 10 * d ∧ d < 10 ^ k

/-- The decimal `q` is the one printed for the positive float `x`: it has some number `k` of significant digits and
reads as `x`; no decimal with fewer digits does; every other decimal with as many digits that does is farther away,
or equally far with an odd last digit where that of `q` is even. -/
def BestDecimal (q x : ℚ) : Prop :=
  ∃ d k : ℕ, ∃ j : ℤ, HasDigits d k ∧ q = d * (10 : ℚ) ^ j ∧ ReadsAs q x ∧
    ∀ (d' k' : ℕ) (j' : ℤ), HasDigits d' k' → ReadsAs (d' * (10 : ℚ) ^ j') x →
      k ≤ k' ∧ (k' = k → d' * (10 : ℚ) ^ j' = q ∨ |q - x| < |d' * (10 : ℚ) ^ j' - x| ∨
        (|q - x| = |d' * (10 : ℚ) ^ j' - x| ∧ d % 2 = 0 ∧ d' % 2 = 1))

/-- The shape of the literal: positional, with a digit on either side of the point and no needless zeros, for 0 and
from 0.0001 up to but excluding 10 ^ 16; otherwise one nonzero digit, then a point and more digits only if there
are any, then a signed exponent of at least two digits. -/
structure PythonShape (n : Num) : Prop where
  positional : n.exp = none ↔ n.value = 0 ∨ (1 / 10 ^ 4 ≤ |n.value| ∧ |n.value| < 10 ^ 16)
  point : n.exp = none → ∃ f, n.frac = some f ∧ (f = [48] ∨ f.getLast? ≠ some 48)
  mantissa : n.exp ≠ none → n.int.length = 1 ∧ n.int ≠ [48] ∧ ∀ f, n.frac = some f → f.getLast? ≠ some 48
  exponent : ∀ s xs, n.exp = some (s, xs) →
    s ≠ none ∧ 2 ≤ xs.length ∧ (2 < xs.length → xs.head? ≠ some 48) ∧ digitsNat xs ≠ 0

/-- The literal `n` is what Python prints for the finite float with the given bits: its sign is the sign of the
float (also for zero), its shape is Python's, and without the signs its value is 0 for zero and otherwise the best
decimal. -/
structure PythonFloat (b : Nat) (n : Num) : Prop where
  sign : n.neg = true ↔ b / 2 ^ 31 % 2 = 1
  shape : PythonShape n
  zero : floatValue b = 0 → n.value = 0
  best : floatValue b ≠ 0 → BestDecimal |n.value| |floatValue b|

end Atop.Spec
