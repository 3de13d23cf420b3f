import Verif.Model.Json
/-!
# Python's `float`

The arithmetic of binary64 numbers that the examples of the README need: quotients and differences, and the format `.02%`.
A number is its sign and its exact magnitude; infinities and NaN do not come up.
-/

namespace Atop.Src

/-- A finite binary64 number. -/
structure Dbl where
  neg : Bool
  mag : Rat
deriving DecidableEq

namespace Dbl

/-- The number as a rational. -/
def val (x : Dbl) : Rat := if x.neg then -x.mag else x.mag

/-- The integer nearest to a number; of two, the even one. -/
def nearest (q : Rat) : Int :=
  if q - q.floor < 1 / 2 then q.floor
  else if 1 / 2 < q - q.floor then q.floor + 1
  else if q.floor % 2 = 0 then q.floor else q.floor + 1

/-- `2 ^ e ≤ q < 2 ^ (e + 1)`, for positive `q`. -/
def exponent (q : Rat) : Int :=
  let e : Int := (q.num.toNat.log2 : Int) - q.den.log2
  if q < 2 ^ e then e - 1 else e

/-- The distance of binary64 numbers around the positive number `q`: 53 bits from the leading one, but not below the last
bit of the smallest numbers. -/
def ulp (q : Rat) : Rat := 2 ^ (max (exponent q) (-1022) - 52)

/-- The binary64 number nearest to the non-negative number `q`; of two, the one with an even last bit. -/
def round (q : Rat) : Rat := if q = 0 then 0 else nearest (q / ulp q) * ulp q

/-- The binary64 number with this sign nearest to the non-negative number `q`, unless it is too large. -/
def make (neg : Bool) (q : Rat) : Option Dbl := if round q < 2 ^ 1024 then some ⟨neg, round q⟩ else none

/-- `a / b` for integers, `b` not zero: Python rounds the exact quotient once. -/
def div (a b : Int) : Option Dbl := make (decide (a < 0) != decide (b < 0)) ((a.natAbs : Rat) / b.natAbs)

/-- `a - x` for an integer that is a binary64 number itself.  The difference zero is positive. -/
def intSub (a : Int) (x : Dbl) : Option Dbl :=
  if a.natAbs ≤ 2 ^ 53 then make (decide ((a : Rat) - x.val < 0)) ((a : Rat) - x.val).abs else none

/-- A number of hundredths with two decimals. -/
def hundredths (n : Nat) : PyStr := intRepr (n / 100) ++ py!"." ++ [48 + n / 10 % 10, 48 + n % 10]

/-- `format(x, ".02%")`: a hundred times the number, with two decimals.  The sign is kept when they are zero. -/
def percent (x : Dbl) : Option PyStr :=
  match make x.neg (x.mag * 100) with
  | some y => some ((if y.neg then py!"-" else []) ++ hundredths (nearest (y.mag * 100)).toNat ++ py!"%")
  | none => none

end Dbl
end Atop.Src
