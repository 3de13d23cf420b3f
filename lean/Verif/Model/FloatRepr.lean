import Verif.Model.Header
/-!
# `float.__repr__` of a Python float made from a `ctypes.c_float`

`json.dumps` prints floats with `float.__repr__` (CPython Lib/json/encoder.py:224-243).  The floats of the
library all come from `c_float` fields (four bytes, IEEE 754 binary32), which ctypes widens to a Python float
(IEEE 754 binary64); every binary32 value is a binary64 value.

CPython's `float.__repr__` (Objects/floatobject.c `float_repr`, Python/dtoa.c mode 0) finds the shortest decimal
that reads back as the same binary64 number, the closest one when several have that length, and lays it out as
`format_float_short` (Python/pystrtod.c) does.  The model below is that rule, in exact integer arithmetic:
`2 ^ 204` and `10 ^ 70` are scaling factors large enough that nothing is ever rounded for a binary32 value.
-/

namespace Atop

/-- Sign bit of a binary32. -/
def f32Neg (bits : Nat) : Bool := bits / 2 ^ 31 % 2 = 1
/-- Exponent field of a binary32. -/
def f32ExpField (bits : Nat) : Nat := bits / 2 ^ 23 % 256
/-- Fraction field of a binary32. -/
def f32Frac (bits : Nat) : Nat := bits % 2 ^ 23
/-- Significand: the magnitude of the number is `f32Mant * 2 ^ f32Exp / 2 ^ 149`. -/
def f32Mant (bits : Nat) : Nat := if f32ExpField bits = 0 then f32Frac bits else f32Frac bits + 2 ^ 23
/-- Exponent, biased so that the smallest is 0. -/
def f32Exp (bits : Nat) : Nat := if f32ExpField bits = 0 then 0 else f32ExpField bits - 1

/-- Python/dtoa.c mode 0 for the positive magnitude `m * 2 ^ e / 2 ^ 149`, scaled by `2 ^ 204 * 10 ^ 70`. -/
def scaledValue (m e : Nat) : Nat := m * 2 ^ (e + 55) * 10 ^ 70

/-- A quarter of the distance to the next binary64 number above, scaled likewise.  A binary64 significand has 53
bits; `m` has `m.log2 + 1`. -/
def scaledQuarter (m e : Nat) : Nat := 2 ^ (e + 1 + m.log2) * 10 ^ 70

/-- Lower end of the decimals that read back as the number: half way to the binary64 number below, which is only
half as far away when the number is a power of two. -/
def scaledLow (m e : Nat) : Nat :=
  scaledValue m e - (if m = 2 ^ m.log2 then scaledQuarter m e else 2 * scaledQuarter m e)

/-- Upper end: half way to the binary64 number above. -/
def scaledHigh (m e : Nat) : Nat := scaledValue m e + 2 * scaledQuarter m e

/-- The decimal `d * 10 ^ (j - 70)`, scaled likewise. -/
def scaledDecimal (d j : Nat) : Nat := d * (2 ^ 204 * 10 ^ j)

/-- The decimal `d * 10 ^ (j - 70)` reads back as the number (ends included: the significand is even). -/
def readsBack (m e d j : Nat) : Bool :=
  decide (scaledLow m e ≤ scaledDecimal d j) && decide (scaledDecimal d j ≤ scaledHigh m e)

/-- The least `p ≥ j` (searching at most `fuel` of them) with `below p`. -/
def leastFrom (below : Nat → Bool) : (fuel j : Nat) → Nat
  | 0, j => j
  | n + 1, j => if below j then j else leastFrom below n (j + 1)

/-- The least `p` such that the number is below `10 ^ (p - 70)`. -/
def decimalPoint (m e : Nat) : Nat := leastFrom (fun j => decide (scaledValue m e < 2 ^ 204 * 10 ^ j)) 200 0

/-- The choice between the decimal `d` below and `d + 1` above: the one that reads back, the closer one when both
do. -/
def pick (below above closerBelow : Bool) (d : Nat) : Option Nat :=
  match below, above with
  | true, true => if closerBelow then some d else some (d + 1)
  | true, false => some d
  | false, true => some (d + 1)
  | false, false => none

/-- The best decimal `d * 10 ^ (j - 70)` for a given `j` (the one below, or the one above; the closer one when
both read back, the even one when they are equally close), if any reads back. -/
def candidate (m e j : Nat) : Option Nat :=
  let unit := 2 ^ 204 * 10 ^ j
  let d := scaledValue m e / unit
  let r := scaledValue m e % unit
  pick (readsBack m e d j) (readsBack m e (d + 1) j) (decide (2 * r < unit ∨ (2 * r = unit ∧ d % 2 = 0))) d

/-- The first `j`, going down, with a candidate. -/
def firstDown (cand : Nat → Option Nat) : (fuel j : Nat) → Option (Nat × Nat)
  | 0, _ => none
  | n + 1, j =>
    match cand j with
    | some d => some (d, j)
    | none => firstDown cand n (j - 1)

/-- Python/dtoa.c mode 0: significant digits (trailing zeroDigits not yet removed) and scale of the shortest decimal:
the search goes from one digit to seventeen. -/
def shortest (m e : Nat) : Option (Nat × Nat) := firstDown (candidate m e) 17 (decimalPoint m e - 1)

/-- Digits of `d` without the trailing zeroDigits, and how many were removed. -/
def stripZeros : (fuel d z : Nat) → Nat × Nat
  | 0, d, z => (d, z)
  | n + 1, d, z => if d % 10 = 0 then stripZeros n (d / 10) (z + 1) else (d, z)

/-- Zeros. -/
def zeroDigits (n : Nat) : PyStr := List.replicate n 48

/-- Python/pystrtod.c `format_float_short` with format `'r'` and `Py_DTSF_ADD_DOT_0`: `ds` are the significant
digits and `decpt` the position of the decimal point; exponent notation iff `decpt ≤ -4` or `decpt > 16`. -/
def layoutFloat (ds : PyStr) (decpt : Int) : PyStr :=
  if -4 < decpt ∧ decpt ≤ 16 then
    if decpt ≤ 0 then py!"0." ++ zeroDigits (-decpt).toNat ++ ds
    else if decpt.toNat < ds.length then ds.take decpt.toNat ++ py!"." ++ ds.drop decpt.toNat
    else ds ++ zeroDigits (decpt.toNat - ds.length) ++ py!".0"
  else
    let x := decpt - 1
    let digits := pyStrNat x.natAbs
    ds.take 1 ++ (if ds.length ≤ 1 then [] else py!"." ++ ds.drop 1) ++
      (if x < 0 then py!"e-" else py!"e+") ++ zeroDigits (2 - digits.length) ++ digits

/-- `float.__repr__` of a finite `c_float` value with the given bits. -/
def floatRepr (bits : Nat) : PyStr :=
  let sign : PyStr := if f32Neg bits then py!"-" else []
  let m := f32Mant bits
  let e := f32Exp bits
  if m = 0 then sign ++ py!"0.0"
  else
    match shortest m e with
    | none => sign                                    -- not reached: seventeen digits always suffice (proved)
    | some (d, j) =>
      let (d', z) := stripZeros 17 d 0
      let ds := pyStrNat d'
      sign ++ layoutFloat ds ((ds.length : Int) + j + z - 70)

/-- CPython Lib/json/encoder.py:224-243 `floatstr` (with `allow_nan`). -/
def floatStr (bits : Nat) : PyStr :=
  if f32ExpField bits = 255 then
    if f32Frac bits ≠ 0 then py!"NaN" else if f32Neg bits then py!"-Infinity" else py!"Infinity"
  else floatRepr bits

end Atop
