import Verif.Model.Py
import Mathlib.Algebra.Order.Field.Rat
import Mathlib.Algebra.Order.Field.Power
/-!
# JSON texts (RFC 8259) and what they denote

The grammar of RFC 8259, as an inductive relation between a text and the value it denotes.  Strings denote
sequences of UTF-16 code units (section 7), numbers keep their decimal form (section 6), objects keep the order of
their members.  `special` allows the three literals that Python adds to the grammar.  Nothing here mentions the
model of the program.
-/

namespace Atop.Spec

/-- Decimal number literal: sign, digits before the point, digits after it, exponent sign and digits.  Digits are
code points. -/
structure Num where
  neg : Bool := false
  int : PyStr
  frac : Option PyStr := none
  /-- exponent: its sign character, if one is written, and its digits -/
  exp : Option (Option Nat × PyStr) := none

/-- A digit character. -/
def isDigit (c : Nat) : Prop := 48 ≤ c ∧ c ≤ 57

/-- One or more digits. -/
def Digits (ds : PyStr) : Prop := ds ≠ [] ∧ ∀ c ∈ ds, isDigit c

/-- RFC 8259 section 6: `int` has no superfluous leading zero, `frac` and `exp` have at least one digit. -/
structure Num.Valid (n : Num) : Prop where
  int : Digits n.int
  noLeadingZero : n.int.head? = some 48 → n.int.length = 1
  frac : ∀ f, n.frac = some f → Digits f
  exp : ∀ s ds, n.exp = some (s, ds) → Digits ds ∧ (s = none ∨ s = some 43 ∨ s = some 45)

/-- The characters of a number literal; the exponent letter is `e` or `E`. -/
inductive NumText : Num → PyStr → Prop
  | intro (n : Num) (letter : Nat) : letter = 101 ∨ letter = 69 →
    NumText n ((if n.neg then [45] else []) ++ n.int ++
      (match n.frac with | none => [] | some f => 46 :: f) ++
      (match n.exp with | none => [] | some (s, ds) => letter :: (s.toList ++ ds)))

/-- The natural number written by decimal digits. -/
def digitsNat (ds : PyStr) : Nat := ds.foldl (fun a c => 10 * a + (c - 48)) 0

/-- The exponent of a literal; 0 when none is written. -/
def Num.exponent (n : Num) : ℤ :=
  match n.exp with
  | none => 0
  | some (s, ds) => if s = some 45 then -(digitsNat ds : ℤ) else (digitsNat ds : ℤ)

/-- The rational number a literal denotes. -/
def Num.value (n : Num) : ℚ :=
  (if n.neg then -1 else 1) * (digitsNat (n.int ++ n.frac.getD []) : ℚ) *
    (10 : ℚ) ^ (n.exponent - (n.frac.getD []).length)

/-- The UTF-16 code units of one code point: itself, or the surrogate pair holding the upper and the lower ten bits
of the 20-bit number `c - 0x10000`. -/
def utf16 (c : Nat) : List Nat :=
  if c < 0x10000 then [c] else [0xD800 + (c - 0x10000) / 1024 % 1024, 0xDC00 + (c - 0x10000) % 1024]

/-- The UTF-16 code units of a text. -/
def utf16s (s : PyStr) : List Nat := s.flatMap utf16

/-- The value of a hexadecimal digit. -/
inductive Hex : Nat → Nat → Prop
  | dec {d : Nat} : d < 10 → Hex (48 + d) d
  | lower {d : Nat} : 10 ≤ d → d < 16 → Hex (87 + d) d
  | upper {d : Nat} : 10 ≤ d → d < 16 → Hex (55 + d) d

/-- The two-character escapes of RFC 8259 section 7: the character after the backslash and its meaning. -/
def shortEscapes : List (Nat × Nat) :=
  [(34, 34), (92, 92), (47, 47), (98, 8), (102, 12), (110, 10), (114, 13), (116, 9)]

/-- The inside of a string literal and the code units it denotes. -/
inductive Chars : PyStr → List Nat → Prop
  | nil : Chars [] []
  | plain {c t us} : 32 ≤ c → c < 0x110000 → c ≠ 34 → c ≠ 92 → Chars t us → Chars (c :: t) (utf16 c ++ us)
  | short {c u t us} : (c, u) ∈ shortEscapes → Chars t us → Chars (92 :: c :: t) (u :: us)
  | hex {a b c d x y z w t us} : Hex a x → Hex b y → Hex c z → Hex d w → Chars t us →
    Chars (92 :: 117 :: a :: b :: c :: d :: t) ((x * 4096 + y * 256 + z * 16 + w) :: us)

/-- A string literal. -/
inductive StrText : PyStr → List Nat → Prop
  | intro {t us} : Chars t us → StrText (34 :: (t ++ [34])) us

/-- White space. -/
def Ws (w : PyStr) : Prop := ∀ c ∈ w, c = 32 ∨ c = 9 ∨ c = 10 ∨ c = 13

/-- What a JSON text denotes. -/
inductive Ast
  | null
  | bool (b : Bool)
  | num (n : Num)
  | str (units : List Nat)
  | arr (vs : List Ast)
  | obj (ms : List (List Nat × Ast))
  /-- Python's `NaN`, `Infinity`, `-Infinity`: not JSON -/
  | special (word : PyStr)

/-- Items of an array, separated by commas; `V` is the grammar of values. -/
inductive ItemsText (V : PyStr → Ast → Prop) : PyStr → List Ast → Prop
  | one {a t b v} : Ws a → V t v → Ws b → ItemsText V (a ++ t ++ b) [v]
  | more {a t b v s vs} : Ws a → V t v → Ws b → ItemsText V s vs → ItemsText V (a ++ t ++ b ++ 44 :: s) (v :: vs)

/-- Members of an object, separated by commas. -/
inductive MembersText (V : PyStr → Ast → Prop) : PyStr → List (List Nat × Ast) → Prop
  | one {a k us b c t d v} : Ws a → StrText k us → Ws b → Ws c → V t v → Ws d →
    MembersText V (a ++ k ++ b ++ 58 :: (c ++ t ++ d)) [(us, v)]
  | more {a k us b c t d v s ms} : Ws a → StrText k us → Ws b → Ws c → V t v → Ws d → MembersText V s ms →
    MembersText V (a ++ k ++ b ++ 58 :: (c ++ t ++ d ++ 44 :: s)) ((us, v) :: ms)

/-- Values (RFC 8259 section 3), with Python's literals when `python` holds. -/
inductive ValueText (python : Bool) : PyStr → Ast → Prop
  | null : ValueText python py!"null" .null
  | true : ValueText python py!"true" (.bool true)
  | false : ValueText python py!"false" (.bool false)
  | num {n t} : n.Valid → NumText n t → ValueText python t (.num n)
  | str {t us} : StrText t us → ValueText python t (.str us)
  | arr0 {w} : Ws w → ValueText python (91 :: (w ++ [93])) (.arr [])
  | arr {t vs} : ItemsText (ValueText python) t vs → ValueText python (91 :: (t ++ [93])) (.arr vs)
  | obj0 {w} : Ws w → ValueText python (123 :: (w ++ [125])) (.obj [])
  | obj {t ms} : MembersText (ValueText python) t ms → ValueText python (123 :: (t ++ [125])) (.obj ms)
  | special {t} : python = true → t ∈ [py!"NaN", py!"Infinity", py!"-Infinity"] → ValueText python t (.special t)

/-- A JSON text: a value surrounded by white space (RFC 8259 section 2). -/
def JsonText (python : Bool) (t : PyStr) (v : Ast) : Prop :=
  ∃ a b u, Ws a ∧ Ws b ∧ ValueText python u v ∧ t = a ++ u ++ b

end Atop.Spec
