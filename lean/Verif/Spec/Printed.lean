import Verif.Spec.Repr
import Verif.Model.Dict
/-!
# What a printed JSON value must say about a converted value
-/

namespace Atop.Spec

/-- The word Python prints for an infinity or a NaN. -/
def specialWord (bits : Nat) : PyStr :=
  if bits % 2 ^ 23 ≠ 0 then py!"NaN" else if bits / 2 ^ 31 % 2 = 1 then py!"-Infinity" else py!"Infinity"

/-- `a` says `v`: an integer is a number literal without point and exponent that denotes it; a float is a number
literal with a point or an exponent, the one Python prints, that reads as the float; a text is a string with
the same UTF-16 code units; lists and dictionaries are arrays and objects with the same entries in the same
order. -/
inductive Says : JVal → Ast → Prop
  | int {i : Int} {n : Num} : n.frac = none → n.exp = none → n.value = i → (n.neg = true → i ≠ 0) →
    Says (.int i) (.num n)
  | float {b : Nat} {n : Num} : b / 2 ^ 23 % 256 ≠ 255 → (n.frac ≠ none ∨ n.exp ≠ none) →
    PythonFloat b n → ReadsAs n.value (floatValue b) → Says (.float b) (.num n)
  | special {b : Nat} : b / 2 ^ 23 % 256 = 255 → Says (.float b) (.special (specialWord b))
  | str {s : PyStr} : Says (.str s) (.str (utf16s s))
  | list {vs : List JVal} {as : List Ast} : vs.length = as.length →
    (∀ (i : Nat) v a, vs[i]? = some v → as[i]? = some a → Says v a) → Says (.list vs) (.arr as)
  | dict {kvs : List (PyStr × JVal)} {ms : List (List Nat × Ast)} : ms.map Prod.fst = kvs.map (utf16s ·.1) →
    (∀ (i : Nat) k v us a, kvs[i]? = some (k, v) → ms[i]? = some (us, a) → Says v a) → Says (.dict kvs) (.obj ms)

/-- Every float in the value is finite. -/
inductive AllFinite : JVal → Prop
  | int (i : Int) : AllFinite (.int i)
  | float {b : Nat} : b / 2 ^ 23 % 256 ≠ 255 → AllFinite (.float b)
  | str (s : PyStr) : AllFinite (.str s)
  | list {vs : List JVal} : (∀ v ∈ vs, AllFinite v) → AllFinite (.list vs)
  | dict {kvs : List (PyStr × JVal)} : (∀ p ∈ kvs, AllFinite p.2) → AllFinite (.dict kvs)

/-- The bits of a NaN. -/
def isNaN (b : Nat) : Prop := b / 2 ^ 23 % 256 = 255 ∧ b % 2 ^ 23 ≠ 0

/-- The same value, except that one NaN may stand for another. -/
inductive Alike : JVal → JVal → Prop
  | int (i : Int) : Alike (.int i) (.int i)
  | float (b : Nat) : Alike (.float b) (.float b)
  | nan {b b' : Nat} : isNaN b → isNaN b' → Alike (.float b) (.float b')
  | str (s : PyStr) : Alike (.str s) (.str s)
  | list {vs ws : List JVal} : vs.length = ws.length →
    (∀ (i : Nat) v w, vs[i]? = some v → ws[i]? = some w → Alike v w) → Alike (.list vs) (.list ws)
  | dict {kvs lws : List (PyStr × JVal)} : kvs.map Prod.fst = lws.map Prod.fst →
    (∀ (i : Nat) k v l w, kvs[i]? = some (k, v) → lws[i]? = some (l, w) → Alike v w) → Alike (.dict kvs) (.dict lws)

/-- A text without high surrogates: what Python gets from decoding bytes, with or without `surrogateescape`. -/
def NoHigh (s : PyStr) : Prop := ∀ c ∈ s, c < 0xD800 ∨ (0xDC00 ≤ c ∧ c < 0x110000)

end Atop.Spec
