import Verif.Spec.Printed
/-!
# The printed text, character for character

`Minimal v m`: `m` is the text of the value without any white space around its tokens.  `layOut` puts the white space
in, reading the text once from left to right.  Nothing here mentions the model of the program.
-/

namespace Atop.Spec

/-- A hexadecimal digit, in lower case. -/
def lowerHex (d : Nat) : Nat := (py!"0123456789abcdef").getD d 0

/-- How one UTF-16 code unit is written between the quotes: seven characters have an escape of their own, the other
printable ASCII characters stand for themselves, the rest is written with four hexadecimal digits. -/
def writtenUnit (u : Nat) : PyStr :=
  match [(34, py!"\\\""), (92, py!"\\\\"), (10, py!"\\n"), (13, py!"\\r"), (9, py!"\\t"), (12, py!"\\f"), (8, py!"\\b")].lookup u with
  | some e => e
  | none =>
    if 32 ≤ u ∧ u < 127 then [u]
    else py!"\\u" ++ [lowerHex (u / 16 ^ 3 % 16), lowerHex (u / 16 ^ 2 % 16), lowerHex (u / 16 % 16), lowerHex (u % 16)]

/-- The literal of a text. -/
def literal (s : PyStr) : PyStr := py!"\"" ++ (utf16s s).flatMap writtenUnit ++ py!"\""

/-- The text of a value without white space. -/
inductive Minimal : JVal → PyStr → Prop
  | int {i : Int} {n : Num} : n.Valid → n.frac = none → n.exp = none → n.value = i → (n.neg = true → i ≠ 0) →
    Minimal (.int i) n.text
  | float {b : Nat} {n : Num} : b / 2 ^ 23 % 256 ≠ 255 → n.Valid → PythonFloat b n → Minimal (.float b) n.text
  | special {b : Nat} : b / 2 ^ 23 % 256 = 255 → Minimal (.float b) (specialWord b)
  | str (s : PyStr) : Minimal (.str s) (literal s)
  | list {vs : List JVal} {ts : List PyStr} : ts.length = vs.length →
    (∀ (i : Nat) v t, vs[i]? = some v → ts[i]? = some t → Minimal v t) →
    Minimal (.list vs) (py!"[" ++ [44].intercalate ts ++ py!"]")
  | dict {kvs : List (PyStr × JVal)} {ts : List PyStr} : ts.length = kvs.length →
    (∀ (i : Nat) k v t, kvs[i]? = some (k, v) → ts[i]? = some t → Minimal v t) →
    Minimal (.dict kvs) (py!"{" ++ [44].intercalate ((kvs.zip ts).map fun p => literal p.1.1 ++ py!":" ++ p.2) ++ py!"}")

/-- Where the next character is: between tokens or in a number or word, in a string, after a backslash in a string,
between the two brackets of an empty array or object. -/
inductive Place
  | outside
  | inside
  | escaped
  | empty

/-- A line break and the indentation of depth `d`: two spaces for every array or object that is open. -/
def lineBreak (d : Nat) : PyStr := 10 :: List.replicate (2 * d) 32

/-- The text with white space, `d` arrays and objects being open.  Indented: the opening bracket, each comma and the
last item are followed by a line break, a colon by a space; an empty array or object stays together.  Compact: each
comma and colon is followed by a space. -/
def layOut (indent : Bool) : Nat → Place → PyStr → PyStr
  | _, _, [] => []
  | d, .inside, c :: m => c :: layOut indent d (if c = 34 then .outside else if c = 92 then .escaped else .inside) m
  | d, .escaped, c :: m => c :: layOut indent d .inside m
  | d, .empty, c :: m => c :: layOut indent d .outside m
  | d, .outside, c :: m =>
    if c = 34 then c :: layOut indent d .inside m
    else if c = 44 then c :: ((if indent then lineBreak d else [32]) ++ layOut indent d .outside m)
    else if c = 58 then c :: 32 :: layOut indent d .outside m
    else if c = 91 ∨ c = 123 then
      if m.head? = some (c + 2) then c :: layOut indent d .empty m
      else c :: ((if indent then lineBreak (d + 1) else []) ++ layOut indent (d + 1) .outside m)
    else if c = 93 ∨ c = 125 then
      (if indent then lineBreak (d - 1) else []) ++ c :: layOut indent (d - 1) .outside m
    else c :: layOut indent d .outside m

end Atop.Spec
