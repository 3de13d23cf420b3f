import Verif.Spec.Format
/-!
# What the messages of `get_header` must say

Numbers are described by what they denote, not by how they are produced: a numeral is a non-empty string of digits
of its base without superfluous leading zero.  Offsets are those of the file.
-/

namespace Atop.Spec

/-- The value of a digit character, `0`-`9` and lower case `a`-`f`. -/
def digitValue (c : Nat) : Option Nat :=
  if 48 ≤ c ∧ c ≤ 57 then some (c - 48) else if 97 ≤ c ∧ c ≤ 102 then some (c - 87) else none

/-- The value of a digit string read in a base, most significant digit first. -/
def digitsValue (base : Nat) : PyStr → Nat := List.foldl (fun a c => base * a + (digitValue c).getD 0) 0

/-- `s` writes the number `n` in the base. -/
structure Numeral (base : Nat) (s : PyStr) (n : Nat) : Prop where
  nonempty : s ≠ []
  digits : ∀ c ∈ s, ∃ d, digitValue c = some d ∧ d < base
  noLeadingZero : s.head? = some 48 → s.length = 1
  value : digitsValue base s = n

/-- `s` writes the integer `i` in decimal, with a minus sign when it is negative. -/
def Decimal (s : PyStr) (i : Int) : Prop :=
  (0 ≤ i ∧ Numeral 10 s i.toNat) ∨ (i < 0 ∧ ∃ t, s = py!"-" ++ t ∧ Numeral 10 t (-i).toNat)

/-- The message about a header that does not start with the magic number: it quotes the first four bytes. -/
def MagicMessage (hb : Bytes) (text : PyStr) : Prop :=
  ∃ number, Numeral 16 number (u32 hb 0) ∧
    text = py!"File does not contain raw atop output (wrong magic number): 0x" ++ number

/-- One entry of the size list, `('Name', found, expected)`. -/
def Entry (name : PyStr) (found : Int) (expected : Nat) (text : PyStr) : Prop :=
  ∃ f e, Decimal f found ∧ Decimal e (expected : Int) ∧
    text = py!"('" ++ name ++ py!"', " ++ f ++ py!", " ++ e ++ py!")"

/-- The message about lengths that do not fit the version: it lists, for the header, the record, the system
statistics, the task statistics and (from 2.11 on) the cgroup statistics, the length the file announces and the
length of that structure in the version used to read it. -/
def SizesMessage (hb : Bytes) (text : PyStr) : Prop :=
  ∃ header record sstat tstat : PyStr,
    Entry py!"Header" (u16 hb 10) 480 header ∧
    Entry py!"Record" (u16 hb 12) (usedRow hb).record record ∧
    Entry py!"SStat" (u32 hb 28) (usedRow hb).sstat sstat ∧
    Entry (if (usedRow hb).version = py!"1.26" then py!"PStat" else py!"TStat") (u32 hb 32) (usedRow hb).tstat tstat ∧
    ((readsCGroups hb = false ∧
      text = py!"File has incompatible Atop format. Struct length evaluations (type, found, expected): [" ++
        header ++ py!", " ++ record ++ py!", " ++ sstat ++ py!", " ++ tstat ++ py!"]") ∨
     (readsCGroups hb = true ∧ ∃ cstat size, (usedRow hb).cstat = some size ∧
      Entry py!"CStat" (i32 hb 456) size cstat ∧
      text = py!"File has incompatible Atop format. Struct length evaluations (type, found, expected): [" ++
        header ++ py!", " ++ record ++ py!", " ++ sstat ++ py!", " ++ tstat ++ py!", " ++ cstat ++ py!"]"))

end Atop.Spec
