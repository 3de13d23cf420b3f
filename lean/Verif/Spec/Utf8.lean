import Verif.Model.Py
/-!
# UTF-8, stated from the encoder (RFC 3629)
-/

namespace Atop.Spec

/-- A Unicode scalar value: a code point that is not a surrogate. -/
def scalar (c : Nat) : Prop := c < 0xD800 ∨ (0xE000 ≤ c ∧ c < 0x110000)

instance (c : Nat) : Decidable (scalar c) := by unfold scalar; infer_instance

/-- The UTF-8 encoding of one code point. -/
def encodeCp (c : Nat) : Bytes :=
  if c < 0x80 then [.ofNat c]
  else if c < 0x800 then [.ofNat (0xC0 + c / 64), .ofNat (0x80 + c % 64)]
  else if c < 0x10000 then [.ofNat (0xE0 + c / 4096), .ofNat (0x80 + c / 64 % 64), .ofNat (0x80 + c % 64)]
  else [.ofNat (0xF0 + c / 262144), .ofNat (0x80 + c / 4096 % 64), .ofNat (0x80 + c / 64 % 64), .ofNat (0x80 + c % 64)]

/-- The UTF-8 encoding of a text. -/
def encodeText (s : PyStr) : Bytes := s.flatMap encodeCp

/-- `Decodes b s`: reading `b` from the left, taking a character wherever a complete UTF-8 character starts and
dropping the byte wherever none does, gives the text `s`. -/
inductive Decodes : Bytes → PyStr → Prop
  | nil : Decodes [] []
  | char {c rest s} : scalar c → Decodes rest s → Decodes (encodeCp c ++ rest) (c :: s)
  | drop {x rest s} : (¬ ∃ c r, scalar c ∧ x :: rest = encodeCp c ++ r) → Decodes rest s → Decodes (x :: rest) s

/-- The bytes before the first NUL; all of them when there is none. -/
def beforeNul : Bytes → Bytes
  | [] => []
  | x :: r => if x = 0 then [] else x :: beforeNul r

end Atop.Spec
