import Verif.Spec.Schema
import Verif.Spec.Utf8
/-!
# What `struct_to_dict` must show

Stated from the outside: integers through their two's complement little-endian *encoding*, texts through the
UTF-8 relation `Decodes`, list lengths through the dictionary's own count entries.
-/

namespace Atop.Spec

/-- The field name contains the word "future". -/
def mentionsFuture (n : PyStr) : Prop := py!"future" <:+: n

instance (n : PyStr) : Decidable (mentionsFuture n) := by unfold mentionsFuture; infer_instance

/-- Is it a structure class? -/
def isStructure : CType → Bool
  | .struct .. => true
  | _ => false

/-- Is it a list or text type? -/
def isArray : CType → Bool
  | .array .. => true
  | _ => false

/-- A field is shown when it is a structure or its name does not contain "future". -/
def isShown (n : PyStr) (t : CType) : Bool := isStructure t || decide (¬ mentionsFuture n)

/-- Little-endian two's complement encoding of `n` in `w` bytes: byte `i` is `⌊n / 256^i⌋ mod 256`. -/
def encodeInt (w : Nat) (n : Int) : Bytes := (List.range w).map fun i => UInt8.ofNat ((n / (256 ^ i : Nat)) % 256).toNat

/-- `n` is a value of the C integer type of `w` bytes. -/
def inRange (w : Nat) (signed : Bool) (n : Int) : Prop :=
  if signed then -(2 ^ (8 * w - 1) : Nat) ≤ n ∧ n < (2 ^ (8 * w - 1) : Nat) else 0 ≤ n ∧ n < (2 ^ (8 * w) : Nat)

/-- The memory of field `n`, which has offset `o` and type `t`. -/
def slot (mem : Bytes) (o : Nat) (t : CType) : Bytes := (mem.drop o).take t.size

/-- How many of `cap` entries are shown for the count `c`: the first `c`; all when there are fewer; for a negative
count `-k` all but the last `k`. -/
def kept (c : Int) (cap : Nat) : Nat := if 0 ≤ c then min c.toNat cap else cap - (-c).toNat

/-- A text: Unicode scalar values only (no lone surrogates). -/
def Text (s : PyStr) : Prop := ∀ c ∈ s, scalar c

/-- Values that `json.dumps` accepts, with distinct keys in every dictionary, texts and keys satisfying `T`, and
floats that are the bits of a C `float`. -/
inductive Json (T : PyStr → Prop) : JVal → Prop
  | int (i : Int) : Json T (.int i)
  | float {b : Nat} : b < 2 ^ 32 → Json T (.float b)
  | str {s : PyStr} : T s → Json T (.str s)
  | list {vs : List JVal} : (∀ v ∈ vs, Json T v) → Json T (.list vs)
  | dict {kvs : List (PyStr × JVal)} : (kvs.map Prod.fst).Nodup → (∀ p ∈ kvs, T p.1) → (∀ p ∈ kvs, Json T p.2) →
      Json T (.dict kvs)

/-- The value shown for an integer, a float or a structure occupying exactly `mem`. -/
inductive ShowsItem (conv : CType → Bytes → Option JVal) : CType → Bytes → JVal → Prop
  | int {w s n mem} : inRange w s n → mem = encodeInt w n → ShowsItem conv (.int w s) mem (.int n)
  | float {n : Nat} {mem} : inRange 4 false n → mem = encodeInt 4 n → ShowsItem conv .float mem (.float n)
  | struct {t mem v} : isStructure t = true → conv t mem = some v → ShowsItem conv t mem v

/-- The count stored in field `lim`. -/
def countIs (t : CType) (mem : Bytes) (lim : PyStr) (c : Int) : Prop :=
  ∃ o w s, place t lim = some (o, .int w s) ∧ inRange w s c ∧ slot mem o (.int w s) = encodeInt w c

/-- Entry `j` of the list field `n` with capacity `cap` is shown. -/
def entryShown (t : CType) (mem : Bytes) (n : PyStr) (cap j : Nat) : Prop :=
  match (limitersOf t).lookup n with
  | none => j < cap
  | some lim => ∃ c, countIs t mem lim c ∧ j < kept c cap

/-- What a byte contributes to: a number or a text. -/
inductive Leaf | num | text

/-- Byte `i` of the memory of a `t` is part of what is shown (for a text: up to and including the terminating NUL). -/
inductive Visible : CType → Bytes → Nat → Leaf → Prop
  | int {w s mem i} : i < w → Visible (.int w s) mem i .num
  | float {mem i} : i < 4 → Visible .float mem i .num
  | char {mem} : Visible .char mem 0 .text
  | field {t mem n o ft i l} : place t n = some (o, ft) → isArray ft = false → isShown n ft = true →
      Visible ft (slot mem o ft) i l → Visible t mem (o + i) l
  | text {t mem n o k i} : place t n = some (o, .array .char k) → ¬ mentionsFuture n → i < k →
      (∀ j, j < i → mem[o + j]? ≠ some 0) → Visible t mem (o + i) .text
  | elem {t mem n o e k j i l} : place t n = some (o, .array e k) → e ≠ .char → ¬ mentionsFuture n →
      entryShown t mem n k j → Visible e (slot mem (o + j * e.size) e) i l → Visible t mem (o + j * e.size + i) l

/-- Byte `i` of the memory of a structure `t` is not shown: padding, a "future" placeholder, text behind the NUL,
a list entry beyond the count, or hidden inside a nested structure or a list entry. -/
inductive Hidden : CType → Bytes → Nat → Prop
  | padding {t mem i} : isStructure t = true →
      (∀ n o ft, place t n = some (o, ft) → ¬ (o ≤ i ∧ i < o + ft.size)) → Hidden t mem i
  | future {t mem n o ft i} : place t n = some (o, ft) → isShown n ft = false → o ≤ i → i < o + ft.size → Hidden t mem i
  | afterNul {t mem n o k i j} : place t n = some (o, .array .char k) → j < i → i < k → mem[o + j]? = some 0 →
      Hidden t mem (o + i)
  | beyond {t mem n o e k lim c j i} : place t n = some (o, .array e k) → e ≠ .char → (limitersOf t).lookup n = some lim →
      countIs t mem lim c → kept c k ≤ j → j < k → i < e.size → Hidden t mem (o + j * e.size + i)
  | field {t mem n o ft i} : place t n = some (o, ft) → isArray ft = false → i < ft.size →
      Hidden ft (slot mem o ft) i → Hidden t mem (o + i)
  | elem {t mem n o e k j i} : place t n = some (o, .array e k) → e ≠ .char → j < k → i < e.size →
      Hidden e (slot mem (o + j * e.size) e) i → Hidden t mem (o + j * e.size + i)

end Atop.Spec
