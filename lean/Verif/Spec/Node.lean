import Verif.Spec.Dict
/-!
# Literal byte layouts

A `Node` describes what is shown of a block of bytes: every number and text with its literal position in the block (for
entries of lists: the position in the first entry), lists with the distance of their entries and, when a count limits
them, the position of that count.  The files `Verif/Spec/Layouts/*.lean` give one `Node` for every block of every version.
-/

namespace Atop.Spec

mutual
/-- What is shown of a block. -/
inductive Node
  /-- signed integer of `w` bytes at `o` -/
  | sint (o w : Nat)
  /-- unsigned integer of `w` bytes at `o` -/
  | uint (o w : Nat)
  /-- binary32 number at `o` -/
  | float (o : Nat)
  /-- one character at `o` -/
  | char (o : Nat)
  /-- text of at most `n` bytes at `o`, ended by a NUL if shorter -/
  | text (o n : Nat)
  /-- dictionary -/
  | record (rows : NodeRows)
  /-- list of at most `cap` entries, `stride` bytes apart; position, width and signedness of the count, if any -/
  | list (cap stride : Nat) (count : Option (Nat × Nat × Bool)) (entry : Node)
/-- The entries of a dictionary, in order. -/
inductive NodeRows
  | nil
  | cons (name : PyStr) (node : Node) (rest : NodeRows)
end

deriving instance DecidableEq for Node, NodeRows

/-- NodeRows written as a list. -/
def NodeRows.ofList : List (PyStr × Node) → NodeRows
  | [] => .nil
  | (n, x) :: r => .cons n x (ofList r)

/-- `w` bytes of `mem` at `o`. -/
def bytesAt (mem : Bytes) (o w : Nat) : Bytes := (mem.drop o).take w

/-- The integer `k` is stored in `w` bytes at `o`. -/
def StoredInt (mem : Bytes) (o w : Nat) (signed : Bool) (k : Int) : Prop :=
  inRange w signed k ∧ bytesAt mem o w = encodeInt w k

/-- The number of list entries is the one given by the count, or the capacity when there is no count. -/
def CountOK (mem : Bytes) (shift cap : Nat) (count : Option (Nat × Nat × Bool)) (n : Nat) : Prop :=
  match count with
  | none => n = cap
  | some (o, w, s) => ∃ c, StoredInt mem (o + shift) w s c ∧ n = kept c cap

mutual
/-- The value `v` shows the bytes `mem` as described by the node, all positions moved by `shift`. -/
def Node.Shows (mem : Bytes) (shift : Nat) : Node → JVal → Prop
  | .sint o w, v => ∃ k, v = .int k ∧ StoredInt mem (o + shift) w true k
  | .uint o w, v => ∃ k, v = .int k ∧ StoredInt mem (o + shift) w false k
  | .float o, v => ∃ k : Nat, v = .float k ∧ StoredInt mem (o + shift) 4 false k
  | .char o, v => ∃ x : UInt8, mem[o + shift]? = some x ∧ v = .str (if x.toNat < 128 then [x.toNat] else [])
  | .text o n, v => ∃ s, v = .str s ∧ Decodes (beforeNul (bytesAt mem (o + shift) n)) s
  | .record rows, v => ∃ d, v = .dict d ∧ rows.Shows mem shift d
  | .list cap stride count entry, v => ∃ vs, v = .list vs ∧ CountOK mem shift cap count vs.length ∧
      ∀ (i : Nat) x, vs[i]? = some x → entry.Shows mem (shift + i * stride) x
/-- The dictionary has exactly the entries described, in order. -/
def NodeRows.Shows (mem : Bytes) (shift : Nat) : NodeRows → List (PyStr × JVal) → Prop
  | .nil, d => d = []
  | .cons n x r, d => ∃ v d', d = (n, v) :: d' ∧ x.Shows mem shift v ∧ r.Shows mem shift d'
end

end Atop.Spec
