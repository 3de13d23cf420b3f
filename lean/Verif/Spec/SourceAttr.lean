import Verif.Source.Semantics
import Verif.Spec.Node
/-!
# Reading attributes

What a caller gets who reads the objects directly: `x.cpu.all.itime`, `x.dsk.dsk[3].name`, `x.cpu.cpu[-1].stime`.
-/

namespace Atop.Src
open Spec

/-- One step of such an expression. -/
inductive Step
  /-- `.a` -/
  | attr (a : PyStr)
  /-- `[i]` -/
  | item (i : Int)

/-- The Python expression: `e` followed by the steps. -/
def pathExpr : Expr → List Step → Expr
  | e, [] => e
  | e, .attr a :: p => pathExpr (.attr e a) p
  | e, .item i :: p => pathExpr (.sub e (.const (.int i))) p

end Atop.Src

namespace Atop.Spec

/-- The description of the entry called `a`. -/
def NodeRows.get? (a : PyStr) : NodeRows → Option Node
  | .nil => none
  | .cons n x r => if n = a then some x else r.get? a

/-- The steps lead from the node (positions moved by the number) to which node, with positions moved by how much?  All
entries of a list can be reached, whatever its count says; negative indices count from the end. -/
def Node.find : List Src.Step → Node → Nat → Option (Node × Nat)
  | [], n, shift => some (n, shift)
  | .attr a :: p, .record rows, shift =>
    match rows.get? a with
    | some n => n.find p shift
    | none => none
  | .item i :: p, .list cap stride _ entry, shift =>
    if 0 ≤ i ∧ i < cap then entry.find p (shift + i.toNat * stride)
    else if i < 0 ∧ 0 ≤ i + cap then entry.find p (shift + (i + cap).toNat * stride)
    else none
  | _, _, _ => none

/-- What a caller gets: numbers are the stored numbers, a single character is its byte, text is the bytes before the first
NUL; a structure is an object, a list an array object of the full capacity. -/
def Node.Reads (mem : Bytes) (shift : Nat) : Node → Src.Val → Prop
  | .sint o w, v => ∃ k, v = .int k ∧ StoredInt mem (o + shift) w true k
  | .uint o w, v => ∃ k, v = .int k ∧ StoredInt mem (o + shift) w false k
  | .float o, v => ∃ k : Nat, v = .float k ∧ StoredInt mem (o + shift) 4 false k
  | .char o, v => ∃ x : UInt8, mem[o + shift]? = some x ∧ v = .bytes [x]
  | .text o n, v => v = .bytes (beforeNul (bytesAt mem (o + shift) n))
  | .record _, v => ∃ t blk off, v = .view t blk off
  | .list cap .., v => ∃ t blk off, v = .view (.array t cap) blk off

end Atop.Spec

namespace Atop.Src
open Spec

/-- Evaluated in the state `w`, with any globals and other local names, the steps from the object `x` change nothing and give
a value that `P` holds of. -/
def Gets (R : Rt) (w : W) (x : Val) (p : List Step) (P : Val → Prop) : Prop :=
  ∃ v, P v ∧ ∀ G env y, env y = some x → eval R G (pathExpr (.name y) p) env w = (.ok v, w)

/-- ... raises the exception `e`. -/
def GetsError (R : Rt) (w : W) (x : Val) (p : List Step) (e : PExc) : Prop :=
  ∀ G env y, env y = some x → eval R G (pathExpr (.name y) p) env w = (.error e, w)

/-- Every attribute of `x` shows what `mem` holds at the literal positions of `node`; an index outside a list is an
`IndexError`. -/
def ReadsAs (R : Rt) (w : W) (x : Val) (node : Node) (mem : Bytes) : Prop :=
  ∀ p n' shift, node.find p 0 = some (n', shift) → p ≠ [] → Gets R w x p (n'.Reads mem shift) ∧
    ∀ cap stride count entry, n' = .list cap stride count entry → ∀ i : Int, i < -cap ∨ cap ≤ i →
      GetsError R w x (p ++ [.item i]) (.other py!"IndexError")

end Atop.Src
