import Verif.Spec.SourceGen
import Verif.Spec.SourceAttr
import Verif.Spec.Sample
import Verif.Spec.Result
/-!
# What the objects handed out by the executed source must show

The caller looks at an object by converting it with `atoparser.struct_to_dict`, itself executed from its source text, or by
reading its attributes.
-/

namespace Atop.Src
open Spec

/-- `atoparser.struct_to_dict(x)`, executed in the state `w`, changes nothing and returns a value that `P` holds of. -/
def Converts (R : Rt) (w : W) (x : Val) (P : JVal → Prop) : Prop :=
  ∃ v, R.call py!"atoparser" py!"struct_to_dict" [x] [] w = (.ok v, w) ∧ P (toJ v)

/-- The object `x`, in the state `w`, shows `mem` by the literal layout `node`: converted, and read attribute by attribute. -/
def Displays (R : Rt) (w : W) (x : Val) (node : Node) (mem : Bytes) : Prop :=
  Converts R w x (fun v => node.Shows mem 0 v) ∧ ReadsAs R w x node mem

/-- The object `x` shows a cgroup: converted, and read attribute by attribute (`x.cstat....`, `x.proclist[i]`). -/
def DisplaysGroup (R : Rt) (w : W) (x : Val) (node : Node) (g : WGroup) : Prop :=
  Converts R w x (fun v => GroupShows node g v) ∧
  ∃ c l, Gets R w x [.attr py!"cstat"] (· = c) ∧ ReadsAs R w c node g.entry ∧ Gets R w x [.attr py!"proclist"] (· = l) ∧
    (∀ i : Nat, i < g.pids.length / 4 → Gets R w l [.item i] (fun v => ∃ k, v = .int k ∧ StoredInt g.pids (4 * i) 4 true k)) ∧
    ∀ i : Int, i < -(g.pids.length / 4 : Nat) ∨ (g.pids.length / 4 : Nat) ≤ i → GetsError R w l [.item i] (.other py!"IndexError")

/-- One for one and in order. -/
def AllShow {α} (P : α → Val → Prop) (bs : List α) (xs : List Val) : Prop :=
  xs.length = bs.length ∧ ∀ (i : Nat) b x, bs[i]? = some b → xs[i]? = some x → P b x

/-- `x` is a tuple of a record, system statistics, a list of tasks and a list of cgroups; in the state `w` they show the
blocks of the sample `f` by the literal layouts `B`. -/
def TupleShows (R : Rt) (w : W) (B : Blocks) (f : WSample) (x : Val) : Prop :=
  ∃ record sstat tstats cgroups, x = .tuple [record, sstat, .list tstats, .list cgroups] ∧
    Displays R w record B.record f.record ∧
    Displays R w sstat B.sstat f.sstat ∧
    AllShow (fun t v => Displays R w v B.tstat t) f.tstats tstats ∧
    AllShow (fun g v => ∃ n, B.cstat = some n ∧ DisplaysGroup R w v n g) f.groups cgroups

/-- The state of a program that has opened a file and done nothing else. -/
def opened (s : Stream) : W := { W.empty with file := s }

/-- What `next()` gives when the samples are over: nothing, or the exception of the trouble (a `zlib.error` only when it is
asked for). -/
def lastOut (short : Option Exc) (rot : Bool) : Option Trouble → POut
  | none => .stop
  | some t => if troubleExc short t = .zlibError ∧ rot = false then .stop else .raise (embExc (troubleExc short t))

end Atop.Src
