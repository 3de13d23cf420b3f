import Verif.Spec.SourceResult
import Verif.Spec.Messages
import Verif.Source.Readme
/-!
# What the examples of the README must print
-/

namespace Atop.Spec

/-- `x` and `y` are at most `b` apart. -/
def Near (b x y : Rat) : Prop := x ≤ y + b ∧ y ≤ x + b

/-- `t` writes the number `v` (of percent) with two decimals and a percent sign. -/
def PercentText (v : Rat) (t : PyStr) : Prop :=
  ∃ (neg : Bool) (whole : PyStr) (n d₁ d₂ : Nat), Numeral 10 whole n ∧ d₁ < 10 ∧ d₂ < 10 ∧
    t = (if neg then py!"-" else []) ++ whole ++ py!"." ++ [48 + d₁, 48 + d₂] ++ py!"%" ∧
    v = (if neg then -1 else 1) * ((n : Rat) + d₁ / 10 + d₂ / 100)

/-- The line about a sample in which `itime` of `total` ticks were idle: a percentage that differs from the exact one by
half a hundredth and a rounding error at most; without a minus sign and not above 100 when no more than all ticks were
idle. -/
def UsageLine (itime total : Int) (t : PyStr) : Prop :=
  ∃ p v, t = py!"CPU usage was " ++ p ++ py!"\n" ∧ PercentText v p ∧
    Near (1 / 200 + (1 + (itime.natAbs : Rat) / total.natAbs) / 2 ^ 43) v (100 * (1 - (itime : Rat) / total)) ∧
    (0 ≤ itime → itime ≤ total → 0 ≤ v ∧ v ≤ 100 ∧ 45 ∉ p)

/-- The ticks of a sample: those spent idle (system statistics at 112) and all of them - seconds of the interval (record at
24) times processors (system statistics at 0) times ticks per second (header at 14). -/
def Ticks (header record sstat : Bytes) (itime total : Int) : Prop :=
  ∃ interval nrcpu hertz, StoredInt sstat 112 8 true itime ∧ StoredInt record 24 4 false interval ∧
    StoredInt sstat 0 8 true nrcpu ∧ StoredInt header 14 2 false hertz ∧ total = interval * nrcpu * hertz

end Atop.Spec

namespace Atop.Src
open Spec

/-- What the first example prints for the samples found, and how it ends: one line for each, in order, until one lasted no
ticks; behind the last it ends as `last` says. -/
inductive UsageRun (header : Bytes) (last : Except PExc Val) : List Found → Except PExc Val → PyStr → Prop
  | over : UsageRun header last [] last []
  | line {f fs itime total t r u} : Ticks header f.record f.sstat itime total → total ≠ 0 → UsageLine itime total t →
      UsageRun header last fs r u → UsageRun header last (f :: fs) r (t ++ u)
  | zero {f fs itime} : Ticks header f.record f.sstat itime 0 →
      UsageRun header last (f :: fs) (.error (.other py!"ZeroDivisionError")) []

/-- How a loop over the samples ends behind the last one. -/
def loopEnd (short : Option Exc) (t : Option Trouble) : Except PExc Val :=
  match lastOut short true t with
  | .raise e => .error e
  | _ => .ok .none

/-- Running an example of the README with the path `file`, after its imports. -/
def runExample (R : Rt) (imports : List Decl) (f : FnDef) (file : PyStr) : Except PExc Val × W :=
  match execBlock R (execDecls R py!"__main__" imports fun _ => none) none f.body (envOf [("file", .str file)]) W.empty with
  | .ret (.exc e, _) w => (.error e, w)
  | .ret (.next, _) w => (.ok .none, w)
  | .ret _ w => (.error .stuck, w)
  | .yield _ w _ => (.error .stuck, w)

end Atop.Src
