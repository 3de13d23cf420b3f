import Verif.Source.Program
/-!
# Running the source text

The source of atoparser as it is (`Verif/Source/Text.lean`, written out mechanically from /repo), executed by the rules
of `Verif/Source/Semantics.lean`, seen from outside: what a generator hands out, and how it ends.
-/

namespace Atop.Src

/-- Calling `next()` until the generator ends, touching nothing in between: what it handed out, the exception it ended
with, if any, and the state afterwards. -/
def listing : Co (Ctl × Env) → List Val × Option PExc × W
  | .ret (.exc e, _) w => ([], some e, w)
  | .ret _ w => ([], none, w)
  | .yield v w k => ((v :: (listing (k none w)).1), (listing (k none w)).2)

/-- The generator object, started. -/
def Rt.start (R : Rt) (g : Val) (w : W) : Co (Ctl × Env) :=
  match g with
  | .gen m body args => R.run m body (envOf args) w
  | _ => .ret (.exc .stuck, fun _ => none) w

/-- The values handed out are these dictionaries, up to the conversion `json.dumps` would apply. -/
def SameRows (vs : List Val) (rows : List (List (PyStr × JVal))) : Prop :=
  vs.map toJ = rows.map JVal.dict

end Atop.Src
