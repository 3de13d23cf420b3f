import Verif.Model.Py
/-!
# The modules of the versions
-/

namespace Atop.Spec

/-- The module that declares the structures of a version: "2.11" is in atoparser/structs/atop_2_11.py. -/
def moduleOf (version : PyStr) : PyStr :=
  py!"atoparser.structs.atop_" ++ version.map fun c => if c = 46 then 95 else c

example : moduleOf py!"2.11" = py!"atoparser.structs.atop_2_11" := by decide

end Atop.Spec
