-- GENERATED by tools/gen_layouts.py. Do not edit.
import Verif.Spec.Layouts.L1_26
import Verif.Spec.Layouts.L2_3
import Verif.Spec.Layouts.L2_4
import Verif.Spec.Layouts.L2_5
import Verif.Spec.Layouts.L2_6
import Verif.Spec.Layouts.L2_7
import Verif.Spec.Layouts.L2_8
import Verif.Spec.Layouts.L2_9
import Verif.Spec.Layouts.L2_10
import Verif.Spec.Layouts.L2_11
import Verif.Spec.Layouts.L2_12
/-!
# The byte layouts of all versions
-/

namespace Atop.Spec

/-- The blocks of a log. -/
structure Blocks where
  header : Node
  record : Node
  sstat : Node
  tstat : Node
  cstat : Option Node

/-- Version and layout of its blocks. -/
def layouts : List (PyStr × Blocks) := [
  (py!"1.26", ⟨L1_26.header, L1_26.record, L1_26.sstat, L1_26.tstat, none⟩),
  (py!"2.3", ⟨L2_3.header, L2_3.record, L2_3.sstat, L2_3.tstat, none⟩),
  (py!"2.4", ⟨L2_4.header, L2_4.record, L2_4.sstat, L2_4.tstat, none⟩),
  (py!"2.5", ⟨L2_5.header, L2_5.record, L2_5.sstat, L2_5.tstat, none⟩),
  (py!"2.6", ⟨L2_6.header, L2_6.record, L2_6.sstat, L2_6.tstat, none⟩),
  (py!"2.7", ⟨L2_7.header, L2_7.record, L2_7.sstat, L2_7.tstat, none⟩),
  (py!"2.8", ⟨L2_8.header, L2_8.record, L2_8.sstat, L2_8.tstat, none⟩),
  (py!"2.9", ⟨L2_9.header, L2_9.record, L2_9.sstat, L2_9.tstat, none⟩),
  (py!"2.10", ⟨L2_10.header, L2_10.record, L2_10.sstat, L2_10.tstat, none⟩),
  (py!"2.11", ⟨L2_11.header, L2_11.record, L2_11.sstat, L2_11.tstat, some L2_11.cstat⟩),
  (py!"2.12", ⟨L2_12.header, L2_12.record, L2_12.sstat, L2_12.tstat, some L2_12.cstat⟩)]

end Atop.Spec
