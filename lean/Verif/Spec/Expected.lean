import Verif.Spec.Format
import Verif.Model.Utils
/-!
# What a reader must present for a written sample: the written bytes, viewed with the version's structures
-/

namespace Atop.Spec

/-- A cgroup: the fixed structure at the start of its chain entry, and its process ids. -/
def presentedGroup (t : CType) (g : WGroup) : CGroup :=
  ⟨⟨t, g.entry.take t.size⟩, ⟨.array pid_t (g.pids.length / 4), g.pids⟩⟩

/-- A sample, with the structures of header class `c`. -/
def presented (c : HeaderClass) (w : WSample) : Sample where
  record := ⟨c.Record, w.record⟩
  sstat := ⟨c.SStat, w.sstat⟩
  tstats := w.tstats.map fun t => ⟨c.TStat, t⟩
  cgroups := match c.CStat with
    | none => []
    | some t => w.groups.map (presentedGroup t)

end Atop.Spec
