import Verif.Proofs.SourceClasses
import Verif.Props.SourceReader
import Verif.Props.Layouts
import Verif.Spec.SourceClasses
/-!
# C71: the structure classes from their source text

The modules of atoparser/structs (Verif/Source/Structs/, generated from /repo), executed statement by statement: constants,
aliases, imports from one another, the `class` statements with their `_fields_`, `fields_limiters` and class attributes,
inheritance between headers.
-/

namespace Atop.Src
open Spec
set_option maxRecDepth 100000

section
variable (Z : Zlib) (fs : FileSystem) (args : CommandLine)

/-- **C71** The twelve modules can be imported, in the order of their imports, and every one of their names means what
Verif/Source/Tables.lean says: the classes are those of the model, class for class and alias for alias. -/
theorem C71_import : importAll (base Z fs args) structModules [] = some tables := import_all Z fs args

/-- **C71** Every structure class of the model is the class of that name that the text of its module declares. -/
theorem C71_structs {t : CType} (ht : t ∈ allStructs) : ∃ done m x fields limiters,
    importAll (base Z fs args) structModules [] = some done ∧ namesOf done m x = some (.ctype t) ∧
    t = .struct (m.drop 18 ++ py!"." ++ x) fields limiters := by
  obtain ⟨c, fl, l, rfl, m, x, hc, hn⟩ := allStructs_tables ht
  exact ⟨tables, m, x, fl, l, C71_import Z fs args, hn, by rw [hc]⟩

/-- **C71** The header class that the text of the module of a version declares has the published sizes, and its record,
system, task and cgroup classes put every value at the literal position of Verif/Spec/Layouts. -/
theorem C71_layout {r : Row} (hr : r ∈ table) : ∃ done c B,
    importAll (base Z fs args) structModules [] = some done ∧ namesOf done (moduleOf r.version) py!"Header" = some (.hcls c) ∧
    c.supportedVersion = r.version ∧ layoutOf r.version = some B ∧
    ((headerType c).node 0 = B.header ∧ c.Record.node 0 = B.record ∧ c.SStat.node 0 = B.sstat ∧ c.TStat.node 0 = B.tstat ∧
      c.CStat.map (fun t => t.node 0) = B.cstat) ∧
    ((headerType c).size = 480 ∧ c.Record.size = r.record ∧ c.SStat.size = r.sstat ∧ c.TStat.size = r.tstat ∧
      c.CStat.map CType.size = r.cstat) := by
  obtain ⟨c, B, h1, h2, h3, h4, -⟩ := layout_facts hr
  refine ⟨tables, c, B, C71_import Z fs args, ?_, ?_, h2, h3, h4⟩
  all_goals
    simp only [table, List.mem_cons, List.not_mem_nil, or_false] at hr
    rcases hr with rfl | rfl | rfl | rfl | rfl | rfl | rfl | rfl | rfl | rfl | rfl <;> (cases h1; kernel_rfl)

/-- **C71** With the modules of the structures imported from their text the program is the one of C66 to C70. -/
theorem C71_program : textProgram Z fs args = program Z fs args := by
  unfold textProgram
  rw [textBase_eq]
  rfl

/-- **C71** So the whole text of atoparser, structures included, does what the model says: `main()` on any command line,
run from a fresh state. -/
theorem C71_main (hfs : LibFiles fs) (n : Nat) : ∃ r w',
    ((textProgram Z fs args).at (n + 7)).call py!"atoparser.reader" py!"main" [] [] W.empty = (r, w') ∧
      w'.out = (Atop.program args.U Z fs args.argv).1 ∧ SameEnd r (Atop.program args.U Z fs args.argv).2 := by
  rw [C71_program]
  exact C70_program Z fs args hfs n

end

/-! ## Concrete cases -/

/-- A cgroup structure: its module, its size and the place of one of its numbers, from the text. -/
example (Z : Zlib) (fs : FileSystem) (args : CommandLine) : ∃ done t, importAll (base Z fs args) structModules [] = some done ∧
    namesOf done py!"atoparser.structs.atop_2_12" py!"CStat" = some (.ctype t) ∧ t.size = 432 ∧
    namesOf done py!"atoparser.structs.atop_2_11" py!"CStat" = some (.ctype t) :=
  ⟨tables, V2_11.CStat, C71_import Z fs args, rfl, by decide +kernel, rfl⟩

example : V1_26.PerCPU ∈ allStructs ∧ newest ∈ table := by decide +kernel

end Atop.Src
