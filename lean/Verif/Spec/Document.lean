import Verif.Spec.Parseables
import Verif.Model.Utils
/-!
# What `parse_file` must print, entry by entry
-/

namespace Atop.Spec

/-- `vs` are the conversions of `xs`, one for one and in order. -/
def Converted {α} (conv : α → Except Exc JVal) (xs : List α) (vs : List JVal) : Prop :=
  vs.length = xs.length ∧ ∀ (i : Nat) x v, xs[i]? = some x → vs[i]? = some v → conv x = .ok v

/-- The entry of one sample: header, record and system statistics, then the tasks (when asked for) and the cgroups
(when asked for), each converted with `struct_to_dict`. -/
def FullEntry (header : Inst) (tstats cstats : Bool) (x : Sample) (v : JVal) : Prop :=
  ∃ hd rd sd ts cs, structToDict header = .ok hd ∧ structToDict x.record = .ok rd ∧ structToDict x.sstat = .ok sd ∧
    Converted structToDict x.tstats ts ∧ Converted CGroup.toDict x.cgroups cs ∧
    v = .dict ([(py!"header", hd), (py!"record", rd), (py!"sstat", sd)] ++
      (if tstats then [(py!"tstat", .list ts)] else []) ++ (if cstats then [(py!"cgroup", .list cs)] else []))

/-- A row of parseable `p` as printed. -/
def labelled (p : PyStr) (row : PRow) : JVal := .dict (row ++ [(py!"parseable", .str p)])

/-- The parseables of the command line program by name. -/
inductive Parser : PyStr → (PArgs → Rows) → Prop
  | cpu : Parser py!"cpu" parse_cpu
  | CPL : Parser py!"CPL" parse_CPL
  | CPU : Parser py!"CPU" parse_CPU
  | DSK : Parser py!"DSK" parse_DSK
  | LVM : Parser py!"LVM" parse_LVM
  | MDD : Parser py!"MDD" parse_MDD
  | MEM : Parser py!"MEM" parse_MEM
  | NETL : Parser py!"NETL" parse_NETL
  | NETU : Parser py!"NETU" parse_NETU
  | PAG : Parser py!"PAG" parse_PAG
  | PRC : Parser py!"PRC" parse_PRC
  | PRG : Parser py!"PRG" parse_PRG
  | PRM : Parser py!"PRM" parse_PRM
  | PRN : Parser py!"PRN" parse_PRN
  | SWP : Parser py!"SWP" parse_SWP

/-- What a parseable receives for a sample: the header, the record, the system statistics and the tasks. -/
def argsOf (header : Inst) (x : Sample) : PArgs where
  header := header.obj
  record := x.record.obj
  sstat := x.sstat.obj
  tstats := x.tstats.map Inst.obj

/-- Parseable `p` gives `rows` for a sample. -/
def Gives (a : PArgs) (p : PyStr) (rows : List PRow) : Prop := ∃ g, Parser p g ∧ g a = ⟨rows, none⟩

/-- Parseable `p` fails with `e` on a sample: the name is unknown, or the parseable raises. -/
def Fails (a : PArgs) (p : PyStr) (e : Exc) : Prop :=
  ((∀ g, ¬ Parser p g) ∧ e = .keyError) ∨ ∃ g rows, Parser p g ∧ g a = ⟨rows, some e⟩

/-- The message for versions without parseables. -/
def unsupportedMessage (version : PyStr) : PyStr :=
  py!"Atop version " ++ version ++ py!" does not support parseables, only full raw output."

end Atop.Spec
