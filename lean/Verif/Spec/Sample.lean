import Verif.Spec.Layouts
import Verif.Spec.Format
/-!
# What must be shown of a written sample, by literal byte positions
-/

namespace Atop.Spec

/-- The layout of the blocks of a version. -/
def layoutOf (version : PyStr) : Option Blocks := layouts.lookup version

/-- `vs` shows `xs`, one for one and in order. -/
def AllShow {α} (P : α → JVal → Prop) (xs : List α) (vs : List JVal) : Prop :=
  vs.length = xs.length ∧ ∀ (i : Nat) x v, xs[i]? = some x → vs[i]? = some v → P x v

/-- A cgroup: its statistics and its process ids, each a signed 4-byte integer. -/
def GroupShows (stat : Node) (g : WGroup) (v : JVal) : Prop :=
  ∃ cs ps, v = .dict [(py!"cstat", cs), (py!"proclist", .list ps)] ∧ stat.Shows g.entry 0 cs ∧
    4 * ps.length = g.pids.length ∧ ∀ (i : Nat) p, ps[i]? = some p → ∃ k, p = .int k ∧ StoredInt g.pids (4 * i) 4 true k

/-- The entry printed for a sample of a log with header `hb`: the header, the record, the system statistics, then the
tasks (when asked for) and the cgroups (when asked for). -/
def EntryShows (B : Blocks) (hb : Bytes) (w : WSample) (tstats cstats : Bool) (v : JVal) : Prop :=
  ∃ hd rd sd ts cs, v = .dict ([(py!"header", hd), (py!"record", rd), (py!"sstat", sd)] ++
      (if tstats then [(py!"tstat", .list ts)] else []) ++ (if cstats then [(py!"cgroup", .list cs)] else [])) ∧
    B.header.Shows hb 0 hd ∧ B.record.Shows w.record 0 rd ∧ B.sstat.Shows w.sstat 0 sd ∧
    AllShow (fun t v => B.tstat.Shows t 0 v) w.tstats ts ∧
    AllShow (fun g v => ∃ n, B.cstat = some n ∧ GroupShows n g v) w.groups cs

end Atop.Spec
