import Verif.Proofs.SourceParsers
import Verif.Source.Program
/-!
# Every generator of atoparser/parsers/atop_1_26.py, from its text
-/

namespace Atop.Src
open Spec

/-- The names the parsers use besides their arguments. -/
structure ParserGlobals (R : Rt) (G : PyStr → Option Val) : Prop where
  int : G py!"int" = none
  enumerate : G py!"enumerate" = none
  mod : G py!"atop_1_26" = some (.mod py!"atoparser.structs.atop_1_26")
  patch : R.globals py!"atoparser.structs.atop_1_26" py!"PATCHSTAT" = some (.int V1_26.PATCHSTAT)
  io : R.globals py!"atoparser.structs.atop_1_26" py!"IOSTAT" = some (.int V1_26.IOSTAT)

section
variable {R : Rt} {G : PyStr → Option Val} {cur : Option PExc} {w : W} {a : PArgs} {env : Env}

theorem eval_mod {m x : PyStr} {v : Val} {g : PyStr} (hg : G g = some (.mod m)) (h : R.globals m x = some v) :
    eval R G (.attr (.glob g) x) env w = (.ok v, w) := by
  rw [eval_attr (eval_glob hg)]
  show modAttr R m x w = _
  unfold modAttr
  rw [h]; rfl

theorem entry_patch (hG : ParserGlobals R G) (h : Holds env w "header" a.header HT) :
    Entry R G env w (.ifExp (.bin .bitAnd (.attr (.name "header") py!"supportflags") (.attr (.glob py!"atop_1_26") py!"PATCHSTAT"))
      (.const (.str py!"y")) (.const (.str py!"n"))) (flagYN a V1_26.PATCHSTAT) :=
  entry_flag h (by decide +kernel) (eval_mod hG.mod hG.patch)

theorem entry_io (hG : ParserGlobals R G) (h : Holds env w "header" a.header HT) :
    Entry R G env w (.ifExp (.bin .bitAnd (.attr (.name "header") py!"supportflags") (.attr (.glob py!"atop_1_26") py!"IOSTAT"))
      (.const (.str py!"y")) (.const (.str py!"n"))) (flagYN a V1_26.IOSTAT) :=
  entry_flag h (by decide +kernel) (eval_mod hG.mod hG.io)

end

attribute [local irreducible] Holds Entry

/-- One entry after the other. -/
macro "entries" : tactic => `(tactic| repeat first
  | exact Entries.nil
  | refine Entries.cons (entry_get1 (by assumption) (by decide +kernel)) ?_
  | refine Entries.cons (entry_get2 (by assumption) (by decide +kernel)) ?_
  | refine Entries.cons (entry_get3 (by assumption) (by decide +kernel)) ?_
  | refine Entries.cons (entry_str1 (by assumption) (by decide +kernel)) ?_
  | refine Entries.cons (entry_str2 (by assumption) (by decide +kernel)) ?_
  | refine Entries.cons (entry_kib (by assumption) (by decide +kernel)) ?_
  | refine Entries.cons (entry_add (by assumption) (by decide +kernel) (by decide +kernel)) ?_
  | refine Entries.cons (entry_const _) ?_
  | refine Entries.cons (entry_name (by assumption)) ?_
  | refine Entries.cons (entry_patch (by assumption) (by assumption)) ?_
  | refine Entries.cons (entry_io (by assumption) (by assumption)) ?_
  | refine Entries.cons (entry_big (ParserGlobals.int (by assumption)) (by assumption) (by decide +kernel)) ?_)

section
variable {R : Rt} {G : PyStr → Option Val} {cur : Option PExc} {w : W} {a : PArgs} {hv rv sv : Val} {tv : List Val}

/-- A parser's body does what the model says. -/
def Follows (R : Rt) (G : PyStr → Option Val) (cur : Option PExc) (w : W) (hv rv sv : Val) (tv : List Val) (a : PArgs)
    (f : FnDef) (rows : PArgs → Rows) : Prop :=
  Yields w (execBlock R G cur f.body (parserEnv hv rv sv tv) w) (rows a)

theorem follows_CPL (ha : ArgsAre w hv rv sv tv a) : Follows R G cur w hv rv sv tv a Text.Parsers.parse_CPL parse_CPL := by
  obtain ⟨h1, h2, h3⟩ := base_start ha
  unfold Follows parse_CPL stamp
  refine single_yields ?_ (by decide +kernel)
  simp only [List.cons_append, List.nil_append]
  entries

theorem follows_CPU (ha : ArgsAre w hv rv sv tv a) : Follows R G cur w hv rv sv tv a Text.Parsers.parse_CPU parse_CPU := by
  obtain ⟨h1, h2, h3⟩ := base_start ha
  unfold Follows parse_CPU stamp
  refine single_yields ?_ (by decide +kernel)
  simp only [List.cons_append, List.nil_append]
  entries

theorem follows_MEM (ha : ArgsAre w hv rv sv tv a) : Follows R G cur w hv rv sv tv a Text.Parsers.parse_MEM parse_MEM := by
  obtain ⟨h1, h2, h3⟩ := base_start ha
  unfold Follows parse_MEM stamp
  refine single_yields ?_ (by decide +kernel)
  simp only [List.cons_append, List.nil_append]
  entries

theorem follows_NETU (ha : ArgsAre w hv rv sv tv a) : Follows R G cur w hv rv sv tv a Text.Parsers.parse_NETU parse_NETU := by
  obtain ⟨h1, h2, h3⟩ := base_start ha
  unfold Follows parse_NETU stamp
  refine single_yields ?_ (by decide +kernel)
  simp only [List.cons_append, List.nil_append]
  entries

theorem follows_PAG (ha : ArgsAre w hv rv sv tv a) : Follows R G cur w hv rv sv tv a Text.Parsers.parse_PAG parse_PAG := by
  obtain ⟨h1, h2, h3⟩ := base_start ha
  unfold Follows parse_PAG stamp
  refine single_yields ?_ (by decide +kernel)
  simp only [List.cons_append, List.nil_append]
  entries

theorem follows_SWP (ha : ArgsAre w hv rv sv tv a) : Follows R G cur w hv rv sv tv a Text.Parsers.parse_SWP parse_SWP := by
  obtain ⟨h1, h2, h3⟩ := base_start ha
  unfold Follows parse_SWP stamp
  refine single_yields ?_ (by decide +kernel)
  simp only [List.cons_append, List.nil_append]
  entries

theorem follows_PRC (ha : ArgsAre w hv rv sv tv a) :
    Follows R G cur w hv rv sv tv a Text.Parsers.parse_PRC parse_PRC := by
  unfold Follows parse_PRC stamp procId
  refine for_yields (v := .list tv) (eval_name rfl) (by intros; simp) rfl
    (turns_rows TT_good (by decide) (by decide) (by decide) (by decide +kernel) (fun env o hb ho => ?_) ha.tstats) (base_start ha)
  obtain ⟨h1, h2, h3⟩ := hb
  simp only [List.cons_append, List.nil_append]
  entries

theorem follows_PRD (hG : ParserGlobals R G) (ha : ArgsAre w hv rv sv tv a) :
    Follows R G cur w hv rv sv tv a Text.Parsers.parse_PRD parse_PRD := by
  unfold Follows parse_PRD stamp procId
  refine for_yields (v := .list tv) (eval_name rfl) (by intros; simp) rfl
    (turns_rows TT_good (by decide) (by decide) (by decide) (by decide +kernel) (fun env o hb ho => ?_) ha.tstats) (base_start ha)
  obtain ⟨h1, h2, h3⟩ := hb
  simp only [List.cons_append, List.nil_append]
  entries

theorem follows_PRG (ha : ArgsAre w hv rv sv tv a) :
    Follows R G cur w hv rv sv tv a Text.Parsers.parse_PRG parse_PRG := by
  unfold Follows parse_PRG stamp procId
  refine for_yields (v := .list tv) (eval_name rfl) (by intros; simp) rfl
    (turns_rows TT_good (by decide) (by decide) (by decide) (by decide +kernel) (fun env o hb ho => ?_) ha.tstats) (base_start ha)
  obtain ⟨h1, h2, h3⟩ := hb
  simp only [List.cons_append, List.nil_append]
  entries

theorem follows_PRM (ha : ArgsAre w hv rv sv tv a) :
    Follows R G cur w hv rv sv tv a Text.Parsers.parse_PRM parse_PRM := by
  unfold Follows parse_PRM stamp procId
  refine for_yields (v := .list tv) (eval_name rfl) (by intros; simp) rfl
    (turns_rows TT_good (by decide) (by decide) (by decide) (by decide +kernel) (fun env o hb ho => ?_) ha.tstats) (base_start ha)
  obtain ⟨h1, h2, h3⟩ := hb
  simp only [List.cons_append, List.nil_append]
  entries

theorem follows_PRN (hG : ParserGlobals R G) (ha : ArgsAre w hv rv sv tv a) :
    Follows R G cur w hv rv sv tv a Text.Parsers.parse_PRN parse_PRN := by
  unfold Follows parse_PRN stamp procId
  refine for_yields (v := .list tv) (eval_name rfl) (by intros; simp) rfl
    (turns_rows TT_good (by decide) (by decide) (by decide) (by decide +kernel) (fun env o hb ho => ?_) ha.tstats) (base_start ha)
  obtain ⟨h1, h2, h3⟩ := hb
  simp only [List.cons_append, List.nil_append]
  entries

theorem follows_NETL (hG : ParserGlobals R G) (ha : ArgsAre w hv rv sv tv a) :
    Follows R G cur w hv rv sv tv a Text.Parsers.parse_NETL parse_NETL := by
  unfold Follows parse_NETL netlRow
  obtain ⟨v, vs, os, e1, e2, e3, e4, e5⟩ := eval_items (R := R) (G := G) (base_start ha).sstat [py!"intf", py!"intf"]
    (by simp) (e := V1_26.PerIntf) ⟨_, _, by rfl, nofun⟩
  rw [e3]
  refine for_yields e1 e5 e2 (turns_named (by decide +kernel) (by decide) (by decide) (by decide) (by decide +kernel)
    (by decide +kernel) (fun env o hb ho => ?_) e4) (base_start ha)
  obtain ⟨h1, h2, h3⟩ := hb
  simp only [stamp, List.cons_append, List.nil_append]
  entries

theorem follows_DSK (ha : ArgsAre w hv rv sv tv a) :
    Follows R G cur w hv rv sv tv a Text.Parsers.parse_DSK parse_DSK := by
  unfold Follows parse_DSK diskRow
  obtain ⟨v, vs, os, e1, e2, e3, e4, e5⟩ := eval_items (R := R) (G := G) (base_start ha).sstat [py!"dsk", py!"dsk"]
    (by simp) (e := V1_26.PerDSK) ⟨_, _, by rfl, nofun⟩
  rw [e3]
  refine for_yields e1 e5 e2 (turns_named (by decide +kernel) (by decide) (by decide) (by decide) (by decide +kernel)
    (by decide +kernel) (fun env o hb ho => ?_) e4) (base_start ha)
  obtain ⟨h1, h2, h3⟩ := hb
  simp only [stamp, List.cons_append, List.nil_append]
  entries

theorem follows_LVM (ha : ArgsAre w hv rv sv tv a) :
    Follows R G cur w hv rv sv tv a Text.Parsers.parse_LVM parse_LVM := by
  unfold Follows parse_LVM diskRow
  obtain ⟨v, vs, os, e1, e2, e3, e4, e5⟩ := eval_items (R := R) (G := G) (base_start ha).sstat [py!"dsk", py!"lvm"]
    (by simp) (e := V1_26.PerDSK) ⟨_, _, by rfl, nofun⟩
  rw [e3]
  refine for_yields e1 e5 e2 (turns_named (by decide +kernel) (by decide) (by decide) (by decide) (by decide +kernel)
    (by decide +kernel) (fun env o hb ho => ?_) e4) (base_start ha)
  obtain ⟨h1, h2, h3⟩ := hb
  simp only [stamp, List.cons_append, List.nil_append]
  entries

theorem follows_MDD (ha : ArgsAre w hv rv sv tv a) :
    Follows R G cur w hv rv sv tv a Text.Parsers.parse_MDD parse_MDD := by
  unfold Follows parse_MDD diskRow
  obtain ⟨v, vs, os, e1, e2, e3, e4, e5⟩ := eval_items (R := R) (G := G) (base_start ha).sstat [py!"dsk", py!"mdd"]
    (by simp) (e := V1_26.PerDSK) ⟨_, _, by rfl, nofun⟩
  rw [e3]
  refine for_yields e1 e5 e2 (turns_named (by decide +kernel) (by decide) (by decide) (by decide) (by decide +kernel)
    (by decide +kernel) (fun env o hb ho => ?_) e4) (base_start ha)
  obtain ⟨h1, h2, h3⟩ := hb
  simp only [stamp, List.cons_append, List.nil_append]
  entries

/-- The entries of parse_cpu's rows in the text and in the model. -/
def cpuItems : Items :=
  match Text.Parsers.parse_cpu.body with
  | .cons (.for _ _ (.cons _ (.cons (.assign _ (.dict its)) _))) _ => its
  | _ => .nil

def cpuCells (a : PArgs) (k : Nat) (cpu : PyObj) : List (PyStr × Except Exc JVal) := stamp a ++ [
  (py!"ticks", get a.header [py!"hertz"]), (py!"proc", .ok (.int k)), (py!"system", get cpu [py!"stime"]),
  (py!"user", get cpu [py!"utime"]), (py!"niced", get cpu [py!"ntime"]), (py!"idle", get cpu [py!"itime"]),
  (py!"wait", get cpu [py!"wtime"]), (py!"irq", get cpu [py!"Itime"]), (py!"softirq", get cpu [py!"Stime"]),
  (py!"steal", get cpu [py!"steal"]), (py!"guest", get cpu [py!"guest"])]

/-- The loop of parse_cpu, from its `k`-th turn on. -/
theorem turns_cpu {a : PArgs} {n : Int} (hn : getInt a.sstat [py!"cpu", py!"nrcpu"] = .ok n) : ∀ {vs : List Val} {os : List PyObj} (k : Nat), Reps w V1_26.PerCPU vs os →
    Turns w ["index", "cpu"] (execBlock R G cur (match Text.Parsers.parse_cpu.body with
      | .cons (.for _ _ b) _ => b
      | b => b)) (Base w a) ((vs.zipIdx k).map fun p => .tuple [.int p.2, p.1]) (cpuLoop a os k)
  | _, _, _, .nil => .nil
  | _, _, k, .cons (v := v) (vs := vs) (m := m) (os := os) hv hs => by
    have key : ∀ env, Base w a env → ∃ env', assignNames ["index", "cpu"] (.tuple [.int k, v]) env = some env' ∧
        Base w a env' ∧ env' "index" = some (.int k) ∧ Holds env' w "cpu" (pyItem V1_26.PerCPU m) V1_26.PerCPU := by
      intro env hb
      refine ⟨(env.set "index" (.int k)).set "cpu" v, rfl, ?_, ?_, ?_⟩
      · exact (hb.set _ (by decide) (by decide) (by decide)).set _ (by decide) (by decide) (by decide)
      · rw [Env.set_ne _ _ (by decide)]; exact Env.set_same _ _ _
      · unfold Holds
        exact ⟨by decide +kernel, v, m, Env.set_same _ _ _, hv, rfl⟩
    simp only [List.zipIdx_cons, List.map_cons, cpuLoop]
    rw [hn]
    dsimp only
    have htest : ∀ env, Base w a env → env "index" = some (.int k) → eval R G (.cmp .gtE (.name "index")
        (.attr (.attr (.name "sstat") py!"cpu") py!"nrcpu")) env w = (.ok (.bool (decide ((k : Int) ≥ n))), w) := by
      intro env hb hi
      obtain ⟨n', h1, h2⟩ := eval_int (R := R) (G := G) hb.sstat [py!"cpu", py!"nrcpu"] (by simp) (by decide +kernel)
      rw [hn] at h2
      cases h2
      exact eval_cmp (eval_name hi) h1
    by_cases hz : (k : Int) ≥ n
    · rw [if_pos hz]
      refine .brk fun env he => ?_
      obtain ⟨env', k1, k2, k3, k4⟩ := key env he
      exact ⟨env', _, k1, guard_brk (htest env' k2 k3) (by simp [truth, hz])⟩
    · rw [if_neg hz]
      have hrow : ∀ env, Base w a env → env "index" = some (.int k) → Holds env w "cpu" (pyItem V1_26.PerCPU m) V1_26.PerCPU →
          Entries R G env w _ _ := fun env hb hi ho => by
        obtain ⟨h1, h2, h3⟩ := hb
        show Entries R G env w cpuItems (cpuCells a k (pyItem V1_26.PerCPU m))
        unfold cpuItems cpuCells
        simp only [stamp, List.cons_append, List.nil_append]
        entries
      have hk : (keysOf cpuItems).Nodup := by decide +kernel
      show Turns w _ _ _ _ (row (cpuCells a k (pyItem V1_26.PerCPU m)) :: _)
      cases hr : row (cpuCells a k (pyItem V1_26.PerCPU m)) with
      | error e =>
        refine .err fun env he => ?_
        obtain ⟨env', k1, k2, k3, k4⟩ := key env he
        have := rowBody (cur := cur) (hrow env' k2 k3 k4) hk
        rw [hr] at this
        exact ⟨env', _, k1, (guard_on (htest env' k2 k3) (by simp [truth]; omega)).trans this⟩
      | ok r =>
        refine .row (fun env he => ?_) (turns_cpu hn (k + 1) hs)
        obtain ⟨env', k1, k2, k3, k4⟩ := key env he
        have := rowBody (cur := cur) (hrow env' k2 k3 k4) hk
        rw [hr] at this
        obtain ⟨kvs, h3, h4⟩ := this
        exact ⟨env', kvs, _, k1, (guard_on (htest env' k2 k3) (by simp [truth]; omega)).trans h3, h4,
          k2.set _ (by decide) (by decide) (by decide)⟩

theorem follows_cpu (hG : ParserGlobals R G) (ha : ArgsAre w hv rv sv tv a) :
    Follows R G cur w hv rv sv tv a Text.Parsers.parse_cpu parse_cpu := by
  unfold Follows parse_cpu
  obtain ⟨v, vs, os, e1, e2, e3, e4, e5⟩ := eval_items (R := R) (G := G) (base_start ha).sstat [py!"cpu", py!"cpu"]
    (by simp) (e := V1_26.PerCPU) ⟨_, _, by rfl, nofun⟩
  rw [e3]
  obtain ⟨n, -, hn⟩ := eval_int (R := R) (G := G) (base_start ha).sstat [py!"cpu", py!"nrcpu"] (by simp) (by decide +kernel)
  refine for_yields (v := .list (vs.zipIdx.map fun p => .tuple [.int p.2, p.1])) ?_ (by intros; simp) rfl
    (turns_cpu hn 0 e4) (base_start ha)
  refine (eval_call1 (eval_builtin hG.enumerate rfl) e1).trans ?_
  show (do let vs ← items v; return .list (vs.zipIdx.map fun p => .tuple [.int p.2, p.1]) : E Val) w = _
  rw [E.bind_ok e2]; rfl

end
end Atop.Src
