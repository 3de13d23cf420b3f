import Verif.Proofs.SourceParseables
import Verif.Props.SourceDict
import Verif.Props.SourceUtils
/-!
# `parse_file`, from its text: the full conversion of a sample
-/

namespace Atop.Src
open Spec
set_option maxRecDepth 20000

/-- A sample as the generators make them: everything has the type and the size that belong to the header. -/
structure Filled (h : Header) (x : Sample) : Prop where
  record : x.record.ty = h.cls.Record ∧ x.record.buf.length = h.cls.Record.size
  sstat : x.sstat.ty = h.cls.SStat ∧ x.sstat.buf.length = h.cls.SStat.size
  tstats : ∀ t ∈ x.tstats, t.ty = h.cls.TStat ∧ t.buf.length = h.cls.TStat.size
  cgroups : ∀ g ∈ x.cgroups, ∃ t, h.cls.CStat = some t ∧ g.cstat.ty = t ∧ g.cstat.buf.length = t.size ∧
      ∃ n : Nat, g.proclist.ty = .array pid_t n ∧ g.proclist.buf.length = 4 * n

theorem version_classes : ∀ c ∈ versions, c.Record ∈ classes ∧ c.SStat ∈ classes ∧ c.TStat ∈ classes ∧ ∀ t, c.CStat = some t → t ∈ classes := by
  have : (versions.all fun c => decide (c.Record ∈ classes) && decide (c.SStat ∈ classes) && decide (c.TStat ∈ classes) &&
    (match c.CStat with | some t => decide (t ∈ classes) | none => true)) = true := by decide +kernel
  intro c hc
  have h := List.all_eq_true.mp this c hc
  simp only [Bool.and_eq_true, decide_eq_true_eq] at h
  obtain ⟨⟨⟨h1, h2⟩, h3⟩, h4⟩ := h
  refine ⟨h1, h2, h3, ?_⟩
  intro t ht
  rw [ht] at h4
  exact of_decide_eq_true h4

section
variable {Z : Zlib} {fs : FileSystem} {args : CommandLine} {out : PyStr} {w : World} {n : Nat} {env : Env}

local notation "P" => program Z fs args
local notation "GR" => Rt.globals (program Z fs args) py!"atoparser.reader"

theorem mem_all {r : Ref} (hl : (w.inst r).buf.length = r.ty.size) : mem (emb out w) r.blk 0 r.ty.size = (w.inst r).buf := by
  show ((w.heap.getD r.blk []).drop 0).take r.ty.size = w.heap.getD r.blk []
  rw [← hl]
  exact List.take_length

/-- `atoparser.struct_to_dict(x)` -/
def convCall (x : String) : Expr := .call (.attr (.glob py!"atoparser") py!"struct_to_dict") exprs![(.name x)] .nil

theorem eval_conv {R : Rt} (hR : R.globals = (P).globals) {x : String} {v u : Val} {s : W} (hx : env x = some v)
    (hc : R.call py!"atoparser" py!"struct_to_dict" [v] [] s = (.ok u, s)) : eval R GR (convCall x) env s = (.ok u, s) := by
  have hf : eval R GR (.attr (.glob py!"atoparser") py!"struct_to_dict") env s = (.ok (.fn py!"atoparser.utils" Text.Utils.struct_to_dict []), s) := by
    refine (eval_attr (eval_glob (v := .mod py!"atoparser") rfl)).trans ?_
    show modAttr R _ _ s = _
    unfold modAttr
    rw [hR]
    rfl
  refine (eval_call1 hf (eval_name hx)).trans ?_
  rw [← hc]
  unfold Rt.call
  rw [hR]
  rfl

theorem conv_ref {r : Ref} (ht : r.ty ∈ classes) (hl : (w.inst r).buf.length = r.ty.size) :
    ∃ v, ((P).at (n + 5)).call py!"atoparser" py!"struct_to_dict" [refVal r] [] (emb out w) = (.ok v, emb out w) ∧
      structToDict (w.inst r) = .ok (toJ v) := by
  obtain ⟨v, h1, h2⟩ := C69_struct_to_dict Z fs args (n + 1) (emb out w) r.ty ht r.blk 0
  refine ⟨v, h1, ?_⟩
  rw [mem_all hl] at h2
  exact h2

theorem conv_grp {g : Obj.Group} (ht : g.cstat.ty ∈ classes) (hl : (w.inst g.cstat).buf.length = g.cstat.ty.size) {k : Nat}
    (hp : g.proclist.ty = .array pid_t k) (hq : (w.inst g.proclist).buf.length = 4 * k) :
    ∃ v, ((P).at (n + 5)).call py!"atoparser" py!"struct_to_dict" [groupVal g] [] (emb out w) = (.ok v, emb out w) ∧
      CGroup.toDict (w.group g) = .ok (toJ v) := by
  obtain ⟨v, h1, h2⟩ := C69_cgroup Z fs args n (emb out w) g ht k hp
  refine ⟨v, h1, ?_⟩
  rw [mem_all hl, mem_all (by rw [hq, hp]; show 4 * k = k * 4; omega)] at h2
  exact h2

/-- `[f(x) for x in l]` -/
theorem comp_conv {α β : Type} {s : W} {f : Val → E Val} {g : α → Val} {m : β → Except Exc JVal} {k : α → β} : ∀ {l : List α},
    (∀ a ∈ l, ∃ v, f (g a) s = (.ok v, s) ∧ m (k a) = .ok (toJ v)) →
    ∃ vs, mapE f (l.map g) s = (.ok vs, s) ∧ (l.map k).mapM m = .ok (toJs vs)
  | [], _ => ⟨[], rfl, rfl⟩
  | a :: l, h => by
    obtain ⟨v, h1, h2⟩ := h a List.mem_cons_self
    obtain ⟨vs, h3, h4⟩ := comp_conv (l := l) fun b hb => h b (List.mem_cons_of_mem _ hb)
    refine ⟨v :: vs, ?_, ?_⟩
    · simp only [List.map_cons, mapE]
      rw [E.bind_ok h1, E.bind_ok h3]
      rfl
    · simp only [List.map_cons, List.mapM_cons, h2, h4]
      rfl

/-- `if <flag>: converted[<key>] = [atoparser.struct_to_dict(stat) for stat in <list>]` (atoparser/reader.py:107-110). -/
def extra (flag : String) (key : PyStr) (list : String) : Stmt :=
  .ifte (.name flag) block![
    .assign (.sub (.name "converted") (.const (.str key))) (.listComp (convCall "stat") "stat" (.name list))] block![]

theorem run_extra {R : Rt} (hR : R.globals = (P).globals) {α β : Type} {flag list : String} {key : PyStr} {b : Bool} {g : α → Val}
    {m : β → Except Exc JVal} {k : α → β} {l : List α} {kvs : List (PyStr × Val)} {s : W} (hf : env flag = some (.bool b))
    (hl : env list = some (.list (l.map g))) (hc : env "converted" = some (.dict kvs)) (hk : key ∉ kvs.map Prod.fst)
    (h : ∀ a ∈ l, ∃ v, R.call py!"atoparser" py!"struct_to_dict" [g a] [] s = (.ok v, s) ∧ m (k a) = .ok (toJ v)) :
    ∃ vs new, (l.map k).mapM m = .ok (toJs vs) ∧ new = (if b then [(key, Val.list vs)] else []) ∧
      ∃ env', exec R GR none (extra flag key list) env s = .ret (.next, env') s ∧ env' "converted" = some (.dict (kvs ++ new)) ∧
        Kept ["converted"] env env' := by
  have hm : ∀ a ∈ l, ∃ v, eval R GR (convCall "stat") (env.set "stat" (g a)) s = (.ok v, s) ∧ m (k a) = .ok (toJ v) := by
    intro a ha
    obtain ⟨v, h1, h2⟩ := h a ha
    exact ⟨v, eval_conv hR (x := "stat") rfl h1, h2⟩
  obtain ⟨vs, h1, h2⟩ := comp_conv (f := fun v => eval R GR (convCall "stat") (env.set "stat" v)) hm
  refine ⟨vs, _, h2, rfl, ?_⟩
  unfold extra
  cases b with
  | false =>
    refine ⟨env, (exec_if_false (eval_name hf) rfl).trans block_nil, ?_, Kept.refl _ _⟩
    rw [hc]; simp
  | true =>
    have hcomp : eval R GR (.listComp (convCall "stat") "stat" (.name list)) env s = (.ok (.list vs), s) := by
      simp only [eval]
      have hi : (do items (← (match env list with | some v => E.pure v | none => E.stuck)) : E (List Val)) s = (.ok (l.map g), s) := by
        rw [hl]; rfl
      rw [hl]
      show (do let vs ← items (.list (l.map g)); return .list (← mapE (fun v => eval R GR (convCall "stat") (env.set "stat" v)) vs) : E Val) s = _
      rw [E.bind_ok (show items (.list (l.map g)) s = (.ok (l.map g), s) from rfl), E.bind_ok h1]
      rfl
    have hst : store R GR (.sub (.name "converted") (.const (.str key))) (.list vs) env s =
        (.ok (env.set "converted" (.dict (kvs ++ [(key, .list vs)]))), s) := by
      simp only [store]
      rw [E.bind_ok (eval_name hc), E.bind_ok (eval_const _ _ _)]
      have : setItem (.dict kvs) (constVal (.str key)) (.list vs) s = (.ok (.dict (kvs ++ [(key, .list vs)])), s) := by
        show (Except.ok (Val.dict (dictSet key (.list vs) kvs)), s) = _
        rw [dictSet_new hk]
      rw [E.bind_ok this]
      rfl
    exact ⟨_, (exec_if_true (eval_name hf) rfl).trans ((block_next (exec_store hcomp hst)).trans block_nil), rfl, Kept.set (by simp)⟩

/-- The full conversion (atoparser/reader.py:102-111). -/
def fullBlock : Block := block![
  .assign (.name "converted") (.dict (.cons (.const (.str py!"header")) (convCall "header") <| .cons (.const (.str py!"record")) (convCall "record") <|
    .cons (.const (.str py!"sstat")) (convCall "sstat") <| .nil)),
  extra "show_tstats" py!"tstat" "tstats",
  extra "show_cstats" py!"cgroup" "cgroups",
  .expr (.call (.attr (.name "samples") py!"append") exprs![(.name "converted")] .nil)]

/-- The variables of the loop of `parse_file` while it handles a tuple. -/
structure TupleVars (i : Nat) (x : Obj.Tuple) (env : Env) : Prop where
  header : env "header" = some (.hdr i)
  record : env "record" = some (refVal x.record)
  sstat : env "sstat" = some (refVal x.sstat)
  tstats : env "tstats" = some (.list (x.tstats.map refVal))
  cgroups : env "cgroups" = some (.list (x.cgroups.map groupVal))

theorem TupleVars.kept {i : Nat} {x : Obj.Tuple} {env env' : Env} {xs : List String} (h : TupleVars i x env) (k : Kept xs env env')
    (hx : ∀ y ∈ ["header", "record", "sstat", "tstats", "cgroups"], y ∉ xs) : TupleVars i x env' :=
  ⟨(k _ (hx _ (by decide))).trans h.header, (k _ (hx _ (by decide))).trans h.record, (k _ (hx _ (by decide))).trans h.sstat,
   (k _ (hx _ (by decide))).trans h.tstats, (k _ (hx _ (by decide))).trans h.cgroups⟩

theorem full_round {i : Nat} {x : Obj.Tuple} {h : Header} {ps : List PyStr} {tst cst : Bool} {vs : List Val} (hh : w.header i = some h) (hc : h.cls ∈ versions)
    (hx : Filled h (w.tuple x)) (hv : TupleVars i x env) (ht : env "show_tstats" = some (.bool tst))
    (hct : env "show_cstats" = some (.bool cst)) (hs : env "samples" = some (.list vs)) :
    ∃ env' u, execBlock ((P).at (n + 5)) GR none fullBlock env (emb out w) = .ret (.next, env') (emb out w) ∧
      env' "samples" = some (.list (vs ++ [u])) ∧ fullRow ⟨ps, tst, cst⟩ h (w.tuple x) = .ok (toJ u) ∧
      Kept ["converted", "samples"] env env' := by
  obtain ⟨c1, c2, c3, c4⟩ := version_classes h.cls hc
  have xr : x.record.ty = h.cls.Record ∧ (w.inst x.record).buf.length = h.cls.Record.size := hx.record
  have xs : x.sstat.ty = h.cls.SStat ∧ (w.inst x.sstat).buf.length = h.cls.SStat.size := hx.sstat
  obtain ⟨vh, a1, a2⟩ := C69_header Z fs args n out w i h hh hc
  obtain ⟨vr, b1, b2⟩ := conv_ref (Z := Z) (fs := fs) (args := args) (n := n) (out := out) (w := w) (r := x.record) (by rw [xr.1]; exact c1) (by rw [xr.1]; exact xr.2)
  obtain ⟨vq, d1, d2⟩ := conv_ref (Z := Z) (fs := fs) (args := args) (n := n) (out := out) (w := w) (r := x.sstat) (by rw [xs.1]; exact c2) (by rw [xs.1]; exact xs.2)
  have hdict : eval ((P).at (n + 5)) GR (.dict (.cons (.const (.str py!"header")) (convCall "header") <| .cons (.const (.str py!"record")) (convCall "record") <|
      .cons (.const (.str py!"sstat")) (convCall "sstat") <| .nil)) env (emb out w) =
      (.ok (.dict [(py!"header", vh), (py!"record", vr), (py!"sstat", vq)]), emb out w) := by
    have key : ∀ (k : PyStr) (s : W), (do asKey (← eval ((P).at (n + 5)) GR (.const (.str k)) env) : E PyStr) s = (.ok k, s) := by
      intro k s; rw [E.bind_ok (eval_const _ _ _)]; rfl
    have e1 := eval_conv (Z := Z) (fs := fs) (args := args) (R := (P).at (n + 5)) rfl hv.header a1
    have e2 := eval_conv (Z := Z) (fs := fs) (args := args) (R := (P).at (n + 5)) rfl hv.record b1
    have e3 := eval_conv (Z := Z) (fs := fs) (args := args) (R := (P).at (n + 5)) rfl hv.sstat d1
    have step : ∀ (k : PyStr) (e : Expr) (r : Items) (d : List (PyStr × Val)) (v : Val), eval ((P).at (n + 5)) GR e env (emb out w) = (.ok v, emb out w) →
        evalItems ((P).at (n + 5)) GR (.cons (.const (.str k)) e r) d env (emb out w) = evalItems ((P).at (n + 5)) GR r (dictSet k v d) env (emb out w) := by
      intro k e r d v he
      simp only [evalItems]
      rw [E.bind_ok (eval_const _ _ _)]
      show (asKey (.str k) >>= fun key => _) _ = _
      rw [E.bind_ok (show asKey (.str k) (emb out w) = (.ok k, emb out w) from rfl), E.bind_ok he]
    simp only [eval]
    rw [E.bind_ok ((step _ _ _ _ _ e1).trans ((step _ _ _ _ _ e2).trans ((step _ _ _ _ _ e3).trans (by simp only [evalItems]; rfl))))]
    rfl
  unfold fullBlock
  rw [block_next (exec_assign hdict)]
  have k1 : Kept ["converted", "samples"] env (env.set "converted" (.dict [(py!"header", vh), (py!"record", vr), (py!"sstat", vq)])) := Kept.set (by decide)
  have hc1 : (env.set "converted" (.dict [(py!"header", vh), (py!"record", vr), (py!"sstat", vq)])) "converted" = some (.dict [(py!"header", vh), (py!"record", vr), (py!"sstat", vq)]) := rfl
  have ht1 : (env.set "converted" (.dict [(py!"header", vh), (py!"record", vr), (py!"sstat", vq)])) "show_tstats" = some (.bool tst) := ht
  have hct1 : (env.set "converted" (.dict [(py!"header", vh), (py!"record", vr), (py!"sstat", vq)])) "show_cstats" = some (.bool cst) := hct
  have hs1 : (env.set "converted" (.dict [(py!"header", vh), (py!"record", vr), (py!"sstat", vq)])) "samples" = some (.list vs) := hs
  have hv1 := hv.kept k1 (by decide)
  generalize env.set "converted" (.dict [(py!"header", vh), (py!"record", vr), (py!"sstat", vq)]) = env1 at k1 hc1 ht1 hct1 hs1 hv1
  obtain ⟨us, new, t1, t2, env2, t3, t4, t5⟩ := run_extra (Z := Z) (fs := fs) (args := args) (R := (P).at (n + 5)) (key := py!"tstat") (m := structToDict) (k := w.inst) (s := emb out w) rfl ht1 hv1.tstats hc1
    (by simp) (fun r hr => by
      obtain ⟨q1, q2⟩ := hx.tstats (w.inst r) (List.mem_map_of_mem hr)
      exact conv_ref (by rw [show r.ty = h.cls.TStat from q1]; exact c3) (by rw [q2, ← q1]; rfl))
  rw [block_next t3]
  have hct2 : env2 "show_cstats" = some (.bool cst) := (t5 _ (by decide)).trans hct1
  have hs2 : env2 "samples" = some (.list vs) := (t5 _ (by decide)).trans hs1
  have hv2 := hv1.kept t5 (by decide)
  obtain ⟨us', new', g1, g2, env3, g3, g4, g5⟩ := run_extra (Z := Z) (fs := fs) (args := args) (R := (P).at (n + 5)) (key := py!"cgroup") (m := CGroup.toDict) (k := w.group) (s := emb out w) rfl hct2 hv2.cgroups t4
    (by rw [t2]; cases tst <;> simp) (fun g hg => by
      obtain ⟨t, q1, q2, q3, k, q4, q5⟩ := hx.cgroups (w.group g) (List.mem_map_of_mem hg)
      exact conv_grp (k := k) (by rw [show g.cstat.ty = t from q2]; exact c4 t q1) (by rw [show g.cstat.ty = t from q2]; exact q3) q4 q5)
  rw [block_next g3]
  have hs3 : env3 "samples" = some (.list vs) := (g5 _ (by decide)).trans hs2
  rw [block_next (exec_append_name hs3 (eval_name g4)), block_nil]
  refine ⟨_, _, rfl, rfl, ?_, ((k1.trans (t5.mono (by decide))).trans (g5.mono (by decide))).trans (Kept.set (by decide))⟩
  unfold fullRow
  have r1 : structToDict (w.tuple x).record = .ok (toJ vr) := b2
  have r2 : structToDict (w.tuple x).sstat = .ok (toJ vq) := d2
  have r3 : (w.tuple x).tstats.mapM structToDict = .ok (toJs us) := t1
  have r4 : (w.tuple x).cgroups.mapM CGroup.toDict = .ok (toJs us') := g1
  rw [a2, r1, r2, r3, r4]
  subst t2 g2
  cases tst <;> cases cst <;> rfl

end
end Atop.Src
