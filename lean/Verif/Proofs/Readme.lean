import Verif.Proofs.SourceLoop
import Verif.Proofs.Usage
import Verif.Props.SourceResult
/-!
# The examples of the README (C75, proofs)
-/

namespace Atop.Src
open Spec
set_option maxRecDepth 20000

/-! ## Where the attributes are -/

/-- The four attributes of the first example, in all versions. -/
def exampleAt (B : Blocks) : Prop :=
  B.record.find [.attr py!"interval"] 0 = some (.uint 24 4, 0) ∧
  B.sstat.find [.attr py!"cpu", .attr py!"nrcpu"] 0 = some (.sint 0 8, 0) ∧
  B.sstat.find [.attr py!"cpu", .attr py!"all", .attr py!"itime"] 0 = some (.sint 112 8, 0) ∧
  B.header.find [.attr py!"hertz"] 0 = some (.uint 14 2, 0)

/-- Is the number there? -/
def isInt (o w : Nat) (signed : Bool) : Option (Node × Nat) → Bool
  | some (.uint o' w', 0) => !signed && o == o' && w == w'
  | some (.sint o' w', 0) => signed && o == o' && w == w'
  | _ => false

theorem isInt_eq {o w : Nat} {signed : Bool} {x : Option (Node × Nat)} (h : isInt o w signed x = true) :
    x = some (if signed then .sint o w else .uint o w, 0) := by
  unfold isInt at h
  split at h
  · simp only [Bool.and_eq_true, Bool.not_eq_true', beq_iff_eq] at h
    obtain ⟨⟨rfl, rfl⟩, rfl⟩ := h; rfl
  · simp only [Bool.and_eq_true, beq_iff_eq] at h
    obtain ⟨⟨rfl, rfl⟩, rfl⟩ := h; rfl
  · cases h

theorem example_at {r : Row} (hr : r ∈ table) {B : Blocks} (hB : layoutOf r.version = some B) : exampleAt B := by
  have all : (table.all fun r => match layoutOf r.version with
      | some B => isInt 24 4 false (B.record.find [.attr py!"interval"] 0) &&
          isInt 0 8 true (B.sstat.find [.attr py!"cpu", .attr py!"nrcpu"] 0) &&
          isInt 112 8 true (B.sstat.find [.attr py!"cpu", .attr py!"all", .attr py!"itime"] 0) &&
          isInt 14 2 false (B.header.find [.attr py!"hertz"] 0)
      | none => false) = true := by decide +kernel
  have := List.all_eq_true.mp all r hr
  rw [hB] at this
  simp only [Bool.and_eq_true] at this
  obtain ⟨⟨⟨a, b⟩, c⟩, d⟩ := this
  exact ⟨isInt_eq a, isInt_eq b, isInt_eq c, isInt_eq d⟩

theorem eval_bin_err {R : Rt} {G : PyStr → Option Val} {env : Env} {w w1 w2 : W} {op : BinOp} {a b : Expr} {va : Val} {x : PExc}
    (ha : eval R G a env w = (.ok va, w1)) (hb : eval R G b env w1 = (.error x, w2)) : eval R G (.bin op a b) env w = (.error x, w2) := by
  simp only [eval]
  rw [E.bind_ok ha, E.bind_err hb]

section
variable {Z : Zlib} {fs : FileSystem} {args : CommandLine} {n : Nat} {out : PyStr}

local notation "P" => program Z fs args

/-- The body of the loop. -/
def usageBlock : Block := block![
  .assign (.name "total_cycles") (.bin .mul (.bin .mul (.attr (.name "record") py!"interval") (.attr (.attr (.name "sstat") py!"cpu") py!"nrcpu")) (.attr (.name "header") py!"hertz")),
  .assign (.name "usage") (.bin .sub (.const (.int 1)) (.bin .div (.attr (.attr (.attr (.name "sstat") py!"cpu") py!"all") py!"itime") (.name "total_cycles"))),
  .expr (.call (.glob py!"print") exprs![(.fstr exprs![(.const (.str py!"CPU usage was ")), (.fmtSpec (.name "usage") py!".02%")])] .nil)]

/-- How it ends, and what it prints. -/
def UsageEnd (hb : Bytes) (x : Sample) (c : Ctl) (t : PyStr) : Prop :=
  ∃ itime total, Ticks hb x.record.buf x.sstat.buf itime total ∧
    ((total ≠ 0 ∧ c = .next ∧ UsageLine itime total t) ∨ (total = 0 ∧ c = .exc (.other py!"ZeroDivisionError") ∧ t = []))

theorem usage_body {G : Globals} (hG : G py!"print" = none) {w : World} {x : Obj.Tuple} {env : Env} {i : Nat} {h : Header} {r : Row}
    (hr : r ∈ table) (hc : headerByVersion r.version = some h.cls) (hv : h.cls ∈ versions) (hlen : h.buf.length = 480)
    (hat : HeaderAt w i h) (hf : Filled h (w.tuple x)) (tv : TupleVars i x env) :
    ∃ c env' t, execBlock ((P).at (n + 5)) G none usageBlock env (emb out w) = .ret (c, env') (emb (out ++ t) w) ∧
      UsageEnd h.buf (w.tuple x) c t ∧ env' "header" = some (.hdr i) := by
  obtain ⟨c, B, hc', hB, ⟨n1, n2, n3, -⟩, ⟨s1, s2, s3, -⟩, ⟨m1, m2, m3, -⟩⟩ := layout_facts hr
  obtain rfl : h.cls = c := by rw [hc] at hc'; exact Option.some.inj hc'
  obtain ⟨p1, p2, p3, p4⟩ := example_at hr hB
  have d1 := displays_ref Z fs args (n + 1) out (w := w) (x := x.record) (t := h.cls.Record) (mem := (w.tuple x).record.buf) m2
    (by rw [← hf.record.1]; rfl) hf.record.2 n2
  have d2 := displays_ref Z fs args (n + 1) out (w := w) (x := x.sstat) (t := h.cls.SStat) (mem := (w.tuple x).sstat.buf) m3
    (by rw [← hf.sstat.1]; rfl) hf.sstat.2 n3
  have d3 := displays_header Z fs args n out (w := w) (i := i) (c := h.cls) (hb := h.buf) (cache := h.cache) hat.header hv n1 m1 (by rw [s1, hlen])
  obtain ⟨-, ⟨interval, rfl, i1⟩, e1⟩ := (d1.2 _ _ _ p1 nofun).1
  obtain ⟨-, ⟨nrcpu, rfl, i2⟩, e2⟩ := (d2.2 _ _ _ p2 nofun).1
  obtain ⟨-, ⟨itime, rfl, i3⟩, e3⟩ := (d2.2 _ _ _ p3 nofun).1
  obtain ⟨-, ⟨hertz, rfl, i4⟩, e4⟩ := (d3.2 _ _ _ p4 nofun).1
  have ticks : Ticks h.buf (w.tuple x).record.buf (w.tuple x).sstat.buf itime (interval * nrcpu * hertz) :=
    ⟨interval, nrcpu, hertz, i3, i1, i2, i4, rfl⟩
  have hmul : eval ((P).at (n + 5)) G (.bin .mul (.bin .mul (.attr (.name "record") py!"interval") (.attr (.attr (.name "sstat") py!"cpu") py!"nrcpu")) (.attr (.name "header") py!"hertz")) env (emb out w) =
      (.ok (.int (interval * nrcpu * hertz)), emb out w) :=
    (eval_bin ((eval_bin (e1 G env "record" tv.record) (e2 G env "sstat" tv.sstat)).trans rfl) (e4 G env "header" tv.header)).trans rfl
  unfold usageBlock
  rw [block_next (exec_assign hmul)]
  have v1 : (env.set "total_cycles" (.int (interval * nrcpu * hertz))) "sstat" = some (refVal x.sstat) := tv.sstat
  have v2 : (env.set "total_cycles" (.int (interval * nrcpu * hertz))) "header" = some (.hdr i) := tv.header
  have v3 : (env.set "total_cycles" (.int (interval * nrcpu * hertz))) "total_cycles" = some (.int (interval * nrcpu * hertz)) := rfl
  generalize env.set "total_cycles" (.int (interval * nrcpu * hertz)) = env1 at v1 v2 v3
  have hdiv := eval_bin (op := .div) (e3 G env1 "sstat" v1) (eval_name (R := (P).at (n + 5)) (G := G) (w := emb out w) v3)
  by_cases hz : interval * nrcpu * hertz = 0
  · have herr : eval ((P).at (n + 5)) G (.bin .sub (.const (.int 1)) (.bin .div (.attr (.attr (.attr (.name "sstat") py!"cpu") py!"all") py!"itime") (.name "total_cycles"))) env1 (emb out w) =
        (.error (.other py!"ZeroDivisionError"), emb out w) := by
      refine eval_bin_err (eval_const _ _ _) (hdiv.trans ?_)
      show (if interval * nrcpu * hertz = 0 then _ else _ : E Val) _ = _
      rw [if_pos hz]; rfl
    rw [block_exc (exec_assign_err herr)]
    exact ⟨_, env1, [], by rw [List.append_nil], ⟨itime, _, ticks, .inr ⟨hz, rfl, rfl⟩⟩, v2⟩
  · have hbound : itime.natAbs ≤ 2 ^ 63 := by
      have := i3.1
      unfold inRange at this
      simp at this
      omega
    obtain ⟨a, b, p, u1, u2, u3, u4⟩ := usage_text hz hbound
    have hdiv' : eval ((P).at (n + 5)) G (.bin .div (.attr (.attr (.attr (.name "sstat") py!"cpu") py!"all") py!"itime") (.name "total_cycles")) env1 (emb out w) =
        (.ok (.dbl a), emb out w) := by
      refine hdiv.trans ?_
      show (if interval * nrcpu * hertz = 0 then _ else dblVal (Dbl.div itime (interval * nrcpu * hertz)) : E Val) _ = _
      rw [if_neg hz, u1]; rfl
    have hsub : eval ((P).at (n + 5)) G (.bin .sub (.const (.int 1)) (.bin .div (.attr (.attr (.attr (.name "sstat") py!"cpu") py!"all") py!"itime") (.name "total_cycles"))) env1 (emb out w) =
        (.ok (.dbl b), emb out w) := by
      refine (eval_bin (eval_const _ _ _) hdiv').trans ?_
      show dblVal (Dbl.intSub 1 a) _ = _
      rw [u2]; rfl
    rw [block_next (exec_assign hsub)]
    have y1 : (env1.set "usage" (.dbl b)) "usage" = some (.dbl b) := rfl
    have y2 : (env1.set "usage" (.dbl b)) "header" = some (.hdr i) := v2
    generalize env1.set "usage" (.dbl b) = env2 at y1 y2
    have hfmt : eval ((P).at (n + 5)) G (.fmtSpec (.name "usage") py!".02%") env2 (emb out w) = (.ok (.str p), emb out w) := by
      simp only [eval]
      have := eval_name (R := (P).at (n + 5)) (G := G) (w := emb out w) y1
      simp only [eval] at this
      rw [E.bind_ok this]
      show (do return Val.str (← formatVal (.dbl b) py!".02%") : E Val) _ = _
      have hfv : formatVal (.dbl b) py!".02%" (emb out w) = (.ok p, emb out w) := by
        show (if py!".02%" = py!".02%" then (match b.percent with | some s => E.pure s | none => E.stuck) else E.stuck : E PyStr) _ = _
        rw [if_pos rfl, u3]; rfl
      rw [E.bind_ok hfv]; rfl
    have hstr : eval ((P).at (n + 5)) G (.fstr exprs![(.const (.str py!"CPU usage was ")), (.fmtSpec (.name "usage") py!".02%")]) env2 (emb out w) =
        (.ok (.str (py!"CPU usage was " ++ p)), emb out w) := by
      have := evalParts_cons (eval_const (R := (P).at (n + 5)) (G := G) (.str py!"CPU usage was ") env2 (emb out w)) (evalParts_cons hfmt evalParts_nil)
      rw [eval_fstr this, List.append_nil]
    have hprint : eval ((P).at (n + 5)) G (.call (.glob py!"print") exprs![(.fstr exprs![(.const (.str py!"CPU usage was ")), (.fmtSpec (.name "usage") py!".02%")])] .nil) env2 (emb out w) =
        (.ok .none, emb (out ++ (py!"CPU usage was " ++ p ++ py!"\n")) w) := by
      refine (eval_call1 (eval_builtin hG rfl) hstr).trans ?_
      show (Except.ok Val.none, emb (out ++ (py!"CPU usage was " ++ p) ++ py!"\n") w) = _
      rw [List.append_assoc]
    rw [block_next (exec_expr rfl hprint), block_nil]
    exact ⟨_, env2, _, rfl, ⟨itime, _, ticks, .inl ⟨hz, rfl, u4⟩⟩, y2⟩

/-! ## The first example -/

theorem example1_text : Text.Readme.example1.body = block![
    .with (.call (.glob py!"open") exprs![(.name "file"), (.const (.str py!"rb"))] .nil) "raw_file" block![
      .assign (.name "header") (.call (.attr (.glob py!"atoparser") py!"get_header") exprs![(.name "raw_file")] .nil),
      .for ["record", "sstat", "tstats", "cgroups"] (.call (.attr (.glob py!"atoparser") py!"generate_statistics") exprs![(.name "raw_file"), (.name "header")] .nil) usageBlock]] := rfl

/-- The end of an iteration as the end of the example. -/
def endRes : End → Except PExc Val
  | .returned => .ok .none
  | .raised e => .error (embExc e)

/-- The lines of the loop are the lines of the samples found. -/
theorem ran_usage {hb : Bytes} {cls : HeaderClass} {en : End} {c : Ctl} {t : PyStr} : ∀ {found : List Found} {xs : List Sample},
    Ran (UsageEnd hb) en xs c t → xs = found.map (fun f => presented cls f.written) →
    ∃ r, (c = .next ∧ r = .ok .none ∨ ∃ e, c = .exc e ∧ r = .error e) ∧
      UsageRun hb (endRes en) found r t := by
  intro found xs h
  induction h generalizing found with
  | over =>
    intro hx
    obtain rfl : found = [] := List.map_eq_nil_iff.mp hx.symm
    refine ⟨_, ?_, .over⟩
    cases en with
    | returned => exact .inl ⟨rfl, rfl⟩
    | raised e => exact .inr ⟨_, rfl, rfl⟩
  | @next x xs c t u h1 h2 ih =>
    intro hx
    cases found with
    | nil => cases hx
    | cons f fs =>
      injection hx with hx1 hx2
      subst hx1
      obtain ⟨r, r1, r2⟩ := ih hx2
      obtain ⟨itime, total, tk, ⟨hz, -, hl⟩ | ⟨-, hc, -⟩⟩ := h1
      · exact ⟨r, r1, .line tk hz hl r2⟩
      · cases hc
  | @leave x xs c t h1 h2 =>
    intro hx
    cases found with
    | nil => cases hx
    | cons f fs =>
      injection hx with hx1 hx2
      subst hx1
      obtain ⟨itime, total, tk, ⟨-, hc, -⟩ | ⟨hz, rfl, rfl⟩⟩ := h1
      · exact absurd hc h2
      · subst hz
        exact ⟨_, .inr ⟨_, rfl, rfl⟩, .zero tk⟩

/-- The names of the first example. -/
theorem imports1_atop (R : Rt) : execDecls R py!"__main__" Text.Readme.imports1 (fun _ => none) py!"atoparser" = some (.mod py!"atoparser") := rfl

/-- `with open(file, "rb") as raw_file:` -/
theorem with_open {G : Globals} (hG : G py!"open" = none) {file : PyStr} {env : Env} (hf : env "file" = some (.str file)) {w : World} {b : Block} :
    exec ((P).at (n + 5)) G none (.with (.call (.glob py!"open") exprs![(.name "file"), (.const (.str py!"rb"))] .nil) "raw_file" b) env (emb out w) =
      match fs file false with
      | .ok s => execBlock ((P).at (n + 5)) G none b (env.set "raw_file" .file) (emb out { w with file := s })
      | .error e => .ret (.exc (.sys e), env) (emb out w) := by
  have hop : eval ((P).at (n + 5)) G (.call (.glob py!"open") exprs![(.name "file"), (.const (.str py!"rb"))] .nil) env (emb out w) =
      match fs file false with
      | .ok s => (.ok .file, emb out { w with file := s })
      | .error e => (.error (.sys e), emb out w) := by
    refine (eval_call (eval_builtin hG rfl) (evals_cons (eval_name hf) (evals_one (eval_const _ _ _))) evalKws_nil).trans ?_
    rfl
  cases h : fs file false with
  | ok s =>
    rw [h] at hop
    simp only [exec]
    exact withE_ok hop
  | error e =>
    rw [h] at hop
    simp only [exec]
    exact withE_err hop

/-- `header = atoparser.get_header(raw_file)` -/
theorem assign_header {G : Globals} (hG : G py!"atoparser" = some (.mod py!"atoparser")) {env : Env} (hf : env "raw_file" = some .file) {w : World}
    (hl : LibFile w.file) :
    eval ((P).at (n + 5)) G (.call (.attr (.glob py!"atoparser") py!"get_header") exprs![(.name "raw_file")] .nil) env (emb out w) =
      embR out .hdr (Obj.getHeader true w) := by
  have h : eval ((P).at (n + 5)) G (.attr (.glob py!"atoparser") py!"get_header") env (emb out w) =
      (.ok (.fn py!"atoparser.utils" Text.Utils.get_header [.bool true]), emb out w) := (eval_attr (eval_glob hG)).trans rfl
  refine (eval_call1 h (eval_name hf)).trans ?_
  exact call_get_header (n := n + 1) (as := [.file]) (kws := []) (l := [("raw_file", .file), ("check_compatibility", .bool true)]) rfl hl rfl rfl

/-- What `runExample` makes of the end of the block. -/
def topResult : Co (Ctl × Env) → Except PExc Val × W
  | .ret (.exc e, _) w => (.error e, w)
  | .ret (.next, _) w => (.ok .none, w)
  | .ret _ w => (.error .stuck, w)
  | .yield _ w _ => (.error .stuck, w)

theorem runExample_eq (R : Rt) (imports : List Decl) (f : FnDef) (file : PyStr) : runExample R imports f file =
    topResult (execBlock R (execDecls R py!"__main__" imports fun _ => none) none f.body (envOf [("file", .str file)]) (emb [] { file := { data := [] } })) := rfl

/-- An example that is one `with open(file, "rb") as raw_file:`. -/
theorem run_with {imports : List Decl} {f : FnDef} {b : Block}
    (hb : f.body = block![.with (.call (.glob py!"open") exprs![(.name "file"), (.const (.str py!"rb"))] .nil) "raw_file" b])
    (hG : execDecls ((P).at (n + 5)) py!"__main__" imports (fun _ => none) py!"open" = none) (file : PyStr) :
    (∀ e, fs file false = .error e → runExample ((P).at (n + 5)) imports f file = (.error (.sys e), W.empty)) ∧
    ∀ s, fs file false = .ok s → ∃ env, env "raw_file" = some .file ∧ ∀ c env' w',
      execBlock ((P).at (n + 5)) (execDecls ((P).at (n + 5)) py!"__main__" imports fun _ => none) none b env (emb [] { file := s }) = .ret (c, env') w' →
      runExample ((P).at (n + 5)) imports f file = topResult (.ret (c, env') w') := by
  have h := with_open (Z := Z) (fs := fs) (args := args) (n := n) (out := []) hG (file := file) (env := envOf [("file", .str file)]) rfl
    (w := { file := { data := [] } }) (b := b)
  rw [runExample_eq, hb]
  constructor
  · intro e he
    rw [he] at h
    rw [block_exc h]
    rfl
  · intro s hs
    rw [hs] at h
    dsimp only at h
    refine ⟨(envOf [("file", .str file)]).set "raw_file" .file, rfl, fun c env' w' hc => ?_⟩
    rw [execBlock]
    dsimp only
    rw [h, hc]
    cases c with
    | next => exact congrArg topResult (block_nil (R := (P).at (n + 5)) (G := execDecls ((P).at (n + 5)) py!"__main__" imports fun _ => none) (cur := none))
    | _ => rfl

/-- The first example after `get_header`. -/
theorem usage_run {s : Stream} (hl : LibFile s) {h : Header} {s1 : Stream} (hg : getHeader true s = (.ok h, s1)) {r : Row} (hr : r ∈ table)
    (hc : headerByVersion r.version = some h.cls) {G : Globals} (hG : G py!"atoparser" = some (.mod py!"atoparser")) (hG' : G py!"print" = none)
    {env : Env} (hf : env "raw_file" = some .file) :
    ∃ c env' w' t, execBlock ((P).at (n + 5)) G none block![
      .assign (.name "header") (.call (.attr (.glob py!"atoparser") py!"get_header") exprs![(.name "raw_file")] .nil),
      .for ["record", "sstat", "tstats", "cgroups"] (.call (.attr (.glob py!"atoparser") py!"generate_statistics") exprs![(.name "raw_file"), (.name "header")] .nil) usageBlock]
        env (emb out { file := s }) = .ret (c, env') (emb (out ++ t) w') ∧
      Ran (UsageEnd h.buf) (generateStatistics Z (some h) true MAX_SAMPLES_PER_FILE s1).2.1 (generateStatistics Z (some h) true MAX_SAMPLES_PER_FILE s1).1 c t := by
  have hcall := assign_header (Z := Z) (fs := fs) (args := args) (n := n) (out := out) hG hf (w := { file := s }) hl
  obtain ⟨S1, S2, S3⟩ := sim_getHeader { file := s } true
  have S2 : (Obj.getHeader true { file := s }).2.file = s1 := by rw [S2]; exact congrArg Prod.snd hg
  obtain ⟨hv, v, hca, -, -, -, r', cg, R⟩ := header_version_ok hg
  rcases hm : Obj.getHeader true { file := s } with ⟨e | i, w1⟩
  · rw [hm] at S3
    have hg1 := congrArg Prod.fst hg
    dsimp only at S3 hg1
    rw [hg1] at S3
    exact S3.elim
  · rw [hm] at hcall S1 S2 S3
    have hg1 := congrArg Prod.fst hg
    dsimp only at S1 S2 S3 hg1
    rw [hg1] at S3
    have hat := S3.1
    have hlib : LibFile w1.file := (Safe.getHeader true).lib hm hl
    rw [block_next (exec_assign hcall)]
    have g0 : (env.set "header" (.hdr i)) "header" = some (.hdr i) := rfl
    have g1 : (env.set "header" (.hdr i)) "raw_file" = some .file := hf
    generalize env.set "header" (.hdr i) = env1 at g0 g1
    have hgen : eval ((P).at (n + 5)) G (.call (.attr (.glob py!"atoparser") py!"generate_statistics") exprs![(.name "raw_file"), (.name "header")] .nil) env1 (emb out w1) =
        (.ok (.gen py!"atoparser.utils" Text.Utils.generate_statistics.body
          [("raw_file", .file), ("header", .hdr i), ("raise_on_truncation", .bool true), ("max_samples", .int MAX_SAMPLES_PER_FILE)]), emb out w1) := by
      have hf : eval ((P).at (n + 5)) G (.attr (.glob py!"atoparser") py!"generate_statistics") env1 (emb out w1) =
          (.ok (.fn py!"atoparser.utils" Text.Utils.generate_statistics [.none, .bool true, .int MAX_SAMPLES_PER_FILE]), emb out w1) :=
        (eval_attr (eval_glob hG)).trans rfl
      refine (eval_call hf (evals_cons (eval_name g1) (evals_one (eval_name g0))) evalKws_nil).trans ?_
      have hy : Text.Utils.generate_statistics.body.yields = true := by decide +kernel
      exact callFn_gen (R := (P).at (n + 5)) (f := Text.Utils.generate_statistics) (ds := [.none, .bool true, .int MAX_SAMPLES_PER_FILE]) (as := [.file, .hdr i])
        (kws := []) rfl hy
    obtain ⟨c, env', w', t, q1, q2⟩ := caller_loop (Z := Z) (fs := fs) (args := args) R hca (i := i) (rot := true)
      (body := execBlock ((P).at (n + 5)) G none usageBlock) (Rel := UsageEnd h.buf)
      (fun w x env out hat hfl tv => usage_body hG' hr hc hv R.len hat hfl tv) (MAX_SAMPLES_PER_FILE + 1) (left := MAX_SAMPLES_PER_FILE)
      (g := .start (some i) MAX_SAMPLES_PER_FILE) (g' := .start (some h) MAX_SAMPLES_PER_FILE) (w := w1) (out := out) (env := env1)
      (k := fun x s => match x with
        | none => execBlock ((P).at (n + 4)) (Rt.globals P py!"atoparser.utils") none Text.Utils.generate_statistics.body (envOf
            [("raw_file", .file), ("header", .hdr i), ("raise_on_truncation", .bool true), ("max_samples", .int MAX_SAMPLES_PER_FILE)]) s
        | some e => .ret (.exc e, fun _ => none) s)
      ⟨n, _, ⟨rfl, rfl, rfl, rfl⟩, rfl⟩ ⟨hlib, h.cls, hv, sees hlib hat.header⟩ ⟨rfl, hat, by rw [hca]; rfl⟩ (.inl ⟨_, rfl, rfl⟩) (.inl ⟨_, rfl⟩)
      (Nat.lt_succ_self _) g0
    rw [S2] at q2
    refine ⟨c, env', w', t, ?_, q2⟩
    rw [execBlock]
    dsimp only
    rw [exec_for_gen hgen]
    show (forGen loopTargets (execBlock ((P).at (n + 5)) G none usageBlock) (execBlock ((P).at (n + 4)) (Rt.globals P py!"atoparser.utils") none
      Text.Utils.generate_statistics.body (envOf [("raw_file", .file), ("header", .hdr i), ("raise_on_truncation", .bool true),
        ("max_samples", .int MAX_SAMPLES_PER_FILE)]) (emb out w1)) env1).bind _ = _
    rw [q1]
    cases c with
    | next => exact block_nil (R := (P).at (n + 5)) (G := G) (cur := none)
    | _ => rfl

/-! ## The second example -/

theorem example2_text : Text.Readme.example2.body = block![
    .with (.call (.glob py!"open") exprs![(.name "file"), (.const (.str py!"rb"))] .nil) "raw_file" block![
      .assign (.name "header") (.call (.attr (.glob py!"atoparser") py!"get_header") exprs![(.name "raw_file")] .nil),
      .expr (.call (.glob py!"print") exprs![(.call (.attr (.glob py!"json") py!"dumps") exprs![(.call (.attr (.glob py!"atoparser") py!"struct_to_dict") exprs![(.name "header")] .nil)] (.cons "indent" (.const (.int 2)) <| .nil))] .nil)]] := rfl

theorem imports2_atop (R : Rt) : execDecls R py!"__main__" Text.Readme.imports2 (fun _ => none) py!"atoparser" = some (.mod py!"atoparser") := rfl

theorem json_run {s : Stream} (hl : LibFile s) {h : Header} {s1 : Stream} (hg : getHeader true s = (.ok h, s1)) {r : Row} (hr : r ∈ table)
    (hc : headerByVersion r.version = some h.cls) {B : Blocks} (hB : layoutOf r.version = some B) {G : Globals} (hG : G py!"atoparser" = some (.mod py!"atoparser"))
    (hG' : G py!"print" = none) (hG'' : G py!"json" = some (.mod py!"json"))
    {env : Env} (hf : env "raw_file" = some .file) :
    ∃ env' w' d t, execBlock ((P).at (n + 5)) G none block![
      .assign (.name "header") (.call (.attr (.glob py!"atoparser") py!"get_header") exprs![(.name "raw_file")] .nil),
      .expr (.call (.glob py!"print") exprs![(.call (.attr (.glob py!"json") py!"dumps") exprs![(.call (.attr (.glob py!"atoparser") py!"struct_to_dict") exprs![(.name "header")] .nil)] (.cons "indent" (.const (.int 2)) <| .nil))] .nil)]
        env (emb out { file := s }) = .ret (.next, env') (emb (out ++ (t ++ py!"\n")) w') ∧
      B.header.Shows h.buf 0 d ∧ ∃ a, Says d a ∧ JsonText true (t ++ py!"\n") a ∧ ∀ b, JsonText true (t ++ py!"\n") b → b = a := by
  have hcall := assign_header (Z := Z) (fs := fs) (args := args) (n := n) (out := out) hG hf (w := { file := s }) hl
  obtain ⟨S1, S2, S3⟩ := sim_getHeader { file := s } true
  obtain ⟨hv, v, hca, -, -, -, r', cg, R⟩ := header_version_ok hg
  rcases hm : Obj.getHeader true { file := s } with ⟨e | i, w1⟩
  · rw [hm] at S3
    have hg1 := congrArg Prod.fst hg
    dsimp only at S3 hg1
    rw [hg1] at S3
    exact S3.elim
  · rw [hm] at hcall S3
    have hg1 := congrArg Prod.fst hg
    dsimp only at S3 hg1
    rw [hg1] at S3
    have hat := S3.1
    rw [block_next (exec_assign hcall)]
    have g0 : (env.set "header" (.hdr i)) "header" = some (.hdr i) := rfl
    generalize env.set "header" (.hdr i) = env1 at g0
    obtain ⟨c', B', hc', hB', ⟨n1, -⟩, ⟨s1, -⟩, ⟨m1, -⟩⟩ := layout_facts hr
    obtain rfl : h.cls = c' := by rw [hc] at hc'; exact Option.some.inj hc'
    obtain rfl : B = B' := by rw [hB] at hB'; exact Option.some.inj hB'
    obtain ⟨x, c1, c2⟩ := C69_header Z fs args n out w1 i _ hat.header hv
    obtain ⟨v', a, b⟩ := node_dict m1 h.buf (by rw [s1, R.len])
    rw [List.take_of_length_le (by rw [s1, R.len])] at a
    have c2 : structToDict ⟨headerType h.cls, h.buf⟩ = .ok (toJ x) := c2
    rw [c2] at a
    cases a
    obtain ⟨v2, j1, j2⟩ := C20_json m1 h.buf
    obtain rfl : toJ x = v2 := Except.ok.inj (c2.symm.trans j1)
    obtain ⟨a, hsay, hp⟩ := json_prints true j2 (.inl rfl)
    obtain ⟨t, ht, hjs⟩ := hp true 0
    have hj : JsonText true (t ++ [10]) a := ⟨[], [10], t, ws_nil, ws_lf, hjs, rfl⟩
    have hdict : eval ((P).at (n + 5)) G (.call (.attr (.glob py!"atoparser") py!"struct_to_dict") exprs![(.name "header")] .nil) env1 (emb out w1) = (.ok x, emb out w1) := by
      have hfn : eval ((P).at (n + 5)) G (.attr (.glob py!"atoparser") py!"struct_to_dict") env1 (emb out w1) =
          (.ok (.fn py!"atoparser.utils" Text.Utils.struct_to_dict []), emb out w1) := (eval_attr (eval_glob hG)).trans rfl
      exact (eval_call1 hfn (eval_name g0)).trans c1
    have hd : eval ((P).at (n + 5)) G (.call (.attr (.glob py!"json") py!"dumps") exprs![(.call (.attr (.glob py!"atoparser") py!"struct_to_dict") exprs![(.name "header")] .nil)] (.cons "indent" (.const (.int 2)) <| .nil)) env1 (emb out w1) =
        (.ok (.str t), emb out w1) := by
      have hfn : eval ((P).at (n + 5)) G (.attr (.glob py!"json") py!"dumps") env1 (emb out w1) = (.ok (.builtin .jsonDumps), emb out w1) :=
        (eval_attr (eval_glob hG'')).trans rfl
      refine (eval_call hfn (evals_one hdict) (evalKws_cons (eval_const _ _ _) evalKws_nil)).trans ?_
      show (do return Val.str (← E.lift (dumps true (toJ x))) : E Val) (emb out w1) = _
      rw [show dumps true (toJ x) = .ok t from ht]
      rfl
    have hprint : eval ((P).at (n + 5)) G (.call (.glob py!"print") exprs![(.call (.attr (.glob py!"json") py!"dumps") exprs![(.call (.attr (.glob py!"atoparser") py!"struct_to_dict") exprs![(.name "header")] .nil)] (.cons "indent" (.const (.int 2)) <| .nil))] .nil) env1 (emb out w1) =
        (.ok .none, emb (out ++ (t ++ py!"\n")) w1) := by
      refine (eval_call1 (eval_builtin hG' rfl) hd).trans ?_
      show (Except.ok Val.none, emb (out ++ t ++ py!"\n") w1) = _
      rw [List.append_assoc]
    rw [(block_next (exec_expr rfl hprint)).trans block_nil]
    exact ⟨env1, w1, toJ x, t, rfl, n1 ▸ b, a, hsay, hj, fun b hb => jsonText_unique hb hj⟩

end
end Atop.Src
