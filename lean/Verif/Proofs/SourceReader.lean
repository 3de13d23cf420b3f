import Verif.Proofs.SourceSamples
import Verif.Proofs.SourceArgs
/-!
# `parse_file` and `main`, from their text
-/

namespace Atop.Src
open Spec
set_option maxRecDepth 20000

/-! ## The errors of `json.dumps` -/

mutual
theorem dumpsAt_err (p : Bool) (l : Nat) : ∀ (v : JVal) {e : Exc}, dumpsAt p l v = .error e → e = .typeError
  | .int i, e, h => by simp [dumpsAt] at h
  | .float b, e, h => by simp [dumpsAt] at h
  | .str s, e, h => by simp [dumpsAt] at h
  | .bytes b, e, h => by simp [dumpsAt] at h; exact h.symm
  | .other, e, h => by simp [dumpsAt] at h; exact h.symm
  | .list [], e, h => by simp [dumpsAt] at h
  | .list (v :: vs), e, h => by
    simp only [dumpsAt] at h
    cases h1 : dumpsAt p (l + 1) v with
    | error e1 => rw [h1] at h; cases h; exact dumpsAt_err p (l + 1) v h1
    | ok t =>
      rw [h1] at h
      cases h2 : dumpsItems p (l + 1) vs with
      | error e1 => rw [h2] at h; cases h; exact dumpsItems_err p (l + 1) vs h2
      | ok t2 => rw [h2] at h; cases h
  | .dict [], e, h => by simp [dumpsAt] at h
  | .dict ((k, v) :: kvs), e, h => by
    simp only [dumpsAt] at h
    cases h1 : dumpsAt p (l + 1) v with
    | error e1 => rw [h1] at h; cases h; exact dumpsAt_err p (l + 1) v h1
    | ok t =>
      rw [h1] at h
      cases h2 : dumpsMembers p (l + 1) kvs with
      | error e1 => rw [h2] at h; cases h; exact dumpsMembers_err p (l + 1) kvs h2
      | ok t2 => rw [h2] at h; cases h
theorem dumpsItems_err (p : Bool) (l : Nat) : ∀ (v : List JVal) {e : Exc}, dumpsItems p l v = .error e → e = .typeError
  | [], e, h => by simp [dumpsItems] at h
  | v :: vs, e, h => by
    simp only [dumpsItems] at h
    cases h1 : dumpsAt p l v with
    | error e1 => rw [h1] at h; cases h; exact dumpsAt_err p l v h1
    | ok t =>
      rw [h1] at h
      cases h2 : dumpsItems p l vs with
      | error e1 => rw [h2] at h; cases h; exact dumpsItems_err p l vs h2
      | ok t2 => rw [h2] at h; cases h
theorem dumpsMembers_err (p : Bool) (l : Nat) : ∀ (v : List (PyStr × JVal)) {e : Exc}, dumpsMembers p l v = .error e → e = .typeError
  | [], e, h => by simp [dumpsMembers] at h
  | (k, v) :: vs, e, h => by
    simp only [dumpsMembers] at h
    cases h1 : dumpsAt p l v with
    | error e1 => rw [h1] at h; cases h; exact dumpsAt_err p l v h1
    | ok t =>
      rw [h1] at h
      cases h2 : dumpsMembers p l vs with
      | error e1 => rw [h2] at h; cases h; exact dumpsMembers_err p l vs h2
      | ok t2 => rw [h2] at h; cases h
end

section
variable {Z : Zlib} {fs : FileSystem} {args : CommandLine} {out : PyStr} {w : World} {n : Nat} {env : Env}

local notation "P" => program Z fs args
local notation "GR" => Rt.globals (program Z fs args) py!"atoparser.reader"

/-- The call of `generate_statistics` (atoparser/reader.py:91-95). -/
def genCall : Expr := .call (.attr (.glob py!"atoparser") py!"generate_statistics") exprs![(.name "raw_file"), (.name "header")]
  (.cons "raise_on_truncation" (.const (.bool false)) <| .nil)

/-- The body of the `with` statement (atoparser/reader.py:81-111). -/
def withBlock : Block := block![
  .assign (.name "header") (.call (.attr (.glob py!"atoparser") py!"get_header") exprs![(.name "raw_file")] .nil),
  .ifte (.and (.name "parseables") (.cmp .notIn (.attr (.name "header") py!"semantic_version") (.glob py!"PARSEABLE_MAP"))) block![
    .expr (.call (.attr (.name "samples") py!"append") exprs![(.dict (.cons (.const (.str py!"error")) (.fstr exprs![(.const (.str py!"Atop version ")), (.fmt (.attr (.name "header") py!"semantic_version")), (.const (.str py!" does not support parseables, only full raw output."))]) <| .cons (.const (.str py!"file")) (.name "file") <| .nil))] .nil)] block![
    .assign (.name "parsers") (.call (.attr (.glob py!"PARSEABLE_MAP") py!"get") exprs![(.attr (.name "header") py!"semantic_version"), (.sub (.glob py!"PARSEABLE_MAP") (.const (.str py!"1.26")))] .nil),
    .for ["record", "sstat", "tstats", "cgroups"] genCall roundBlock]]

theorem file_text : Text.Reader.parse_file.body = block![
    .assign (.name "samples") (.list exprs![]),
    .assign (.name "opener") (.ifExp (.cmp .notIn (.const (.str py!".gz")) (.name "file")) (.glob py!"open") (.attr (.glob py!"gzip") py!"open")),
    .with (.call (.name "opener") exprs![(.name "file"), (.const (.str py!"rb"))] .nil) "raw_file" withBlock,
    .expr (.call (.glob py!"print") exprs![(.call (.attr (.glob py!"json") py!"dumps") exprs![(.name "samples")] (.cons "indent" (.ifExp (.name "pretty_print") (.const (.int 2)) (.const .none)) <| .nil))] .nil)] := rfl

def withNames : List String := "header" :: "parsers" :: loopNames

theorem header_version_ok {s s' : Stream} {h : Header} (hg : getHeader true s = (.ok h, s')) :
    h.cls ∈ versions ∧ ∃ v, h.cache = some v ∧ h.version = .ok v ∧ h.semanticVersion = .ok (versionString v) ∧
      (versionString v = py!"1.26" → h.cls = V1_26.Header) ∧ ∃ r cg, Atop.Ready h r v cg := by
  obtain ⟨h1, R, -⟩ := getHeader_ok hg
  have hcl : h.cls = classFor (first480 s.rest) := by rw [h1]
  have hd : defaultHeader ∈ versions := by simp [versions, defaultHeader]
  refine ⟨?_, (major (first480 s.rest), minor (first480 s.rest)), by rw [h1], by rw [h1]; rfl, by rw [h1]; rfl, ?_, _, _, R⟩
  · rw [hcl]
    unfold classFor headerByVersion
    cases hf : versions.find? (fun c => c.supportedVersion == versionString (major (first480 s.rest), minor (first480 s.rest))) with
    | none => exact hd
    | some c => exact List.mem_of_find?_eq_some hf
  · intro hv
    rw [hcl]
    unfold classFor
    rw [hv]
    rfl

theorem with_run {file : PyStr} {ps : Option (List PyStr)} {tst cst : Bool} (hl : LibFile w.file)
    (h1 : env "raw_file" = some .file) (h2 : env "file" = some (.str file)) (h3 : env "samples" = some (.list []))
    (h4 : env "parseables" = some (namesVal ps)) (h5 : env "show_tstats" = some (.bool tst)) (h6 : env "show_cstats" = some (.bool cst)) :
    match (parseFile Z ⟨ps.getD [], tst, cst⟩ file w.file).1 with
    | .ok docs => ∃ env' us w', execBlock ((P).at (n + 5)) GR none withBlock env (emb out w) = .ret (.next, env') (emb out w') ∧
        env' "samples" = some (.list us) ∧ toJs us = docs ∧ Kept withNames env env'
    | .error e => ∃ env' w', execBlock ((P).at (n + 5)) GR none withBlock env (emb out w) = .ret (.exc (embExc e), env') (emb out w') := by
  have hcall : eval ((P).at (n + 5)) GR (.call (.attr (.glob py!"atoparser") py!"get_header") exprs![(.name "raw_file")] .nil) env (emb out w) =
      embR out .hdr (Obj.getHeader true w) := by
    have hf : eval ((P).at (n + 5)) GR (.attr (.glob py!"atoparser") py!"get_header") env (emb out w) =
        (.ok (.fn py!"atoparser.utils" Text.Utils.get_header [.bool true]), emb out w) :=
      (eval_attr (eval_glob (v := .mod py!"atoparser") rfl)).trans rfl
    refine (eval_call1 hf (eval_name h1)).trans ?_
    exact call_get_header (n := n + 1) (as := [.file]) (kws := []) (l := [("raw_file", .file), ("check_compatibility", .bool true)]) rfl hl rfl rfl
  obtain ⟨S1, S2, S3⟩ := sim_getHeader w true
  unfold withBlock
  rcases hm : Obj.getHeader true w with ⟨e | i, w1⟩ <;> rcases hr : getHeader true w.file with ⟨e' | h, f1⟩ <;>
    rw [hm] at hcall S1 S2 S3 <;> rw [hr] at S2 S3 <;> dsimp only at S1 S2 S3
  · subst S3
    have hpf : (parseFile Z ⟨ps.getD [], tst, cst⟩ file w.file).1 = .error e := by
      unfold parseFile
      rw [Rd.bind_eq, hr]
    rw [hpf]
    exact ⟨env, w1, block_exc (exec_assign_err hcall)⟩
  · have hat := S3.1
    obtain ⟨hc, v, hca, hv, hsv, h126, r, cg, R⟩ := header_version_ok hr
    have hlat : h.latched = h := latched_some (by rw [hca]; rfl)
    have hlib : LibFile w1.file := (Safe.getHeader true).lib hm hl
    rw [block_next (exec_assign hcall)]
    have hk1 : Kept withNames env (env.set "header" (.hdr i)) := Kept.set (by decide)
    have g0 : (env.set "header" (.hdr i)) "header" = some (.hdr i) := rfl
    have g3 : (env.set "header" (.hdr i)) "samples" = some (.list []) := h3
    generalize env.set "header" (.hdr i) = env1 at hk1 g0 g3
    have g1 : env1 "raw_file" = some .file := (hk1 _ (by decide)).trans h1
    have g2 : env1 "file" = some (.str file) := (hk1 _ (by decide)).trans h2
    have g4 : env1 "parseables" = some (namesVal ps) := (hk1 _ (by decide)).trans h4
    have g5 : env1 "show_tstats" = some (.bool tst) := (hk1 _ (by decide)).trans h5
    have g6 : env1 "show_cstats" = some (.bool cst) := (hk1 _ (by decide)).trans h6
    have hsem : eval ((P).at (n + 5)) GR (.attr (.name "header") py!"semantic_version") env1 (emb out w1) =
        (.ok (.str (versionString v)), emb out w1) := by
      obtain ⟨v', hv', hat'⟩ := eval_semantic (Z := Z) (fs := fs) (args := args) (n := n + 4) (out := out) hat.header hc
      have : v' = v := Except.ok.inj (hv'.symm.trans hv)
      subst this
      rw [latch_same hat.header hca] at hat'
      exact (eval_attr (eval_name g0)).trans hat'
    have hmap : ∀ w, eval ((P).at (n + 5)) GR (.glob py!"PARSEABLE_MAP") env1 w = (.ok (.dict [(py!"1.26", parserDict)]), w) :=
      fun w => eval_glob (parseable_map Z fs args)
    have hpf : (parseFile Z ⟨ps.getD [], tst, cst⟩ file w.file).1 =
        if (!(ps.getD []).isEmpty && !parseableVersions.contains (versionString v)) = true then
          .ok [JVal.dict [(py!"error", JVal.str (unsupportedText (versionString v))), (py!"file", JVal.str file)]]
        else ((parseLoop Z ⟨ps.getD [], tst, cst⟩ h (MAX_SAMPLES_PER_FILE + 1) (.start (some h) MAX_SAMPLES_PER_FILE) : Stream → _) f1).1 := by
      unfold parseFile
      rw [Rd.bind_eq, hr]
      dsimp only
      rw [Rd.bind_eq, hsv, Rd.lift_eq, hlat]
      dsimp only
      split <;> rfl
    rw [hpf]
    have hcont : parseableVersions.contains (versionString v) = decide (versionString v = py!"1.26") := by
      unfold parseableVersions
      rw [Bool.eq_iff_iff, List.contains_iff_mem, List.mem_singleton, decide_eq_true_iff]
    have hcond : ∃ q, eval ((P).at (n + 5)) GR (.and (.name "parseables") (.cmp .notIn (.attr (.name "header") py!"semantic_version") (.glob py!"PARSEABLE_MAP"))) env1
        (emb out w1) = (.ok q, emb out w1) ∧ truth q = (!(ps.getD []).isEmpty && !parseableVersions.contains (versionString v)) := by
      cases hps : (ps.getD []).isEmpty with
      | true => exact ⟨_, eval_and_false (eval_name g4) (by rw [namesVal_truth, hps]; rfl), by rw [namesVal_truth, hps]; rfl⟩
      | false =>
        refine ⟨_, (eval_and_true (eval_name g4) (by rw [namesVal_truth, hps]; rfl)).trans ((eval_cmp hsem (hmap _)).trans rfl), ?_⟩
        show (List.lookup _ _).isNone = _
        rw [hcont]
        by_cases hq : versionString v = py!"1.26"
        · rw [hq]; rfl
        · have : (versionString v == py!"1.26") = false := beq_false_of_ne hq
          rw [List.lookup_cons, this]
          simp [hq]
    obtain ⟨q, hq1, hq2⟩ := hcond
    cases hb : (!(ps.getD []).isEmpty && !parseableVersions.contains (versionString v)) with
    | true =>
      rw [hb] at hq2
      rw [if_pos rfl]
      have hmsg : eval ((P).at (n + 5)) GR (.fstr exprs![(.const (.str py!"Atop version ")), (.fmt (.attr (.name "header") py!"semantic_version")),
          (.const (.str py!" does not support parseables, only full raw output."))]) env1 (emb out w1) = (.ok (.str (unsupportedText (versionString v))), emb out w1) := by
        have := evalParts_cons (eval_const (R := (P).at (n + 5)) (G := GR) (.str py!"Atop version ") env1 (emb out w1)) (evalParts_cons (eval_fmt hsem rfl)
          (evalParts_cons (eval_const (.str py!" does not support parseables, only full raw output.") env1 (emb out w1)) evalParts_nil))
        rw [eval_fstr this]
        unfold unsupportedText
        rw [List.append_nil, List.append_assoc]
      have step : ∀ (k : PyStr) (e : Expr) (r : Items) (d : List (PyStr × Val)) (v : Val), eval ((P).at (n + 5)) GR e env1 (emb out w1) = (.ok v, emb out w1) →
          evalItems ((P).at (n + 5)) GR (.cons (.const (.str k)) e r) d env1 (emb out w1) = evalItems ((P).at (n + 5)) GR r (dictSet k v d) env1 (emb out w1) := by
        intro k e r d v he
        simp only [evalItems]
        rw [E.bind_ok (eval_const _ _ _)]
        show (asKey (.str k) >>= fun key => _) _ = _
        rw [E.bind_ok (show asKey (.str k) (emb out w1) = (.ok k, emb out w1) from rfl), E.bind_ok he]
      have hdict : ∀ it, it = (Items.cons (.const (.str py!"error")) (.fstr exprs![(.const (.str py!"Atop version ")), (.fmt (.attr (.name "header") py!"semantic_version")),
          (.const (.str py!" does not support parseables, only full raw output."))]) <| .cons (.const (.str py!"file")) (.name "file") <| .nil) →
          eval ((P).at (n + 5)) GR (.dict it) env1 (emb out w1) =
          (.ok (.dict [(py!"error", .str (unsupportedText (versionString v))), (py!"file", .str file)]), emb out w1) := by
        rintro _ rfl
        simp only [eval]
        rw [E.bind_ok ((step _ _ _ _ _ hmsg).trans ((step _ _ _ _ _ (eval_name g2)).trans (by simp only [evalItems]; rfl)))]
        rfl
      refine ⟨_, _, w1, (block_next ((exec_if_true hq1 hq2).trans ((block_next (exec_append_name g3 (hdict _ rfl))).trans block_nil))).trans block_nil, rfl, rfl,
        hk1.trans (Kept.set (by decide))⟩
    | false =>
      rw [hb] at hq2
      rw [if_neg Bool.false_ne_true]
      have hget : eval ((P).at (n + 5)) GR (.call (.attr (.glob py!"PARSEABLE_MAP") py!"get") exprs![(.attr (.name "header") py!"semantic_version"), (.sub (.glob py!"PARSEABLE_MAP") (.const (.str py!"1.26")))] .nil) env1 (emb out w1) =
          (.ok parserDict, emb out w1) := by
        have hf : eval ((P).at (n + 5)) GR (.attr (.glob py!"PARSEABLE_MAP") py!"get") env1 (emb out w1) =
            (.ok (.method (.dict [(py!"1.26", parserDict)]) .get), emb out w1) := (eval_attr (hmap _)).trans rfl
        have hsub : eval ((P).at (n + 5)) GR (.sub (.glob py!"PARSEABLE_MAP") (.const (.str py!"1.26"))) env1 (emb out w1) = (.ok parserDict, emb out w1) :=
          (eval_sub (hmap _) (eval_const _ _ _)).trans rfl
        refine (eval_call hf (evals_cons hsem (evals_one hsub)) evalKws_nil).trans ?_
        show (Except.ok ((List.lookup (versionString v) [(py!"1.26", parserDict)]).getD parserDict), emb out w1) = _
        rw [List.lookup_cons]
        cases (versionString v == py!"1.26") <;> rfl
      have hk2 : Kept withNames env1 (env1.set "parsers" parserDict) := Kept.set (by decide)
      have k0 : LoopVars i ps tst cst (env1.set "parsers" parserDict) := ⟨g0, g4, rfl, g5, g6⟩
      have k1 : (env1.set "parsers" parserDict) "raw_file" = some .file := g1
      have k3 : (env1.set "parsers" parserDict) "samples" = some (.list []) := g3
      have hpb : ∀ b r, execBlock ((P).at (n + 5)) GR none (.cons (.ifte (.and (.name "parseables") (.cmp .notIn (.attr (.name "header") py!"semantic_version") (.glob py!"PARSEABLE_MAP"))) b r) .nil) env1 (emb out w1) = 
          (execBlock ((P).at (n + 5)) GR none r env1 (emb out w1)).bind (lastOf ((P).at (n + 5)) GR) := by
        intro b r
        rw [execBlock]
        dsimp only
        rw [exec_if_false hq1 hq2]
        rfl
      rw [hpb, block_next (exec_assign hget)]
      generalize env1.set "parsers" parserDict = env2 at hk2 k0 k1 k3
      have hgen : eval ((P).at (n + 5)) GR genCall env2 (emb out w1) = (.ok (.gen py!"atoparser.utils" Text.Utils.generate_statistics.body
          [("raw_file", .file), ("header", .hdr i), ("raise_on_truncation", .bool false), ("max_samples", .int MAX_SAMPLES_PER_FILE)]), emb out w1) := by
        have hf : eval ((P).at (n + 5)) GR (.attr (.glob py!"atoparser") py!"generate_statistics") env2 (emb out w1) =
            (.ok (.fn py!"atoparser.utils" Text.Utils.generate_statistics [.none, .bool true, .int MAX_SAMPLES_PER_FILE]), emb out w1) :=
          (eval_attr (eval_glob (v := .mod py!"atoparser") rfl)).trans rfl
        refine (eval_call hf (evals_cons (eval_name k1) (evals_one (eval_name k0.header))) (evalKws_cons (eval_const _ _ _) evalKws_nil)).trans ?_
        have hy : Text.Utils.generate_statistics.body.yields = true := by decide +kernel
        exact callFn_gen (R := (P).at (n + 5)) (f := Text.Utils.generate_statistics) (ds := [.none, .bool true, .int MAX_SAMPLES_PER_FILE]) (as := [.file, .hdr i])
          (kws := [("raise_on_truncation", .bool false)]) rfl hy
      have hloop := samples_loop (Z := Z) (fs := fs) (args := args) (n := n) (out := out) R hca hc (i := i) (ps := ps) (tst := tst) (cst := cst)
        (fun hne => h126 (by
          have hne' : (ps.getD []).isEmpty = false := by
            cases hq : ps.getD [] with
            | nil => exact absurd hq hne
            | cons a l => rfl
          rw [hne', hcont] at hb
          simpa using hb)) (MAX_SAMPLES_PER_FILE + 1) (left := MAX_SAMPLES_PER_FILE) (g := .start (some i) MAX_SAMPLES_PER_FILE)
        (g' := .start (some h) MAX_SAMPLES_PER_FILE) (w := w1)
        (k := fun x s => match x with
          | none => execBlock ((P).at (n + 4)) (Rt.globals P py!"atoparser.utils") none Text.Utils.generate_statistics.body (envOf
              [("raw_file", .file), ("header", .hdr i), ("raise_on_truncation", .bool false), ("max_samples", .int MAX_SAMPLES_PER_FILE)]) s
          | some e => .ret (.exc e, fun _ => none) s)
        ⟨n, _, ⟨rfl, rfl, rfl, rfl⟩, rfl⟩ ⟨hlib, h.cls, hc, sees hlib hat.header⟩ ⟨rfl, hat, by rw [hca]; rfl⟩ (.inl ⟨_, rfl, rfl⟩) (.inl ⟨_, rfl⟩)
        (Nat.lt_succ_self _) k0 k3
      rw [S2] at hloop
      have hfor : execBlock ((P).at (n + 5)) GR none block![.for ["record", "sstat", "tstats", "cgroups"] genCall roundBlock] env2 (emb out w1) =
          (forGen ["record", "sstat", "tstats", "cgroups"] (execBlock ((P).at (n + 5)) GR none roundBlock) (execBlock ((P).at (n + 4))
            (Rt.globals P py!"atoparser.utils") none Text.Utils.generate_statistics.body (envOf
          [("raw_file", .file), ("header", .hdr i), ("raise_on_truncation", .bool false), ("max_samples", .int MAX_SAMPLES_PER_FILE)]) (emb out w1)) env2).bind
            (lastOf ((P).at (n + 5)) GR) := by
        rw [execBlock]
        dsimp only
        rw [exec_for_gen hgen]
        rfl
      rw [hfor]
      rcases hp : (parseLoop Z ⟨ps.getD [], tst, cst⟩ h (MAX_SAMPLES_PER_FILE + 1) (.start (some h) MAX_SAMPLES_PER_FILE) : Stream → _) f1 with ⟨e | docs, f2⟩
      · rw [hp] at hloop
        obtain ⟨env3, w3, i1, -⟩ := hloop
        rw [i1]
        exact ⟨env3, w3, rfl⟩
      · rw [hp] at hloop
        obtain ⟨env3, us, w3, i1, i2, i3, i4, -⟩ := hloop
        rw [i1]
        refine ⟨env3, us, w3, ?_, i2, i3, (hk1.trans hk2).trans (i4.mono (by decide))⟩
        show ((execBlock ((P).at (n + 5)) GR none .nil env3 (emb out w3)).bind (lastOf ((P).at (n + 5)) GR)) = _
        rw [block_nil]
        exact block_nil (R := (P).at (n + 5)) (G := GR) (cur := none)

/-- What calling `parse_file` does. -/
def FileEnds (fs : FileSystem) (Z : Zlib) (file : PyStr) (ps : Option (List PyStr)) (pretty tst cst : Bool) (out : PyStr) (r : Except PExc Val × W) : Prop :=
  ∃ w', r = match parseFileText Z fs file ps pretty tst cst with
    | .ok t => (.ok .none, emb (out ++ t) w')
    | .error e => (.error (embExc e), emb out w')

theorem call_parse_file (hfs : LibFiles fs) {file : PyStr} {ps : Option (List PyStr)} {pretty tst cst : Bool} {as : List Val} {kws l : List (String × Val)}
    (hb : bindArgs (withDefaults Text.Reader.parse_file.params [.none, .bool true, .bool false, .bool false]) as kws = some l)
    (h1 : l.lookup "file" = some (.str file)) (h2 : l.lookup "parseables" = some (namesVal ps)) (h3 : l.lookup "pretty_print" = some (.bool pretty))
    (h4 : l.lookup "show_tstats" = some (.bool tst)) (h5 : l.lookup "show_cstats" = some (.bool cst)) :
    FileEnds fs Z file ps pretty tst cst out
      (callFn ((P).at (n + 6)) py!"atoparser.reader" Text.Reader.parse_file [.none, .bool true, .bool false, .bool false] as kws (emb out w)) := by
  have hy : Text.Reader.parse_file.body.yields = false := by decide +kernel
  have h1' : envOf l "file" = some (.str file) := h1
  have h2' : envOf l "parseables" = some (namesVal ps) := h2
  have h3' : envOf l "pretty_print" = some (.bool pretty) := h3
  have h4' : envOf l "show_tstats" = some (.bool tst) := h4
  have h5' : envOf l "show_cstats" = some (.bool cst) := h5
  rw [callFn_call hb hy]
  unfold callBody
  rw [run_at, file_text]
  generalize envOf l = env at h1' h2' h3' h4' h5'
  clear h1 h2 h3 h4 h5 hb
  rw [block_next (exec_assign (eval_list evals_nil))]
  have k1 : (env.set "samples" (.list [])) "file" = some (.str file) := h1'
  have k2 : (env.set "samples" (.list [])) "parseables" = some (namesVal ps) := h2'
  have k3 : (env.set "samples" (.list [])) "pretty_print" = some (.bool pretty) := h3'
  have k4 : (env.set "samples" (.list [])) "show_tstats" = some (.bool tst) := h4'
  have k5 : (env.set "samples" (.list [])) "show_cstats" = some (.bool cst) := h5'
  have k6 : (env.set "samples" (.list [])) "samples" = some (.list []) := rfl
  generalize env.set "samples" (.list []) = env1 at k1 k2 k3 k4 k5 k6
  have hop : eval ((P).at (n + 5)) GR (.ifExp (.cmp .notIn (.const (.str py!".gz")) (.name "file")) (.glob py!"open") (.attr (.glob py!"gzip") py!"open")) env1 (emb out w) =
      (.ok (.builtin (if usesGzip file then .gzipOpen else .open)), emb out w) := by
    have hc : eval ((P).at (n + 5)) GR (.cmp .notIn (.const (.str py!".gz")) (.name "file")) env1 (emb out w) = (.ok (.bool (!usesGzip file)), emb out w) :=
      (eval_cmp (eval_const _ _ _) (eval_name k1)).trans rfl
    cases hg : usesGzip file with
    | false =>
      rw [hg] at hc
      rw [eval_if_true hc rfl]
      exact eval_builtin rfl rfl
    | true =>
      rw [hg] at hc
      rw [eval_if_false hc rfl]
      exact (eval_attr (eval_glob (v := .mod py!"gzip") rfl)).trans rfl
  rw [block_next (exec_assign hop)]
  have l0 : (env1.set "opener" (.builtin (if usesGzip file then .gzipOpen else .open))) "opener" = some (.builtin (if usesGzip file then .gzipOpen else .open)) := rfl
  have l1 : (env1.set "opener" (.builtin (if usesGzip file then .gzipOpen else .open))) "file" = some (.str file) := k1
  have l2 : (env1.set "opener" (.builtin (if usesGzip file then .gzipOpen else .open))) "parseables" = some (namesVal ps) := k2
  have l3 : (env1.set "opener" (.builtin (if usesGzip file then .gzipOpen else .open))) "pretty_print" = some (.bool pretty) := k3
  have l4 : (env1.set "opener" (.builtin (if usesGzip file then .gzipOpen else .open))) "show_tstats" = some (.bool tst) := k4
  have l5 : (env1.set "opener" (.builtin (if usesGzip file then .gzipOpen else .open))) "show_cstats" = some (.bool cst) := k5
  have l6 : (env1.set "opener" (.builtin (if usesGzip file then .gzipOpen else .open))) "samples" = some (.list []) := k6
  generalize env1.set "opener" (.builtin (if usesGzip file then .gzipOpen else .open)) = env2 at l0 l1 l2 l3 l4 l5 l6
  have hopen : eval ((P).at (n + 5)) GR (.call (.name "opener") exprs![(.name "file"), (.const (.str py!"rb"))] .nil) env2 (emb out w) =
      match fs file (usesGzip file) with
      | .ok s => (.ok .file, emb out { w with file := s })
      | .error e => (.error (.sys e), emb out w) := by
    refine (eval_call (eval_name l0) (evals_cons (eval_name l1) (evals_one (eval_const _ _ _))) evalKws_nil).trans ?_
    cases usesGzip file <;> rfl
  unfold FileEnds
  have hlib := hfs file (usesGzip file)
  cases hf : fs file (usesGzip file) with
  | error e =>
    rw [hf] at hopen hlib
    dsimp only at hlib hopen
    have : execBlock ((P).at (n + 5)) GR none block![
        .with (.call (.name "opener") exprs![(.name "file"), (.const (.str py!"rb"))] .nil) "raw_file" withBlock,
        .expr (.call (.glob py!"print") exprs![(.call (.attr (.glob py!"json") py!"dumps") exprs![(.name "samples")] (.cons "indent" (.ifExp (.name "pretty_print") (.const (.int 2)) (.const .none)) <| .nil))] .nil)] env2 (emb out w) =
        .ret (.exc (.sys e), env2) (emb out w) := by
      refine block_exc ?_
      simp only [exec]
      exact withE_err hopen
    have ht : parseFileText Z fs file ps pretty tst cst = .error e := by
      unfold parseFileText parsePath; rw [hf]; rfl
    rw [this, ht]
    exact ⟨w, by rw [← hlib]⟩
  | ok s =>
    rw [hf] at hopen hlib
    dsimp only at hlib hopen
    have hwith : exec ((P).at (n + 5)) GR none (.with (.call (.name "opener") exprs![(.name "file"), (.const (.str py!"rb"))] .nil) "raw_file" withBlock) env2 (emb out w) =
        execBlock ((P).at (n + 5)) GR none withBlock (env2.set "raw_file" .file) (emb out { w with file := s }) := by
      simp only [exec]
      exact withE_ok hopen
    have m1 : (env2.set "raw_file" .file) "file" = some (.str file) := l1
    have m2 : (env2.set "raw_file" .file) "parseables" = some (namesVal ps) := l2
    have m3 : (env2.set "raw_file" .file) "pretty_print" = some (.bool pretty) := l3
    have m4 : (env2.set "raw_file" .file) "show_tstats" = some (.bool tst) := l4
    have m5 : (env2.set "raw_file" .file) "show_cstats" = some (.bool cst) := l5
    have m6 : (env2.set "raw_file" .file) "samples" = some (.list []) := l6
    have m7 : (env2.set "raw_file" .file) "raw_file" = some .file := rfl
    generalize env2.set "raw_file" .file = env3 at hwith m1 m2 m3 m4 m5 m6 m7
    have hrun := with_run (Z := Z) (fs := fs) (args := args) (n := n) (out := out) (w := { w with file := s }) hlib m7 m1 m6 m2 m4 m5
    dsimp only at hrun
    have htext : parseFileText Z fs file ps pretty tst cst =
        (do let samples ← (parseFile Z ⟨ps.getD [], tst, cst⟩ file s).1; return (← dumps pretty (.list samples)) ++ py!"\n" : Except Exc PyStr) := by
      unfold parseFileText parsePath; rw [hf]; rfl
    cases hpf : (parseFile Z ⟨ps.getD [], tst, cst⟩ file s).1 with
    | error e =>
      rw [hpf] at hrun htext
      obtain ⟨env4, w4, q⟩ := hrun
      rw [block_exc (hwith.trans q), htext]
      exact ⟨w4, rfl⟩
    | ok docs =>
      rw [hpf] at hrun htext
      obtain ⟨env4, us, w4, q1, q2, q3, q4⟩ := hrun
      rw [block_next (hwith.trans q1)]
      have p3 : env4 "pretty_print" = some (.bool pretty) := (q4 _ (by decide)).trans m3
      have hd : eval ((P).at (n + 5)) GR (.call (.attr (.glob py!"json") py!"dumps") exprs![(.name "samples")] (.cons "indent" (.ifExp (.name "pretty_print") (.const (.int 2)) (.const .none)) <| .nil)) env4 (emb out w4) =
          (match dumps pretty (.list docs) with | .ok t => .ok (.str t) | .error e => .error (.sys e), emb out w4) := by
        have hf : eval ((P).at (n + 5)) GR (.attr (.glob py!"json") py!"dumps") env4 (emb out w4) = (.ok (.builtin .jsonDumps), emb out w4) :=
          (eval_attr (eval_glob (v := .mod py!"json") rfl)).trans rfl
        have hlift : ∀ p : Bool, (do return Val.str (← E.lift (dumps p (toJ (.list us)))) : E Val) (emb out w4) =
            (match dumps p (.list docs) with | .ok t => .ok (.str t) | .error e => .error (.sys e), emb out w4) := by
          intro p
          rw [show toJ (.list us) = .list docs by rw [← q3]; rfl]
          cases dumps p (.list docs) <;> rfl
        cases pretty with
        | true =>
          refine (eval_call hf (evals_one (eval_name q2)) (evalKws_cons ((eval_if_true (eval_name p3) rfl).trans (eval_const _ _ _)) evalKws_nil)).trans ?_
          exact hlift true
        | false =>
          refine (eval_call hf (evals_one (eval_name q2)) (evalKws_cons ((eval_if_false (eval_name p3) rfl).trans (eval_const _ _ _)) evalKws_nil)).trans ?_
          exact hlift false
      have hpr : eval ((P).at (n + 5)) GR (.glob py!"print") env4 (emb out w4) = (.ok (.builtin .print), emb out w4) := eval_builtin rfl rfl
      cases hdu : dumps pretty (.list docs) with
      | error e =>
        rw [hdu] at hd
        have he : e = .typeError := dumpsAt_err pretty 0 _ hdu
        subst he
        rw [block_exc (exec_expr_err rfl (eval_call_args_err hpr (evals_err hd)))]
        exact ⟨w4, by rw [htext, show (do let samples ← Except.ok docs; return (← dumps pretty (.list samples)) ++ py!"\n" : Except Exc PyStr) =
          (do return (← dumps pretty (.list docs)) ++ py!"\n" : Except Exc PyStr) from rfl, hdu]; rfl⟩
      | ok t =>
        rw [hdu] at hd
        have hprint : eval ((P).at (n + 5)) GR (.call (.glob py!"print") exprs![(.call (.attr (.glob py!"json") py!"dumps") exprs![(.name "samples")] (.cons "indent" (.ifExp (.name "pretty_print") (.const (.int 2)) (.const .none)) <| .nil))] .nil) env4 (emb out w4) =
            (.ok .none, emb (out ++ (t ++ py!"\n")) w4) := by
          refine (eval_call1 hpr hd).trans ?_
          show (Except.ok Val.none, emb (out ++ t ++ py!"\n") w4) = _
          rw [List.append_assoc]
        rw [(block_next (exec_expr rfl hprint)).trans block_nil]
        exact ⟨w4, by rw [htext, show (do let samples ← Except.ok docs; return (← dumps pretty (.list samples)) ++ py!"\n" : Except Exc PyStr) =
          (do return (← dumps pretty (.list docs)) ++ py!"\n" : Except Exc PyStr) from rfl, hdu]; rfl⟩

/-- The result of `parse_args()` as a value. -/
def nsVal (ns : Namespace) : Val := .inst py!"Namespace" [
  (py!"files", .list (ns.files.map .str)), (py!"parseables", namesVal ns.parseables), (py!"pretty_print", .bool ns.prettyPrint),
  (py!"show_tstats", .bool ns.showTstats), (py!"show_cstats", .bool ns.showCstats)]

theorem attrs_val (ns : Namespace) :
    Val.inst py!"Namespace" ((Args.attrsOf (.strs ns.files) ns).map fun p => (p.1, argVal p.2)) = nsVal ns := by
  obtain ⟨f, p, a, b, c⟩ := ns
  cases p <;> rfl

/-- `parse_args()`, from its text. -/
theorem call_parse_args {w : W} : callFn ((P).at (n + 1)) py!"atoparser.reader" Text.Reader.parse_args [] [] [] w =
    (match parseArgs args.U args.argv with | .ok ns => .ok (nsVal ns) | .error e => .error (.exit e), w) := by
  have hy : Text.Reader.parse_args.body.yields = false := by decide +kernel
  rw [callFn_call (l := []) rfl hy]
  unfold callBody
  rw [run_at]
  have hparse : ∀ env : Env, env "parser" = some (.parser Args.readerDecls) →
      eval ((P).at n) GR (.call (.attr (.name "parser") py!"parse_args") exprs![] .nil) env w =
        (match parseArgs args.U args.argv with | .ok ns => .ok (nsVal ns) | .error e => .error (.exit e), w) := by
    intro env h
    refine (eval_call0 (fv := .builtin (.parseArgs Args.readerDecls)) ((eval_attr (eval_name h)).trans rfl)).trans ?_
    show (match Argparse.parse args.U Args.readerDecls args.argv with
      | some (.ok l) => E.pure (Val.inst py!"Namespace" (l.map fun p : PyStr × Argparse.AVal => (p.1, argVal p.2)))
      | some (.error e) => E.raise (.exit e)
      | none => E.stuck) w = _
    rw [Args.parse_eq]
    cases parseArgs args.U args.argv with
    | error e => rfl
    | ok ns =>
      show E.pure (Val.inst py!"Namespace" ((Args.attrsOf (.strs ns.files) ns).map fun p => (p.1, argVal p.2))) w = _
      rw [attrs_val]; rfl
  unfold Text.Reader.parse_args
  dsimp only
  rw [block_next (exec_assign (v := .parser []) ((eval_call1 (fv := .builtin .argumentParser) ((eval_attr (eval_glob (v := .mod py!"argparse") rfl)).trans rfl) (eval_const _ _ _)).trans rfl)),
    block_next (exec_declare (ds := []) (ds' := [Args.filesDecl]) rfl (evals_one (eval_const _ _ _)) (evalKws_cons (eval_const _ _ _) (evalKws_cons (eval_const _ _ _) evalKws_nil)) rfl),
    block_next (exec_declare (ds := [Args.filesDecl]) (ds' := [Args.filesDecl, Args.parseablesDecl]) rfl (evals_cons (eval_const _ _ _) (evals_one (eval_const _ _ _)))
      (evalKws_cons (eval_const _ _ _) (evalKws_cons (eval_glob (v := .list (choices.map .str)) rfl) (evalKws_cons (eval_const _ _ _) (evalKws_cons (eval_const _ _ _) evalKws_nil)))) rfl),
    block_next (exec_declare (ds := [Args.filesDecl, Args.parseablesDecl]) (ds' := [Args.filesDecl, Args.parseablesDecl, Args.prettyDecl]) rfl (evals_cons (eval_const _ _ _) (evals_one (eval_const _ _ _)))
      (evalKws_cons (eval_const _ _ _) (evalKws_cons (eval_const _ _ _) evalKws_nil)) rfl),
    block_next (exec_declare (ds := [Args.filesDecl, Args.parseablesDecl, Args.prettyDecl]) (ds' := [Args.filesDecl, Args.parseablesDecl, Args.prettyDecl, Args.tstatsDecl]) rfl (evals_one (eval_const _ _ _))
      (evalKws_cons (eval_const _ _ _) (evalKws_cons (eval_const _ _ _) (evalKws_cons (eval_const _ _ _) evalKws_nil))) rfl),
    block_next (exec_declare (ds := [Args.filesDecl, Args.parseablesDecl, Args.prettyDecl, Args.tstatsDecl]) (ds' := Args.readerDecls) rfl (evals_one (eval_const _ _ _))
      (evalKws_cons (eval_const _ _ _) (evalKws_cons (eval_const _ _ _) (evalKws_cons (eval_const _ _ _) evalKws_nil))) rfl)]
  generalize ha : Env.set _ "parser" (Val.parser Args.readerDecls) = env1
  have hp := hparse env1 (by subst ha; rfl)
  cases h : parseArgs args.U args.argv with
  | error e =>
    rw [h] at hp
    rw [block_exc (exec_assign_err hp)]
  | ok ns =>
    rw [h] at hp
    rw [block_next (exec_assign hp), block_ret (exec_ret (eval_name (v := nsVal ns) rfl))]

theorem loop_main (hfs : LibFiles fs) (ns : Namespace) : ∀ (files : List PyStr) {out : PyStr} {w : World} {env : Env}, env "args" = some (nsVal ns) →
    ∃ env' w', forList ["file"] (execBlock ((P).at (n + 6)) GR none block![
      .expr (.call (.glob py!"parse_file") exprs![(.name "file"), (.attr (.name "args") py!"parseables"), (.attr (.name "args") py!"pretty_print"), (.attr (.name "args") py!"show_tstats"), (.attr (.name "args") py!"show_cstats")] .nil)])
      (files.map .str) env (emb out w) = .ret (match (mainLoop Z fs ns files).2 with | none => .next | some e => .exc (embExc e), env') (emb (out ++ (mainLoop Z fs ns files).1) w')
  | [], out, w, env, _ => ⟨env, w, by show _ = Co.ret (Ctl.next, env) (emb (out ++ []) w); rw [List.append_nil]; rfl⟩
  | file :: files, out, w, env, ha => by
    have heq : ∀ b, forList ["file"] b ((file :: files).map .str) env (emb out w) =
      (b (env.set "file" (.str file)) (emb out w)).bind (loopNext (forList ["file"] b (files.map .str))) := fun _ => rfl
    rw [heq]
    have ha1 : (env.set "file" (.str file)) "args" = some (nsVal ns) := ha
    have hf1 : (env.set "file" (.str file)) "file" = some (.str file) := rfl
    generalize env.set "file" (.str file) = env1 at ha1 hf1
    have hns : ∀ a v, (nsVal ns |> fun | .inst _ l => l.lookup a | _ => none) = some v →
        eval ((P).at (n + 6)) GR (.attr (.name "args") a) env1 (emb out w) = (.ok v, emb out w) := by
      intro a v h
      refine (eval_attr (eval_name ha1)).trans ?_
      unfold nsVal at h
      unfold attrOf nsVal
      dsimp only at h ⊢
      rw [h]; rfl
    have hfn : eval ((P).at (n + 6)) GR (.glob py!"parse_file") env1 (emb out w) =
        (.ok (.fn py!"atoparser.reader" Text.Reader.parse_file [.none, .bool true, .bool false, .bool false]), emb out w) := eval_glob rfl
    have hev := eval_call hfn (evals_cons (eval_name hf1) (evals_cons (hns py!"parseables" (namesVal ns.parseables) rfl)
      (evals_cons (hns py!"pretty_print" (.bool ns.prettyPrint) rfl)
      (evals_cons (hns py!"show_tstats" (.bool ns.showTstats) rfl) (evals_one (hns py!"show_cstats" (.bool ns.showCstats) rfl)))))) evalKws_nil
    obtain ⟨w', hc⟩ := call_parse_file (Z := Z) (fs := fs) (args := args) (n := n) (out := out) (w := w) hfs (file := file) (ps := ns.parseables)
      (pretty := ns.prettyPrint) (tst := ns.showTstats) (cst := ns.showCstats)
      (as := [.str file, namesVal ns.parseables, .bool ns.prettyPrint, .bool ns.showTstats, .bool ns.showCstats]) (kws := [])
      (l := [("file", .str file), ("parseables", namesVal ns.parseables), ("pretty_print", .bool ns.prettyPrint),
        ("show_tstats", .bool ns.showTstats), ("show_cstats", .bool ns.showCstats)]) rfl rfl rfl rfl rfl rfl
    have hev' := hev.trans hc
    unfold mainLoop
    cases ht : parseFileText Z fs file ns.parseables ns.prettyPrint ns.showTstats ns.showCstats with
    | error e =>
      rw [ht] at hev'
      rw [block_exc (exec_expr_err rfl hev')]
      exact ⟨env1, w', by show _ = Co.ret (Ctl.exc (embExc e), env1) (emb (out ++ []) w'); rw [List.append_nil]; rfl⟩
    | ok t =>
      rw [ht] at hev'
      rw [(block_next (exec_expr rfl hev')).trans block_nil]
      obtain ⟨env2, w2, ih⟩ := loop_main hfs ns files (out := out ++ t) (w := w') ha1
      refine ⟨env2, w2, ?_⟩
      show forList _ _ _ env1 (emb (out ++ t) w') = _
      rw [ih, List.append_assoc]

/-- What the program does with the arguments it is given: what it prints and how it ends. -/
def mainResult (Z : Zlib) (fs : FileSystem) (args : CommandLine) : PyStr × Option PExc :=
  match parseArgs args.U args.argv with
  | .error e => ([], some (.exit e))
  | .ok ns => ((mainText Z fs ns).1, (mainText Z fs ns).2.map embExc)

theorem call_main (hfs : LibFiles fs) : ∃ w', callFn ((P).at (n + 7)) py!"atoparser.reader" Text.Reader.main [] [] [] (emb out w) =
    (match (mainResult Z fs args).2 with | none => .ok .none | some e => .error e, emb (out ++ (mainResult Z fs args).1) w') := by
  have hy : Text.Reader.main.body.yields = false := by decide +kernel
  rw [callFn_call (l := []) rfl hy]
  unfold callBody
  rw [run_at]
  have hargs : eval ((P).at (n + 6)) GR (.call (.glob py!"parse_args") exprs![] .nil) (envOf []) (emb out w) =
      (match parseArgs args.U args.argv with | .ok ns => .ok (nsVal ns) | .error e => .error (.exit e), emb out w) :=
    (eval_call0 (eval_glob (v := .fn py!"atoparser.reader" Text.Reader.parse_args []) rfl)).trans call_parse_args
  have htext : Text.Reader.main.body = block![
    .assign (.name "args") (.call (.glob py!"parse_args") exprs![] .nil),
    .for ["file"] (.attr (.name "args") py!"files") block![
      .expr (.call (.glob py!"parse_file") exprs![(.name "file"), (.attr (.name "args") py!"parseables"), (.attr (.name "args") py!"pretty_print"), (.attr (.name "args") py!"show_tstats"), (.attr (.name "args") py!"show_cstats")] .nil)]] := rfl
  rw [htext]
  unfold mainResult
  cases hp : parseArgs args.U args.argv with
  | error e =>
    rw [hp] at hargs
    rw [block_exc (exec_assign_err hargs)]
    exact ⟨w, by show _ = (Except.error (PExc.exit e), emb (out ++ []) w); rw [List.append_nil]⟩
  | ok ns =>
  rw [hp] at hargs
  rw [block_next (exec_assign hargs)]
  have ha : ((envOf []).set "args" (nsVal ns)) "args" = some (nsVal ns) := rfl
  generalize (envOf []).set "args" (nsVal ns) = env1 at ha
  have hfiles : eval ((P).at (n + 6)) GR (.attr (.name "args") py!"files") env1 (emb out w) = (.ok (.list (ns.files.map .str)), emb out w) :=
    (eval_attr (eval_name ha)).trans rfl
  obtain ⟨env2, w2, hl⟩ := loop_main (Z := Z) (fs := fs) (args := args) (n := n) hfs ns ns.files (out := out) (w := w) ha
  refine ⟨w2, ?_⟩
  have hfor := (exec_for_list (R := (P).at (n + 6)) (G := GR) (cur := none) (xs := ["file"]) hfiles (by intro _ _ _ hh; cases hh) rfl).trans hl
  unfold mainText
  dsimp only
  cases hm : (mainLoop Z fs ns ns.files).2 with
  | none =>
    rw [hm] at hfor
    rw [(block_next hfor).trans block_nil]
    rfl
  | some e =>
    rw [hm] at hfor
    rw [block_exc hfor]
    rfl
end
end Atop.Src
