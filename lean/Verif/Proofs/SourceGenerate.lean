import Verif.Proofs.SourceGen
import Verif.Spec.SourceGen
/-!
# `generate_statistics`, from its text: the whole generator
-/

namespace Atop.Src
open Spec
set_option maxRecDepth 20000

section
variable {Z : Zlib} {fs : FileSystem} {args : CommandLine} {out : PyStr} {w : World} {i : Nat} {c : HeaderClass} {n : Nat}
  {env : Env} {rot : Bool} {v : Nat × Nat} {max : Int}

local notation "P" => program Z fs args
local notation "GU" => Rt.globals (program Z fs args) py!"atoparser.utils"

/-- What follows a statement that is the last one of a block. -/
def lastOf (R : Rt) (G : PyStr → Option Val) (q : Ctl × Env) (w : W) : Co (Ctl × Env) :=
  match q with
  | (.next, env') => execBlock R G none .nil env' w
  | q => .ret q w

/-- The handler (atoparser/utils.py:128-129). -/
def genHandler : Block := block![.ifte (.name "raise_on_truncation") block![.reraise] block![]]

/-- Leaving the `try` block. -/
def handled (R : Rt) (G : PyStr → Option Val) (r : Ctl × Env) (w : W) : Co (Ctl × Env) :=
  match r with
  | (.exc e, env') => withE (eval R G (.attr (.glob py!"zlib") py!"error") env') env' (fun c w'' =>
      if catches c e then execBlock R G (some e) genHandler env' w'' else .ret (.exc e, env') w'') w
  | r => .ret r w

/-- What follows the statements of the `try` block. -/
def afterTry (R : Rt) (G : PyStr → Option Val) (x : Co (Ctl × Env)) : Co (Ctl × Env) :=
  (x.bind (handled R G)).bind (lastOf R G)

/-- What follows the loop. -/
def afterFor (R : Rt) (G : PyStr → Option Val) (x : Co (Ctl × Env)) : Co (Ctl × Env) :=
  afterTry R G (x.bind (lastOf R G))

theorem afterFor_yield (R : Rt) (G : PyStr → Option Val) (a : Val) (w : W) (k : Option PExc → W → Co (Ctl × Env)) :
    afterFor R G (.yield a w k) = .yield a w (fun x w' => afterFor R G (k x w')) := rfl

theorem afterFor_next (R : Rt) (G : PyStr → Option Val) (env : Env) (w : W) :
    afterFor R G (.ret (.next, env) w) = .ret (.next, env) w := by
  unfold afterFor afterTry
  simp only [Co.bind, lastOf, block_nil, handled]

theorem catches_zlib (e : Exc) : catches (.builtin .zlibError) (embExc e) = decide (e = .zlibError) := by
  cases e with
  | valueError x => cases x <;> rfl
  | zlibError => rfl
  | _ => rfl

/-- Leaving the `try` block with an exception. -/
theorem afterTry_exc {e : Exc} (hr : env "raise_on_truncation" = some (.bool rot)) :
    ∃ env', afterTry ((P).at n) GU (.ret (.exc (embExc e), env) (emb out w)) = (match Obj.onError rot e with
      | .raise e => .ret (.exc (embExc e), env') (emb out w)
      | _ => .ret (.next, env') (emb out w)) := by
  have hz : eval ((P).at n) GU (.attr (.glob py!"zlib") py!"error") env (emb out w) = (.ok (.builtin .zlibError), emb out w) := by
    refine (eval_attr (eval_glob (v := .mod py!"zlib") rfl)).trans ?_
    rfl
  unfold afterTry
  simp only [Co.bind, handled]
  rw [withE_ok hz, catches_zlib]
  unfold Obj.onError
  refine ⟨env, ?_⟩
  by_cases he : e = .zlibError
  · simp only [he, decide_true, if_true]
    have hre : execBlock ((P).at n) GU (some (embExc Exc.zlibError)) genHandler env (emb out w) =
        .ret (if rot then .exc (embExc .zlibError) else .next, env) (emb out w) := by
      unfold genHandler
      cases rot
      · exact (block_next ((exec_if_false (eval_name hr) rfl).trans block_nil)).trans block_nil
      · exact block_exc ((exec_if_true (eval_name hr) rfl).trans (block_exc (by simp only [exec]; rfl)))
    rw [hre]
    cases rot
    · simp only [Co.bind, lastOf, block_nil]; rfl
    · simp only [Co.bind, lastOf]; rfl
  · simp only [he, decide_false, if_false]
    simp only [Bool.false_eq_true, if_false, Co.bind, lastOf]

/-- The variables of `generate_statistics` at its start. -/
structure StartVars (h : Option Nat) (max : Int) (rot : Bool) (env : Env) : Prop where
  file : env "raw_file" = some .file
  header : env "header" = some (match h with | some i => .hdr i | none => .none)
  rot : env "raise_on_truncation" = some (.bool rot)
  max : env "max_samples" = some (.int max)

/-- A suspended generator of the model beside one of the interpreter. -/
def Suspended (Z : Zlib) (fs : FileSystem) (args : CommandLine) (rot : Bool) (g : Obj.Gen) (p : PGen) : Prop :=
  match g with
  | .start h max => ∃ n env, StartVars h max rot env ∧
      p = .live (fun x w => match x with
        | none => execBlock ((program Z fs args).at (n + 4)) ((program Z fs args).globals py!"atoparser.utils") none Text.Utils.generate_statistics.body env w
        | some e => .ret (.exc e, fun _ => none) w)
  | .loop i v left => ∃ n env j, GVars i v rot env ∧
      p = .live (fun x w => afterFor ((program Z fs args).at (n + 4)) ((program Z fs args).globals py!"atoparser.utils")
        ((resumed env x w).bind (loopNext (forList ["_"] (execBlock ((program Z fs args).at (n + 4)) ((program Z fs args).globals py!"atoparser.utils") none genBody)
          ((List.range' j left).map fun (j : Nat) => .int j)))))
  | .done => p = .done

/-- The objects a generator uses exist. -/
def Ready (w : World) (g : Obj.Gen) : Prop :=
  LibFile w.file ∧ match g with
  | .start (some i) _ => ∃ c ∈ versions, Sees w i c
  | .loop i _ _ => ∃ c ∈ versions, Sees w i c
  | _ => True

/-- A step of the model beside a step of the interpreter. -/
def StepsLike (Z : Zlib) (fs : FileSystem) (args : CommandLine) (out : PyStr) (rot : Bool) (p : POut × PGen × W)
    (r : Obj.Out × Obj.Gen × World) : Prop :=
  p.1 = outVal r.1 ∧ p.2.2 = emb out r.2.2 ∧ Suspended Z fs args rot r.2.1 p.2.1 ∧ Ready r.2.2 r.2.1

/-- `next()` on what remains. -/
def nextOf (x : Co (Ctl × Env)) : POut × PGen × W :=
  match x with
  | .yield v w' k' => (.yield v, .live k', w')
  | .ret (.exc e, _) w' => (.raise e, .done, w')
  | .ret _ w' => (.stop, .done, w')

theorem next_live (k : Option PExc → W → Co (Ctl × Env)) (w : W) : (PGen.live k).next w = nextOf (k none w) := rfl

/-- Ending with an exception, in the `try` block. -/
theorem step_exc {e : Exc} (hr : env "raise_on_truncation" = some (.bool rot)) (hl : LibFile w.file) :
    StepsLike Z fs args out rot (nextOf (afterTry ((P).at n) GU (.ret (.exc (embExc e), env) (emb out w)))) (Obj.onError rot e, .done, w) := by
  obtain ⟨env', h⟩ := afterTry_exc (Z := Z) (fs := fs) (args := args) (n := n) (out := out) (w := w) (e := e) hr
  rw [h]
  unfold Obj.onError
  by_cases he : e = .zlibError
  · cases rot
    · simp only [he, if_true]; exact ⟨rfl, rfl, rfl, hl, trivial⟩
    · simp only [he, if_true]; exact ⟨rfl, rfl, rfl, hl, trivial⟩
  · simp only [he, if_false]; exact ⟨rfl, rfl, rfl, hl, trivial⟩

theorem step_loop (hs : Sees w i c) (hc : c ∈ versions) (hv : GVars i v rot env) (left j : Nat) :
    StepsLike Z fs args out rot (nextOf (afterFor ((P).at (n + 4)) GU (forList ["_"] (execBlock ((P).at (n + 4)) GU none genBody)
        ((List.range' j left).map fun (j : Nat) => .int j) env (emb out w)))) (Obj.resumeLoop Z rot i v left w) := by
  cases left with
  | zero =>
    show StepsLike Z fs args out rot (nextOf (afterFor _ _ (.ret (.next, env) (emb out w)))) (.stop, .done, w)
    rw [afterFor_next]
    exact ⟨rfl, rfl, rfl, hs.1, trivial⟩
  | succ k =>
    have hv1 : GVars i v rot (env.set "_" (.int j)) := hv.set _ (by decide)
    have hround := gen_round (Z := Z) (fs := fs) (args := args) (n := n + 1) (out := out) hs hc hv1
    have hfor : forList ["_"] (execBlock ((P).at (n + 4)) GU none genBody) ((List.range' j (k + 1)).map fun (j : Nat) => Val.int j) env (emb out w) =
        (execBlock ((P).at (n + 4)) GU none genBody (env.set "_" (.int j)) (emb out w)).bind (loopNext
          (forList ["_"] (execBlock ((P).at (n + 4)) GU none genBody) ((List.range' (j + 1) k).map fun (j : Nat) => Val.int j))) := rfl
    rw [hfor]
    have hR : (P).at (n + 4) = (P).at (n + 1 + 3) := rfl
    unfold Obj.resumeLoop
    dsimp only
    rcases hm : Obj.readSample Z i v w with ⟨(e | a), w'⟩
    · rw [hm] at hround
      obtain ⟨env', hv', hx⟩ := hround
      rw [hR, hx]
      have hl := (Safe.sample Z i v).lib hm hs.1
      have : afterFor ((P).at (n + 1 + 3)) GU ((Co.ret (.exc (embExc e), env') (emb out w')).bind (loopNext
          (forList ["_"] (execBlock ((P).at (n + 1 + 3)) GU none genBody) ((List.range' (j + 1) k).map fun (j : Nat) => Val.int j)))) =
          afterTry ((P).at (n + 1 + 3)) GU (.ret (.exc (embExc e), env') (emb out w')) := by
        unfold afterFor
        simp only [Co.bind, loopNext, lastOf]
      rw [this]
      exact step_exc hv'.rot hl
    · rw [hm] at hround
      obtain ⟨env', hv', hx⟩ := hround
      have hs' := (Safe.sample Z i v).to hm hs
      cases a with
      | none =>
        rw [hR, hx]
        have : ((Co.ret (Ctl.brk, env') (emb out w')).bind (loopNext
          (forList ["_"] (execBlock ((P).at (n + 1 + 3)) GU none genBody) ((List.range' (j + 1) k).map fun (j : Nat) => Val.int j)))) =
          .ret (.next, env') (emb out w') := rfl
        rw [this, afterFor_next]
        exact ⟨rfl, rfl, rfl, hs'.1, trivial⟩
      | some t =>
        rw [hR, hx]
        refine ⟨rfl, rfl, ⟨n, env', j + 1, hv', rfl⟩, hs'.1, c, hc, hs'⟩

/-- The `try` statement (atoparser/utils.py:103-129). -/
def genTry : Stmt := .try block![
      .assign (.name "header_version") (.attr (.name "header") py!"semantic_version"),
      .unpack ["major", "minor"] (.slice (.call (.attr (.name "header_version") py!"split") exprs![(.const (.str py!"."))] .nil) (.const .none) (.const (.int 2))),
      .unpack ["major", "minor"] (.tuple exprs![(.call (.glob py!"int") exprs![(.name "major")] .nil), (.call (.glob py!"int") exprs![(.name "minor")] .nil)]),
      .for ["_"] (.call (.glob py!"range") exprs![(.name "max_samples")] .nil) genBody] (.attr (.glob py!"zlib") py!"error") genHandler

theorem gen_text : Text.Utils.generate_statistics.body = block![
    .ifte (.cmp .is (.name "header") (.const .none)) block![
      .assign (.name "header") (.call (.glob py!"get_header") exprs![(.name "raw_file")] .nil)] block![], genTry] := rfl

theorem gen_try {cur : Option PExc} {R : Rt} {G : PyStr → Option Val} {b : Block} {w : W} (hc : cur = none) :
    execBlock R G cur block![.try b (.attr (.glob py!"zlib") py!"error") genHandler] env w = afterTry R G (execBlock R G none b env w) := by
  subst hc
  unfold afterTry
  rw [execBlock, exec]
  rfl

theorem step_enter (hs : Sees w i c) (hc : c ∈ versions) (hv : StartVars (some i) max rot env) :
    StepsLike Z fs args out rot (nextOf (execBlock ((P).at (n + 4)) GU none block![genTry] env (emb out w)))
      (Obj.enterTry Z rot i max w) := by
  unfold genTry
  rw [gen_try rfl]
  obtain ⟨h, hh, rfl⟩ := hs.header
  obtain ⟨v, hv1, hsem⟩ := eval_semantic (Z := Z) (fs := fs) (args := args) (n := n + 3) (out := out) hh hc
  have hhv : eval ((P).at (n + 4)) GU (.attr (.name "header") py!"semantic_version") env (emb out w) =
      (.ok (.str (versionString v)), emb out (M.latch i w).2) := (eval_attr (eval_name hv.header)).trans hsem
  rw [block_next (exec_assign hhv)]
  have hf1 : (env.set "header_version" (.str (versionString v))) "raw_file" = some .file := hv.file
  have hh1 : (env.set "header_version" (.str (versionString v))) "header" = some (.hdr i) := hv.header
  have hr1 : (env.set "header_version" (.str (versionString v))) "raise_on_truncation" = some (.bool rot) := hv.rot
  have hm1 : (env.set "header_version" (.str (versionString v))) "max_samples" = some (.int max) := hv.max
  have hs1 : (env.set "header_version" (.str (versionString v))) "header_version" = some (.str (versionString v)) := rfl
  generalize env.set "header_version" (.str (versionString v)) = env1 at hf1 hh1 hr1 hm1 hs1
  have hsplit : eval ((P).at (n + 4)) GU (.slice (.call (.attr (.name "header_version") py!"split") exprs![(.const (.str py!"."))] .nil) (.const .none) (.const (.int 2)))
      env1 (emb out (M.latch i w).2) = (.ok (.list [.str (pyStrNat v.1), .str (pyStrNat v.2)]), emb out (M.latch i w).2) := by
    have h1 : eval ((P).at (n + 4)) GU (.call (.attr (.name "header_version") py!"split") exprs![(.const (.str py!"."))] .nil) env1 (emb out (M.latch i w).2) =
        (.ok (.list ((splitDot (versionString v)).map .str)), emb out (M.latch i w).2) :=
      (eval_call1 ((eval_attr (eval_name hs1)).trans rfl) (eval_const _ _ _)).trans rfl
    rw [split_version] at h1
    exact (eval_slice h1 (eval_const _ _ _) (eval_const _ _ _)).trans rfl
  rw [block_next (exec_unpack (env' := (env1.set "major" (.str (pyStrNat v.1))).set "minor" (.str (pyStrNat v.2))) hsplit rfl)]
  have hf2 : ((env1.set "major" (.str (pyStrNat v.1))).set "minor" (.str (pyStrNat v.2))) "raw_file" = some .file := hf1
  have hh2 : ((env1.set "major" (.str (pyStrNat v.1))).set "minor" (.str (pyStrNat v.2))) "header" = some (.hdr i) := hh1
  have hr2 : ((env1.set "major" (.str (pyStrNat v.1))).set "minor" (.str (pyStrNat v.2))) "raise_on_truncation" = some (.bool rot) := hr1
  have hm2 : ((env1.set "major" (.str (pyStrNat v.1))).set "minor" (.str (pyStrNat v.2))) "max_samples" = some (.int max) := hm1
  have ha2 : ((env1.set "major" (.str (pyStrNat v.1))).set "minor" (.str (pyStrNat v.2))) "major" = some (.str (pyStrNat v.1)) := rfl
  have hb2 : ((env1.set "major" (.str (pyStrNat v.1))).set "minor" (.str (pyStrNat v.2))) "minor" = some (.str (pyStrNat v.2)) := rfl
  generalize (env1.set "major" (.str (pyStrNat v.1))).set "minor" (.str (pyStrNat v.2)) = env2 at hf2 hh2 hr2 hm2 ha2 hb2
  have hint : ∀ (x : String) (k : Nat) (w : W), env2 x = some (.str (pyStrNat k)) →
      eval ((P).at (n + 4)) GU (.call (.glob py!"int") exprs![(.name x)] .nil) env2 w = (.ok (.int k), w) := by
    intro x k w hx
    refine (eval_call1 (fv := .builtin .int) (eval_builtin rfl rfl) (eval_name hx)).trans ?_
    show (do return Val.int (← E.lift (pyParseNat (pyStrNat k))) : E Val) w = _
    rw [parse_str]
    rfl
  have htup := eval_tuple (evals_cons (hint _ _ (emb out (M.latch i w).2) ha2) (evals_one (hint _ _ _ hb2)))
  rw [block_next (exec_unpack (env' := (env2.set "major" (.int v.1)).set "minor" (.int v.2)) htup rfl)]
  have hg : GVars i v rot ((env2.set "major" (.int v.1)).set "minor" (.int v.2)) := ⟨hf2, hh2, hr2, rfl, rfl⟩
  have hm3 : ((env2.set "major" (.int v.1)).set "minor" (.int v.2)) "max_samples" = some (.int max) := hm2
  generalize (env2.set "major" (.int v.1)).set "minor" (.int v.2) = env3 at hg hm3
  have hrange := eval_range (R := (P).at (n + 4)) (G := GU) (w := emb out (M.latch i w).2) rfl (eval_name hm3)
  have hfor := exec_for_list (R := (P).at (n + 4)) (G := GU) (cur := none) (xs := ["_"]) (b := genBody) hrange (by intro _ _ _ hh; cases hh) rfl
  have hblk : execBlock ((P).at (n + 4)) GU none block![.for ["_"] (.call (.glob py!"range") exprs![(.name "max_samples")] .nil) genBody] env3 (emb out (M.latch i w).2) =
      (forList ["_"] (execBlock ((P).at (n + 4)) GU none genBody) ((List.range' 0 max.toNat).map fun (j : Nat) => .int j) env3 (emb out (M.latch i w).2)).bind (lastOf ((P).at (n + 4)) GU) := by
    rw [execBlock]
    dsimp only
    rw [hfor]
    rfl
  rw [hblk]
  have hpv : Obj.parsedVersion i w = (.ok v, (M.latch i w).2) := by
    unfold Obj.parsedVersion
    rw [bind_run (header_get hh), parsed_ok hv1, bind_lift, bind_run (latch_ok hh)]
    rfl
  unfold Obj.enterTry
  rw [hpv]
  exact step_loop hs.latch hc hg max.toNat 0

theorem step_gen {g : Obj.Gen} {p : PGen} (hp : Suspended Z fs args rot g p) (hr : Ready w g) :
    StepsLike Z fs args out rot (p.next (emb out w)) (g.next Z rot w) := by
  cases g with
  | done =>
    cases hp
    exact ⟨rfl, rfl, rfl, hr⟩
  | loop i v left =>
    obtain ⟨n, env, j, hv, rfl⟩ := hp
    obtain ⟨-, c, hc, hs⟩ := hr
    rw [next_live]
    exact step_loop hs hc hv left j
  | start h max =>
    obtain ⟨n, env, hv, rfl⟩ := hp
    rw [next_live, gen_text]
    cases h with
    | some i =>
      obtain ⟨-, c, hc, hs⟩ := hr
      have hcmp : eval ((P).at (n + 4)) GU (.cmp .is (.name "header") (.const .none)) env (emb out w) = (.ok (.bool false), emb out w) :=
        (eval_cmp (eval_name hv.header) (eval_const _ _ _)).trans rfl
      rw [block_next ((exec_if_false hcmp rfl).trans block_nil)]
      exact step_enter hs hc hv
    | none =>
      have hcmp : eval ((P).at (n + 4)) GU (.cmp .is (.name "header") (.const .none)) env (emb out w) = (.ok (.bool true), emb out w) :=
        (eval_cmp (eval_name hv.header) (eval_const _ _ _)).trans rfl
      have hcall : eval ((P).at (n + 4)) GU (.call (.glob py!"get_header") exprs![(.name "raw_file")] .nil) env (emb out w) =
          embR out Val.hdr (Obj.getHeader true w) := by
        have hfn : eval ((P).at (n + 4)) GU (.glob py!"get_header") env (emb out w) =
          (.ok (.fn py!"atoparser.utils" Text.Utils.get_header [.bool true]), emb out w) := eval_glob rfl
        rw [eval_call1 hfn (eval_name hv.file)]
        exact call_get_header (as := [.file]) (kws := []) (l := [("raw_file", .file), ("check_compatibility", .bool true)]) rfl hr.1 rfl rfl
      show StepsLike Z fs args out rot _ (match Obj.getHeader true w with
        | (.error e, w') => (.raise e, .done, w')
        | (.ok i, w') => Obj.enterTry Z rot i max w')
      rcases hm : Obj.getHeader true w with ⟨(e | i), w'⟩
      · rw [hm] at hcall
        rw [block_exc ((exec_if_true hcmp rfl).trans (block_exc (exec_assign_err hcall)))]
        exact ⟨rfl, rfl, rfl, (Safe.getHeader true).lib hm hr.1, trivial⟩
      · rw [hm] at hcall
        obtain ⟨c, hc, hs⟩ := getHeader_sees hr.1 hm
        rw [block_next ((exec_if_true hcmp rfl).trans ((block_next (exec_assign hcall)).trans block_nil))]
        exact step_enter hs hc ⟨hv.file, rfl, hv.rot, hv.max⟩

theorem close_live (k : Option PExc → W → Co (Ctl × Env)) (w : W) : (PGen.live k).close w = (match k (some generatorExit) w with
    | .yield _ w' k' => (some (.other py!"RuntimeError"), .live k', w')
    | .ret (.exc (.other c), _) w' => (if c = py!"GeneratorExit" then none else some (.other c), .done, w')
    | .ret (.exc e, _) w' => (some e, .done, w')
    | .ret _ w' => (none, .done, w')) := rfl

theorem throw_live (k : Option PExc → W → Co (Ctl × Env)) (e : PExc) (w : W) : (PGen.live k).throw e w = nextOf (k (some e) w) := rfl

/-- An exception at the `yield` arrives in the `try` block. -/
theorem resumed_exc (R : Rt) (G : PyStr → Option Val) (env : Env) (e : PExc) (again : Env → W → Co (Ctl × Env)) (w : W) :
    afterFor R G ((resumed env (some e) w).bind (loopNext again)) = afterTry R G (.ret (.exc e, env) w) := by
  unfold afterFor
  simp only [resumed, Co.bind, loopNext, lastOf]

/-- `GeneratorExit` passes the handler. -/
theorem afterTry_exit (w : W) : afterTry ((P).at n) GU (.ret (.exc generatorExit, env) w) = .ret (.exc generatorExit, env) w := by
  have hz : eval ((P).at n) GU (.attr (.glob py!"zlib") py!"error") env w = (.ok (.builtin .zlibError), w) := by
    refine (eval_attr (eval_glob (v := .mod py!"zlib") rfl)).trans ?_
    rfl
  unfold afterTry
  simp only [Co.bind, handled]
  rw [withE_ok hz, show catches (.builtin .zlibError) generatorExit = false from rfl]
  simp only [Bool.false_eq_true, if_false, Co.bind, lastOf]

/-- `next()`, `throw()` and `close()`. -/
theorem use_gen {op : Op} {g : Obj.Gen} {p : PGen} (hp : Suspended Z fs args rot g p) (hr : Ready w g) :
    StepsLike Z fs args out rot (p.use op (emb out w)) (g.use Z rot op w) := by
  cases op with
  | next => exact step_gen hp hr
  | throw e =>
    show StepsLike Z fs args out rot (p.throw (embExc e) (emb out w)) ((g.throw rot e).1, (g.throw rot e).2, w)
    cases g with
    | done => cases hp; exact ⟨rfl, rfl, rfl, hr⟩
    | loop i v left =>
      obtain ⟨n, env, j, hv, rfl⟩ := hp
      rw [throw_live, resumed_exc]
      exact step_exc hv.rot hr.1
    | start h max =>
      obtain ⟨n, env, hv, rfl⟩ := hp
      exact ⟨rfl, rfl, rfl, hr.1, trivial⟩
  | close =>
    cases g with
    | done => cases hp; exact ⟨rfl, rfl, rfl, hr⟩
    | loop i v left =>
      obtain ⟨n, env, j, hv, rfl⟩ := hp
      unfold PGen.use
      dsimp only
      rw [close_live, resumed_exc, afterTry_exit]
      exact ⟨rfl, rfl, rfl, hr.1, trivial⟩
    | start h max =>
      obtain ⟨n, env, hv, rfl⟩ := hp
      exact ⟨rfl, rfl, rfl, hr.1, trivial⟩

/-- A step keeps the objects other generators use. -/
theorem next_safe (g : Obj.Gen) (w : World) : (LibFile w.file → LibFile (g.next Z rot w).2.2.file) ∧
    ∀ i c, Sees w i c → Sees (g.next Z rot w).2.2 i c := by
  have hloop : ∀ (i : Nat) (v : Nat × Nat) (left : Nat) (w : World), (LibFile w.file → LibFile (Obj.resumeLoop Z rot i v left w).2.2.file) ∧
      ∀ j c, Sees w j c → Sees (Obj.resumeLoop Z rot i v left w).2.2 j c := by
    intro i v left w
    cases left with
    | zero => exact ⟨id, fun _ _ => id⟩
    | succ k =>
      have := Safe.sample Z i v w
      unfold Obj.resumeLoop
      dsimp only
      rcases hm : Obj.readSample Z i v w with ⟨(e | (_ | a)), w'⟩ <;> (rw [hm] at this; exact this)
  have henter : ∀ (i : Nat) (max : Int) (w : World), (LibFile w.file → LibFile (Obj.enterTry Z rot i max w).2.2.file) ∧
      ∀ j c, Sees w j c → Sees (Obj.enterTry Z rot i max w).2.2 j c := by
    intro i max w
    have hp : Safe (Obj.parsedVersion i) := Safe.bind (Keeps.header _).safe fun _ => Safe.bind (Keeps.lift _).safe fun _ =>
      Safe.bind (Safe.latch _) fun _ => (Keeps.pure _).safe
    have := hp w
    unfold Obj.enterTry
    rcases hm : Obj.parsedVersion i w with ⟨(e | v), w'⟩
    · rw [hm] at this; exact this
    · rw [hm] at this
      exact ⟨fun h => (hloop i v _ w').1 (this.1 h), fun j c h => (hloop i v _ w').2 j c (this.2 j c h)⟩
  cases g with
  | done => exact ⟨id, fun _ _ => id⟩
  | loop i v left => exact hloop i v left w
  | start h max =>
    cases h with
    | some i => exact henter i max w
    | none =>
      have := Safe.getHeader true w
      show (_ → LibFile (match Obj.getHeader true w with
        | (.error e, w') => (Obj.Out.raise e, Obj.Gen.done, w')
        | (.ok i, w') => Obj.enterTry Z rot i max w').2.2.file) ∧ ∀ j c, _ → Sees (match Obj.getHeader true w with
        | (.error e, w') => (Obj.Out.raise e, Obj.Gen.done, w')
        | (.ok i, w') => Obj.enterTry Z rot i max w').2.2 j c
      rcases hm : Obj.getHeader true w with ⟨(e | i), w'⟩
      · rw [hm] at this; exact this
      · rw [hm] at this
        exact ⟨fun h => (henter i max w').1 (this.1 h), fun j c h => (henter i max w').2 j c (this.2 j c h)⟩

theorem Ready.use {op : Op} {g g' : Obj.Gen} {rot' : Bool} (h : Ready w g) : Ready (g'.use Z rot' op w).2.2 g := by
  cases op with
  | close => exact h
  | throw e => exact h
  | next =>
  show Ready (g'.next Z rot' w).2.2 g
  obtain ⟨s1, s2⟩ := next_safe (Z := Z) (rot := rot') g' w
  refine ⟨s1 h.1, ?_⟩
  have h2 := h.2
  cases g with
  | done => trivial
  | loop i v left => obtain ⟨c, hc, hs⟩ := h2; exact ⟨c, hc, s2 i c hs⟩
  | start o max =>
    cases o with
    | none => trivial
    | some i => obtain ⟨c, hc, hs⟩ := h2; exact ⟨c, hc, s2 i c hs⟩

theorem poke_headers (blk off : Nat) (bytes : Bytes) : (Obj.poke w blk off bytes).headers = w.headers ∧ (Obj.poke w blk off bytes).file = w.file := by
  unfold Obj.poke
  split
  · split <;> exact ⟨rfl, rfl⟩
  · exact ⟨rfl, rfl⟩

theorem Ready.poke {g : Obj.Gen} (blk off : Nat) (bytes : Bytes) (h : Ready w g) : Ready (Obj.poke w blk off bytes) g := by
  obtain ⟨p1, p2⟩ := poke_headers (w := w) blk off bytes
  have hs : ∀ i c, Sees w i c → Sees (Obj.poke w blk off bytes) i c := by
    intro i c hs
    unfold Sees
    rw [p1, p2]; exact hs
  refine ⟨by rw [p2]; exact h.1, ?_⟩
  have h2 := h.2
  cases g with
  | done => trivial
  | loop i v left => obtain ⟨c, hc, hx⟩ := h2; exact ⟨c, hc, hs i c hx⟩
  | start o max =>
    cases o with
    | none => trivial
    | some i => obtain ⟨c, hc, hx⟩ := h2; exact ⟨c, hc, hs i c hx⟩

theorem poke_emb (blk off : Nat) (bytes : Bytes) : pokeW (emb out w) blk off bytes = emb out (Obj.poke w blk off bytes) := by
  unfold pokeW Obj.poke
  show (match w.heap[blk]? with | some b => _ | none => _) = _
  cases w.heap[blk]? with
  | none => rfl
  | some b => dsimp only; split <;> rfl

/-- The generators of the model beside those of the interpreter. -/
def AllSuspended (Z : Zlib) (fs : FileSystem) (args : CommandLine) (w : World) (gs : List (Bool × Obj.Gen)) (ps : List PGen) : Prop :=
  gs.length = ps.length ∧ ∀ (i : Nat) (g : Bool × Obj.Gen) (p : PGen), gs[i]? = some g → ps[i]? = some p → Suspended Z fs args g.1 g.2 p ∧ Ready w g.2

theorem driven_eq : ∀ (ops : List Obj.Op) (gs : List (Bool × Obj.Gen)) (ps : List PGen) (w : World), AllSuspended Z fs args w gs ps →
    driven ops ps (emb out w) = (Obj.history Z ops gs w).1.map fun r => (r.1, outVal r.2.1, emb out r.2.2)
  | [], _, _, _, _ => rfl
  | .write blk off bytes :: ops, gs, ps, w, h => by
    show driven ops ps (pokeW (emb out w) blk off bytes) = _
    rw [poke_emb]
    exact driven_eq ops gs ps _ ⟨h.1, fun i g p hg hp => ⟨(h.2 i g p hg hp).1, (h.2 i g p hg hp).2.poke _ _ _⟩⟩
  | .use i op :: ops, gs, ps, w, h => by
    cases hg : gs[i]? with
    | none =>
      have hp : ps[i]? = none := by
        rw [List.getElem?_eq_none_iff] at hg ⊢
        rw [← h.1]; exact hg
      simp only [driven, Obj.history, hg, hp]
      exact driven_eq ops gs ps w h
    | some g =>
      obtain ⟨rot, g⟩ := g
      have hi := (List.getElem?_eq_some_iff.mp hg).1
      cases hp : ps[i]? with
      | none =>
        rw [List.getElem?_eq_none_iff] at hp
        have := h.1
        omega
      | some p =>
        obtain ⟨h1, h2⟩ := h.2 i _ p hg hp
        obtain ⟨s1, s2, s3, s4⟩ := use_gen (op := op) (out := out) h1 h2
        simp only [driven, Obj.history, hg, hp, List.map_cons]
        rw [s1, s2]
        congr 1
        refine driven_eq ops _ _ _ ⟨by rw [List.length_set, List.length_set]; exact h.1, ?_⟩
        intro j g' p' hg' hp'
        by_cases hij : i = j
        · subst hij
          rw [List.getElem?_set_self hi] at hg'
          rw [List.getElem?_set_self (by rw [← h.1]; exact hi)] at hp'
          cases hg'; cases hp'
          exact ⟨s3, s4⟩
        · rw [List.getElem?_set_ne hij] at hg' hp'
          exact ⟨(h.2 j g' p' hg' hp').1, (h.2 j g' p' hg' hp').2.use⟩

end
end Atop.Src
