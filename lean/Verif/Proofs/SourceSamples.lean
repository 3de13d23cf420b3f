import Verif.Proofs.SourceFull
import Verif.Spec.SourceReader
import Verif.Proofs.SourceGenerate
import Verif.Proofs.ObjectSteps
import Verif.Proofs.Parse
import Verif.Props.Iteration
/-!
# `parse_file`, from its text: the loop over the samples
-/

namespace Atop.Src
open Spec
set_option maxRecDepth 20000

theorem namesVal_truth (ps : Option (List PyStr)) : truth (namesVal ps) = !(ps.getD []).isEmpty := by
  rcases ps with _ | _ | ⟨p, l⟩ <;> rfl

section
variable {Z : Zlib} {fs : FileSystem} {args : CommandLine} {out : PyStr} {w : World} {n : Nat} {env : Env}

local notation "P" => program Z fs args
local notation "GR" => Rt.globals (program Z fs args) py!"atoparser.reader"

/-- The body of the loop over the samples (atoparser/reader.py:96-111). -/
def roundBlock : Block := block![.ifte (.name "parseables") block![.for ["parseable"] (.name "parseables") parseableBlock] fullBlock]

/-- The variables the body of the loop changes. -/
def roundNames : List String := ["sample", "samples", "parseable", "converted"]

theorem rows_errors {hb rec sst : Bytes} {ts : List Bytes} (S : Sizes126 hb rec sst ts) : ∀ (ps : List PyStr) {e : Exc},
    parseableRows (args126 hb rec sst ts) ps = .error e → embExc e = .sys e
  | [], e, h => by cases h
  | p :: ps, e, h => by
    unfold parseableRows at h
    cases hl : parseableMap.lookup p with
    | none => rw [hl] at h; cases h; rfl
    | some f =>
      rw [hl] at h
      dsimp only at h
      have hm : (p, f) ∈ allParseables := List.mem_append_left _ (lookup_in hl)
      obtain ⟨k, texts, -, h1⟩ := C26_raises_iff S hm
      rcases h1 with ⟨h1, -, -⟩ | ⟨k, -, h1, -⟩
      · rw [h1] at h
        dsimp only at h
        cases hr : parseableRows (args126 hb rec sst ts) ps with
        | ok v => rw [hr] at h; cases h
        | error e' => rw [hr] at h; cases h; exact rows_errors S ps hr
      · rw [h1] at h
        cases h; rfl

theorem loop_round {i : Nat} {x : Obj.Tuple} {h : Header} {ps : Option (List PyStr)} {tst cst : Bool} {vs : List Val} (hh : w.header i = some h)
    (hc : h.cls ∈ versions) (hlen : h.buf.length = 480) (hx : Filled h (w.tuple x)) (hv : TupleVars i x env)
    (hp : env "parseables" = some (namesVal ps)) (hm : env "parsers" = some parserDict)
    (ht : env "show_tstats" = some (.bool tst)) (hct : env "show_cstats" = some (.bool cst)) (hs : env "samples" = some (.list vs))
    (h126 : ps.getD [] ≠ [] → h.cls = V1_26.Header) :
    match sampleRows ⟨ps.getD [], tst, cst⟩ h (w.tuple x) with
    | .ok rows => ∃ env' us, execBlock ((P).at (n + 5)) GR none roundBlock env (emb out w) = .ret (.next, env') (emb out w) ∧
        env' "samples" = some (.list (vs ++ us)) ∧ toJs us = rows ∧ Kept roundNames env env'
    | .error e => ∃ env', execBlock ((P).at (n + 5)) GR none roundBlock env (emb out w) = .ret (.exc (embExc e), env') (emb out w) := by
  unfold sampleRows roundBlock
  cases hl : ps.getD [] with
  | nil =>
    have hf : truth (namesVal ps) = false := by rw [namesVal_truth, hl]; rfl
    obtain ⟨env', u, r1, r2, r3, r4⟩ := full_round (Z := Z) (fs := fs) (args := args) (n := n) (out := out) (ps := []) hh hc hx hv ht hct hs
    rw [show (⟨[], tst, cst⟩ : Opts).parseables.isEmpty = true from rfl, if_pos rfl, r3]
    exact ⟨env', [u], (block_next ((exec_if_false (eval_name hp) hf).trans r1)).trans block_nil, r2, rfl, r4.mono (by decide)⟩
  | cons p l =>
    have hps : ps = some (p :: l) := by
      cases ps with
      | none => cases hl
      | some q => exact congrArg some hl
    have hf : truth (namesVal ps) = true := by rw [namesVal_truth, hl]; rfl
    have hcls := h126 (by rw [hl]; exact List.cons_ne_nil _ _)
    obtain ⟨o, o1, o2, o3, o4⟩ := header_some hh
    have xr : x.record.ty = h.cls.Record ∧ (w.inst x.record).buf.length = h.cls.Record.size := hx.record
    have xs : x.sstat.ty = h.cls.SStat ∧ (w.inst x.sstat).buf.length = h.cls.SStat.size := hx.sstat
    have xt : ∀ r ∈ x.tstats, r.ty = h.cls.TStat ∧ (w.inst r).buf.length = h.cls.TStat.size := fun r hr => hx.tstats _ (List.mem_map_of_mem hr)
    have ho : (emb out w).headers[i]? = some (embH o) := by
      show (w.headers.map embH)[i]? = _
      rw [List.getElem?_map, o1]; rfl
    have hrv : RowVars i x.record.blk x.sstat.blk (x.tstats.map Ref.blk) env := by
      refine ⟨hm, hv.header, ?_, ?_, ?_⟩
      · rw [hv.record]; show some (Val.view _ _ _) = _; rw [xr.1, hcls]
      · rw [hv.sstat]; show some (Val.view _ _ _) = _; rw [xs.1, hcls]
      · rw [hv.tstats, List.map_map]
        congr 2
        refine List.map_congr_left fun r hr => ?_
        show Val.view _ _ _ = _
        rw [(xt r hr).1, hcls]; rfl
    have e1 : objAt (emb out w) V1_26.Header.Record x.record.blk = (w.inst x.record).obj := by
      unfold objAt
      rw [← hcls, ← xr.1, mem_all (by rw [xr.1]; exact xr.2)]; rfl
    have e2 : objAt (emb out w) V1_26.Header.SStat x.sstat.blk = (w.inst x.sstat).obj := by
      unfold objAt
      rw [← hcls, ← xs.1, mem_all (by rw [xs.1]; exact xs.2)]; rfl
    have e3 : (x.tstats.map Ref.blk).map (objAt (emb out w) V1_26.Header.TStat) = (x.tstats.map w.inst).map Inst.obj := by
      rw [List.map_map, List.map_map]
      refine List.map_congr_left fun r hr => ?_
      show objAt _ _ _ = Inst.obj _
      unfold objAt
      rw [← hcls, ← (xt r hr).1, mem_all (by rw [(xt r hr).1]; exact (xt r hr).2)]; rfl
    have e4 : (Header.mk V1_26.Header (mem (emb out w) o.blk 0 V1_26.Header.size) none).inst.obj = h.inst.obj := by
      unfold Header.inst
      have : mem (emb out w) o.blk 0 V1_26.Header.size = h.buf := by rw [o4, o2, hcls]; rfl
      rw [this, hcls]
    have hargs : argsAt (emb out w) (embH o).blk x.record.blk x.sstat.blk (x.tstats.map Ref.blk) =
        { header := h.inst.obj, record := (w.tuple x).record.obj, sstat := (w.tuple x).sstat.obj, tstats := (w.tuple x).tstats.map Inst.obj } := by
      show PArgs.mk _ _ _ _ = _
      rw [show (embH o).blk = o.blk from rfl, e4, e1, e2, e3]; rfl
    have hargs' : argsAt (emb out w) (embH o).blk x.record.blk x.sstat.blk (x.tstats.map Ref.blk) =
        args126 h.buf (w.inst x.record).buf (w.inst x.sstat).buf ((x.tstats.map w.inst).map Inst.buf) := by
      rw [hargs]
      unfold args126
      congr 1
      · unfold Header.inst; rw [hcls]; rfl
      · show pyItem x.record.ty _ = _; rw [xr.1, hcls]; rfl
      · show pyItem x.sstat.ty _ = _; rw [xs.1, hcls]; rfl
      · rw [List.map_map]
        show (x.tstats.map w.inst).map _ = _
        refine List.map_congr_left fun y hy => ?_
        obtain ⟨r, hr, rfl⟩ := List.mem_map.mp hy
        show pyItem r.ty _ = _
        rw [(xt r hr).1, hcls]; rfl
    have S : Sizes126 h.buf (w.inst x.record).buf (w.inst x.sstat).buf ((x.tstats.map w.inst).map Inst.buf) := by
      refine ⟨hlen, ?_, ?_, ?_⟩
      · rw [xr.2, hcls]; exact sizes126.2.1
      · rw [xs.2, hcls]; exact sizes126.2.2.1
      · intro t ht
        obtain ⟨y, hy, rfl⟩ := List.mem_map.mp ht
        obtain ⟨r, hr, rfl⟩ := List.mem_map.mp hy
        rw [(xt r hr).2, hcls]; exact sizes126.2.2.2
    rw [show (⟨p :: l, tst, cst⟩ : Opts).parseables.isEmpty = false from rfl, if_neg Bool.false_ne_true]
    dsimp only
    rw [← hargs]
    have hloop := parseables_loop (Z := Z) (fs := fs) (args := args) (G := GR) (n := n + 4) ho (o2.trans hcls) (p :: l) hrv hs
    have hfor := exec_for_list (R := (P).at (n + 5)) (G := GR) (cur := none) (xs := ["parseable"]) (b := parseableBlock) (vs := (p :: l).map .str)
      (eval_name (w := emb out w) hp) (by intro _ _ _ hh; rw [hps] at hh; cases hh) (by rw [hps]; rfl)
    cases hr : parseableRows (argsAt (emb out w) (embH o).blk x.record.blk x.sstat.blk (x.tstats.map Ref.blk)) (p :: l) with
    | error e =>
      rw [hr] at hloop
      obtain ⟨env', q⟩ := hloop
      rw [hargs'] at hr
      refine ⟨env', ?_⟩
      rw [rows_errors S _ hr]
      exact block_exc ((exec_if_true (eval_name hp) hf).trans (block_exc (hfor.trans q)))
    | ok rows =>
      rw [hr] at hloop
      obtain ⟨env', us, q1, q2, q3, q4⟩ := hloop
      exact ⟨env', us, (block_next ((exec_if_true (eval_name hp) hf).trans ((block_next (hfor.trans q1)).trans block_nil))).trans block_nil, q2, q3, q4.mono (by decide)⟩
/-! ## The samples of the generator -/

/-- A generator for the header, with at most `left` samples to come. -/
def GenOf (h : Header) (v : Nat × Nat) (left : Nat) (g : Gen) : Prop :=
  (∃ max : Int, g = .start (some h) max ∧ left = max.toNat) ∨ g = .loop h v left

theorem next_filled {h : Header} {v : Nat × Nat} {r cg} (R : Atop.Ready h r v cg) (hca : h.cache = some v) {left : Nat} {g g' : Gen}
    (hg : GenOf h v left g) {rot : Bool} {s s' : Stream} {y : Sample} (hn : g.next Z rot s = (.yield y, g', s')) :
    Filled h y ∧ ∃ k, g' = .loop h v k ∧ left = k + 1 := by
  have hres : resumeLoop Z rot h v left s = (.yield y, g', s') := by
    rcases hg with ⟨max, rfl, rfl⟩ | rfl
    · have hp : parsedVersion h = .ok v := parsed_ok (by unfold Header.version; rw [hca])
      have : Gen.next Z rot (.start (some h) max) s = resumeLoop Z rot h.latched v max.toNat s := by
        show enterTry Z rot h max s = _
        unfold enterTry
        rw [hp]
      rw [this, latched_some (by rw [hca]; rfl)] at hn
      exact hn
    · exact hn
  cases left with
  | zero => cases hres
  | succ k =>
    unfold resumeLoop at hres
    dsimp only at hres
    rcases hr : readSample Z h v s with ⟨(e | _ | x), s1⟩
    · rw [hr] at hres
      dsimp only at hres
      unfold onError at hres
      split at hres
      · split at hres <;> cases hres
      · cases hres
    · rw [hr] at hres; cases hres
    · rw [hr] at hres
      cases hres
      refine ⟨?_, k, rfl, rfl⟩
      obtain ⟨⟨rec, e1, e2⟩, -, ⟨d1, -, e3⟩, ⟨d2, -, e4⟩, e5, -, -⟩ := readSample_some R hr
      refine ⟨?_, fromBufferCopy_size e3, (tstatLoop_sizes e4).2, ?_⟩
      · rw [e2]; refine ⟨rfl, ?_⟩
        dsimp only
        rw [e1, R.facts.record]
        simp; omega
      · intro g hgm
        split at e5
        · obtain ⟨t, d, p, c1, -, -, c2⟩ := e5
          obtain ⟨q1, q2, n, -, q3, q4⟩ := (cstatLoop_sizes c2).2 g hgm
          exact ⟨t, c1, q1, q2, n, q3, q4⟩
        · rw [e5] at hgm; cases hgm

/-- A generator with memory for the header object. -/
def ObjOf (i : Nat) (g : Obj.Gen) : Prop := (∃ max, g = .start (some i) max) ∨ ∃ v left, g = .loop i v left

theorem next_obj {i : Nat} {g g' : Obj.Gen} (hg : ObjOf i g) {rot : Bool} {w' : World} {x : Obj.Tuple}
    (hn : g.next Z rot w = (.yield x, g', w')) : ObjOf i g' := by
  have hres : ∀ v left w0, Obj.resumeLoop Z rot i v left w0 = (.yield x, g', w') → ObjOf i g' := by
    intro v left w0 h
    cases left with
    | zero => cases h
    | succ k =>
      unfold Obj.resumeLoop at h
      dsimp only at h
      rcases hr : Obj.readSample Z i v w0 with ⟨(e | _ | x), s1⟩
      · rw [hr] at h
        dsimp only at h
        unfold Obj.onError at h
        split at h
        · split at h <;> cases h
        · cases h
      · rw [hr] at h; cases h
      · rw [hr] at h
        cases h
        exact .inr ⟨_, _, rfl⟩
  rcases hg with ⟨max, rfl⟩ | ⟨v, left, rfl⟩
  · have h1 : Obj.enterTry Z rot i max w = (.yield x, g', w') := hn
    unfold Obj.enterTry at h1
    rcases hp : Obj.parsedVersion i w with ⟨(e | v), w1⟩
    · rw [hp] at h1
      dsimp only at h1
      unfold Obj.onError at h1
      split at h1
      · split at h1 <;> cases h1
      · cases h1
    · rw [hp] at h1
      exact hres _ _ _ h1
  · exact hres _ _ _ hn

/-- The variables the loop over the samples reads. -/
structure LoopVars (i : Nat) (ps : Option (List PyStr)) (tst cst : Bool) (env : Env) : Prop where
  header : env "header" = some (.hdr i)
  parseables : env "parseables" = some (namesVal ps)
  parsers : env "parsers" = some parserDict
  tst : env "show_tstats" = some (.bool tst)
  cst : env "show_cstats" = some (.bool cst)

/-- The variables the loop over the samples changes. -/
def loopNames : List String := ["sample", "samples", "parseable", "converted", "record", "sstat", "tstats", "cgroups"]

theorem LoopVars.kept {i : Nat} {ps : Option (List PyStr)} {tst cst : Bool} {env env' : Env} (h : LoopVars i ps tst cst env)
    (k : Kept loopNames env env') : LoopVars i ps tst cst env' :=
  ⟨(k _ (by decide)).trans h.header, (k _ (by decide)).trans h.parseables, (k _ (by decide)).trans h.parsers,
   (k _ (by decide)).trans h.tst, (k _ (by decide)).trans h.cst⟩

theorem samples_loop {h : Header} {v : Nat × Nat} {r cg} (R : Atop.Ready h r v cg) (hca : h.cache = some v) (hc : h.cls ∈ versions)
    {i : Nat} {ps : Option (List PyStr)} {tst cst : Bool} (h126 : ps.getD [] ≠ [] → h.cls = V1_26.Header) :
    ∀ (fuel : Nat) {left : Nat} {g : Obj.Gen} {g' : Gen} {k : Option PExc → W → Co (Ctl × Env)} {w : World} {env : Env} {vs : List Val},
    Suspended Z fs args false g (.live k) → Ready w g → GNow w g g' → GenOf h v left g' → ObjOf i g → left < fuel →
    LoopVars i ps tst cst env → env "samples" = some (.list vs) →
    match (parseLoop Z ⟨ps.getD [], tst, cst⟩ h fuel g' : Stream → _) w.file with
    | (.ok rows, s) => ∃ env' us w', forGen ["record", "sstat", "tstats", "cgroups"] (execBlock ((P).at (n + 5)) GR none roundBlock) (k none (emb out w)) env =
          .ret (.next, env') (emb out w') ∧ env' "samples" = some (.list (vs ++ us)) ∧ toJs us = rows ∧ Kept loopNames env env' ∧ w'.file = s
    | (.error e, s) => ∃ env' w', forGen ["record", "sstat", "tstats", "cgroups"] (execBlock ((P).at (n + 5)) GR none roundBlock) (k none (emb out w)) env =
          .ret (.exc (embExc e), env') (emb out w') ∧ w'.file = s
  | 0, _, _, _, _, _, _, _, _, _, _, _, _, hl, _, _ => by omega
  | fuel + 1, left, g, g', k, w, env, vs, hsus, hrd, hnow, hof, hob, hl, hvars, hs => by
    obtain ⟨s1, s2, s3, s4⟩ := step_gen (out := out) hsus hrd
    obtain ⟨-, r2, r3, r4, -⟩ := next_rel Z false hnow
    rw [next_live] at s1 s2 s3
    rw [parseLoop_succ]
    rcases hno : g.next Z false w with ⟨ou, g1, w1⟩
    rcases hng : g'.next Z false w.file with ⟨ou', g1', f1⟩
    rw [hno] at s1 s2 s3 s4 r2 r3 r4
    rw [hng] at r2 r3 r4
    dsimp only at s1 s2 s3 s4 r2 r3 r4
    subst r3
    cases ou with
    | stop =>
      dsimp only [World.out]
      refine ⟨env, [], w1, ?_, by rw [List.append_nil]; exact hs, rfl, Kept.refl _ _, r2⟩
      cases hk : k none (emb out w) with
      | yield a b c => rw [hk] at s1; cases s1
      | ret q b =>
        obtain ⟨ctl, env0⟩ := q
        rw [hk] at s1 s2
        cases ctl with
        | exc e => cases s1
        | _ => rw [show b = emb out w1 from s2]; rfl
    | raise e =>
      dsimp only [World.out]
      refine ⟨env, w1, ?_, r2⟩
      cases hk : k none (emb out w) with
      | yield a b c => rw [hk] at s1; cases s1
      | ret q b =>
        obtain ⟨ctl, env0⟩ := q
        rw [hk] at s1 s2
        cases ctl with
        | exc e' =>
          have : e' = embExc e := POut.raise.inj s1
          rw [this, show b = emb out w1 from s2]; rfl
        | _ => cases s1
    | yield x =>
      dsimp only [World.out]
      cases hk : k none (emb out w) with
      | ret q b =>
        obtain ⟨ctl, env0⟩ := q
        rw [hk] at s1
        cases ctl <;> cases s1
      | yield a b c =>
        rw [hk] at s1 s2 s3
        have ha : a = tupleVal x := POut.yield.inj s1
        have hb : b = emb out w1 := s2
        subst ha hb
        obtain ⟨hfill, k', rfl, rfl⟩ := next_filled R hca hof hng
        have hob1 := next_obj hob hno
        have hat : HeaderAt w1 i h := by
          rcases hob1 with ⟨max, rfl⟩ | ⟨v', left', rfl⟩
          · exact r4.elim
          · exact r4.2.2.1
        have heq : forGen ["record", "sstat", "tstats", "cgroups"] (execBlock ((P).at (n + 5)) GR none roundBlock) (.yield (tupleVal x) (emb out w1) c) env =
          (execBlock ((P).at (n + 5)) GR none roundBlock ((((env.set "record" (refVal x.record)).set "sstat" (refVal x.sstat)).set "tstats"
            (.list (x.tstats.map refVal))).set "cgroups" (.list (x.cgroups.map groupVal))) (emb out w1)).bind
          (loopNext (fun env'' w' => forGen ["record", "sstat", "tstats", "cgroups"] (execBlock ((P).at (n + 5)) GR none roundBlock) (c none w') env'')) := rfl
        have hk1 : Kept loopNames env ((((env.set "record" (refVal x.record)).set "sstat" (refVal x.sstat)).set "tstats"
            (.list (x.tstats.map refVal))).set "cgroups" (.list (x.cgroups.map groupVal))) :=
          (((Kept.set (by decide)).trans (Kept.set (by decide))).trans (Kept.set (by decide))).trans (Kept.set (by decide))
        have hv1 : TupleVars i x ((((env.set "record" (refVal x.record)).set "sstat" (refVal x.sstat)).set "tstats"
            (.list (x.tstats.map refVal))).set "cgroups" (.list (x.cgroups.map groupVal))) := ⟨hvars.header, rfl, rfl, rfl, rfl⟩
        have hs1 : ((((env.set "record" (refVal x.record)).set "sstat" (refVal x.sstat)).set "tstats"
            (.list (x.tstats.map refVal))).set "cgroups" (.list (x.cgroups.map groupVal))) "samples" = some (.list vs) := hs
        rw [heq]
        generalize (((env.set "record" (refVal x.record)).set "sstat" (refVal x.sstat)).set "tstats"
            (.list (x.tstats.map refVal))).set "cgroups" (.list (x.cgroups.map groupVal)) = env1 at hk1 hv1 hs1
        have hl1 := hvars.kept hk1
        have hround := loop_round (Z := Z) (fs := fs) (args := args) (n := n) (out := out) hat.header hc R.len hfill hv1 hl1.parseables hl1.parsers
          hl1.tst hl1.cst hs1 h126
        cases hsr : sampleRows ⟨ps.getD [], tst, cst⟩ h (w1.tuple x) with
        | error e =>
          rw [hsr] at hround
          obtain ⟨env2, q⟩ := hround
          rw [q]
          exact ⟨env2, w1, rfl, r2⟩
        | ok rows =>
          rw [hsr] at hround
          obtain ⟨env2, us, q1, q2, q3, q4⟩ := hround
          have hk2 : Kept loopNames env1 env2 := q4.mono (by decide)
          have ih := samples_loop R hca hc (i := i) (ps := ps) (tst := tst) (cst := cst) h126 fuel s3 s4 r4 (.inr rfl) hob1 (by omega) (hl1.kept hk2) q2
          rw [q1]
          have hnext : (Co.ret (Ctl.next, env2) (emb out w1)).bind (loopNext (fun env'' w' => forGen ["record", "sstat", "tstats", "cgroups"]
              (execBlock ((P).at (n + 5)) GR none roundBlock) (c none w') env'')) = forGen ["record", "sstat", "tstats", "cgroups"]
              (execBlock ((P).at (n + 5)) GR none roundBlock) (c none (emb out w1)) env2 := rfl
          rw [hnext, ← r2]
          dsimp only
          rcases hp : (parseLoop Z ⟨ps.getD [], tst, cst⟩ h fuel (.loop h v k') : Stream → _) w1.file with ⟨e | rest, f2⟩
          · rw [hp] at ih
            exact ih
          · rw [hp] at ih
            obtain ⟨env3, us', w2, i1, i2, i3, i4, i5⟩ := ih
            refine ⟨env3, us ++ us', w2, i1, by rw [i2, List.append_assoc], ?_, (hk1.trans hk2).trans i4, i5⟩
            rw [toJs_map, List.map_append, ← toJs_map, ← toJs_map, q3, i3]
end
end Atop.Src
