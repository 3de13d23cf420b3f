import Verif.Proofs.SourceGetHeader
/-!
# `get_record`, `get_sstat`, `get_tstat` and `get_cstat`, from their text
-/

namespace Atop.Src
open Spec
set_option maxRecDepth 20000

/-- Header `i` exists and is of class `c`; the error of the file, if any, is not one the code raises itself. -/
def Sees (w : World) (i : Nat) (c : HeaderClass) : Prop := LibFile w.file ∧ ∃ o, w.headers[i]? = some o ∧ o.cls = c

theorem Sees.keep {α : Type} {m : M α} (hm : Keeps m) {w w' : World} {r : Except Exc α} {i : Nat} {c : HeaderClass}
    (h : m w = (r, w')) (hs : Sees w i c) : Sees w' i c := by
  have := hm w
  rw [h] at this
  refine ⟨?_, ?_⟩
  · intro e he
    exact hs.1 e (by rw [← this.2]; exact he)
  · rw [this.1]; exact hs.2

theorem Sees.header {w : World} {i : Nat} {c : HeaderClass} (hs : Sees w i c) : ∃ h, w.header i = some h ∧ h.cls = c := by
  obtain ⟨-, o, ho, hc⟩ := hs
  refine ⟨{ cls := o.cls, buf := (w.heap.getD o.blk []).take o.cls.size, cache := o.cache }, ?_, hc⟩
  unfold World.header; rw [ho]

theorem Sees.latch {w : World} {i : Nat} {c : HeaderClass} (hs : Sees w i c) : Sees (M.latch i w).2 i c := by
  obtain ⟨h, hh, hc⟩ := hs.header
  obtain ⟨-, -, l3⟩ := latch_header hh
  obtain ⟨hl, o, ho, hoc⟩ := hs
  refine ⟨by rw [l3]; exact hl, ?_⟩
  rw [latch_eq hh ho]
  exact ⟨_, set_get ho, hoc⟩

/-- The field is missing or an integer (an unsigned one). -/
def optField (unsigned : Bool) (t : CType) (a : PyStr) : Bool :=
  match t with
  | .struct _ fs _ => match fs.lookup a 0 with
    | none => true
    | some (_, .int _ s) => !unsigned || !s
    | _ => false
  | _ => false

def recordInts : List PyStr := [py!"ncgroups", py!"nlist", py!"ndeviat"]
def recordLens : List PyStr := [py!"scomplen", py!"pcomplen", py!"ccomplen", py!"icomplen"]

theorem record_ints : ∀ c ∈ versions, ∀ a ∈ recordInts ++ recordLens, optField false c.Record a = true := by
  have h : (versions.all fun c => (recordInts ++ recordLens).all fun a => optField false c.Record a) = true := by decide +kernel
  intro c hc a ha
  exact List.all_eq_true.mp (List.all_eq_true.mp h c hc) a ha

theorem record_lens : ∀ c ∈ versions, ∀ a ∈ recordLens, optField true c.Record a = true := by
  have h : (versions.all fun c => recordLens.all fun a => optField true c.Record a) = true := by decide +kernel
  intro c hc a ha
  exact List.all_eq_true.mp (List.all_eq_true.mp h c hc) a ha

/-- `x.a` as an integer. -/
def attrM (x : Ref) (a : PyStr) : M Int := do
  let r ← x.inst
  M.lift (r.intAttr a)

theorem Keeps.attrM (x : Ref) (a : PyStr) : Keeps (attrM x a) := Keeps.bind (Keeps.inst x) fun _ => Keeps.lift _

theorem view_attr {R : Rt} {out : PyStr} {w : World} {x : Ref} {a : PyStr} (hf : optField false x.ty a = true)
    (h1 : a ≠ py!"_fields_") (h2 : a ≠ py!"fields_limiters") :
    attrOf R (refVal x) a (emb out w) = embR out .int (attrM x a w) := by
  rcases x with ⟨t, blk⟩
  have e : attrM ⟨t, blk⟩ a w = (({ ty := t, buf := w.heap.getD blk [] } : Inst).intAttr a, w) := rfl
  rw [e]
  show viewAttr t blk 0 a (emb out w) = _
  unfold optField at hf
  split at hf
  · rename_i cn fs l ht
    simp only at ht
    subst ht
    unfold viewAttr
    simp only [Inst.intAttr, Inst.attr, Inst.obj, pyItem, PyObj.attr, Fields.getattr]
    cases hl : fs.lookup a 0 with
    | none =>
      dsimp only
      rw [if_neg h1, if_neg (fun hc => h2 hc.1)]
      rfl
    | some p =>
      rcases p with ⟨o, t'⟩
      rw [hl] at hf
      cases t' with
      | int k s =>
        dsimp only
        rw [Nat.zero_add]
        rfl
      | _ => cases hf
  · cases hf

theorem attr_nonneg {w w' : World} {x : Ref} {a : PyStr} {k : Int} (hf : optField true x.ty a = true)
    (h : attrM x a w = (.ok k, w')) : 0 ≤ k := by
  rcases x with ⟨t, blk⟩
  have e : attrM ⟨t, blk⟩ a w = (({ ty := t, buf := w.heap.getD blk [] } : Inst).intAttr a, w) := rfl
  rw [e] at h
  unfold optField at hf
  split at hf
  · rename_i cn fs l ht
    simp only at ht
    subst ht
    simp only [Inst.intAttr, Inst.attr, Inst.obj, pyItem, PyObj.attr, Fields.getattr] at h
    cases hl : fs.lookup a 0 with
    | none => rw [hl] at h; cases h
    | some p =>
      rcases p with ⟨o, t'⟩
      rw [hl] at hf h
      cases t' with
      | int n s =>
        cases s with
        | true => simp at hf
        | false =>
          cases h
          exact Int.natCast_nonneg _
      | _ => cases hf
  · cases hf

/-! ### Expressions -/

section
variable {R : Rt} {G : PyStr → Option Val} {env : Env} {out : PyStr} {w : World} {x : Ref}

theorem zlib_exc {Z : Zlib} {b : Bytes} {e : Exc} (h : zdecompress Z b = .error e) : embExc e = .sys e := by
  unfold zdecompress at h
  cases hz : Z b with
  | some d => rw [hz] at h; cases h
  | none => rw [hz] at h; cases h; rfl

theorem copy_exc {t : CType} {b : Bytes} {e : Exc} (h : fromBufferCopy t b = .error e) : embExc e = .sys e := by
  unfold fromBufferCopy at h
  split at h
  · cases h; rfl
  · cases h

/-- `raw_file.read(record.a)` -/
theorem eval_read {a : PyStr} (hf : env "raw_file" = some .file) (hx : env "record" = some (refVal x)) (hl : LibFile w.file)
    (h0 : optField false x.ty a = true) (h1 : optField true x.ty a = true) (h2 : a ≠ py!"_fields_") (h3 : a ≠ py!"fields_limiters") :
    eval R G (.call (.attr (.name "raw_file") py!"read") exprs![(.attr (.name "record") a)] .nil) env (emb out w) =
      embR out Val.bytes ((do let n ← attrM x a; M.file (Stream.read n.toNat) : M Bytes) w) := by
  have hat := (eval_attr (R := R) (G := G) (eval_name hx)).trans (view_attr (R := R) (out := out) (w := w) h0 h2 h3)
  have hfn : eval R G (.attr (.name "raw_file") py!"read") env (emb out w) = (.ok (.method .file .read), emb out w) :=
    (eval_attr (eval_name hf)).trans rfl
  have hw : (attrM x a w).2 = w := rfl
  rcases hm : attrM x a w with ⟨(e | k), w'⟩
  · rw [hm] at hat
    rw [bind_fail hm]
    exact eval_call_args_err hfn (evals_err hat)
  · rw [hm] at hat hw
    rw [bind_run hm]
    subst hw
    refine (eval_call1 hfn hat).trans ?_
    rw [← fileRead_emb hl]
    show (if k < 0 then E.stuck else (do return Val.bytes (← fileRead k.toNat) : E Val)) (emb out w') = _
    rw [if_neg (by have := attr_nonneg h1 hm; omega)]

/-- `zlib.decompress(b)` -/
theorem eval_zlib {b : Bytes} {y : String} (hG : G py!"zlib" = some (.mod py!"zlib")) (hR : R.globals py!"zlib" py!"decompress" = none)
    (hy : env y = some (.bytes b)) :
    eval R G (.call (.attr (.glob py!"zlib") py!"decompress") exprs![(.name y)] .nil) env (emb out w) =
      embR out Val.bytes (M.lift (zdecompress R.Z b) w) := by
  have hfn : eval R G (.attr (.glob py!"zlib") py!"decompress") env (emb out w) = (.ok (.builtin .zlibDecompress), emb out w) := by
    refine (eval_attr (eval_glob hG)).trans ?_
    show modAttr R py!"zlib" py!"decompress" (emb out w) = _
    unfold modAttr
    rw [hR]
    rfl
  refine (eval_call1 hfn (eval_name hy)).trans ?_
  show (do return Val.bytes (← E.lift (zdecompress R.Z b)) : E Val) (emb out w) = _
  rw [E.bind_eq]
  unfold E.lift
  cases hz : zdecompress R.Z b with
  | ok d => rfl
  | error e =>
    show (Except.error (PExc.sys e), emb out w) = (Except.error (embExc e), emb out w)
    rw [zlib_exc hz]

theorem copy_emb (t : CType) (d : Bytes) : copyObject t d (emb out w) = embR out refVal (M.copy t d w) := by
  unfold copyObject M.copy
  rw [E.bind_eq, M.bind_eq]
  unfold E.lift M.lift
  cases hz : fromBufferCopy t d with
  | ok x => rfl
  | error e =>
    show (Except.error (PExc.sys e), emb out w) = (Except.error (embExc e), emb out w)
    rw [copy_exc hz]

theorem Keeps.copy (t : CType) (d : Bytes) : Keeps (M.copy t d) :=
  Keeps.bind (Keeps.lift _) fun _ => Keeps.bind (Keeps.alloc _) fun _ => Keeps.pure _

/-- `f.from_buffer_copy(e)` -/
theorem eval_copy {f e : Expr} {t : CType} {d : Bytes} (hf : eval R G f env (emb out w) = (.ok (.ctype t), emb out w))
    (he : eval R G e env (emb out w) = (.ok (.bytes d), emb out w)) :
    eval R G (.call (.attr f py!"from_buffer_copy") exprs![e] .nil) env (emb out w) = embR out refVal (M.copy t d w) := by
  refine (eval_call1 ((eval_attr hf).trans rfl) he).trans ?_
  exact copy_emb t d

end

/-! ### Functions -/

section
variable {Z : Zlib} {fs : FileSystem} {args : CommandLine} {out : PyStr} {w : World} {i : Nat} {c : HeaderClass} {n : Nat}
  {env : Env}

local notation "P" => program Z fs args
local notation "GU" => Rt.globals (program Z fs args) py!"atoparser.utils"

/-- `header.T` -/
theorem eval_class {R : Rt} {G : PyStr → Option Val} (hR : R.globals = (P).globals) (hs : Sees w i c) (hc : c ∈ versions)
    (hx : env "header" = some (.hdr i)) {a : PyStr}
    (ha : a ∈ [py!"Record", py!"SStat", py!"TStat", py!"CStat", py!"CGChainer"]) {v : Val} (hv : hclsAttr c a = some v) :
    eval R G (.attr (.name "header") a) env (emb out w) = (.ok v, emb out w) := by
  obtain ⟨h, hh, rfl⟩ := hs.header
  exact (eval_attr (eval_name hx)).trans (hdr_class (Z := Z) (fs := fs) (args := args) hR hh hc ha hv)

theorem bind_header {α : Type} (hs : Sees w i c) (k : Header → M α) (k' : M α) (hk : ∀ h, h.cls = c → k h = k') :
    (M.header i >>= k) w = k' w := by
  obtain ⟨h, hh, hc⟩ := hs.header
  rw [bind_run (header_get hh), hk h hc]

/-- The arguments of the four functions. -/
abbrev readEnv (i : Nat) (rest : List (String × Val)) : Env := envOf (("raw_file", .file) :: ("header", .hdr i) :: rest)

theorem run_get_record (hs : Sees w i c) (hc : c ∈ versions) :
    Ends out (fun a => .ret (refVal a)) (execBlock ((P).at n) GU none Text.Utils.get_record.body (readEnv i []) (emb out w))
      (Obj.getRecord i w) := by
  have hR : ((P).at n).globals = (P).globals := rfl
  unfold Obj.getRecord Text.Utils.get_record M.readNew
  dsimp only
  rw [bind_header hs _ (M.alloc (List.replicate c.Record.size 0) >>= fun blk => readintoN blk >>= fun _ => Pure.pure ({ ty := c.Record, blk } : Ref))
    (by intro h hh; simp only [M.bind_assoc, readinto_bind, M.pure_bind, hh])]
  have hnew : eval ((P).at n) GU (.call (.attr (.name "header") py!"Record") exprs![] .nil) (readEnv i []) (emb out w) =
      embR out (fun blk => .view c.Record blk 0) (M.alloc (List.replicate c.Record.size 0) w) :=
    (eval_call0 (eval_class hR hs hc rfl (by decide) (v := .ctype c.Record) rfl)).trans rfl
  refine ends_assign hnew ?_
  intro blk w1 hw1
  have hs1 := Sees.keep (Keeps.alloc _) hw1 hs
  have hread : eval ((P).at n) GU (.call (.attr (.name "raw_file") py!"readinto") exprs![(.name "record")] .nil)
      ((readEnv i []).set "record" (.view c.Record blk 0)) (emb out w1) = embR out (fun k : Nat => .int k) (readintoN blk w1) := by
    refine (eval_call1 (fv := .method .file .readinto) (w1 := emb out w1) ((eval_attr (eval_name rfl)).trans rfl) (eval_name rfl)).trans ?_
    exact readinto_emb hs1.1 blk
  refine ends_expr rfl hread ?_
  intro k w2 _
  exact ends_ret (m := Pure.pure ({ ty := c.Record, blk } : Ref)) (eval_name rfl)

theorem M.bind_pure {α : Type} (m : M α) : (m >>= fun a => Pure.pure a) = m := by
  funext w
  rw [M.bind_eq]
  rcases m w with ⟨(e | a), w'⟩ <;> rfl

theorem run_get_sstat {x : Ref} (hs : Sees w i c) (hc : c ∈ versions) (hx : ∃ c ∈ versions, x.ty = c.Record) :
    Ends out (fun a => .ret (refVal a)) (execBlock ((P).at n) GU none Text.Utils.get_sstat.body (readEnv i [("record", refVal x)]) (emb out w))
      (Obj.getSStat Z i x w) := by
  have hR : ((P).at n).globals = (P).globals := rfl
  obtain ⟨cx, hcx, hxt⟩ := hx
  have hm : Obj.getSStat Z i x = ((do let n ← attrM x py!"scomplen"; M.file (Stream.read n.toNat) : M Bytes) >>= fun buffer =>
      M.lift (zdecompress Z buffer) >>= fun d => (M.header i >>= fun h => M.copy h.cls.SStat d) >>= fun r => Pure.pure r) := by
    unfold Obj.getSStat attrM
    simp only [M.bind_assoc, M.bind_pure]
  rw [hm]
  unfold Text.Utils.get_sstat
  dsimp only
  refine ends_assign (eval_read rfl rfl hs.1 (by rw [hxt]; exact record_ints cx hcx _ (by decide)) (by rw [hxt]; exact record_lens cx hcx _ (by decide)) (by decide) (by decide)) ?_
  intro buffer w1 hw1
  have hs1 := Sees.keep (Keeps.bind (Keeps.attrM _ _) fun _ => Keeps.read _) hw1 hs
  refine ends_assign (eval_zlib rfl rfl rfl) ?_
  intro d w2 hw2
  have hs2 := Sees.keep (Keeps.lift _) hw2 hs1
  refine ends_assign (g := refVal) (m := M.header i >>= fun h => M.copy h.cls.SStat d) ?_ ?_
  · rw [bind_header hs2 _ (M.copy c.SStat d) (by intro h hh; rw [hh])]
    exact eval_copy (eval_class hR hs2 hc rfl (by decide) rfl) (eval_name rfl)
  intro r w3 _
  exact ends_ret (m := Pure.pure r) (eval_name rfl)

/-! ### Loops -/

/-- How a loop ends, when the model ends with `r`. -/
def Loops {α : Type} (out : PyStr) (Q : α → Env → Prop) (x : Co (Ctl × Env)) (r : Except Exc α × World) : Prop :=
  match r with
  | (.ok a, w) => ∃ env, Q a env ∧ x = .ret (.next, env) (emb out w)
  | (.error e, w) => ∃ env, x = .ret (.exc (embExc e), env) (emb out w)

theorem ends_loop {α β : Type} {R : Rt} {G : PyStr → Option Val} {cur : Option PExc} {s : Stmt} {r : Block} {Q : α → Env → Prop}
    {f : β → Ctl} {m : M α} {k : α → M β} (h : Loops out Q (exec R G cur s env (emb out w)) (m w))
    (hk : ∀ a w' env', m w = (.ok a, w') → Q a env' → Ends out f (execBlock R G cur r env' (emb out w')) (k a w')) :
    Ends out f (execBlock R G cur (.cons s r) env (emb out w)) ((m >>= k) w) := by
  rw [M.bind_eq]
  rcases hm : m w with ⟨(e | a), w'⟩
  · rw [hm] at h
    obtain ⟨env', h⟩ := h
    exact ⟨env', block_exc h⟩
  · rw [hm] at h
    obtain ⟨env', hq, h⟩ := h
    rw [block_next h]
    exact hk a w' env' hm hq

/-- The part of a block that is a loop body. -/
theorem loops_assign {α β : Type} {R : Rt} {G : PyStr → Option Val} {cur : Option PExc} {x : String} {e : Expr} {r : Block} {g : α → Val}
    {Q : β → Env → Prop} {m : M α} {k : α → M β} (h : eval R G e env (emb out w) = embR out g (m w))
    (hk : ∀ a w', m w = (.ok a, w') → Loops out Q (execBlock R G cur r (env.set x (g a)) (emb out w')) (k a w')) :
    Loops out Q (execBlock R G cur (.cons (.assign (.name x) e) r) env (emb out w)) ((m >>= k) w) := by
  rw [M.bind_eq]
  rcases hm : m w with ⟨(e | a), w'⟩
  · rw [hm] at h
    exact ⟨env, block_exc (exec_assign_err h)⟩
  · rw [hm] at h
    rw [block_next (exec_assign h)]
    exact hk a w' hm

/-- One round of a loop, and the other rounds. -/
theorem loops_cons {α β : Type} {xs : List String} {body : Env → W → Co (Ctl × Env)} {v : Val} {vs : List Val} {env1 : Env}
    {Q : α → Env → Prop} {Q' : β → Env → Prop} {m : M α} {k : α → M β} (ha : assignNames xs v env = some env1)
    (h : Loops out Q (body env1 (emb out w)) (m w))
    (hk : ∀ a w' env', m w = (.ok a, w') → Q a env' → Loops out Q' (forList xs body vs env' (emb out w')) (k a w')) :
    Loops out Q' (forList xs body (v :: vs) env (emb out w)) ((m >>= k) w) := by
  simp only [forList, ha]
  rw [M.bind_eq]
  rcases hm : m w with ⟨(e | a), w'⟩
  · rw [hm] at h
    obtain ⟨env', h⟩ := h
    rw [h]
    exact ⟨env', rfl⟩
  · rw [hm] at h
    obtain ⟨env', hq, h⟩ := h
    rw [h]
    exact hk a w' env' hm hq

theorem loops_done {β : Type} {R : Rt} {G : PyStr → Option Val} {cur : Option PExc} {Q : β → Env → Prop} {b : β} (hq : Q b env) :
    Loops out Q (execBlock R G cur .nil env (emb out w)) ((Pure.pure b : M β) w) := ⟨env, hq, block_nil⟩

theorem loops_next {β : Type} {R : Rt} {G : PyStr → Option Val} {cur : Option PExc} {Q : β → Env → Prop} {s : Stmt} {r : Block} {env1 : Env}
    {x : Except Exc β × World} (h : exec R G cur s env (emb out w) = .ret (.next, env1) (emb out w))
    (hk : Loops out Q (execBlock R G cur r env1 (emb out w)) x) : Loops out Q (execBlock R G cur (.cons s r) env (emb out w)) x := by
  rw [block_next h]; exact hk

/-- `range(k)` -/
theorem eval_range {R : Rt} {G : PyStr → Option Val} {e : Expr} {k : Int} {w w' : W} (hG : G py!"range" = none)
    (he : eval R G e env w = (.ok (.int k), w')) :
    eval R G (.call (.glob py!"range") exprs![e] .nil) env w = (.ok (.list ((List.range' 0 k.toNat).map fun (j : Nat) => .int j)), w') := by
  rw [← List.range_eq_range']
  exact (eval_call1 (eval_builtin hG rfl) he).trans rfl

/-- The loop of `get_tstat`. -/
theorem tstat_loop {R : Rt} (hR : R.globals = (P).globals) (hc : c ∈ versions) {G : PyStr → Option Val} {cur : Option PExc} {d : Bytes} {len : Int} : ∀ (k j : Nat) (w : World) (env : Env) (acc : List Ref),
    Sees w i c → env "header" = some (.hdr i) → env "decompressed" = some (.bytes d) → env "tstatlen" = some (.int len) →
    env "tstats" = some (.list (acc.map refVal)) →
    Loops out (fun xs env' => env' "tstats" = some (.list ((acc ++ xs).map refVal)))
      (forList ["index"] (execBlock R G cur block![
        .assign (.name "tstat") (.call (.attr (.attr (.name "header") py!"TStat") py!"from_buffer_copy") exprs![(.slice (.name "decompressed") (.bin .mul (.name "index") (.name "tstatlen")) (.bin .mul (.name "tstatlen") (.bin .add (.name "index") (.const (.int 1)))))] .nil),
        .expr (.call (.attr (.name "tstats") py!"append") exprs![(.name "tstat")] .nil)])
        ((List.range' j k).map fun (j : Nat) => .int j) env (emb out w))
      (Obj.tstatLoop c.TStat d len k j w)
  | 0, j, w, env, acc, _, _, _, _, ht => ⟨env, by dsimp only; rw [List.append_nil]; exact ht, rfl⟩
  | k + 1, j, w, env, acc, hs, hh, hd, hl, ht => by
    rw [List.range'_succ, List.map_cons]
    unfold Obj.tstatLoop
    refine loops_cons (Q := fun x env' => env' "header" = some (.hdr i) ∧ env' "decompressed" = some (.bytes d) ∧ env' "tstatlen" = some (.int len) ∧ env' "tstats" = some (.list ((acc ++ [x]).map refVal)))
      (m := M.copy c.TStat (pySlice d ((j : Int) * len) (len * ((j : Int) + 1)))) rfl ?_ ?_
    · have hh' : (env.set "index" (.int j)) "header" = some (.hdr i) := hh
      have hl' : (env.set "index" (.int j)) "tstatlen" = some (.int len) := hl
      have hd' : (env.set "index" (.int j)) "decompressed" = some (.bytes d) := hd
      have e1 : eval R G (.bin .mul (.name "index") (.name "tstatlen")) (env.set "index" (.int j)) (emb out w) = (.ok (.int ((j : Int) * len)), emb out w) :=
        (eval_bin (eval_name rfl) (eval_name hl')).trans rfl
      have e2 : eval R G (.bin .mul (.name "tstatlen") (.bin .add (.name "index") (.const (.int 1)))) (env.set "index" (.int j)) (emb out w) = (.ok (.int (len * ((j : Int) + 1))), emb out w) :=
        (eval_bin (eval_name hl') ((eval_bin (eval_name rfl) (eval_const _ _ _)).trans rfl)).trans rfl
      have e3 : eval R G (.slice (.name "decompressed") (.bin .mul (.name "index") (.name "tstatlen")) (.bin .mul (.name "tstatlen") (.bin .add (.name "index") (.const (.int 1))))) (env.set "index" (.int j)) (emb out w) =
          (.ok (.bytes (pySlice d ((j : Int) * len) (len * ((j : Int) + 1)))), emb out w) :=
        (eval_slice (eval_name hd') e1 e2).trans rfl
      rw [← M.bind_pure (M.copy _ _)]
      refine loops_assign (eval_copy (eval_class (Z := Z) (fs := fs) (args := args) hR hs hc hh' (by decide) rfl) e3) ?_
      intro x w1 hx
      have e4 : exec R G cur (.expr (.call (.attr (.name "tstats") py!"append") exprs![(.name "tstat")] .nil)) ((env.set "index" (.int j)).set "tstat" (refVal x)) (emb out w1) = _ :=
        exec_append_name (vs := acc.map refVal) ht (eval_name rfl)
      refine loops_next e4 (loops_done ⟨hh, hd, hl, ?_⟩)
      rw [Env.set_same, List.map_append]
      rfl
    · intro x w1 env1 hx ⟨q1, q2, q3, q4⟩
      have ih := tstat_loop hR hc (G := G) (cur := cur) (d := d) (len := len) k (j + 1) w1 env1 (acc ++ [x]) (Sees.keep (Keeps.copy _ _) hx hs) q1 q2 q3 q4
      rw [M.bind_eq]
      rcases hm : Obj.tstatLoop c.TStat d len k (j + 1) w1 with ⟨(e | xs), w2⟩
      · rw [hm] at ih; exact ih
      · rw [hm] at ih
        obtain ⟨env2, hq, ih⟩ := ih
        refine ⟨env2, ?_, ih⟩
        dsimp only
        rw [hq, List.append_assoc]; rfl

/-- `isinstance(record, atop_1_26.Record)` -/
theorem eval_isrecord {x : Ref} {R : Rt} (hR : R.globals = (P).globals) (hx : ∃ c ∈ versions, x.ty = c.Record) (he : env "record" = some (refVal x)) (w : World) :
    eval R GU (.call (.glob py!"isinstance") exprs![(.name "record"), (.attr (.glob py!"atop_1_26") py!"Record")] .nil) env (emb out w) =
      (.ok (.bool (({ ty := x.ty, buf := w.heap.getD x.blk [] } : Inst).isRecord126)), emb out w) := by
  obtain ⟨cx, hcx, hxt⟩ := hx
  have h1 : eval R GU (.attr (.glob py!"atop_1_26") py!"Record") env (emb out w) = (.ok (.ctype V1_26.Record), emb out w) := by
    refine (eval_attr (eval_glob (v := .mod py!"atoparser.structs.atop_1_26") rfl)).trans ?_
    show modAttr R py!"atoparser.structs.atop_1_26" py!"Record" (emb out w) = _
    unfold modAttr
    rw [hR]
    rfl
  refine (eval_call (fv := .builtin .isinstance) (eval_builtin rfl rfl) (evals_cons (eval_name he) (evals_one h1)) evalKws_nil).trans ?_
  have ho := record_ints cx hcx py!"scomplen" (by decide)
  unfold optField at ho
  split at ho
  · rename_i cn fs' l ht
    have hv : isInstance (refVal x) (.ctype V1_26.Record) = some (cn == py!"atop_1_26.Record") := by
      unfold refVal
      rw [hxt, ht]
      rfl
    show (match isInstance (refVal x) (.ctype V1_26.Record) with | some r => E.pure (.bool r) | none => E.stuck : E Val) (emb out w) = _
    rw [hv]
    unfold Inst.isRecord126
    dsimp only
    rw [hxt, ht]
    rfl
  · cases ho

/-- The number of tasks. -/
def countM (x : Ref) : M Int := do
  let r ← x.inst
  M.lift (if r.isRecord126 then r.intAttr py!"nlist" else r.intAttr py!"ndeviat")

/-- The size of a task. -/
def lenM (i : Nat) : M Int := do
  let h ← M.header i
  let v ← M.lift h.version
  M.latch i
  let h ← M.header i
  M.lift (if v.1 ≥ 2 ∧ v.2 ≥ 3 then h.inst.intAttr py!"tstatlen" else h.inst.intAttr py!"pstatlen")

theorem Keeps.countM (x : Ref) : Keeps (countM x) := Keeps.bind (Keeps.inst x) fun _ => Keeps.lift _

theorem eval_count {x : Ref} {R : Rt} (hR : R.globals = (P).globals) (hx : ∃ c ∈ versions, x.ty = c.Record) (he : env "record" = some (refVal x)) (w : World) :
    eval R GU (.ifExp (.call (.glob py!"isinstance") exprs![(.name "record"), (.attr (.glob py!"atop_1_26") py!"Record")] .nil) (.attr (.name "record") py!"nlist") (.attr (.name "record") py!"ndeviat")) env (emb out w) =
      embR out .int (countM x w) := by
  have h1 := eval_isrecord (out := out) hR hx he w
  obtain ⟨cx, hcx, hxt⟩ := hx
  have e : countM x w = attrM x (if ({ ty := x.ty, buf := w.heap.getD x.blk [] } : Inst).isRecord126 then py!"nlist" else py!"ndeviat") w := by
    show ((if ({ ty := x.ty, buf := w.heap.getD x.blk [] } : Inst).isRecord126 then _ else _), w) = (_, w)
    split <;> rfl
  rw [e]
  cases hb : ({ ty := x.ty, buf := w.heap.getD x.blk [] } : Inst).isRecord126 with
  | true =>
    rw [hb] at h1
    refine (eval_if_true h1 rfl).trans ((eval_attr (eval_name he)).trans ?_)
    exact view_attr (by rw [hxt]; exact record_ints cx hcx _ (by decide)) (by decide) (by decide)
  | false =>
    rw [hb] at h1
    refine (eval_if_false h1 rfl).trans ((eval_attr (eval_name he)).trans ?_)
    exact view_attr (by rw [hxt]; exact record_ints cx hcx _ (by decide)) (by decide) (by decide)

theorem eval_len {G : PyStr → Option Val} (hs : Sees w i c) (hc : c ∈ versions) (he : env "header" = some (.hdr i)) :
    eval ((P).at (n + 2)) G (.ifExp (.and (.cmp .gtE (.attr (.name "header") py!"major_version") (.const (.int 2))) (.cmp .gtE (.attr (.name "header") py!"minor_version") (.const (.int 3)))) (.attr (.name "header") py!"tstatlen") (.attr (.name "header") py!"pstatlen")) env (emb out w) =
      embR out .int (lenM i w) := by
  have hR : ((P).at (n + 2)).globals = (P).globals := rfl
  obtain ⟨h, hh, rfl⟩ := hs.header
  obtain ⟨v, hv, h1⟩ := eval_at_least (Z := Z) (fs := fs) (args := args) (n := n) (out := out) (G := G) he hh hc 3
  unfold lenM
  rw [bind_run (header_get hh), hv, bind_lift, bind_run (latch_ok hh)]
  obtain ⟨l1, -, -⟩ := latch_header hh
  have hc' : h.latched.cls ∈ versions := by rw [latched_cache hv]; exact hc
  rw [bind_run (header_get l1)]
  by_cases hcond : v.1 ≥ 2 ∧ v.2 ≥ 3
  · rw [if_pos hcond]
    refine (eval_if_true h1 (by simp [truth, hcond])).trans ((eval_attr (eval_name he)).trans ?_)
    exact hdr_intR (Z := Z) (fs := fs) (args := args) hR l1 hc' (by decide)
  · rw [if_neg hcond]
    refine (eval_if_false h1 (by simp only [truth, hcond, decide_false])).trans ((eval_attr (eval_name he)).trans ?_)
    exact hdr_intR (Z := Z) (fs := fs) (args := args) hR l1 hc' (by decide)

theorem Sees.len {w' : World} {r : Except Exc Int} (hs : Sees w i c) (hr : lenM i w = (r, w')) : Sees w' i c := by
  obtain ⟨h, hh, hc⟩ := hs.header
  unfold lenM at hr
  rw [bind_run (header_get hh)] at hr
  cases hv : h.version with
  | error e => rw [hv] at hr; cases hr; exact hs
  | ok v =>
    rw [hv, bind_lift, bind_run (latch_ok hh)] at hr
    exact Sees.keep (Keeps.bind (Keeps.header i) fun _ => Keeps.lift _) hr hs.latch

theorem run_get_tstat {x : Ref} (hs : Sees w i c) (hc : c ∈ versions) (hx : ∃ c ∈ versions, x.ty = c.Record) :
    Ends out (fun a => .ret (.list (a.map refVal))) (execBlock ((P).at (n + 2)) GU none Text.Utils.get_tstat.body (readEnv i [("record", refVal x)]) (emb out w))
      (Obj.getTStat Z i x w) := by
  have hR : ((P).at (n + 2)).globals = (P).globals := rfl
  obtain ⟨cx, hcx, hxt⟩ := id hx
  have hm : Obj.getTStat Z i x = ((do let n ← attrM x py!"pcomplen"; M.file (Stream.read n.toNat) : M Bytes) >>= fun buffer =>
      M.lift (zdecompress Z buffer) >>= fun d => countM x >>= fun count => M.header i >>= fun h => M.lift h.version >>= fun v => M.latch i >>= fun _ => M.header i >>= fun h =>
        M.lift (if v.1 ≥ 2 ∧ v.2 ≥ 3 then h.inst.intAttr py!"tstatlen" else h.inst.intAttr py!"pstatlen") >>= fun tstatlen =>
        Obj.tstatLoop h.cls.TStat d tstatlen count.toNat 0) := by
    unfold Obj.getTStat attrM countM
    simp only [M.bind_assoc]
  have hm2 : ∀ (d : Bytes) (count : Int) (w : World), Sees w i c → (M.header i >>= fun h => M.lift h.version >>= fun v => M.latch i >>= fun _ => M.header i >>= fun h =>
        M.lift (if v.1 ≥ 2 ∧ v.2 ≥ 3 then h.inst.intAttr py!"tstatlen" else h.inst.intAttr py!"pstatlen") >>= fun tstatlen =>
        Obj.tstatLoop h.cls.TStat d tstatlen count.toNat 0) w = (lenM i >>= fun tstatlen => Obj.tstatLoop c.TStat d tstatlen count.toNat 0 >>= fun l => Pure.pure l) w := by
    intro d count w hs
    obtain ⟨h, hh, hcl⟩ := hs.header
    unfold lenM
    simp only [M.bind_assoc, M.bind_pure]
    rw [bind_run (header_get hh), bind_run (header_get hh)]
    cases hv : h.version with
    | error e => rfl
    | ok v =>
      rw [bind_lift, bind_lift, bind_run (latch_ok hh), bind_run (latch_ok hh)]
      obtain ⟨l1, -, -⟩ := latch_header hh
      have hcl' : h.latched.cls = c := by rw [latched_cache hv]; exact hcl
      rw [bind_run (header_get l1), bind_run (header_get l1), hcl']
  rw [hm]
  unfold Text.Utils.get_tstat
  dsimp only
  refine ends_assign (eval_read rfl rfl hs.1 (by rw [hxt]; exact record_ints cx hcx _ (by decide)) (by rw [hxt]; exact record_lens cx hcx _ (by decide)) (by decide) (by decide)) ?_
  intro buffer w1 hw1
  have hs1 := Sees.keep (Keeps.bind (Keeps.attrM _ _) fun _ => Keeps.read _) hw1 hs
  refine ends_assign (eval_zlib rfl rfl rfl) ?_
  intro d w2 hw2
  have hs2 := Sees.keep (Keeps.lift _) hw2 hs1
  refine ends_assign (eval_count hR hx rfl w2) ?_
  intro count w3 hw3
  have hs3 := Sees.keep (Keeps.countM _) hw3 hs2
  rw [hm2 d count w3 hs3]
  refine ends_assign (eval_len hs3 hc rfl) ?_
  intro len w4 hw4
  have hs4 := Sees.len hs3 hw4
  refine Ends.of_eq (block_next (exec_assign (eval_list evals_nil))) ?_
  refine ends_loop (Q := fun xs env' => env' "tstats" = some (.list (xs.map refVal))) ?_ ?_
  · rw [exec_for_list (eval_range rfl (eval_name rfl)) (by intro _ _ _ h; cases h) rfl]
    exact tstat_loop hR hc _ 0 w4 _ [] hs4 rfl rfl rfl rfl
  · intro xs w5 env5 _ hq
    exact ends_ret (m := Pure.pure xs) (eval_name hq)

/-! ### Control groups -/

/-- `x.gen.a` is an integer. -/
def genField (t : CType) (a : PyStr) : Bool :=
  match t with
  | .struct _ fs _ => match fs.lookup py!"gen" 0 with
    | some (_, .struct c2 fs2 l2) => match fs2.lookup a 0 with
      | some (o2, .int k _) => decide (o2 + k ≤ (CType.struct c2 fs2 l2).size)
      | _ => false
    | _ => false
  | _ => false

def genNames : List PyStr := [py!"structlen", py!"nprocs"]

theorem gen_fields : ∀ c ∈ versions, ∀ a ∈ genNames, ∀ t, c.CStat = some t → genField t a = true := by
  have h : (versions.all fun c => genNames.all fun a => match c.CStat with | some t => genField t a | none => true) = true := by decide +kernel
  intro c hc a ha t ht
  have := List.all_eq_true.mp (List.all_eq_true.mp h c hc) a ha
  rw [ht] at this
  exact this

/-- `cstat.gen.a` -/
theorem eval_gen {R : Rt} {G : PyStr → Option Val} {x : Ref} {a : PyStr} (hg : genField x.ty a = true) (he : env "cstat" = some (refVal x)) (w : World) :
    ∃ k : Int, ({ ty := x.ty, buf := w.heap.getD x.blk [] } : Inst).genInt a = .ok k ∧
      eval R G (.attr (.attr (.name "cstat") py!"gen") a) env (emb out w) = (.ok (.int k), emb out w) := by
  rcases x with ⟨t, blk⟩
  unfold genField at hg
  split at hg
  · rename_i cn fs' l ht
    simp only at ht
    subst ht
    split at hg
    · rename_i o c2 fs2 l2 h1
      split at hg
      · rename_i o2 k s h2
        have hle : o2 + k ≤ (CType.struct c2 fs2 l2).size := by simpa using hg
        refine ⟨leInt s (((w.heap.getD blk []).drop (o + o2)).take k), ?_, ?_⟩
        · have e1 : ({ ty := .struct cn fs' l, buf := w.heap.getD blk [] } : Inst).attr py!"gen" =
              .ok (.struct c2 fs2 l2 (((w.heap.getD blk []).drop o).take (CType.struct c2 fs2 l2).size)) := by
            unfold Inst.attr Inst.obj
            simp only [pyItem, PyObj.attr, Fields.getattr, h1, pyField]
          have e2 : (((((w.heap.getD blk []).drop o).take (CType.struct c2 fs2 l2).size).drop o2).take k) = ((w.heap.getD blk []).drop (o + o2)).take k := by
            rw [List.drop_take, List.take_take, Nat.min_eq_left (by omega), List.drop_drop]
          unfold Inst.genInt
          rw [e1]
          show (do (← fs2.getattr (((w.heap.getD blk []).drop o).take (CType.struct c2 fs2 l2).size) a).asInt : Except Exc Int) = _
          unfold Fields.getattr
          rw [h2, ← e2]
          rfl
        · have e1 : eval R G (.attr (.name "cstat") py!"gen") env (emb out w) = (.ok (.view (.struct c2 fs2 l2) blk o), emb out w) := by
            refine (eval_attr (eval_name he)).trans ?_
            show viewAttr (.struct cn fs' l) blk 0 py!"gen" (emb out w) = _
            unfold viewAttr
            simp only [h1, Nat.zero_add]
            rfl
          refine (eval_attr e1).trans ?_
          show viewAttr (.struct c2 fs2 l2) blk o a (emb out w) = _
          unfold viewAttr
          simp only [h2]
          rfl
      · cases hg
    · cases hg
  · cases hg

/-- `header.CGChainer(cstat, pidlist)` -/
theorem eval_chain {G : PyStr → Option Val} {x p : Ref} {t : CType} (hs : Sees w i c) (hc : c ∈ versions) (ht : c.CStat = some t)
    (hh : env "header" = some (.hdr i)) (h1 : env "cstat" = some (refVal x)) (h2 : env "pidlist" = some (refVal p)) :
    eval ((P).at (n + 1)) G (.call (.attr (.name "header") py!"CGChainer") exprs![(.name "cstat"), (.name "pidlist")] .nil) env (emb out w) =
      (.ok (groupVal { cstat := x, proclist := p }), emb out w) := by
  have hR : ((P).at (n + 1)).globals = (P).globals := rfl
  have hcl := eval_class (G := G) (env := env) (out := out) hR hs hc hh (a := py!"CGChainer") (by decide) (v := .icls py!"CGChainer") (by
    have : hclsAttr c py!"CGChainer" = some (match c.CStat with | some _ => .icls py!"CGChainer" | none => .none) := rfl
    rw [this, ht])
  refine (eval_call hcl (evals_cons (eval_name h1) (evals_one (eval_name h2))) evalKws_nil).trans ?_
  rfl

/-- One round of the loop of `get_cstat`. -/
def cstatRound (t : CType) (d pids : Bytes) (cstatlen cs ps : Int) : M (Obj.Group × Int × Int) := do
  let x ← M.copy t (pySlice d cs (cs + cstatlen))
  let y ← x.inst
  let structlen ← M.lift (y.genInt py!"structlen")
  let nprocs ← M.lift (y.genInt py!"nprocs")
  let p ← Obj.pidArray nprocs pids ps
  return ({ cstat := x, proclist := p }, cs + structlen, ps + (CType.array pid_t nprocs.toNat).size)

theorem cstatLoop_eq (t : CType) (d pids : Bytes) (cstatlen : Int) (k : Nat) (cs ps : Int) :
    Obj.cstatLoop t d pids cstatlen (k + 1) cs ps = (cstatRound t d pids cstatlen cs ps >>= fun r =>
      Obj.cstatLoop t d pids cstatlen k r.2.1 r.2.2 >>= fun gs => Pure.pure (r.1 :: gs)) := by
  unfold cstatRound
  simp only [M.bind_assoc, M.pure_bind]
  rfl

theorem Keeps.pidArray (n : Int) (pids : Bytes) (ps : Int) : Keeps (Obj.pidArray n pids ps) := by
  unfold Obj.pidArray
  split
  · exact Keeps.lift _
  · exact Keeps.copy _ _

theorem Keeps.round (t : CType) (d pids : Bytes) (cstatlen cs ps : Int) : Keeps (cstatRound t d pids cstatlen cs ps) :=
  Keeps.bind (Keeps.copy _ _) fun _ => Keeps.bind (Keeps.inst _) fun _ => Keeps.bind (Keeps.lift _) fun _ =>
    Keeps.bind (Keeps.lift _) fun _ => Keeps.bind (Keeps.pidArray _ _ _) fun _ => Keeps.pure _

/-- The variables of the loop of `get_cstat`. -/
structure CVars (i : Nat) (d pids : Bytes) (len cs ps : Int) (acc : List Obj.Group) (env : Env) : Prop where
  header : env "header" = some (.hdr i)
  d : env "decompressed_cstats" = some (.bytes d)
  pids : env "decompressed_pidlist" = some (.bytes pids)
  len : env "cstatlen" = some (.int len)
  cs : env "cstat_start" = some (.int cs)
  ps : env "pidlist_start" = some (.int ps)
  acc : env "cgroups" = some (.list (acc.map groupVal))

/-- The body of the loop of `get_cstat`. -/
def cstatBody : Block := block![
  .assign (.name "cstat") (.call (.attr (.attr (.name "header") py!"CStat") py!"from_buffer_copy") exprs![(.slice (.name "decompressed_cstats") (.name "cstat_start") (.bin .add (.name "cstat_start") (.name "cstatlen")))] .nil),
  .aug "cstat_start" .add (.attr (.attr (.name "cstat") py!"gen") py!"structlen"),
  .assign (.name "pid_array") (.bin .mul (.glob py!"pid_t") (.attr (.attr (.name "cstat") py!"gen") py!"nprocs")),
  .assign (.name "pid_array_size") (.call (.attr (.glob py!"ctypes") py!"sizeof") exprs![(.name "pid_array")] .nil),
  .assign (.name "pidlist") (.call (.attr (.name "pid_array") py!"from_buffer_copy") exprs![(.slice (.name "decompressed_pidlist") (.name "pidlist_start") (.bin .add (.name "pidlist_start") (.name "pid_array_size")))] .nil),
  .aug "pidlist_start" .add (.name "pid_array_size"),
  .expr (.call (.attr (.name "cgroups") py!"append") exprs![(.call (.attr (.name "header") py!"CGChainer") exprs![(.name "cstat"), (.name "pidlist")] .nil)] .nil)]

theorem cstat_round {t : CType} (hc : c ∈ versions) (ht : c.CStat = some t) {d pids : Bytes} {len cs ps : Int} {acc : List Obj.Group}
    (hs : Sees w i c) (hv : CVars i d pids len cs ps acc env) :
    Loops out (fun r env' => CVars i d pids len r.2.1 r.2.2 (acc ++ [r.1]) env') (execBlock ((P).at (n + 1)) GU none cstatBody env (emb out w))
      (cstatRound t d pids len cs ps w) := by
  have hR : ((P).at (n + 1)).globals = (P).globals := rfl
  unfold cstatRound cstatBody
  have e1 : eval ((P).at (n + 1)) GU (.slice (.name "decompressed_cstats") (.name "cstat_start") (.bin .add (.name "cstat_start") (.name "cstatlen"))) env (emb out w) =
      (.ok (.bytes (pySlice d cs (cs + len))), emb out w) :=
    (eval_slice (eval_name hv.d) (eval_name hv.cs) ((eval_bin (eval_name hv.cs) (eval_name hv.len)).trans rfl)).trans rfl
  refine loops_assign (eval_copy (eval_class hR hs hc hv.header (by decide) (v := .ctype t) (by
    have : hclsAttr c py!"CStat" = some (match c.CStat with | some t => .ctype t | none => .none) := rfl
    rw [this, ht])) e1) ?_
  intro x w1 hw1
  have hs1 := Sees.keep (Keeps.copy _ _) hw1 hs
  have hxt : x.ty = t := by
    unfold M.copy at hw1
    cases hq : fromBufferCopy t (pySlice d cs (cs + len)) with
    | error e => rw [hq] at hw1; cases hw1
    | ok y => rw [hq] at hw1; cases hw1; rfl
  generalize henv1 : env.set "cstat" (refVal x) = env1
  have hv1 : CVars i d pids len cs ps acc env1 := by subst henv1; exact ⟨hv.header, hv.d, hv.pids, hv.len, hv.cs, hv.ps, hv.acc⟩
  have hx1 : env1 "cstat" = some (refVal x) := by subst henv1; rfl
  obtain ⟨sl, hsl, es⟩ := eval_gen (R := (P).at (n + 1)) (G := GU) (out := out) (a := py!"structlen") (by rw [hxt]; exact gen_fields c hc _ (by decide) t ht) hx1 w1
  have hinst : x.inst w1 = (.ok { ty := x.ty, buf := w1.heap.getD x.blk [] }, w1) := rfl
  rw [bind_run hinst, hsl, bind_lift]
  refine loops_next (exec_aug hv1.cs es (v := .int (cs + sl)) rfl) ?_
  generalize henv2 : env1.set "cstat_start" (.int (cs + sl)) = env2
  have hv2 : CVars i d pids len (cs + sl) ps acc env2 := by subst henv2; exact ⟨hv1.header, hv1.d, hv1.pids, hv1.len, rfl, hv1.ps, hv1.acc⟩
  have hx2 : env2 "cstat" = some (refVal x) := by subst henv2; exact hx1
  obtain ⟨np, hnp, en⟩ := eval_gen (R := (P).at (n + 1)) (G := GU) (out := out) (a := py!"nprocs") (by rw [hxt]; exact gen_fields c hc _ (by decide) t ht) hx2 w1
  rw [hnp, bind_lift]
  have emul := eval_bin (op := .mul) (eval_glob (R := (P).at (n + 1)) (G := GU) (x := py!"pid_t") (env := env2) (w := emb out w1) (v := .ctype pid_t) rfl) en
  unfold Obj.pidArray
  by_cases hneg : np < 0
  · rw [if_pos hneg, bind_lift_err]
    refine ⟨env2, block_exc (exec_assign_err (emul.trans ?_))⟩
    show (if np < 0 then E.sys (.valueError .negativeLength) else E.pure (.ctype (.array pid_t np.toNat)) : E Val) (emb out w1) = _
    rw [if_pos hneg]
    rfl
  · rw [if_neg hneg]
    dsimp only
    have emul' : eval ((P).at (n + 1)) GU (.bin .mul (.glob py!"pid_t") (.attr (.attr (.name "cstat") py!"gen") py!"nprocs")) env2 (emb out w1) = (.ok (.ctype (.array pid_t np.toNat)), emb out w1) := by
      refine emul.trans ?_
      show (if np < 0 then E.sys (.valueError .negativeLength) else E.pure (.ctype (.array pid_t np.toNat)) : E Val) (emb out w1) = _
      rw [if_neg hneg]
      rfl
    refine loops_next (exec_assign emul') ?_
    generalize henv3 : env2.set "pid_array" (.ctype (.array pid_t np.toNat)) = env3
    have hv3 : CVars i d pids len (cs + sl) ps acc env3 := by subst henv3; exact ⟨hv2.header, hv2.d, hv2.pids, hv2.len, hv2.cs, hv2.ps, hv2.acc⟩
    have hx3 : env3 "cstat" = some (refVal x) := by subst henv3; exact hx2
    have ha3 : env3 "pid_array" = some (.ctype (.array pid_t np.toNat)) := by subst henv3; rfl
    have esz : eval ((P).at (n + 1)) GU (.call (.attr (.glob py!"ctypes") py!"sizeof") exprs![(.name "pid_array")] .nil) env3 (emb out w1) =
        (.ok (.int ((CType.array pid_t np.toNat).size : Int)), emb out w1) :=
      (eval_call1 (fv := .builtin .sizeof) ((eval_attr (eval_glob (v := .mod py!"ctypes") rfl)).trans rfl) (eval_name ha3)).trans rfl
    refine loops_next (exec_assign esz) ?_
    generalize hsz : ((CType.array pid_t np.toNat).size : Int) = sz
    generalize henv4 : env3.set "pid_array_size" (.int sz) = env4
    have hv4 : CVars i d pids len (cs + sl) ps acc env4 := by subst henv4; exact ⟨hv3.header, hv3.d, hv3.pids, hv3.len, hv3.cs, hv3.ps, hv3.acc⟩
    have hx4 : env4 "cstat" = some (refVal x) := by subst henv4; exact hx3
    have ha4 : env4 "pid_array" = some (.ctype (.array pid_t np.toNat)) := by subst henv4; exact ha3
    have hz4 : env4 "pid_array_size" = some (.int sz) := by subst henv4; rfl
    have e5 : eval ((P).at (n + 1)) GU (.slice (.name "decompressed_pidlist") (.name "pidlist_start") (.bin .add (.name "pidlist_start") (.name "pid_array_size"))) env4 (emb out w1) =
        (.ok (.bytes (pySlice pids ps (ps + sz))), emb out w1) :=
      (eval_slice (eval_name hv4.pids) (eval_name hv4.ps) ((eval_bin (eval_name hv4.ps) (eval_name hz4)).trans rfl)).trans rfl
    refine loops_assign (eval_copy (eval_name ha4) e5) ?_
    intro p w2 hw2
    have hs2 := Sees.keep (Keeps.copy _ _) hw2 hs1
    generalize henv5 : env4.set "pidlist" (refVal p) = env5
    have hv5 : CVars i d pids len (cs + sl) ps acc env5 := by subst henv5; exact ⟨hv4.header, hv4.d, hv4.pids, hv4.len, hv4.cs, hv4.ps, hv4.acc⟩
    have hx5 : env5 "cstat" = some (refVal x) := by subst henv5; exact hx4
    have hz5 : env5 "pid_array_size" = some (.int sz) := by subst henv5; exact hz4
    have hp5 : env5 "pidlist" = some (refVal p) := by subst henv5; rfl
    refine loops_next (exec_aug hv5.ps (eval_name hz5) (v := .int (ps + sz)) rfl) ?_
    generalize henv6 : env5.set "pidlist_start" (.int (ps + sz)) = env6
    have hv6 : CVars i d pids len (cs + sl) (ps + sz) acc env6 := by subst henv6; exact ⟨hv5.header, hv5.d, hv5.pids, hv5.len, hv5.cs, rfl, hv5.acc⟩
    have hx6 : env6 "cstat" = some (refVal x) := by subst henv6; exact hx5
    have hp6 : env6 "pidlist" = some (refVal p) := by subst henv6; exact hp5
    refine loops_next (exec_append_name hv6.acc (eval_chain hs2 hc ht hv6.header hx6 hp6)) ?_
    refine loops_done ⟨hv6.header, hv6.d, hv6.pids, hv6.len, hv6.cs, ?_, ?_⟩
    · rw [Env.set_ne _ _ (by decide)]; exact hv6.ps
    · rw [Env.set_same, List.map_append]; rfl

theorem cstat_loop {t : CType} (hc : c ∈ versions) (ht : c.CStat = some t) {d pids : Bytes} {len : Int} : ∀ (k j : Nat) (w : World) (env : Env)
    (cs ps : Int) (acc : List Obj.Group), Sees w i c → CVars i d pids len cs ps acc env →
    Loops out (fun gs env' => env' "cgroups" = some (.list ((acc ++ gs).map groupVal)))
      (forList ["_"] (execBlock ((P).at (n + 1)) GU none cstatBody) ((List.range' j k).map fun (j : Nat) => .int j) env (emb out w))
      (Obj.cstatLoop t d pids len k cs ps w)
  | 0, j, w, env, cs, ps, acc, _, hv => ⟨env, by dsimp only; rw [List.append_nil]; exact hv.acc, rfl⟩
  | k + 1, j, w, env, cs, ps, acc, hs, hv => by
    rw [List.range'_succ, List.map_cons, cstatLoop_eq]
    refine loops_cons rfl (cstat_round hc ht hs (env := env.set "_" (.int j)) (cs := cs) (ps := ps) (acc := acc) (d := d) (pids := pids) (len := len)
      ⟨hv.header, hv.d, hv.pids, hv.len, hv.cs, hv.ps, hv.acc⟩) ?_
    intro r w1 env1 hr hq
    have ih := cstat_loop hc ht (d := d) (pids := pids) (len := len) k (j + 1) w1 env1 r.2.1 r.2.2 (acc ++ [r.1]) (Sees.keep (Keeps.round _ _ _ _ _ _) hr hs) hq
    rw [M.bind_eq]
    rcases hm : Obj.cstatLoop t d pids len k r.2.1 r.2.2 w1 with ⟨(e | gs), w2⟩
    · rw [hm] at ih; exact ih
    · rw [hm] at ih
      obtain ⟨env2, hq, ih⟩ := ih
      refine ⟨env2, ?_, ih⟩
      dsimp only
      rw [hq, List.append_assoc]; rfl

/-- The loop of `get_cstat`, for any header. -/
def cstatAll (c : HeaderClass) (d pids : Bytes) (len count : Int) : M (List Obj.Group) :=
  match c.CStat with
  | some t => Obj.cstatLoop t d pids len count.toNat 0 0
  | none => if count ≤ 0 then pure [] else M.lift (.error .attributeError)

theorem cstat_for {x : Ref} {d pids : Bytes} {len : Int} (hs : Sees w i c) (hc : c ∈ versions) (hx : ∃ c ∈ versions, x.ty = c.Record)
    (he : env "record" = some (refVal x)) (hv : CVars i d pids len 0 0 [] env) :
    Loops out (fun gs env' => env' "cgroups" = some (.list (gs.map groupVal)))
      (exec ((P).at (n + 1)) GU none (.for ["_"] (.call (.glob py!"range") exprs![(.attr (.name "record") py!"ncgroups")] .nil) cstatBody) env (emb out w))
      ((attrM x py!"ncgroups" >>= fun count => cstatAll c d pids len count) w) := by
  have hR : ((P).at (n + 1)).globals = (P).globals := rfl
  obtain ⟨cx, hcx, hxt⟩ := hx
  have hcount : eval ((P).at (n + 1)) GU (.attr (.name "record") py!"ncgroups") env (emb out w) = embR out .int (attrM x py!"ncgroups" w) :=
    (eval_attr (eval_name he)).trans (view_attr (by rw [hxt]; exact record_ints cx hcx _ (by decide)) (by decide) (by decide))
  have hw : (attrM x py!"ncgroups" w).2 = w := rfl
  rcases hq : attrM x py!"ncgroups" w with ⟨(e | count), w6⟩
  · rw [hq] at hcount
    rw [bind_fail hq]
    exact ⟨_, exec_for_err (eval_call_args_err (eval_builtin rfl rfl) (evals_err hcount))⟩
  · rw [hq] at hcount hw
    rw [bind_run hq]
    simp only at hw
    subst hw
    rw [exec_for_list (eval_range rfl hcount) (by intro _ _ _ h; cases h) rfl]
    unfold cstatAll
    cases hct : c.CStat with
    | some t => exact cstat_loop hc hct _ 0 _ _ _ _ [] hs hv
    | none =>
      dsimp only
      by_cases hle : count ≤ 0
      · rw [if_pos hle, Int.toNat_of_nonpos hle]
        exact ⟨env, hv.acc, rfl⟩
      · rw [if_neg hle]
        obtain ⟨k, hk⟩ : ∃ k, count.toNat = k + 1 := ⟨count.toNat - 1, by omega⟩
        rw [hk, List.range'_succ, List.map_cons]
        have hcl := eval_class (Z := Z) (fs := fs) (args := args) (R := (P).at (n + 1)) (G := GU) (env := env.set "_" (.int ((0 : Nat) : Int))) (out := out) hR hs hc hv.header (a := py!"CStat") (by decide) (v := .none) (by
          have : hclsAttr c py!"CStat" = some (match c.CStat with | some t => .ctype t | none => .none) := rfl
          rw [this, hct])
        have hat : eval ((P).at (n + 1)) GU (.attr (.attr (.name "header") py!"CStat") py!"from_buffer_copy") (env.set "_" (.int ((0 : Nat) : Int))) (emb out w6) = (.error (.sys .attributeError), emb out w6) :=
          (eval_attr hcl).trans rfl
        have hbody : execBlock ((P).at (n + 1)) GU none cstatBody (env.set "_" (.int ((0 : Nat) : Int))) (emb out w6) = .ret (.exc (.sys .attributeError), env.set "_" (.int ((0 : Nat) : Int))) (emb out w6) :=
          block_exc (exec_assign_err (eval_call_fn_err hat))
        refine ⟨env.set "_" (.int ((0 : Nat) : Int)), ?_⟩
        have hass : assignNames ["_"] (.int ((0 : Nat) : Int)) env = some (env.set "_" (.int ((0 : Nat) : Int))) := rfl
        simp only [forList, hass]
        rw [hbody]
        rfl

theorem run_get_cstat {x : Ref} (hs : Sees w i c) (hc : c ∈ versions) (hx : ∃ c ∈ versions, x.ty = c.Record) :
    Ends out (fun a => .ret (.list (a.map groupVal))) (execBlock ((P).at (n + 1)) GU none Text.Utils.get_cstat.body (readEnv i [("record", refVal x)]) (emb out w))
      (Obj.getCStat Z i x w) := by
  have hR : ((P).at (n + 1)).globals = (P).globals := rfl
  obtain ⟨cx, hcx, hxt⟩ := id hx
  have hm : Obj.getCStat Z i x = ((do let n ← attrM x py!"ccomplen"; M.file (Stream.read n.toNat) : M Bytes) >>= fun buffer =>
      M.lift (zdecompress Z buffer) >>= fun d => (do let n ← attrM x py!"icomplen"; M.file (Stream.read n.toNat) : M Bytes) >>= fun buffer =>
      M.lift (zdecompress Z buffer) >>= fun pids => M.header i >>= fun h => M.lift (h.inst.intAttr py!"cstatlen") >>= fun len =>
      attrM x py!"ncgroups" >>= fun count => cstatAll h.cls d pids len count) := by
    unfold Obj.getCStat attrM cstatAll
    simp only [M.bind_assoc]
    rfl
  have hm2 : ∀ (d pids : Bytes) (w : World), Sees w i c → (M.header i >>= fun h => M.lift (h.inst.intAttr py!"cstatlen") >>= fun len =>
      attrM x py!"ncgroups" >>= fun count => cstatAll h.cls d pids len count) w =
      ((M.header i >>= fun h => M.lift (h.inst.intAttr py!"cstatlen")) >>= fun len => attrM x py!"ncgroups" >>= fun count => cstatAll c d pids len count >>= fun l => Pure.pure l) w := by
    intro d pids w hs
    obtain ⟨h, hh, hcl⟩ := hs.header
    simp only [M.bind_assoc, M.bind_pure]
    rw [bind_run (header_get hh), bind_run (header_get hh), hcl]
  rw [hm]
  unfold Text.Utils.get_cstat
  dsimp only
  refine ends_assign (eval_read rfl rfl hs.1 (by rw [hxt]; exact record_ints cx hcx _ (by decide)) (by rw [hxt]; exact record_lens cx hcx _ (by decide)) (by decide) (by decide)) ?_
  intro buffer w1 hw1
  have hs1 := Sees.keep (Keeps.bind (Keeps.attrM _ _) fun _ => Keeps.read _) hw1 hs
  refine ends_assign (eval_zlib rfl rfl rfl) ?_
  intro d w2 hw2
  have hs2 := Sees.keep (Keeps.lift _) hw2 hs1
  refine ends_assign (eval_read rfl rfl hs2.1 (by rw [hxt]; exact record_ints cx hcx _ (by decide)) (by rw [hxt]; exact record_lens cx hcx _ (by decide)) (by decide) (by decide)) ?_
  intro buffer2 w3 hw3
  have hs3 := Sees.keep (Keeps.bind (Keeps.attrM _ _) fun _ => Keeps.read _) hw3 hs2
  refine ends_assign (eval_zlib rfl rfl rfl) ?_
  intro pids w4 hw4
  have hs4 := Sees.keep (Keeps.lift _) hw4 hs3
  rw [hm2 d pids w4 hs4]
  refine Ends.of_eq (block_next (exec_assign (eval_list evals_nil))) ?_
  refine Ends.of_eq (block_next (exec_assign (eval_const _ _ _))) ?_
  refine ends_assign (g := Val.int) ?_ ?_
  · obtain ⟨h, hh, hcl⟩ := hs4.header
    rw [bind_run (header_get hh)]
    exact (eval_attr (eval_name rfl)).trans (hdr_intR hR hh (by rw [hcl]; exact hc) (by decide))
  intro len w5 hw5
  have hs5 := Sees.keep (Keeps.bind (Keeps.header i) fun _ => Keeps.lift _) hw5 hs4
  refine Ends.of_eq (block_next (exec_assign (eval_const _ _ _))) ?_
  rw [← M.bind_assoc]
  refine ends_loop (Q := fun xs env' => env' "cgroups" = some (.list (xs.map groupVal))) ?_ ?_
  · exact cstat_for hs5 hc ⟨cx, hcx, hxt⟩ rfl ⟨rfl, rfl, rfl, rfl, rfl, rfl, rfl⟩
  · intro xs w7 env7 _ hq
    exact ends_ret (m := Pure.pure xs) (eval_name hq)

end
end Atop.Src
