import Verif.Proofs.SourceHeader
/-!
# The rest of `HeaderMixin`, from its text
-/

namespace Atop.Src
open Spec

set_option maxRecDepth 20000

/-! ### Results -/

/-- How a block ends, when the model ends with `r`. -/
def Ends {α : Type} (out : PyStr) (f : α → Ctl) (c : Co (Ctl × Env)) (r : Except Exc α × World) : Prop :=
  match r with
  | (.ok a, w) => ∃ env, c = .ret (f a, env) (emb out w)
  | (.error e, w) => ∃ env, c = .ret (.exc (embExc e), env) (emb out w)

theorem Ends.of_eq {α : Type} {out : PyStr} {f : α → Ctl} {c c' : Co (Ctl × Env)} {r : Except Exc α × World} (h : c = c')
    (h' : Ends out f c' r) : Ends out f c r := h ▸ h'

theorem M.bind_assoc {α β γ : Type} (m : M α) (f : α → M β) (g : β → M γ) :
    (m >>= f) >>= g = m >>= fun a => f a >>= g := by
  funext w
  simp only [M.bind_eq]
  cases m w with
  | mk r w' => cases r <;> rfl

theorem M.pure_bind {α β : Type} (a : α) (f : α → M β) : (Pure.pure a : M α) >>= f = f a := rfl

section
variable {R : Rt} {G : PyStr → Option Val} {cur : Option PExc} {env : Env} {out : PyStr} {w : World}

/-- `x = e; ...` -/
theorem ends_assign {α β : Type} {x : String} {e : Expr} {r : Block} {g : α → Val} {f : β → Ctl} {m : M α} {k : α → M β}
    (h : eval R G e env (emb out w) = embR out g (m w))
    (hk : ∀ a w', m w = (.ok a, w') → Ends out f (execBlock R G cur r (env.set x (g a)) (emb out w')) (k a w')) :
    Ends out f (execBlock R G cur (.cons (.assign (.name x) e) r) env (emb out w)) ((m >>= k) w) := by
  rw [M.bind_eq]
  rcases hm : m w with ⟨(e | a), w'⟩
  · rw [hm] at h
    exact ⟨env, block_exc (exec_assign_err h)⟩
  · rw [hm] at h
    rw [block_next (exec_assign h)]
    exact hk a w' hm

/-- `e; ...` -/
theorem ends_expr {α β : Type} {e : Expr} {r : Block} {g : α → Val} {f : β → Ctl} {m : M α} {k : α → M β}
    (ha : changeCall e = none) (h : eval R G e env (emb out w) = embR out g (m w))
    (hk : ∀ a w', m w = (.ok a, w') → Ends out f (execBlock R G cur r env (emb out w')) (k a w')) :
    Ends out f (execBlock R G cur (.cons (.expr e) r) env (emb out w)) ((m >>= k) w) := by
  rw [M.bind_eq]
  rcases hm : m w with ⟨(e | a), w'⟩
  · rw [hm] at h
    exact ⟨env, block_exc (exec_expr_err ha h)⟩
  · rw [hm] at h
    rw [block_next (exec_expr ha h)]
    exact hk a w' hm

/-- `return e` -/
theorem ends_ret {α : Type} {e : Expr} {r : Block} {g : α → Val} {m : M α}
    (h : eval R G e env (emb out w) = embR out g (m w)) :
    Ends out (fun a => .ret (g a)) (execBlock R G cur (.cons (.ret e) r) env (emb out w)) (m w) := by
  rcases hm : m w with ⟨(e | a), w'⟩
  · rw [hm] at h
    refine ⟨env, ?_⟩
    simp only [execBlock, exec]
    rw [withE_err h]; rfl
  · rw [hm] at h
    exact ⟨env, block_ret (exec_ret h)⟩

end

/-- The result of calling a function. -/
theorem call_ends {P : Rt} {n : Nat} {m : PyStr} {f : FnDef} {ds as : List Val} {kws l : List (String × Val)} {out : PyStr}
    {α : Type} {g : α → Val} {r : Except Exc α × World} {w : World}
    (hb : bindArgs (withDefaults f.params ds) as kws = some l) (hy : f.body.yields = false)
    (h : Ends out (fun a => .ret (g a)) (execBlock (P.at n) (P.globals m) none f.body (envOf l) (emb out w)) r) :
    callFn (P.at (n + 1)) m f ds as kws (emb out w) = embR out g r := by
  rw [callFn_call hb hy]
  rcases r with ⟨(e | a), w'⟩
  · obtain ⟨env, h⟩ := h
    exact callBody_exc ((run_at _ _ _ _ _ _).trans h)
  · obtain ⟨env, h⟩ := h
    exact callBody_ret ((run_at _ _ _ _ _ _).trans h)

/-- The same for a function that returns nothing. -/
theorem call_ends_none {P : Rt} {n : Nat} {m : PyStr} {f : FnDef} {ds as : List Val} {kws l : List (String × Val)} {out : PyStr}
    {α : Type} {r : Except Exc α × World} {w : World}
    (hb : bindArgs (withDefaults f.params ds) as kws = some l) (hy : f.body.yields = false)
    (h : Ends out (fun _ => .next) (execBlock (P.at n) (P.globals m) none f.body (envOf l) (emb out w)) r) :
    callFn (P.at (n + 1)) m f ds as kws (emb out w) = embR out (fun _ => .none) r := by
  rw [callFn_call hb hy]
  rcases r with ⟨(e | a), w'⟩
  · obtain ⟨env, h⟩ := h
    exact callBody_exc ((run_at _ _ _ _ _ _).trans h)
  · obtain ⟨env, h⟩ := h
    exact callBody_next ((run_at _ _ _ _ _ _).trans h)

section
variable {Z : Zlib} {fs : FileSystem} {args : CommandLine} {out : PyStr} {w : World} {i : Nat} {h : Header} {n : Nat}

local notation "P" => program Z fs args

theorem latched_cache {h : Header} {v : Nat × Nat} (hv : h.version = .ok v) : h.latched = { h with cache := some v } := by
  unfold Header.latched; rw [hv]

/-- `header.major_version` and `header.minor_version` -/
theorem eval_part (hh : w.header i = some h) (hc : h.cls ∈ versions) : ∃ v, h.version = .ok v ∧
    attrOf ((P).at (n + 2)) (.hdr i) py!"major_version" (emb out w) = (.ok (.int v.1), emb out (M.latch i w).2) ∧
    attrOf ((P).at (n + 2)) (.hdr i) py!"minor_version" (emb out w) = (.ok (.int v.2), emb out (M.latch i w).2) := by
  obtain ⟨v, hv, hs⟩ := eval_semantic (Z := Z) (fs := fs) (args := args) (out := out) (n := n) hh hc
  refine ⟨v, hv, ?_⟩
  obtain ⟨o, h1, h2, h3, h4⟩ := header_some hh
  have ho := emb_hdr (out := out) h1
  have hcl : (embH o).cls ∈ versions := by show o.cls ∈ versions; rw [h2]; exact hc
  obtain ⟨l1, l2, l3⟩ := latch_header hh
  obtain ⟨o', h1', h2', h3', h4'⟩ := header_some l1
  have ho' := emb_hdr (out := out) h1'
  have hcl' : (embH o').cls ∈ versions := by
    show o'.cls ∈ versions; rw [h2', latched_cache hv]; exact hc
  have hat : (embH o').attrs = attrsOf (some v) := by
    show attrsOf o'.cache = _; rw [h3', latched_cache hv]
  have g1 := sem_attr (R := (P).at (n + 1)) (Z := Z) (fs := fs) (args := args) rfl ho' hcl' (a := py!"_major_version") (.inr (.inl rfl))
  have g2 := sem_attr (R := (P).at (n + 1)) (Z := Z) (fs := fs) (args := args) rfl ho' hcl' (a := py!"_minor_version") (.inr (.inr rfl))
  rw [hat] at g1 g2
  have e0 : eval ((P).at (n + 1)) ((P).globals py!"atoparser.structs.shared") (.attr (.name "self") py!"semantic_version")
      (selfEnv i) (emb out w) = _ := (eval_attr (eval_name (v := .hdr i) rfl)).trans hs
  constructor
  · simp only [attrOf, hdrAttr, ho, plain_none _ hcl py!"major_version" (by decide), at_globals, mixin_major]
    rw [callFn_call (l := [("self", .hdr i)]) rfl (by decide +kernel)]
    refine callBody_ret (env' := selfEnv i) ?_
    rw [run_at]
    unfold Text.HeaderMixin.major_version
    dsimp only
    rw [block_next (exec_expr rfl e0)]
    exact block_ret (exec_ret ((eval_attr (eval_name (v := .hdr i) rfl)).trans g1))
  · simp only [attrOf, hdrAttr, ho, plain_none _ hcl py!"minor_version" (by decide), at_globals, mixin_minor]
    rw [callFn_call (l := [("self", .hdr i)]) rfl (by decide +kernel)]
    refine callBody_ret (env' := selfEnv i) ?_
    rw [run_at]
    unfold Text.HeaderMixin.minor_version
    dsimp only
    rw [block_next (exec_expr rfl e0)]
    exact block_ret (exec_ret ((eval_attr (eval_name (v := .hdr i) rfl)).trans g2))

/-- Latching twice. -/
theorem latch_latch (hh : w.header i = some h) (hc : h.cls ∈ versions) : (M.latch i (M.latch i w).2).2 = (M.latch i w).2 := by
  obtain ⟨v, hv⟩ := version_ok hc
  obtain ⟨l1, -, -⟩ := latch_header hh
  rw [latched_cache hv] at l1
  rw [latch_same l1 rfl]

theorem latch_ok (hh : w.header i = some h) : M.latch i w = (.ok (), (M.latch i w).2) := by
  obtain ⟨o, h1, h2, h3, h4⟩ := header_some hh
  rw [latch_eq hh h1]

/-- `x.major_version >= 2 and x.minor_version >= k` -/
theorem eval_at_least {G : PyStr → Option Val} {env : Env} {x : String} (hx : env x = some (.hdr i)) (hh : w.header i = some h)
    (hc : h.cls ∈ versions) (k : Nat) : ∃ v, h.version = .ok v ∧
    eval ((P).at (n + 2)) G (.and (.cmp .gtE (.attr (.name x) py!"major_version") (.const (.int 2)))
      (.cmp .gtE (.attr (.name x) py!"minor_version") (.const (.int k)))) env (emb out w) =
      (.ok (.bool (decide (v.1 ≥ 2 ∧ v.2 ≥ k))), emb out (M.latch i w).2) := by
  obtain ⟨v, hv, p1, -⟩ := eval_part (Z := Z) (fs := fs) (args := args) (out := out) (n := n) hh hc
  obtain ⟨l1, l2, l3⟩ := latch_header hh
  have hc' : h.latched.cls ∈ versions := by rw [latched_cache hv]; exact hc
  obtain ⟨v', hv', -, p2⟩ := eval_part (Z := Z) (fs := fs) (args := args) (out := out) (n := n) l1 hc'
  rw [latched_cache hv] at hv'
  cases hv'
  rw [latch_latch hh hc] at p2
  refine ⟨v, hv, ?_⟩
  have e1 : eval ((P).at (n + 2)) G (.cmp .gtE (.attr (.name x) py!"major_version") (.const (.int 2))) env (emb out w) =
      (.ok (.bool (decide ((v.1 : Int) ≥ 2))), emb out (M.latch i w).2) :=
    eval_cmp ((eval_attr (eval_name hx)).trans p1) (eval_const _ _ _)
  have e2 : eval ((P).at (n + 2)) G (.cmp .gtE (.attr (.name x) py!"minor_version") (.const (.int k))) env (emb out (M.latch i w).2) =
      (.ok (.bool (decide ((v.2 : Int) ≥ k))), emb out (M.latch i w).2) :=
    eval_cmp ((eval_attr (eval_name hx)).trans p2) (eval_const _ _ _)
  by_cases h2 : (v.1 : Int) ≥ 2
  · refine (eval_and_true e1 (by simp [truth, h2])).trans (e2.trans ?_)
    have : (decide ((v.2 : Int) ≥ k)) = decide (v.1 ≥ 2 ∧ v.2 ≥ k) := by
      apply decide_eq_decide.mpr; omega
    rw [this]
  · refine (eval_and_false e1 (by simp [truth]; omega)).trans ?_
    have : (decide ((v.1 : Int) ≥ 2)) = decide (v.1 ≥ 2 ∧ v.2 ≥ k) := by
      apply decide_eq_decide.mpr; omega
    rw [this]

/-! ### check_compatibility -/

/-- Exceptions that are not raised by the code itself. -/
theorem intAttr_exc {x : Inst} {a : PyStr} {e : Exc} (h : x.intAttr a = .error e) : embExc e = .sys e := by
  have : e = .attributeError ∨ e = .typeError := by
    unfold Inst.intAttr at h
    cases hat : x.attr a with
    | error e' =>
      rw [hat] at h; cases h
      unfold Inst.attr PyObj.attr at hat
      split at hat
      · unfold Fields.getattr at hat
        split at hat <;> cases hat
        exact .inl rfl
      · cases hat; exact .inl rfl
    | ok p =>
      rw [hat] at h
      change p.asInt = _ at h
      unfold PyObj.asInt at h
      split at h <;> cases h
      exact .inr rfl
  rcases this with rfl | rfl <;> rfl

theorem hdr_intR {R : Rt} (hR : R.globals = (P).globals) (hh : w.header i = some h) (hc : h.cls ∈ versions) {a : PyStr}
    (ha : a ∈ intNames) : attrOf R (.hdr i) a (emb out w) = embR out .int (M.lift (h.inst.intAttr a) w) := by
  rw [hdr_int (R := R) (out := out) (int_mixin (Z := Z) (fs := fs) (args := args) hR) hh hc ha]
  cases hk : h.inst.intAttr a with
  | error e => show _ = (Except.error (embExc e), emb out w); rw [intAttr_exc hk]; rfl
  | ok k => rfl

/-- Class attributes of a header. -/
theorem hdr_class {R : Rt} (hR : R.globals = (P).globals) (hh : w.header i = some h) (hc : h.cls ∈ versions) {a : PyStr} {v : Val}
    (ha : a ∈ [py!"Record", py!"SStat", py!"TStat", py!"CStat", py!"CGChainer"]) (hv : hclsAttr h.cls a = some v) :
    attrOf R (.hdr i) a (emb out w) = (.ok v, emb out w) := by
  obtain ⟨o, h1, h2, h3, h4⟩ := header_some hh
  have ho := emb_hdr (out := out) h1
  have hcl : (embH o).cls ∈ versions := by show o.cls ∈ versions; rw [h2]; exact hc
  have hn : a ∈ plainNames := by
    simp only [List.mem_cons, List.not_mem_nil, or_false] at ha
    rcases ha with rfl | rfl | rfl | rfl | rfl <;> decide
  have hm : R.globals py!"HeaderMixin" a = none := by
    rw [hR]
    refine mixin_none a ?_
    simp only [List.mem_cons, List.not_mem_nil, or_false] at ha
    rcases ha with rfl | rfl | rfl | rfl | rfl <;> decide
  rw [hdr_plain ho (plain_none _ hcl a hn) hm]
  have hl : (embH o).attrs.lookup a = none := by
    show (attrsOf o.cache).lookup a = none
    simp only [List.mem_cons, List.not_mem_nil, or_false] at ha
    cases o.cache with
    | none => rfl
    | some v => rcases ha with rfl | rfl | rfl | rfl | rfl <;> rfl
  rw [hl]
  dsimp only
  have hne : a ≠ py!"__class__" := by
    simp only [List.mem_cons, List.not_mem_nil, or_false] at ha
    rcases ha with rfl | rfl | rfl | rfl | rfl <;> decide
  rw [if_neg hne]
  show (match hclsAttr o.cls a with | some v => _ | none => _) = _
  rw [h2, hv]

theorem hdr_dunder {R : Rt} (hR : R.globals = (P).globals) (hh : w.header i = some h) (hc : h.cls ∈ versions) :
    attrOf R (.hdr i) py!"__class__" (emb out w) = (.ok (.hcls h.cls), emb out w) := by
  obtain ⟨o, h1, h2, h3, h4⟩ := header_some hh
  have ho := emb_hdr (out := out) h1
  have hcl : (embH o).cls ∈ versions := by show o.cls ∈ versions; rw [h2]; exact hc
  rw [hdr_plain ho (plain_none _ hcl _ (by decide)) (by rw [hR]; exact mixin_none _ (by decide))]
  have hl : (embH o).attrs.lookup py!"__class__" = none := by
    show (attrsOf o.cache).lookup _ = none
    cases o.cache <;> rfl
  rw [hl]
  dsimp only
  rw [if_pos rfl, show (embH o).cls = h.cls from h2]

/-- One entry of `sizes`. -/
def sizeVal (t : PyStr × Int × Int) : Val := .tuple [.str t.1, .int t.2.1, .int t.2.2]

/-- `(name, self.field, ctypes.sizeof(self.T))` -/
theorem eval_size {R : Rt} (hR : R.globals = (P).globals) {G : PyStr → Option Val} (hG : G py!"ctypes" = some (.mod py!"ctypes"))
    {env : Env} (hs : env "self" = some (.hdr i))
    (hh : w.header i = some h) (hc : h.cls ∈ versions) (name : PyStr) {a T : PyStr} (ha : a ∈ intNames) {tv : Val} {sz : Except Exc Int}
    (hT : attrOf R (.hdr i) T (emb out w) = (.ok tv, emb out w))
    (hz : callBuiltin R .sizeof [tv] [] (emb out w) = embR out .int (M.lift sz w)) :
    eval R G (.tuple exprs![(.const (.str name)), (.attr (.name "self") a),
      (.call (.attr (.glob py!"ctypes") py!"sizeof") exprs![(.attr (.name "self") T)] .nil)]) env (emb out w) =
    embR out sizeVal ((do let k ← M.lift (h.inst.intAttr a); let s ← M.lift sz; return (name, k, s) : M _) w) := by
  have hi := hdr_intR (Z := Z) (fs := fs) (args := args) (R := R) (out := out) hR hh hc ha
  have hz0 : eval R G (.attr (.glob py!"ctypes") py!"sizeof") env (emb out w) = (.ok (.builtin .sizeof), emb out w) := by
    rw [eval_attr (eval_glob hG)]
    show modAttr R _ _ _ = _
    unfold modAttr
    rw [hR]
    rfl
  have hz1 := (eval_call1 hz0 ((eval_attr (eval_name hs)).trans hT)).trans hz
  rw [M.bind_eq]
  cases hk : h.inst.intAttr a with
  | error e =>
    rw [hk] at hi
    rw [eval, E.bind_err (evals_tail_err (eval_const _ _ _) (evals_err ((eval_attr (eval_name hs)).trans hi)))]
    rfl
  | ok k =>
    rw [hk] at hi
    cases sz with
    | error e =>
      rw [eval, E.bind_err (evals_tail_err (eval_const _ _ _) (evals_tail_err ((eval_attr (eval_name hs)).trans hi)
        (evals_err hz1)))]
      rfl
    | ok sz =>
      rw [eval_tuple (evals_cons (eval_const _ _ _) (evals_cons ((eval_attr (eval_name hs)).trans hi) (evals_one hz1)))]
      rfl

theorem plain_names : ∀ p ∈ [py!"Header", py!"Record", py!"SStat", py!"TStat", py!"PStat", py!"CStat"], plainText p = true := by
  decide +kernel

theorem repr_size {t : PyStr × Int × Int} (h : plainText t.1 = true) : repr (sizeVal t) = some (sizeRepr t) := by
  simp only [sizeVal, repr, reprs, h, if_true, List.length_cons, List.length_nil, sizeRepr, commaJoin]
  simp

theorem reprs_sizes : ∀ {l : List (PyStr × Int × Int)}, (∀ t ∈ l, plainText t.1 = true) →
    reprs (l.map sizeVal) = some (l.map sizeRepr)
  | [], _ => rfl
  | t :: l, h => by
    simp only [List.map_cons, reprs, repr_size (h t List.mem_cons_self), reprs_sizes fun t ht => h t (List.mem_cons_of_mem _ ht)]

theorem toStr_sizes {l : List (PyStr × Int × Int)} (h : ∀ t ∈ l, plainText t.1 = true) (w : W) :
    toStr (.list (l.map sizeVal)) w = (.ok (py!"[" ++ commaJoin (l.map sizeRepr) ++ py!"]"), w) := by
  simp only [toStr, repr, reprs_sizes h]
  rfl

/-- `any(size[1] != size[2] for size in sizes)` -/
theorem eval_any {R : Rt} {G : PyStr → Option Val} {env : Env} {w : W} {l : List (PyStr × Int × Int)}
    (hG : G py!"any" = none) (hs : env "sizes" = some (.list (l.map sizeVal))) :
    eval R G (.call (.glob py!"any") exprs![(.genExp (.cmp .notEq (.sub (.name "size") (.const (.int 1)))
      (.sub (.name "size") (.const (.int 2)))) "size" (.name "sizes"))] .nil) env w =
      (.ok (.bool (l.any fun p => p.2.1 != p.2.2)), w) := by
  have hm : ∀ l : List (PyStr × Int × Int), mapE (fun v => eval R G (.cmp .notEq (.sub (.name "size") (.const (.int 1)))
      (.sub (.name "size") (.const (.int 2)))) (env.set "size" v)) (l.map sizeVal) w =
      (.ok (l.map fun p => .bool (decide (p.2.1 ≠ p.2.2))), w) := by
    intro l
    induction l with
    | nil => rfl
    | cons t l ih =>
      have : eval R G (.cmp .notEq (.sub (.name "size") (.const (.int 1))) (.sub (.name "size") (.const (.int 2))))
          (env.set "size" (sizeVal t)) w = (.ok (.bool (decide (t.2.1 ≠ t.2.2))), w) :=
        (eval_cmp (va := .int t.2.1) (vb := .int t.2.2) (w1 := w) (w2 := w)
          ((eval_sub (eval_name (Env.set_same _ _ _)) (eval_const _ _ _)).trans rfl)
          ((eval_sub (eval_name (Env.set_same _ _ _)) (eval_const _ _ _)).trans rfl)).trans rfl
      simp only [List.map_cons, mapE]
      rw [E.bind_ok this, E.bind_ok ih]
      rfl
  have hg : eval R G (.genExp (.cmp .notEq (.sub (.name "size") (.const (.int 1)))
      (.sub (.name "size") (.const (.int 2)))) "size" (.name "sizes")) env w =
      (.ok (.list (l.map fun p => .bool (decide (p.2.1 ≠ p.2.2)))), w) := by
    rw [eval, E.bind_ok (eval_name hs)]
    show (items (.list (l.map sizeVal)) >>= fun vs => _) w = _
    rw [E.bind_ok (show items (.list (l.map sizeVal)) w = (.ok (l.map sizeVal), w) from rfl), E.bind_ok (hm l)]
    rfl
  rw [eval_call1 (eval_builtin hG rfl) hg]
  show (Except.ok (Val.bool ((l.map fun p => Val.bool (decide (p.2.1 ≠ p.2.2))).any truth)), w) = _
  rw [List.any_map]
  have : (truth ∘ fun (p : PyStr × Int × Int) => Val.bool (decide (p.2.1 ≠ p.2.2))) = fun p => p.2.1 != p.2.2 := by
    funext p
    simp [truth, bne, BEq.beq]
  rw [this]


theorem base_ints : ∀ c ∈ versions, ∀ a ∈ [py!"magic", py!"rawheadlen", py!"rawreclen", py!"sstatlen"],
    (match c.fields.lookup a 0 with | some (_, .int _ false) => true | _ => false) = true := by
  have h : (versions.all fun c => [py!"magic", py!"rawheadlen", py!"rawreclen", py!"sstatlen"].all fun a =>
    match c.fields.lookup a 0 with | some (_, .int _ false) => true | _ => false) = true := by decide +kernel
  intro c hc a ha
  exact List.all_eq_true.mp (List.all_eq_true.mp h c hc) a ha

theorem base_int (hc : h.cls ∈ versions) {a : PyStr} (ha : a ∈ [py!"magic", py!"rawheadlen", py!"rawreclen", py!"sstatlen"]) :
    ∃ k : Nat, h.inst.intAttr a = .ok (k : Int) := by
  have := base_ints h.cls hc a ha
  unfold Inst.intAttr Inst.attr Inst.obj Header.inst
  simp only [pyItem, PyObj.attr, Fields.getattr]
  split at this
  · rename_i hl
    rw [hl]
    exact ⟨_, rfl⟩
  · cases this

/-- The three parts of `sizes`. -/
def sizeBase (h : Header) (k1 k2 k3 : Int) : List (PyStr × Int × Int) :=
  [(py!"Header", k1, h.cls.size), (py!"Record", k2, h.cls.Record.size), (py!"SStat", k3, h.cls.SStat.size)]

def sizeT (h : Header) (v : Nat × Nat) : Except Exc (PyStr × Int × Int) :=
  if v.1 ≥ 2 ∧ v.2 ≥ 3 then do return (py!"TStat", ← h.inst.intAttr py!"tstatlen", (h.cls.TStat.size : Int))
  else do return (py!"PStat", ← h.inst.intAttr py!"pstatlen", (h.cls.TStat.size : Int))

def sizeC (h : Header) : Except Exc (PyStr × Int × Int) := do
  let k ← h.inst.intAttr py!"cstatlen"
  match h.cls.CStat with
  | some cs => return (py!"CStat", k, (cs.size : Int))
  | none => .error .typeError

theorem sizeChecks_eq {h : Header} {v : Nat × Nat} {k1 k2 k3 : Int} (hv : h.version = .ok v)
    (h1 : h.inst.intAttr py!"rawheadlen" = .ok k1) (h2 : h.inst.intAttr py!"rawreclen" = .ok k2)
    (h3 : h.inst.intAttr py!"sstatlen" = .ok k3) : h.sizeChecks = (do
      let t ← sizeT h v
      if v.1 ≥ 2 ∧ v.2 ≥ 11 then do
        let c ← sizeC h
        return sizeBase h k1 k2 k3 ++ [t] ++ [c]
      else return sizeBase h k1 k2 k3 ++ [t]) := by
  unfold Header.sizeChecks sizeT sizeC
  rw [h1, h2, h3, hv]
  simp only [bind, Except.bind, pure, Except.pure]
  by_cases c1 : v.1 ≥ 2 ∧ v.2 ≥ 3
  · simp only [if_pos c1]
    cases h.inst.intAttr py!"tstatlen" with
    | error e => rfl
    | ok k =>
      dsimp only
      by_cases c2 : v.1 ≥ 2 ∧ v.2 ≥ 11
      · simp only [if_pos c2]
        cases h.inst.intAttr py!"cstatlen" with
        | error e => rfl
        | ok k => cases h.cls.CStat <;> rfl
      · simp only [if_neg c2]; rfl
  · simp only [if_neg c1]
    cases h.inst.intAttr py!"pstatlen" with
    | error e => rfl
    | ok k =>
      dsimp only
      by_cases c2 : v.1 ≥ 2 ∧ v.2 ≥ 11
      · simp only [if_pos c2]
        cases h.inst.intAttr py!"cstatlen" with
        | error e => rfl
        | ok k => cases h.cls.CStat <;> rfl
      · simp only [if_neg c2]; rfl

/-- What `sizes.append((...))` does. -/
def sizeEnd (out : PyStr) (w : World) (env : Env) (l : List (PyStr × Int × Int)) : Except Exc (PyStr × Int × Int) → Co (Ctl × Env)
  | .ok t => .ret (.next, env.set "sizes" (.list ((l ++ [t]).map sizeVal))) (emb out w)
  | .error x => .ret (.exc (embExc x), env) (emb out w)

/-- `sizes.append((...))` -/
theorem exec_size {R : Rt} {G : PyStr → Option Val} {env : Env} {l : List (PyStr × Int × Int)} {e : Expr}
    {q : Except Exc (PyStr × Int × Int)} (hs : env "sizes" = some (.list (l.map sizeVal)))
    (he : eval R G e env (emb out w) = embR out sizeVal (M.lift q w)) :
    exec R G none (.expr (.call (.attr (.name "sizes") py!"append") exprs![e] .nil)) env (emb out w) =
      sizeEnd out w env l q := by
  cases q with
  | ok t =>
    refine (exec_append_name hs he).trans ?_
    simp only [sizeEnd]
    simp only [List.map_append, List.map_cons, List.map_nil]
  | error x => exact exec_append_err (eval_name hs) he

theorem sizeT_plain {v : Nat × Nat} {t : PyStr × Int × Int} (ht : sizeT h v = .ok t) : plainText t.1 = true := by
  unfold sizeT at ht
  split at ht
  · cases hk : h.inst.intAttr py!"tstatlen" with
    | error e => rw [hk] at ht; cases ht
    | ok k => rw [hk] at ht; cases ht; first | exact plain_names py!"Header" (by decide) | exact plain_names py!"Record" (by decide) | exact plain_names py!"SStat" (by decide) | exact plain_names py!"TStat" (by decide) | exact plain_names py!"PStat" (by decide) | exact plain_names py!"CStat" (by decide)
  · cases hk : h.inst.intAttr py!"pstatlen" with
    | error e => rw [hk] at ht; cases ht
    | ok k => rw [hk] at ht; cases ht; first | exact plain_names py!"Header" (by decide) | exact plain_names py!"Record" (by decide) | exact plain_names py!"SStat" (by decide) | exact plain_names py!"TStat" (by decide) | exact plain_names py!"PStat" (by decide) | exact plain_names py!"CStat" (by decide)

theorem sizeC_plain {t : PyStr × Int × Int} (ht : sizeC h = .ok t) : plainText t.1 = true := by
  unfold sizeC at ht
  cases hk : h.inst.intAttr py!"cstatlen" with
  | error e => rw [hk] at ht; cases ht
  | ok k =>
    rw [hk] at ht
    cases hcs : h.cls.CStat with
    | none => rw [hcs] at ht; cases ht
    | some c => rw [hcs] at ht; cases ht; first | exact plain_names py!"Header" (by decide) | exact plain_names py!"Record" (by decide) | exact plain_names py!"SStat" (by decide) | exact plain_names py!"TStat" (by decide) | exact plain_names py!"PStat" (by decide) | exact plain_names py!"CStat" (by decide)

theorem base_plain {k1 k2 k3 : Int} : ∀ t ∈ sizeBase h k1 k2 k3, plainText t.1 = true := by
  intro t ht
  simp only [sizeBase, List.mem_cons, List.not_mem_nil, or_false] at ht
  rcases ht with rfl | rfl | rfl <;> first | exact plain_names py!"Header" (by decide) | exact plain_names py!"Record" (by decide) | exact plain_names py!"SStat" (by decide) | exact plain_names py!"TStat" (by decide) | exact plain_names py!"PStat" (by decide) | exact plain_names py!"CStat" (by decide)

/-- The last statement of `check_compatibility`. -/
theorem last_check {R : Rt} {G : PyStr → Option Val} {env : Env} {l : List (PyStr × Int × Int)}
    (hany : G py!"any" = none) (hve : G py!"ValueError" = none)
    (hs : env "sizes" = some (.list (l.map sizeVal))) (hp : ∀ t ∈ l, plainText t.1 = true) :
    Ends out (fun _ : Unit => .next) (execBlock R G none (block![
      .ifte (.call (.glob py!"any") exprs![(.genExp (.cmp .notEq (.sub (.name "size") (.const (.int 1)))
        (.sub (.name "size") (.const (.int 2)))) "size" (.name "sizes"))] .nil) block![
        .raise (.call (.glob py!"ValueError") exprs![(.fstr exprs![(.const (.str py!"File has incompatible Atop format. Struct length evaluations (type, found, expected): ")), (.fmt (.name "sizes"))])] .nil)] block![]]) env (emb out w))
      (M.lift (if l.any (fun p => p.2.1 != p.2.2) then .error (.valueError (.incompatible (incompatibleText l))) else .ok ()) w) := by
  have ha := eval_any (R := R) (w := emb out w) hany hs
  cases hb : l.any (fun p => p.2.1 != p.2.2) with
  | false =>
    rw [hb] at ha
    refine ⟨env, ?_⟩
    rw [block_next ((exec_if_false ha rfl).trans block_nil)]
    exact block_nil
  | true =>
    rw [hb] at ha
    refine ⟨env, ?_⟩
    have hm := eval_fstr (evalParts_cons (eval_const (R := R) (G := G) (.str py!"File has incompatible Atop format. Struct length evaluations (type, found, expected): ")
      env (emb out w)) (evalParts_cons (eval_fmt (eval_name hs) (toStr_sizes hp _)) evalParts_nil))
    have hr := (eval_call1 (eval_builtin hve rfl) hm).trans rfl
    have := exec_raise (cur := none) hr
    refine (block_exc ((exec_if_true ha rfl).trans (block_exc this))).trans ?_
    simp only [raised, incompatibleText, List.append_nil, List.append_assoc, embExc]

/-- `header.check_compatibility()` -/
theorem call_check (hh : w.header i = some h) (hc : h.cls ∈ versions) :
    callFn ((P).at (n + 3)) py!"atoparser.structs.shared" Text.HeaderMixin.check_compatibility [] [.hdr i] [] (emb out w) =
      embR out (fun _ => .none) ((do M.latch i; M.lift h.checkCompatibility : M Unit) w) := by
  refine call_ends_none (l := [("self", .hdr i)]) rfl (by decide +kernel) ?_
  have hR : ((P).at (n + 2)).globals = (P).globals := rfl
  have hG : (P).globals py!"atoparser.structs.shared" py!"ctypes" = some (.mod py!"ctypes") := rfl
  have hany : (P).globals py!"atoparser.structs.shared" py!"any" = none := rfl
  have hve : (P).globals py!"atoparser.structs.shared" py!"ValueError" = none := rfl
  obtain ⟨k1, hk1⟩ := base_int hc (h := h) (a := py!"rawheadlen") (by decide)
  obtain ⟨k2, hk2⟩ := base_int hc (h := h) (a := py!"rawreclen") (by decide)
  obtain ⟨k3, hk3⟩ := base_int hc (h := h) (a := py!"sstatlen") (by decide)
  have s1 := eval_size (out := out) hR hG (env := selfEnv i) rfl hh hc py!"Header" (a := py!"rawheadlen") (by decide)
    (hdr_dunder hR hh hc) (sz := .ok h.cls.size) rfl
  have s2 := eval_size (out := out) hR hG (env := selfEnv i) rfl hh hc py!"Record" (a := py!"rawreclen") (by decide)
    (hdr_class hR hh hc (a := py!"Record") (by decide) rfl) (sz := .ok h.cls.Record.size) rfl
  have s3 := eval_size (out := out) hR hG (env := selfEnv i) rfl hh hc py!"SStat" (a := py!"sstatlen") (by decide)
    (hdr_class hR hh hc (a := py!"SStat") (by decide) rfl) (sz := .ok h.cls.SStat.size) rfl
  rw [hk1] at s1
  rw [hk2] at s2
  rw [hk3] at s3
  have hbase := eval_list (evals_cons s1 (evals_cons s2 (evals_one s3)))
  let env1 : Env := (selfEnv i).set "sizes" (.list ((sizeBase h k1 k2 k3).map sizeVal))
  obtain ⟨v, hv, c1⟩ := eval_at_least (Z := Z) (fs := fs) (args := args) (n := n) (out := out)
    (G := (P).globals py!"atoparser.structs.shared") (env := env1) (x := "self") rfl hh hc 3
  obtain ⟨l1, -, -⟩ := latch_header hh
  have hc' : h.latched.cls ∈ versions := by rw [latched_cache hv]; exact hc
  have hin : h.latched.inst = h.inst := by rw [latched_cache hv]; rfl
  have hcl : h.latched.cls = h.cls := by rw [latched_cache hv]
  rw [M.bind_eq, latch_ok hh]
  dsimp only
  have hll := latch_latch hh hc
  generalize hw1 : (M.latch i w).2 = w1 at *
  -- the condition for the cgroup structure, with any local variables
  have c2 : ∀ env : Env, env "self" = some (.hdr i) → eval ((P).at (n + 2)) ((P).globals py!"atoparser.structs.shared")
      (.and (.cmp .gtE (.attr (.name "self") py!"major_version") (.const (.int 2)))
        (.cmp .gtE (.attr (.name "self") py!"minor_version") (.const (.int 11)))) env (emb out w1) =
      (.ok (.bool (decide (v.1 ≥ 2 ∧ v.2 ≥ 11))), emb out w1) := by
    intro env he
    obtain ⟨v', hv', c2⟩ := eval_at_least (Z := Z) (fs := fs) (args := args) (n := n) (out := out)
      (G := (P).globals py!"atoparser.structs.shared") (env := env) (x := "self") he l1 hc' 11
    rw [latched_cache hv] at hv'
    cases hv'
    rw [hll] at c2
    exact c2
  have hchk : h.checkCompatibility = (do
      let l ← h.sizeChecks
      if l.any (fun p => p.2.1 != p.2.2) then .error (.valueError (.incompatible (incompatibleText l))) else .ok ()) := rfl
  rw [hchk, sizeChecks_eq hv hk1 hk2 hk3]
  have st : eval ((P).at (n + 2)) ((P).globals py!"atoparser.structs.shared") (if v.1 ≥ 2 ∧ v.2 ≥ 3 then
      (.tuple exprs![(.const (.str py!"TStat")), (.attr (.name "self") py!"tstatlen"), (.call (.attr (.glob py!"ctypes") py!"sizeof") exprs![(.attr (.name "self") py!"TStat")] .nil)])
      else (.tuple exprs![(.const (.str py!"PStat")), (.attr (.name "self") py!"pstatlen"), (.call (.attr (.glob py!"ctypes") py!"sizeof") exprs![(.attr (.name "self") py!"TStat")] .nil)]))
      env1 (emb out w1) = embR out sizeVal (M.lift (sizeT h v) w1) := by
    unfold sizeT
    by_cases hcond : v.1 ≥ 2 ∧ v.2 ≥ 3
    · rw [if_pos hcond, if_pos hcond]
      rw [eval_size (out := out) hR hG (env := env1) rfl l1 hc' py!"TStat" (a := py!"tstatlen") (by decide)
        (hdr_class hR l1 hc' (a := py!"TStat") (by decide) rfl) (sz := .ok h.latched.cls.TStat.size) rfl, hin, hcl]
      cases h.inst.intAttr py!"tstatlen" <;> rfl
    · rw [if_neg hcond, if_neg hcond]
      rw [eval_size (out := out) hR hG (env := env1) rfl l1 hc' py!"PStat" (a := py!"pstatlen") (by decide)
        (hdr_class hR l1 hc' (a := py!"TStat") (by decide) rfl) (sz := .ok h.latched.cls.TStat.size) rfl, hin, hcl]
      cases h.inst.intAttr py!"pstatlen" <;> rfl
  have hx := exec_size (env := env1) (l := sizeBase h k1 k2 k3) rfl st
  have hif : exec ((P).at (n + 2)) ((P).globals py!"atoparser.structs.shared") none
      (.ifte (.and (.cmp .gtE (.attr (.name "self") py!"major_version") (.const (.int 2))) (.cmp .gtE (.attr (.name "self") py!"minor_version") (.const (.int 3)))) block![
        .expr (.call (.attr (.name "sizes") py!"append") exprs![(.tuple exprs![(.const (.str py!"TStat")), (.attr (.name "self") py!"tstatlen"), (.call (.attr (.glob py!"ctypes") py!"sizeof") exprs![(.attr (.name "self") py!"TStat")] .nil)])] .nil)] block![
        .expr (.call (.attr (.name "sizes") py!"append") exprs![(.tuple exprs![(.const (.str py!"PStat")), (.attr (.name "self") py!"pstatlen"), (.call (.attr (.glob py!"ctypes") py!"sizeof") exprs![(.attr (.name "self") py!"TStat")] .nil)])] .nil)])
      env1 (emb out w) = sizeEnd out w1 env1 (sizeBase h k1 k2 k3) (sizeT h v) := by
    by_cases hcond : v.1 ≥ 2 ∧ v.2 ≥ 3
    · rw [if_pos hcond] at hx
      refine (exec_if_true c1 (by simp [truth, hcond])).trans ?_
      cases hq : sizeT h v with
      | ok t => rw [hq] at hx; exact (block_next hx).trans block_nil
      | error e => rw [hq] at hx; exact block_exc hx
    · rw [if_neg hcond] at hx
      refine (exec_if_false c1 (by simp only [truth, hcond, decide_false])).trans ?_
      cases hq : sizeT h v with
      | ok t => rw [hq] at hx; exact (block_next hx).trans block_nil
      | error e => rw [hq] at hx; exact block_exc hx
  unfold Text.HeaderMixin.check_compatibility
  dsimp only
  refine Ends.of_eq (block_next (exec_assign hbase)) ?_
  cases hq : sizeT h v with
  | error e =>
    rw [hq] at hif
    exact ⟨_, block_exc hif⟩
  | ok t =>
    rw [hq] at hif
    refine Ends.of_eq (block_next hif) ?_
    let env2 : Env := env1.set "sizes" (.list ((sizeBase h k1 k2 k3 ++ [t]).map sizeVal))
    have hp2 : ∀ p ∈ sizeBase h k1 k2 k3 ++ [t], plainText p.1 = true := by
      intro p hp
      rcases List.mem_append.mp hp with hp | hp
      · exact base_plain p hp
      · rw [List.mem_singleton.mp hp]; exact sizeT_plain hq
    have c2' := c2 env2 rfl
    by_cases hcond : v.1 ≥ 2 ∧ v.2 ≥ 11
    · have sc : eval ((P).at (n + 2)) ((P).globals py!"atoparser.structs.shared")
          (.tuple exprs![(.const (.str py!"CStat")), (.attr (.name "self") py!"cstatlen"), (.call (.attr (.glob py!"ctypes") py!"sizeof") exprs![(.attr (.name "self") py!"CStat")] .nil)])
          env2 (emb out w1) = embR out sizeVal (M.lift (sizeC h) w1) := by
        unfold sizeC
        cases hcs : h.cls.CStat with
        | none =>
          rw [eval_size (out := out) hR hG (env := env2) rfl l1 hc' py!"CStat" (a := py!"cstatlen") (by decide)
            (hdr_class hR l1 hc' (a := py!"CStat") (by decide) (v := .none) (by rw [hcl]; unfold hclsAttr; rw [hcs]; rfl)) (sz := .error .typeError) rfl, hin]
          cases h.inst.intAttr py!"cstatlen" <;> rfl
        | some cs =>
          rw [eval_size (out := out) hR hG (env := env2) rfl l1 hc' py!"CStat" (a := py!"cstatlen") (by decide)
            (hdr_class hR l1 hc' (a := py!"CStat") (by decide) (v := .ctype cs) (by rw [hcl]; unfold hclsAttr; rw [hcs]; rfl)) (sz := .ok cs.size) rfl, hin]
          cases h.inst.intAttr py!"cstatlen" <;> rfl
      have hy := exec_size (env := env2) (l := sizeBase h k1 k2 k3 ++ [t]) rfl sc
      simp only [bind, Except.bind, pure, Except.pure, if_pos hcond]
      cases hq' : sizeC h with
      | error e =>
        rw [hq'] at hy
        exact ⟨_, block_exc ((exec_if_true c2' (by simp [truth, hcond])).trans (block_exc hy))⟩
      | ok c =>
        rw [hq'] at hy
        refine Ends.of_eq (block_next ((exec_if_true c2' (by simp [truth, hcond])).trans ((block_next hy).trans block_nil))) ?_
        refine last_check hany hve rfl ?_
        intro p hp
        rcases List.mem_append.mp hp with hp | hp
        · exact hp2 p hp
        · rw [List.mem_singleton.mp hp]; exact sizeC_plain hq'
    · simp only [bind, Except.bind, pure, Except.pure, if_neg hcond]
      refine Ends.of_eq (block_next ((exec_if_false c2' (by simp only [truth, hcond, decide_false])).trans block_nil)) ?_
      exact last_check hany hve rfl hp2

end
end Atop.Src
