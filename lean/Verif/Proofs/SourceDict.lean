import Verif.Proofs.SourceRead
/-!
# `struct_to_dict` from its source text
-/

namespace Atop.Src
open Atop.Spec
set_option maxRecDepth 20000

variable {Z : Zlib} {fs : FileSystem} {args : CommandLine}
local notation "P" => program Z fs args
local notation "GU" => Rt.globals (program Z fs args) py!"atoparser.utils"

/-- The body of the loop over `_fields_`. -/
def fieldBody : Block := block![
      .assign (.name "field_name") (.sub (.name "field") (.const (.int 0))),
      .assign (.name "field_data") (.call (.glob py!"getattr") exprs![(.name "struct"), (.name "field_name")] .nil),
      .ifte (.call (.glob py!"isinstance") exprs![(.name "field_data"), (.attr (.glob py!"ctypes") py!"Structure")] .nil) block![
        .assign (.sub (.name "struct_dict") (.name "field_name")) (.call (.glob py!"struct_to_dict") exprs![(.name "field_data")] .nil)] block![
        .ifte (.cmp .notIn (.const (.str py!"future")) (.name "field_name")) block![
          .ifte (.call (.glob py!"isinstance") exprs![(.name "field_data"), (.attr (.glob py!"ctypes") py!"Array")] .nil) block![
            .assign (.sub (.name "struct_dict") (.name "field_name")) (.list exprs![]),
            .assign (.name "limiters") (.call (.glob py!"getattr") exprs![(.name "struct"), (.const (.str py!"fields_limiters")), (.dict .nil)] .nil),
            .assign (.name "limiter") (.call (.attr (.name "limiters") py!"get") exprs![(.name "field_name")] .nil),
            .ifte (.name "limiter") block![
              .assign (.name "field_data") (.slice (.name "field_data") (.const .none) (.call (.glob py!"getattr") exprs![(.name "struct"), (.name "limiter")] .nil))] block![],
            .for ["sub_data"] (.name "field_data") block![
              .ifte (.call (.glob py!"isinstance") exprs![(.name "sub_data"), (.attr (.glob py!"ctypes") py!"Structure")] .nil) block![
                .expr (.call (.attr (.sub (.name "struct_dict") (.name "field_name")) py!"append") exprs![(.call (.glob py!"struct_to_dict") exprs![(.name "sub_data")] .nil)] .nil)] block![
                .expr (.call (.attr (.sub (.name "struct_dict") (.name "field_name")) py!"append") exprs![(.name "sub_data")] .nil)]]] block![
            .ifte (.call (.glob py!"isinstance") exprs![(.name "field_data"), (.glob py!"bytes")] .nil) block![
              .assign (.sub (.name "struct_dict") (.name "field_name")) (.call (.attr (.name "field_data") py!"decode") exprs![] (.cons "errors" (.const (.str py!"ignore")) <| .nil))] block![
              .assign (.sub (.name "struct_dict") (.name "field_name")) (.name "field_data")]]] block![]]]

/-- The loop over the items of an array. -/
def itemBody : Block := block![
              .ifte (.call (.glob py!"isinstance") exprs![(.name "sub_data"), (.attr (.glob py!"ctypes") py!"Structure")] .nil) block![
                .expr (.call (.attr (.sub (.name "struct_dict") (.name "field_name")) py!"append") exprs![(.call (.glob py!"struct_to_dict") exprs![(.name "sub_data")] .nil)] .nil)] block![
                .expr (.call (.attr (.sub (.name "struct_dict") (.name "field_name")) py!"append") exprs![(.name "sub_data")] .nil)]]

example : Text.Utils.struct_to_dict.body = block![
    .assign (.name "struct_dict") (.dict .nil),
    .for ["field"] (.attr (.name "struct") py!"_fields_") fieldBody,
    .ret (.name "struct_dict")] := rfl

/-! ## Expressions -/

/-- What `struct_to_dict` makes of an object. -/
def Conv (R : Rt) (w : W) (v u : Val) : Prop :=
  callFn R py!"atoparser.utils" Text.Utils.struct_to_dict [] [v] [] w = (.ok u, w)

variable {R : Rt} {w : W} {env : Env} {x : Val} {kvs : List (PyStr × Val)} {name : PyStr}

theorem eval_self {y : String} {v u : Val} (hy : env y = some v) (hc : Conv R w v u) :
    eval R GU (.call (.glob py!"struct_to_dict") exprs![(.name y)] .nil) env w = (.ok u, w) := by
  refine (eval_call1 (fv := .fn py!"atoparser.utils" Text.Utils.struct_to_dict []) (w1 := w) (eval_glob rfl) (eval_name hy)).trans ?_
  exact hc

/-- Is it an instance of `ctypes.Structure`? -/
def isStruct (v : Val) : Bool := isInstance v (.builtin .structure) == some true

theorem eval_ctypes (hR : R.globals = (P).globals) {a : PyStr} {b : Builtin} (ha : modAttr (P) py!"ctypes" a = E.pure (.builtin b)) :
    eval R GU (.attr (.glob py!"ctypes") a) env w = (.ok (.builtin b), w) := by
  refine (eval_attr (eval_glob (v := .mod py!"ctypes") rfl)).trans ?_
  show modAttr R py!"ctypes" a w = _
  have : modAttr R py!"ctypes" a = modAttr (P) py!"ctypes" a := by unfold modAttr; rw [hR]
  rw [this, ha]
  rfl

theorem eval_isinst {y : String} {v : Val} {b : Builtin} {e : Expr} {r : Bool} (hy : env y = some v)
    (he : eval R GU e env w = (.ok (.builtin b), w)) (hi : isInstance v (.builtin b) = some r) :
    eval R GU (.call (.glob py!"isinstance") exprs![(.name y), e] .nil) env w = (.ok (.bool r), w) := by
  refine (eval_call (fv := .builtin .isinstance) (eval_builtin rfl rfl) (evals_cons (eval_name hy) (evals_one he)) evalKws_nil).trans ?_
  show (match isInstance v (.builtin b) with | some r => E.pure (.bool r) | none => E.stuck : E Val) w = _
  rw [hi]
  rfl

theorem store_key {v : Val} (hd : env "struct_dict" = some (.dict kvs)) (hn : env "field_name" = some (.str name)) :
    store R GU (.sub (.name "struct_dict") (.name "field_name")) v env w = (.ok (env.set "struct_dict" (.dict (dictSet name v kvs))), w) := by
  rw [store, E.bind_ok (eval_name hd), E.bind_ok (eval_name hn)]
  rfl

theorem dictSet_last {k : PyStr} {u v : Val} : ∀ {d : List (PyStr × Val)}, k ∉ d.map Prod.fst → dictSet k v (d ++ [(k, u)]) = d ++ [(k, v)]
  | [], _ => by simp [dictSet]
  | (k', v') :: d, h => by
    simp only [List.map_cons, List.mem_cons, not_or] at h
    have h1 : ¬ k' = k := fun e => h.1 e.symm
    rw [List.cons_append, dictSet, if_neg h1, dictSet_last h.2]
    rfl

theorem lookup_last {k : PyStr} {u : Val} : ∀ {d : List (PyStr × Val)}, k ∉ d.map Prod.fst → (d ++ [(k, u)]).lookup k = some u
  | [], _ => by simp
  | (k', v') :: d, h => by
    simp only [List.map_cons, List.mem_cons, not_or] at h
    have h1 : (k == k') = false := by simpa using h.1
    rw [List.cons_append, List.lookup_cons, h1]
    exact lookup_last h.2

/-! ## The items of an array -/

/-- What the items become: structures are converted, everything else stays. -/
inductive Convs (R : Rt) (w : W) : List Val → List Val → Prop
  | nil : Convs R w [] []
  | struct {v u vs us} : isInstance v (.builtin .structure) = some true → Conv R w v u → Convs R w vs us → Convs R w (v :: vs) (u :: us)
  | plain {v vs us} : isInstance v (.builtin .structure) = some false → Convs R w vs us → Convs R w (v :: vs) (v :: us)

theorem item_round (hR : R.globals = (P).globals) {v u : Val} {acc : List Val}
    (hd : env "struct_dict" = some (.dict (kvs ++ [(name, .list acc)]))) (hn : env "field_name" = some (.str name))
    (hs : env "sub_data" = some v) (hk : name ∉ kvs.map Prod.fst)
    (h : (isInstance v (.builtin .structure) = some true ∧ Conv R w v u) ∨ (isInstance v (.builtin .structure) = some false ∧ u = v)) :
    execBlock R GU none itemBody env w = .ret (.next, env.set "struct_dict" (.dict (kvs ++ [(name, .list (acc ++ [u]))]))) w := by
  have hsub : eval R GU (.sub (.name "struct_dict") (.name "field_name")) env w = (.ok (.list acc), w) := by
    refine (eval_sub (eval_name hd) (eval_name hn)).trans ?_
    show (match (kvs ++ [(name, Val.list acc)]).lookup name with | some v => E.pure v | none => E.sys .keyError : E Val) w = _
    rw [lookup_last hk]
    rfl
  have hst := store_key (R := R) (w := w) (Z := Z) (fs := fs) (args := args) (v := .list (acc ++ [u])) hd hn
  rw [dictSet_last hk] at hst
  unfold itemBody
  rcases h with ⟨hi, hc⟩ | ⟨hi, rfl⟩
  · refine (block_next ((exec_if_true (eval_isinst hs (eval_ctypes hR rfl) hi) rfl).trans ?_)).trans block_nil
    exact (block_next (exec_append hsub (eval_self hs hc) hst)).trans block_nil
  · refine (block_next ((exec_if_false (eval_isinst hs (eval_ctypes hR rfl) hi) rfl).trans ?_)).trans block_nil
    exact (block_next (exec_append hsub (eval_name hs) hst)).trans block_nil

theorem item_loop (hR : R.globals = (P).globals) (hk : name ∉ kvs.map Prod.fst) {vs us : List Val} (h : Convs R w vs us) :
    ∀ (acc : List Val) (env : Env), env "struct_dict" = some (.dict (kvs ++ [(name, .list acc)])) → env "field_name" = some (.str name) →
      env "struct" = some x →
    ∃ env', forList ["sub_data"] (execBlock R GU none itemBody) vs env w = .ret (.next, env') w ∧
      env' "struct" = some x ∧ env' "struct_dict" = some (.dict (kvs ++ [(name, .list (acc ++ us))])) := by
  induction h with
  | nil => intro acc env hd _ hx; exact ⟨env, rfl, hx, by simpa using hd⟩
  | @struct v u vs us hi hc _ ih =>
    intro acc env hd hn hx
    obtain ⟨env', h1, h2, h3⟩ := ih (acc ++ [u]) ((env.set "sub_data" v).set "struct_dict" (.dict (kvs ++ [(name, .list (acc ++ [u]))]))) rfl hn hx
    refine ⟨env', ?_, h2, by simpa using h3⟩
    show ((execBlock R GU none itemBody (env.set "sub_data" v) w).bind _) = _
    rw [item_round (env := env.set "sub_data" v) hR (u := u) hd hn rfl hk (Or.inl ⟨hi, hc⟩)]
    exact h1
  | @plain v vs us hi _ ih =>
    intro acc env hd hn hx
    obtain ⟨env', h1, h2, h3⟩ := ih (acc ++ [v]) ((env.set "sub_data" v).set "struct_dict" (.dict (kvs ++ [(name, .list (acc ++ [v]))]))) rfl hn hx
    refine ⟨env', ?_, h2, by simpa using h3⟩
    show ((execBlock R GU none itemBody (env.set "sub_data" v) w).bind _) = _
    rw [item_round (env := env.set "sub_data" v) hR (u := v) hd hn rfl hk (Or.inr ⟨hi, rfl⟩)]
    exact h1

/-! ## One field -/

/-- The items of an array that are shown: all, or those up to the limit. -/
def Limited (R : Rt) (w : W) (x : Val) (name : PyStr) (all shown : List Val) : Prop :=
  (attrOf R x py!"fields_limiters" w = (.error (.sys .attributeError), w) ∧ shown = all) ∨
  ∃ d, attrOf R x py!"fields_limiters" w = (.ok (.dict d), w) ∧
    ((d.lookup name = none ∧ shown = all) ∨
      ∃ lim k, d.lookup name = some (.str lim) ∧ lim ≠ [] ∧ attrOf R x lim w = (.ok (.int k), w) ∧ shown = sliceList all none (some k))

/-- What a field adds to the dictionary. -/
inductive Adds (R : Rt) (w : W) (x : Val) (name : PyStr) : Val → List (PyStr × Val) → Prop
  | struct {v u} : isInstance v (.builtin .structure) = some true → Conv R w v u → Adds R w x name v [(name, u)]
  | future {v} : isInstance v (.builtin .structure) = some false → isFuture name = true → Adds R w x name v []
  | array {e n blk off vs us} : isFuture name = false → e ≠ .char → Limited R w x name (arrayItems w e n blk off) vs → Convs R w vs us →
    Adds R w x name (.view (.array e n) blk off) [(name, .list us)]
  | bytes {b} : isFuture name = false → Adds R w x name (.bytes b) [(name, .str (decodeIgnore b))]
  | int {i} : isFuture name = false → Adds R w x name (.int i) [(name, .int i)]
  | float {i} : isFuture name = false → Adds R w x name (.float i) [(name, .float i)]

theorem eval_future (hn : env "field_name" = some (.str name)) :
    eval R GU (.cmp .notIn (.const (.str py!"future")) (.name "field_name")) env w = (.ok (.bool (!isFuture name)), w) :=
  (eval_cmp (eval_const _ _ _) (eval_name hn)).trans rfl

theorem field_round (hR : R.globals = (P).globals) {v ty : Val} {new : List (PyStr × Val)}
    (hx : env "struct" = some x) (hd : env "struct_dict" = some (.dict kvs)) (hf : env "field" = some (.tuple [.str name, ty]))
    (hk : name ∉ kvs.map Prod.fst) (ha : attrOf R x name w = (.ok v, w)) (h : Adds R w x name v new) :
    ∃ env', execBlock R GU none fieldBody env w = .ret (.next, env') w ∧ env' "struct" = some x ∧
      env' "struct_dict" = some (.dict (kvs ++ new)) := by
  unfold fieldBody
  have e1 : eval R GU (.sub (.name "field") (.const (.int 0))) env w = (.ok (.str name), w) :=
    (eval_sub (eval_name hf) (eval_const _ _ _)).trans rfl
  have hx1 : (env.set "field_name" (.str name)) "struct" = some x := hx
  have hd1 : (env.set "field_name" (.str name)) "struct_dict" = some (.dict kvs) := hd
  have hn1 : (env.set "field_name" (.str name)) "field_name" = some (.str name) := rfl
  have e2 : eval R GU (.call (.glob py!"getattr") exprs![(.name "struct"), (.name "field_name")] .nil) (env.set "field_name" (.str name)) w = (.ok v, w) :=
    (eval_call (fv := .builtin .getattr) (eval_builtin rfl rfl) (evals_cons (eval_name hx1) (evals_one (eval_name hn1))) evalKws_nil).trans ha
  rw [block_next (exec_assign e1), block_next (exec_assign e2)]
  have hx2 : ((env.set "field_name" (.str name)).set "field_data" v) "struct" = some x := hx
  have hd2 : ((env.set "field_name" (.str name)).set "field_data" v) "struct_dict" = some (.dict kvs) := hd
  have hn2 : ((env.set "field_name" (.str name)).set "field_data" v) "field_name" = some (.str name) := rfl
  have hv2 : ((env.set "field_name" (.str name)).set "field_data" v) "field_data" = some v := rfl
  generalize (env.set "field_name" (.str name)).set "field_data" v = env2 at hx2 hd2 hn2 hv2 ⊢
  have hstore : ∀ (u : Val), store R GU (.sub (.name "struct_dict") (.name "field_name")) u env2 w =
      (.ok (env2.set "struct_dict" (.dict (kvs ++ [(name, u)]))), w) := by
    intro u
    rw [store_key hd2 hn2, dictSet_new hk]
  cases h with
  | @struct _ u hi hc =>
    refine ⟨env2.set "struct_dict" (.dict (kvs ++ [(name, u)])), (block_next ((exec_if_true (eval_isinst hv2 (eval_ctypes hR rfl) hi) rfl).trans ?_)).trans block_nil, ?_⟩
    · exact (block_next (exec_store (eval_self hv2 hc) (hstore _))).trans block_nil
    · exact ⟨hx2, rfl⟩
  | future hi hfu =>
    refine ⟨env2, (block_next ((exec_if_false (eval_isinst hv2 (eval_ctypes hR rfl) hi) rfl).trans ?_)).trans block_nil, hx2, by simpa using hd2⟩
    refine (block_next ((exec_if_false (eval_future hn2) ?_).trans block_nil)).trans block_nil
    rw [hfu]; rfl
  | bytes hfu =>
    refine ⟨env2.set "struct_dict" (.dict (kvs ++ [(name, .str _)])), (block_next ((exec_if_false (eval_isinst hv2 (eval_ctypes hR rfl) rfl) rfl).trans ?_)).trans block_nil, hx2, rfl⟩
    refine (block_next ((exec_if_true (eval_future hn2) (by rw [hfu]; rfl)).trans ?_)).trans block_nil
    refine (block_next ((exec_if_false (eval_isinst hv2 (eval_ctypes hR rfl) rfl) rfl).trans ?_)).trans block_nil
    refine (block_next ((exec_if_true (eval_isinst hv2 (eval_builtin rfl rfl) rfl) rfl).trans ?_)).trans block_nil
    refine (block_next (exec_store ?_ (hstore _))).trans block_nil
    exact (eval_call (fv := .method (.bytes _) .decode) ((eval_attr (eval_name hv2)).trans rfl) evals_nil (evalKws_cons (eval_const _ _ _) evalKws_nil)).trans rfl
  | int hfu =>
    refine ⟨env2.set "struct_dict" (.dict (kvs ++ [(name, .int _)])), (block_next ((exec_if_false (eval_isinst hv2 (eval_ctypes hR rfl) rfl) rfl).trans ?_)).trans block_nil, hx2, rfl⟩
    refine (block_next ((exec_if_true (eval_future hn2) (by rw [hfu]; rfl)).trans ?_)).trans block_nil
    refine (block_next ((exec_if_false (eval_isinst hv2 (eval_ctypes hR rfl) rfl) rfl).trans ?_)).trans block_nil
    refine (block_next ((exec_if_false (eval_isinst hv2 (eval_builtin rfl rfl) rfl) rfl).trans ?_)).trans block_nil
    exact (block_next (exec_store (eval_name hv2) (hstore _))).trans block_nil
  | float hfu =>
    refine ⟨env2.set "struct_dict" (.dict (kvs ++ [(name, .float _)])), (block_next ((exec_if_false (eval_isinst hv2 (eval_ctypes hR rfl) rfl) rfl).trans ?_)).trans block_nil, hx2, rfl⟩
    refine (block_next ((exec_if_true (eval_future hn2) (by rw [hfu]; rfl)).trans ?_)).trans block_nil
    refine (block_next ((exec_if_false (eval_isinst hv2 (eval_ctypes hR rfl) rfl) rfl).trans ?_)).trans block_nil
    refine (block_next ((exec_if_false (eval_isinst hv2 (eval_builtin rfl rfl) rfl) rfl).trans ?_)).trans block_nil
    exact (block_next (exec_store (eval_name hv2) (hstore _))).trans block_nil
  | @array e n blk off vs us hfu he hl hc =>
    -- the limiter
    have hlim : ∃ lv fd, (∀ env3 : Env, env3 "struct" = some x → env3 "field_name" = some (.str name) → env3 "field_data" = some (.view (.array e n) blk off) →
        ∃ ds, eval R GU (.call (.glob py!"getattr") exprs![(.name "struct"), (.const (.str py!"fields_limiters")), (.dict .nil)] .nil) env3 w = (.ok (.dict ds), w) ∧
          (ds.lookup name).getD .none = lv) ∧
        items fd w = (.ok vs, w) ∧ (∀ m b a, fd ≠ .gen m b a) ∧
        ((truth lv = false ∧ fd = .view (.array e n) blk off) ∨ (∃ lim k, lv = .str lim ∧ lim ≠ [] ∧ attrOf R x lim w = (.ok (.int k), w) ∧
          fd = .list vs ∧ vs = sliceList (arrayItems w e n blk off) none (some k))) := by
      have hget : ∀ (env3 : Env), env3 "struct" = some x →
          eval R GU (.call (.glob py!"getattr") exprs![(.name "struct"), (.const (.str py!"fields_limiters")), (.dict .nil)] .nil) env3 w =
          (match attrOf R x py!"fields_limiters" w with
            | (.error (.sys .attributeError), w') => (.ok (.dict []), w')
            | r => r) := by
        intro env3 h3
        have hdict : eval R GU (.dict .nil) env3 w = (.ok (.dict []), w) := by simp only [eval, evalItems]; rfl
        exact (eval_call (fv := .builtin .getattr) (eval_builtin rfl rfl) (evals_cons (eval_name h3) (evals_cons (eval_const _ _ _) (evals_one hdict))) evalKws_nil).trans rfl
      rcases hl with ⟨h1, rfl⟩ | ⟨d, h1, h2⟩
      · refine ⟨.none, .view (.array e n) blk off, ?_, rfl, by intros; simp, Or.inl ⟨rfl, rfl⟩⟩
        intro env3 h3 _ _
        exact ⟨[], by rw [hget env3 h3, h1], rfl⟩
      · rcases h2 with ⟨h2, rfl⟩ | ⟨lim, k, h2, hne, h3, rfl⟩
        · refine ⟨.none, .view (.array e n) blk off, ?_, rfl, by intros; simp, Or.inl ⟨rfl, rfl⟩⟩
          intro env3 h3 _ _
          exact ⟨d, by rw [hget env3 h3, h1], by rw [h2]; rfl⟩
        · refine ⟨.str lim, .list _, ?_, rfl, by intros; simp, Or.inr ⟨lim, k, rfl, hne, h3, rfl, rfl⟩⟩
          intro env3 h3 _ _
          exact ⟨d, by rw [hget env3 h3, h1], by rw [h2]; rfl⟩
    obtain ⟨lv, fd, hg, hit, hng, hcase⟩ := hlim
    -- the statements
    suffices hs : ∃ env', execBlock R GU none block![
            .assign (.sub (.name "struct_dict") (.name "field_name")) (.list exprs![]),
            .assign (.name "limiters") (.call (.glob py!"getattr") exprs![(.name "struct"), (.const (.str py!"fields_limiters")), (.dict .nil)] .nil),
            .assign (.name "limiter") (.call (.attr (.name "limiters") py!"get") exprs![(.name "field_name")] .nil),
            .ifte (.name "limiter") block![
              .assign (.name "field_data") (.slice (.name "field_data") (.const .none) (.call (.glob py!"getattr") exprs![(.name "struct"), (.name "limiter")] .nil))] block![],
            .for ["sub_data"] (.name "field_data") itemBody] env2 w = .ret (.next, env') w ∧ env' "struct" = some x ∧
        env' "struct_dict" = some (.dict (kvs ++ [(name, .list us)])) by
      obtain ⟨env', h1, h2, h3⟩ := hs
      refine ⟨env', (block_next ((exec_if_false (eval_isinst hv2 (eval_ctypes hR rfl) rfl) rfl).trans ?_)).trans block_nil, h2, h3⟩
      refine (block_next ((exec_if_true (eval_future hn2) (by rw [hfu]; rfl)).trans ?_)).trans block_nil
      exact (block_next ((exec_if_true (eval_isinst hv2 (eval_ctypes hR rfl) rfl) rfl).trans h1)).trans block_nil
    have enil : eval R GU (.list exprs![]) env2 w = (.ok (.list []), w) := eval_list evals_nil
    rw [block_next (exec_store enil (hstore _))]
    have hx3 : (env2.set "struct_dict" (.dict (kvs ++ [(name, .list [])]))) "struct" = some x := hx2
    have hd3 : (env2.set "struct_dict" (.dict (kvs ++ [(name, .list [])]))) "struct_dict" = some (.dict (kvs ++ [(name, .list [])])) := rfl
    have hn3 : (env2.set "struct_dict" (.dict (kvs ++ [(name, .list [])]))) "field_name" = some (.str name) := hn2
    have hv3 : (env2.set "struct_dict" (.dict (kvs ++ [(name, .list [])]))) "field_data" = some (.view (.array e n) blk off) := hv2
    generalize env2.set "struct_dict" (.dict (kvs ++ [(name, .list [])])) = env3 at hx3 hd3 hn3 hv3 ⊢
    obtain ⟨ds, hds, hlk⟩ := hg env3 hx3 hn3 hv3
    rw [block_next (exec_assign hds)]
    have eget : eval R GU (.call (.attr (.name "limiters") py!"get") exprs![(.name "field_name")] .nil) (env3.set "limiters" (.dict ds)) w = (.ok lv, w) := by
      have hn4 : (env3.set "limiters" (.dict ds)) "field_name" = some (.str name) := hn3
      refine (eval_call1 (fv := .method (.dict ds) .get) (w1 := w) ((eval_attr (eval_name rfl)).trans rfl) (eval_name hn4)).trans ?_
      rw [← hlk]
      rfl
    rw [block_next (exec_assign eget)]
    have hx5 : ((env3.set "limiters" (.dict ds)).set "limiter" lv) "struct" = some x := hx3
    have hd5 : ((env3.set "limiters" (.dict ds)).set "limiter" lv) "struct_dict" = some (.dict (kvs ++ [(name, .list [])])) := hd3
    have hn5 : ((env3.set "limiters" (.dict ds)).set "limiter" lv) "field_name" = some (.str name) := hn3
    have hv5 : ((env3.set "limiters" (.dict ds)).set "limiter" lv) "field_data" = some (.view (.array e n) blk off) := hv3
    have hl5 : ((env3.set "limiters" (.dict ds)).set "limiter" lv) "limiter" = some lv := rfl
    generalize (env3.set "limiters" (.dict ds)).set "limiter" lv = env5 at hx5 hd5 hn5 hv5 hl5 ⊢
    have hif : ∃ env6, exec R GU none (.ifte (.name "limiter") block![
              .assign (.name "field_data") (.slice (.name "field_data") (.const .none) (.call (.glob py!"getattr") exprs![(.name "struct"), (.name "limiter")] .nil))] block![]) env5 w = .ret (.next, env6) w ∧
          env6 "struct" = some x ∧ env6 "struct_dict" = some (.dict (kvs ++ [(name, .list [])])) ∧ env6 "field_name" = some (.str name) ∧
          env6 "field_data" = some fd := by
      rcases hcase with ⟨ht, rfl⟩ | ⟨lim, k, rfl, hne, hat, rfl, hvs⟩
      · exact ⟨env5, (exec_if_false (eval_name hl5) ht).trans block_nil, hx5, hd5, hn5, hv5⟩
      · refine ⟨env5.set "field_data" (.list vs), (exec_if_true (eval_name hl5) (by cases lim with | nil => exact absurd rfl hne | cons => rfl)).trans
          ((block_next (exec_assign ?_)).trans block_nil), hx5, hd5, hn5, rfl⟩
        have eg : eval R GU (.call (.glob py!"getattr") exprs![(.name "struct"), (.name "limiter")] .nil) env5 w = (.ok (.int k), w) :=
          (eval_call (fv := .builtin .getattr) (eval_builtin rfl rfl) (evals_cons (eval_name hx5) (evals_one (eval_name hl5))) evalKws_nil).trans hat
        refine (eval_slice (eval_name hv5) (eval_const _ _ _) eg).trans ?_
        rw [hvs]
        cases e with
        | char => exact absurd rfl he
        | _ => rfl
    obtain ⟨env6, h6, hx6, hd6, hn6, hv6⟩ := hif
    rw [block_next h6]
    obtain ⟨env', hloop, hx', hd'⟩ := item_loop (x := x) hR hk hc [] env6 hd6 hn6 hx6
    refine ⟨env', (block_next ?_).trans block_nil, hx', hd'⟩
    exact (exec_for_list (eval_name hv6) hng hit).trans hloop

end Atop.Src
