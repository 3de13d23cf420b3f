import Verif.Source.Program
import Verif.Proofs.Paths
/-!
# Evaluating the source text: general facts
-/

namespace Atop.Src
open Spec

/-! ## Steps -/

theorem E.bind_eq {α β : Type} (m : E α) (f : α → E β) (w : W) : (m >>= f) w = (match m w with
    | (.ok a, w') => f a w'
    | (.error e, w') => (.error e, w')) := rfl

theorem E.bind_ok {α β : Type} {m : E α} {f : α → E β} {w w' : W} {a : α} (h : m w = (.ok a, w')) : (m >>= f) w = f a w' := by
  rw [E.bind_eq, h]

theorem E.bind_err {α β : Type} {m : E α} {f : α → E β} {w w' : W} {e : PExc} (h : m w = (.error e, w')) :
    (m >>= f) w = (.error e, w') := by
  rw [E.bind_eq, h]

theorem E.pure_eq {α : Type} (a : α) (w : W) : (Pure.pure a : E α) w = (.ok a, w) := rfl
theorem E.pure_eq' {α : Type} (a : α) (w : W) : (E.pure a : E α) w = (.ok a, w) := rfl

theorem withE_ok {α : Type} {m : E α} {env : Env} {f : α → W → Co (Ctl × Env)} {w w' : W} {a : α} (h : m w = (.ok a, w')) :
    withE m env f w = f a w' := by
  unfold withE; rw [h]

theorem withE_err {α : Type} {m : E α} {env : Env} {f : α → W → Co (Ctl × Env)} {w w' : W} {e : PExc} (h : m w = (.error e, w')) :
    withE m env f w = .ret (.exc e, env) w' := by
  unfold withE; rw [h]

theorem Env.set_same (env : Env) (x : String) (v : Val) : (env.set x v) x = some v := by simp [Env.set]
theorem Env.set_ne (env : Env) {x y : String} (v : Val) (h : y ≠ x) : (env.set x v) y = env y := by simp [Env.set, h]

section
variable {R : Rt} {G : PyStr → Option Val}

theorem eval_name {x : String} {env : Env} {v : Val} {w : W} (h : env x = some v) :
    eval R G (.name x) env w = (.ok v, w) := by
  simp only [eval, h]; rfl

theorem eval_attr {e : Expr} {a : PyStr} {env : Env} {v : Val} {w w' : W} (h : eval R G e env w = (.ok v, w')) :
    eval R G (.attr e a) env w = attrOf R v a w' := by
  simp only [eval]; exact E.bind_ok h

theorem eval_attr_err {e : Expr} {a : PyStr} {env : Env} {x : PExc} {w w' : W} (h : eval R G e env w = (.error x, w')) :
    eval R G (.attr e a) env w = (.error x, w') := by
  simp only [eval]; exact E.bind_err h

theorem eval_const (c : Const) (env : Env) (w : W) : eval R G (.const c) env w = (.ok (constVal c), w) := by
  simp only [eval]; rfl

theorem eval_glob {x : PyStr} {env : Env} {v : Val} {w : W} (h : G x = some v) : eval R G (.glob x) env w = (.ok v, w) := by
  simp only [eval, globOf, h]; rfl

theorem eval_builtin {x : PyStr} {env : Env} {b : Builtin} {w : W} (h : G x = none) (hb : builtinNamed x = some b) :
    eval R G (.glob x) env w = (.ok (.builtin b), w) := by
  simp only [eval, globOf, h, hb]; rfl

section
variable {env : Env} {w w1 w2 w3 : W}

theorem eval_call {f : Expr} {args : Exprs} {kws : Kws} {fv : Val} {av : List Val} {kv : List (String × Val)}
    (hf : eval R G f env w = (.ok fv, w1)) (ha : evals R G args env w1 = (.ok av, w2))
    (hk : evalKws R G kws env w2 = (.ok kv, w3)) : eval R G (.call f args kws) env w = callVal R fv av kv w3 := by
  simp only [eval]; rw [E.bind_ok hf, E.bind_ok ha, E.bind_ok hk]

theorem eval_call_fn_err {f : Expr} {args : Exprs} {kws : Kws} {x : PExc}
    (hf : eval R G f env w = (.error x, w1)) : eval R G (.call f args kws) env w = (.error x, w1) := by
  simp only [eval]; rw [E.bind_err hf]

theorem eval_call_args_err {f : Expr} {args : Exprs} {kws : Kws} {fv : Val} {x : PExc}
    (hf : eval R G f env w = (.ok fv, w1)) (ha : evals R G args env w1 = (.error x, w2)) :
    eval R G (.call f args kws) env w = (.error x, w2) := by
  simp only [eval]; rw [E.bind_ok hf, E.bind_err ha]

theorem evals_nil : evals R G .nil env w = (.ok [], w) := by simp only [evals]; rfl

theorem evals_cons {e : Expr} {r : Exprs} {v : Val} {vs : List Val} (h : eval R G e env w = (.ok v, w1))
    (hr : evals R G r env w1 = (.ok vs, w2)) : evals R G (.cons e r) env w = (.ok (v :: vs), w2) := by
  simp only [evals]; rw [E.bind_ok h, E.bind_ok hr]; rfl

theorem evals_one {e : Expr} {v : Val} (h : eval R G e env w = (.ok v, w1)) :
    evals R G (.cons e .nil) env w = (.ok [v], w1) := evals_cons h evals_nil

theorem evals_err {e : Expr} {r : Exprs} {x : PExc} (h : eval R G e env w = (.error x, w1)) :
    evals R G (.cons e r) env w = (.error x, w1) := by
  simp only [evals]; rw [E.bind_err h]

theorem evals_tail_err {e : Expr} {r : Exprs} {v : Val} {x : PExc} (h : eval R G e env w = (.ok v, w1))
    (hr : evals R G r env w1 = (.error x, w2)) : evals R G (.cons e r) env w = (.error x, w2) := by
  simp only [evals]; rw [E.bind_ok h, E.bind_err hr]

theorem evalKws_nil : evalKws R G .nil env w = (.ok [], w) := by simp only [evalKws]; rfl

theorem evalKws_cons {k : String} {e : Expr} {r : Kws} {v : Val} {vs : List (String × Val)} (h : eval R G e env w = (.ok v, w1))
    (hr : evalKws R G r env w1 = (.ok vs, w2)) : evalKws R G (.cons k e r) env w = (.ok ((k, v) :: vs), w2) := by
  simp only [evalKws]; rw [E.bind_ok h, E.bind_ok hr]; rfl

theorem eval_call1 {f a : Expr} {fv av : Val} (hf : eval R G f env w = (.ok fv, w1)) (ha : eval R G a env w1 = (.ok av, w2)) :
    eval R G (.call f (.cons a .nil) .nil) env w = callVal R fv [av] [] w2 :=
  eval_call hf (evals_one ha) evalKws_nil

theorem eval_call0 {f : Expr} {fv : Val} (hf : eval R G f env w = (.ok fv, w1)) :
    eval R G (.call f .nil .nil) env w = callVal R fv [] [] w1 := eval_call hf evals_nil evalKws_nil

theorem eval_bin {op : BinOp} {a b : Expr} {va vb : Val} (ha : eval R G a env w = (.ok va, w1))
    (hb : eval R G b env w1 = (.ok vb, w2)) : eval R G (.bin op a b) env w = binop op va vb w2 := by
  simp only [eval]; rw [E.bind_ok ha, E.bind_ok hb]

theorem eval_cmp {op : CmpOp} {a b : Expr} {va vb : Val} (ha : eval R G a env w = (.ok va, w1))
    (hb : eval R G b env w1 = (.ok vb, w2)) : eval R G (.cmp op a b) env w = cmpop op va vb w2 := by
  simp only [eval]; rw [E.bind_ok ha, E.bind_ok hb]

theorem eval_sub {a b : Expr} {va vb : Val} (ha : eval R G a env w = (.ok va, w1))
    (hb : eval R G b env w1 = (.ok vb, w2)) : eval R G (.sub a b) env w = getItem va vb w2 := by
  simp only [eval]; rw [E.bind_ok ha, E.bind_ok hb]

theorem eval_slice {a lo hi : Expr} {va vl vh : Val} (ha : eval R G a env w = (.ok va, w1))
    (hl : eval R G lo env w1 = (.ok vl, w2)) (hh : eval R G hi env w2 = (.ok vh, w3)) :
    eval R G (.slice a lo hi) env w = getSlice va vl vh w3 := by
  simp only [eval]; rw [E.bind_ok ha, E.bind_ok hl, E.bind_ok hh]

theorem eval_and_true {a b : Expr} {va : Val} (ha : eval R G a env w = (.ok va, w1)) (ht : truth va = true) :
    eval R G (.and a b) env w = eval R G b env w1 := by
  rw [eval, E.bind_ok ha, if_pos ht]

theorem eval_and_false {a b : Expr} {va : Val} (ha : eval R G a env w = (.ok va, w1)) (ht : truth va = false) :
    eval R G (.and a b) env w = (.ok va, w1) := by
  rw [eval, E.bind_ok ha, if_neg (by simp [ht])]; rfl

theorem eval_not {a : Expr} {va : Val} (ha : eval R G a env w = (.ok va, w1)) :
    eval R G (.not a) env w = (.ok (.bool (!truth va)), w1) := by
  rw [eval, E.bind_ok ha]; rfl

theorem eval_if_true {t a b : Expr} {v : Val} (h : eval R G t env w = (.ok v, w1)) (ht : truth v = true) :
    eval R G (.ifExp t a b) env w = eval R G a env w1 := by
  rw [eval, E.bind_ok h, if_pos ht]

theorem eval_if_false {t a b : Expr} {v : Val} (h : eval R G t env w = (.ok v, w1)) (ht : truth v = false) :
    eval R G (.ifExp t a b) env w = eval R G b env w1 := by
  rw [eval, E.bind_ok h, if_neg (by simp [ht])]

theorem eval_list {es : Exprs} {vs : List Val} (h : evals R G es env w = (.ok vs, w1)) :
    eval R G (.list es) env w = (.ok (.list vs), w1) := by
  rw [eval, E.bind_ok h]; rfl

theorem eval_tuple {es : Exprs} {vs : List Val} (h : evals R G es env w = (.ok vs, w1)) :
    eval R G (.tuple es) env w = (.ok (.tuple vs), w1) := by
  rw [eval, E.bind_ok h]; rfl

end

end

/-! ## Objects -/

/-- The type of the objects of a header class. -/
def headerTy (c : HeaderClass) : CType := .struct (py!"Header:" ++ c.supportedVersion) c.fields []

/-- The value stands for the object, in this state. -/
inductive Rep (w : W) : Val → PyObj → Prop
  | int (i : Int) : Rep w (.int i) (.int i)
  | float (b : Nat) : Rep w (.float b) (.float b)
  | bytes (b : Bytes) : Rep w (.bytes b) (.bytes b)
  | struct (c : PyStr) (fs : Fields) (l : List (PyStr × PyStr)) (blk off : Nat) :
    Rep w (.view (.struct c fs l) blk off) (.struct c fs l (mem w blk off (CType.struct c fs l).size))
  | array (e : CType) (n blk off : Nat) :
    Rep w (.view (.array e n) blk off) (.array e n (mem w blk off (CType.array e n).size))
  | hdr (i : Nat) (o : PHdr) (h : w.headers[i]? = some o) :
    Rep w (.hdr i) (pyItem (headerTy o.cls) (mem w o.blk 0 (headerTy o.cls).size))

theorem mem_slot {w : W} {blk off n o : Nat} {t : CType} (h : o + t.size ≤ n) :
    slot (mem w blk off n) o t = mem w blk (off + o) t.size := by
  unfold slot mem
  rw [List.drop_take, List.drop_drop, List.take_take, Nat.min_eq_left (by omega)]

theorem rep_item (w : W) (t : CType) (blk off : Nat) : Rep w (itemAt w t blk off) (pyItem t (mem w blk off t.size)) := by
  cases t with
  | int n s => simp only [itemAt, pyItem, CType.size]; exact .int _
  | float => simp only [itemAt, pyItem, CType.size]; exact .float _
  | char => simp only [itemAt, pyItem, CType.size]; exact .bytes _
  | array e n => exact .array e n blk off
  | struct c fs l => exact .struct c fs l blk off

theorem rep_field (w : W) (t : CType) (blk off : Nat) : Rep w (fieldAt w t blk off) (pyField t (mem w blk off t.size)) := by
  by_cases h : ∃ n, t = .array .char n
  · obtain ⟨n, rfl⟩ := h
    simp only [fieldAt, pyField, CType.size, Nat.mul_one]
    exact .bytes _
  · have h1 : fieldAt w t blk off = itemAt w t blk off := by
      unfold fieldAt
      split
      · exact absurd ⟨_, rfl⟩ h
      · rfl
    have h2 : pyField t (mem w blk off t.size) = pyItem t (mem w blk off t.size) := by
      unfold pyField
      split
      · exact absurd ⟨_, rfl⟩ h
      · rfl
    rw [h1, h2]; exact rep_item w t blk off

/-- A value and the object it stands for look the same in a dictionary. -/
theorem rep_toJ {w : W} {v : Val} {o : PyObj} (h : Rep w v o) : toJ v = o.toJ := by
  cases h <;> simp [toJ, PyObj.toJ, pyItem, headerTy]

theorem mem_mem {w : W} {blk off n o m : Nat} (h : o + m ≤ n) : ((mem w blk off n).drop o).take m = mem w blk (off + o) m := by
  unfold mem
  rw [List.drop_take, List.drop_drop, List.take_take, Nat.min_eq_left (by omega)]

/-- Reading a field of an object. -/
theorem rep_attr {R : Rt} {w : W} {v : Val} {T : CType} {m : Bytes} {a : PyStr} {o : Nat} {ft : CType}
    (h : Rep w v (pyItem T m)) (hg : T.good = true) (hp : place T a = some (o, ft)) :
    ∃ v', attrOf R v a w = (.ok v', w) ∧ Rep w v' (pyField ft (slot m o ft)) := by
  obtain ⟨c, fs, l, rfl, hl⟩ := place_struct hp
  have hin := ((good_inv hg).field hp).2.2.1
  generalize ho : pyItem (.struct c fs l) m = ob at h
  cases h with
  | int => simp [pyItem] at ho
  | float => simp [pyItem] at ho
  | bytes => simp [pyItem] at ho
  | array => simp [pyItem] at ho
  | struct c' fs' l' blk off =>
    simp only [pyItem, PyObj.struct.injEq] at ho
    obtain ⟨rfl, rfl, rfl, rfl⟩ := ho
    refine ⟨fieldAt w ft blk (off + o), ?_, ?_⟩
    · simp only [attrOf, viewAttr, hl]
    · rw [mem_slot hin]; exact rep_field w ft blk (off + o)
  | hdr i ob hh =>
    simp only [headerTy, pyItem, PyObj.struct.injEq] at ho
    obtain ⟨rfl, rfl, rfl, rfl⟩ := ho
    refine ⟨fieldAt w ft ob.blk o, ?_, ?_⟩
    · simp only [attrOf, hdrAttr, hh, hl]
    · rw [mem_slot hin, Nat.zero_add]
      exact rep_field w ft ob.blk o

section
variable {R : Rt} {G : PyStr → Option Val}

/-- `x.a.b.c` -/
def chain (e : Expr) (p : List PyStr) : Expr := p.foldl Expr.attr e

theorem chain_field : ∀ (p : List PyStr) (e : Expr) {env : Env} {w : W} {v : Val} {T ft : CType} {m : Bytes} {o : Nat},
    eval R G e env w = (.ok v, w) → Rep w v (pyItem T m) → T.good = true → p ≠ [] → resolve T p = some (o, ft) →
    ∃ v', eval R G (chain e p) env w = (.ok v', w) ∧ Rep w v' (pyField ft (slot m o ft))
  | [], _, _, _, _, _, _, _, _, _, _, _, h0, _ => absurd rfl h0
  | a :: p, e, env, w, v, T, ft, m, o, he, hr, hg, _, h => by
    rw [resolve] at h
    cases hp : place T a with
    | none => rw [hp] at h; simp at h
    | some q =>
      obtain ⟨o1, f1⟩ := q
      rw [hp] at h
      dsimp only at h
      cases hr2 : resolve f1 p with
      | none => rw [hr2] at h; simp at h
      | some q2 =>
        obtain ⟨o2, f2⟩ := q2
        rw [hr2] at h
        simp at h
        obtain ⟨rfl, rfl⟩ := h
        obtain ⟨v1, hv1, hrep⟩ := rep_attr (R := R) hr hg hp
        have he1 : eval R G (.attr e a) env w = (.ok v1, w) := (eval_attr he).trans hv1
        cases p with
        | nil =>
          simp [resolve] at hr2
          obtain ⟨rfl, rfl⟩ := hr2
          exact ⟨v1, he1, hrep⟩
        | cons b p =>
          obtain ⟨c1, fs1, l1, rfl⟩ := resolve_cons_struct hr2
          obtain ⟨c, fs, l, rfl, -⟩ := place_struct hp
          have hg1 := ((good_inv hg).field hp).2.1
          have hs := (size_le_of_resolve _ hg1 hr2).1
          obtain ⟨v', hv', hrep'⟩ := chain_field (b :: p) (.attr e a) he1 (T := .struct c1 fs1 l1) hrep hg1 (by simp) hr2
          refine ⟨v', hv', ?_⟩
          have : slot (slot m o1 (.struct c1 fs1 l1)) o2 f2 = slot m (o1 + o2) f2 := by
            unfold slot
            rw [List.drop_take, List.drop_drop, List.take_take, Nat.min_eq_left (by omega)]
          rw [← this]; exact hrep'

/-! ## Dictionary displays -/

/-- The value of an expression is what the model says, and evaluating it changes nothing. -/
def Entry (R : Rt) (G : PyStr → Option Val) (env : Env) (w : W) (e : Expr) (x : Except Exc JVal) : Prop :=
  match x with
  | .ok j => ∃ v, eval R G e env w = (.ok v, w) ∧ toJ v = j
  | .error ex => eval R G e env w = (.error (.sys ex), w)

/-- Entry by entry. -/
inductive Entries (R : Rt) (G : PyStr → Option Val) (env : Env) (w : W) : Items → List (PyStr × Except Exc JVal) → Prop
  | nil : Entries R G env w .nil []
  | cons {k e r x xs} : Entry R G env w e x → Entries R G env w r xs →
    Entries R G env w (.cons (.const (.str k)) e r) ((k, x) :: xs)

/-- The keys of a dictionary display. -/
def keysOf : Items → List PyStr
  | .cons (.const (.str k)) _ r => k :: keysOf r
  | _ => []

theorem Entries.keys {R : Rt} {G : PyStr → Option Val} {env : Env} {w : W} {its : Items}
    {xs : List (PyStr × Except Exc JVal)} (h : Entries R G env w its xs) : xs.map Prod.fst = keysOf its := by
  induction h with
  | nil => rfl
  | cons _ _ ih => simp only [List.map_cons, keysOf, ih]

theorem dictSet_new {k : PyStr} {v : Val} : ∀ {d : List (PyStr × Val)}, k ∉ d.map Prod.fst → dictSet k v d = d ++ [(k, v)]
  | [], _ => rfl
  | (k', v') :: d, h => by
    simp only [List.map_cons, List.mem_cons, not_or] at h
    rw [dictSet, if_neg (fun e => h.1 e.symm), dictSet_new h.2]; rfl

theorem toJkvs_append : ∀ (a b : List (PyStr × Val)), toJkvs (a ++ b) = toJkvs a ++ toJkvs b
  | [], _ => rfl
  | (k, v) :: a, b => by simp [toJkvs, toJkvs_append a b]

theorem toJs_map : ∀ (a : List Val), toJs a = a.map toJ
  | [] => rfl
  | v :: a => by simp [toJs, toJs_map a]

theorem toJkvs_map : ∀ (a : List (PyStr × Val)), toJkvs a = a.map fun p => (p.1, toJ p.2)
  | [] => rfl
  | (k, v) :: a => by simp [toJkvs, toJkvs_map a]

theorem evalItems_row {env : Env} {w : W} : ∀ {its : Items} {xs : List (PyStr × Except Exc JVal)}, Entries R G env w its xs →
    (xs.map Prod.fst).Nodup → ∀ (d : List (PyStr × Val)), (∀ k ∈ xs.map Prod.fst, k ∉ d.map Prod.fst) →
    match row xs with
    | .ok r => ∃ kvs, evalItems R G its d env w = (.ok (d ++ kvs), w) ∧ toJkvs kvs = r
    | .error e => evalItems R G its d env w = (.error (.sys e), w)
  | _, _, .nil, _, d, _ => by simp only [row]; exact ⟨[], by simp [evalItems, E.pure_eq'], rfl⟩
  | _, _, .cons (k := k) (e := e) (r := r) (x := x) (xs := xs) he hs, hnd, d, hd => by
    simp only [List.map_cons, List.nodup_cons] at hnd
    have hk : eval R G (.const (.str k)) env w = (.ok (.str k), w) := by simp only [eval]; rfl
    cases x with
    | error ex =>
      rw [row_err rfl]
      dsimp only
      rw [evalItems, E.bind_ok hk, E.bind_ok (show asKey (.str k) w = (.ok k, w) from rfl), E.bind_err he]
    | ok j =>
      obtain ⟨v, hv, hj⟩ := he
      have hstep : evalItems R G (.cons (.const (.str k)) e r) d env w = evalItems R G r (d ++ [(k, v)]) env w := by
        rw [evalItems, E.bind_ok hk, E.bind_ok (show asKey (.str k) w = (.ok k, w) from rfl), E.bind_ok hv,
          dictSet_new (hd k (by simp))]
      have ih := evalItems_row hs hnd.2 (d ++ [(k, v)]) (by
        intro k' hk'
        simp only [List.map_append, List.map_cons, List.map_nil, List.mem_append, List.mem_singleton, not_or]
        exact ⟨hd k' (by simp [hk']), fun e => hnd.1 (e ▸ hk')⟩)
      cases hrow : row xs with
      | error ex =>
        rw [hrow] at ih
        rw [row_skip rfl hrow]
        dsimp only at ih ⊢
        rw [hstep, ih]
      | ok r' =>
        rw [hrow] at ih
        rw [row_ok rfl hrow]
        obtain ⟨kvs, h1, h2⟩ := ih
        refine ⟨(k, v) :: kvs, ?_, ?_⟩
        · rw [hstep, h1, List.append_assoc]; rfl
        · simp [toJkvs, hj, h2]

end

/-- Going on after a `yield` that is the last statement of a block. -/
def resumed (env : Env) (x : Option PExc) (w : W) : Co (Ctl × Env) :=
  match x with
  | none => .ret (.next, env) w
  | some e => .ret (.exc e, env) w

/-- A block that ends with `yield`. -/
theorem yield_last (v : Val) (w : W) (env : Env) :
    (Co.yield v w fun x w' => match x with
      | none => .ret (Ctl.next, env) w'
      | some e => .ret (Ctl.exc e, env) w').bind (fun q w' => match q with
      | (Ctl.next, env') => .ret (Ctl.next, env') w'
      | q => .ret q w') = .yield v w (resumed env) := by
  show Co.yield v w _ = _
  congr 1
  funext x w'
  cases x <;> rfl

end Atop.Src
