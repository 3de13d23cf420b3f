import Verif.Proofs.SourceBase
/-!
# Executing the source text: general facts
-/

namespace Atop.Src

section
variable {R : Rt} {G : PyStr → Option Val} {cur : Option PExc} {env env' : Env} {w w' w1 w2 : W}

theorem block_nil : execBlock R G cur .nil env w = .ret (.next, env) w := by simp only [execBlock]

theorem block_next {s : Stmt} {r : Block} (h : exec R G cur s env w = .ret (.next, env') w') :
    execBlock R G cur (.cons s r) env w = execBlock R G cur r env' w' := by
  simp only [execBlock, h, Co.bind]

theorem block_exc {s : Stmt} {r : Block} {e : PExc} (h : exec R G cur s env w = .ret (.exc e, env') w') :
    execBlock R G cur (.cons s r) env w = .ret (.exc e, env') w' := by
  simp only [execBlock, h, Co.bind]

theorem block_ret {s : Stmt} {r : Block} {v : Val} (h : exec R G cur s env w = .ret (.ret v, env') w') :
    execBlock R G cur (.cons s r) env w = .ret (.ret v, env') w' := by
  simp only [execBlock, h, Co.bind]

theorem block_brk {s : Stmt} {r : Block} (h : exec R G cur s env w = .ret (.brk, env') w') :
    execBlock R G cur (.cons s r) env w = .ret (.brk, env') w' := by
  simp only [execBlock, h, Co.bind]

theorem exec_assign {x : String} {e : Expr} {v : Val} (h : eval R G e env w = (.ok v, w')) :
    exec R G cur (.assign (.name x) e) env w = .ret (.next, env.set x v) w' := by
  simp only [exec]
  exact withE_ok (by rw [E.bind_ok h]; rfl)

theorem exec_assign_err {t e : Expr} {x : PExc} (h : eval R G e env w = (.error x, w')) :
    exec R G cur (.assign t e) env w = .ret (.exc x, env) w' := by
  simp only [exec]
  exact withE_err (E.bind_err h)

theorem exec_store {t e : Expr} {v : Val} (h : eval R G e env w = (.ok v, w1)) (hs : store R G t v env w1 = (.ok env', w2)) :
    exec R G cur (.assign t e) env w = .ret (.next, env') w2 := by
  simp only [exec]
  exact withE_ok (by rw [E.bind_ok h]; exact hs)

theorem exec_store_err {t e : Expr} {v : Val} {x : PExc} (h : eval R G e env w = (.ok v, w1))
    (hs : store R G t v env w1 = (.error x, w2)) : exec R G cur (.assign t e) env w = .ret (.exc x, env) w2 := by
  simp only [exec]
  exact withE_err (by rw [E.bind_ok h]; exact hs)

theorem exec_unpack {xs : List String} {e : Expr} {v : Val} (h : eval R G e env w = (.ok v, w'))
    (ha : assignNames xs v env = some env') : exec R G cur (.unpack xs e) env w = .ret (.next, env') w' := by
  simp only [exec]
  rw [withE_ok h, ha]

theorem exec_expr {e : Expr} {v : Val} (ha : changeCall e = none) (h : eval R G e env w = (.ok v, w')) :
    exec R G cur (.expr e) env w = .ret (.next, env) w' := by
  simp only [exec, ha]
  exact withE_ok h

theorem exec_expr_err {e : Expr} {x : PExc} (ha : changeCall e = none) (h : eval R G e env w = (.error x, w')) :
    exec R G cur (.expr e) env w = .ret (.exc x, env) w' := by
  simp only [exec, ha]
  exact withE_err h

theorem exec_append {t a : Expr} {vs : List Val} {v : Val} (ht : eval R G t env w = (.ok (.list vs), w1))
    (h : eval R G a env w1 = (.ok v, w2)) (hs : store R G t (.list (vs ++ [v])) env w2 = (.ok env', w')) :
    exec R G cur (.expr (.call (.attr t py!"append") exprs![a] .nil)) env w = .ret (.next, env') w' := by
  simp only [exec, changeCall, if_true]
  exact withE_ok (by rw [E.bind_ok ht]; dsimp only; rw [E.bind_ok h]; exact hs)

theorem exec_append_err {t a : Expr} {vs : List Val} {x : PExc} (ht : eval R G t env w = (.ok (.list vs), w1))
    (h : eval R G a env w1 = (.error x, w2)) :
    exec R G cur (.expr (.call (.attr t py!"append") exprs![a] .nil)) env w = .ret (.exc x, env) w2 := by
  simp only [exec, changeCall, if_true]
  exact withE_err (by rw [E.bind_ok ht]; dsimp only; exact E.bind_err h)

/-- `x.add_argument(...)` for a local variable. -/
theorem exec_declare {x : String} {as : Exprs} {ks : Kws} {ds ds' : List Argparse.ArgDecl} {vs : List Val} {kvs : List (String × Val)}
    (hx : env x = some (.parser ds)) (ha : evals R G as env w = (.ok vs, w1)) (hk : evalKws R G ks env w1 = (.ok kvs, w'))
    (hd : declare ds vs kvs = some ds') :
    exec R G cur (.expr (.call (.attr (.name x) py!"add_argument") as ks)) env w = .ret (.next, env.set x (.parser ds')) w' := by
  have hc : changeCall (.call (.attr (.name x) py!"add_argument") as ks) = some (.declare (.name x) as ks) := rfl
  simp only [exec, hc]
  exact withE_ok (by rw [E.bind_ok (eval_name hx)]; dsimp only; rw [E.bind_ok ha, E.bind_ok hk, hd]; simp only [store]; rfl)

/-- `x.append(e)` for a local variable. -/
theorem exec_append_name {x : String} {a : Expr} {vs : List Val} {v : Val} (hx : env x = some (.list vs))
    (h : eval R G a env w = (.ok v, w')) : exec R G cur (.expr (.call (.attr (.name x) py!"append") exprs![a] .nil)) env w =
      .ret (.next, env.set x (.list (vs ++ [v]))) w' :=
  exec_append (eval_name hx) h (by simp only [store]; rfl)

theorem exec_aug {x : String} {op : BinOp} {e : Expr} {a b v : Val} (hx : env x = some a) (h : eval R G e env w = (.ok b, w'))
    (hb : binop op a b w' = (.ok v, w')) : exec R G cur (.aug x op e) env w = .ret (.next, env.set x v) w' := by
  simp only [exec]
  exact withE_ok (by rw [E.bind_ok (eval_name hx), E.bind_ok h]; exact hb)

theorem exec_if_true {t : Expr} {a b : Block} {v : Val} (h : eval R G t env w = (.ok v, w')) (ht : truth v = true) :
    exec R G cur (.ifte t a b) env w = execBlock R G cur a env w' := by
  simp only [exec]
  rw [withE_ok h, if_pos ht]

theorem exec_if_false {t : Expr} {a b : Block} {v : Val} (h : eval R G t env w = (.ok v, w')) (ht : truth v = false) :
    exec R G cur (.ifte t a b) env w = execBlock R G cur b env w' := by
  simp only [exec]
  rw [withE_ok h, if_neg (by simp [ht])]

theorem exec_if_err {t : Expr} {a b : Block} {x : PExc} (h : eval R G t env w = (.error x, w')) :
    exec R G cur (.ifte t a b) env w = .ret (.exc x, env) w' := by
  simp only [exec]
  exact withE_err h

theorem exec_ret {e : Expr} {v : Val} (h : eval R G e env w = (.ok v, w')) :
    exec R G cur (.ret e) env w = .ret (.ret v, env) w' := by
  simp only [exec]
  exact withE_ok h

theorem exec_raise {e : Expr} {v : Val} (h : eval R G e env w = (.ok v, w')) :
    exec R G cur (.raise e) env w = .ret (.exc (raised v), env) w' := by
  simp only [exec]
  exact withE_ok h

theorem exec_for_list {xs : List String} {it : Expr} {b : Block} {v : Val} {vs : List Val} (h : eval R G it env w = (.ok v, w'))
    (hng : ∀ m b args, v ≠ .gen m b args) (hi : items v w' = (.ok vs, w')) :
    exec R G cur (.for xs it b) env w = forList xs (execBlock R G cur b) vs env w' := by
  simp only [exec]
  rw [withE_ok h]
  split
  · exact absurd rfl (hng _ _ _)
  · exact withE_ok hi

theorem exec_for_gen {xs : List String} {it : Expr} {b : Block} {m : PyStr} {body : Block} {args : List (String × Val)}
    (h : eval R G it env w = (.ok (.gen m body args), w')) :
    exec R G cur (.for xs it b) env w = forGen xs (execBlock R G cur b) (R.run m body (envOf args) w') env := by
  simp only [exec]
  rw [withE_ok h]

theorem exec_for_err {xs : List String} {it : Expr} {b : Block} {x : PExc} (h : eval R G it env w = (.error x, w')) :
    exec R G cur (.for xs it b) env w = .ret (.exc x, env) w' := by
  simp only [exec]
  exact withE_err h

theorem eval_cmp_err {op : CmpOp} {a b : Expr} {x : PExc} (ha : eval R G a env w = (.error x, w1)) :
    eval R G (.cmp op a b) env w = (.error x, w1) := by
  simp only [eval]; exact E.bind_err ha

theorem eval_if_err {t a b : Expr} {x : PExc} (h : eval R G t env w = (.error x, w1)) :
    eval R G (.ifExp t a b) env w = (.error x, w1) := by
  rw [eval, E.bind_err h]

theorem evalParts_nil : evalParts R G .nil env w = (.ok [], w) := by simp only [evalParts]; rfl

theorem evalParts_cons {e : Expr} {r : Exprs} {s t : PyStr} (h : eval R G e env w = (.ok (.str s), w1))
    (hr : evalParts R G r env w1 = (.ok t, w2)) : evalParts R G (.cons e r) env w = (.ok (s ++ t), w2) := by
  have : (eval R G e env >>= asKey) w = (.ok s, w1) := by rw [E.bind_ok h]; rfl
  simp only [evalParts]
  rw [E.bind_ok h]
  show (asKey (.str s) >>= fun s => _) w1 = _
  rw [E.bind_ok (show asKey (.str s) w1 = (.ok s, w1) from rfl), E.bind_ok hr]
  rfl

theorem eval_fmt {e : Expr} {v : Val} {s : PyStr} (h : eval R G e env w = (.ok v, w1)) (hs : toStr v w1 = (.ok s, w1)) :
    eval R G (.fmt e) env w = (.ok (.str s), w1) := by
  rw [eval, E.bind_ok h, E.bind_ok hs]
  rfl

theorem eval_fstr {parts : Exprs} {s : PyStr} (h : evalParts R G parts env w = (.ok s, w1)) :
    eval R G (.fstr parts) env w = (.ok (.str s), w1) := by
  rw [eval, E.bind_ok h]
  rfl

theorem callBody_ret {m : PyStr} {body : Block} {v : Val} (h : R.run m body env w = .ret (.ret v, env') w') :
    callBody R m body env w = (.ok v, w') := by
  unfold callBody; rw [h]

theorem callBody_next {m : PyStr} {body : Block} (h : R.run m body env w = .ret (.next, env') w') :
    callBody R m body env w = (.ok .none, w') := by
  unfold callBody; rw [h]

theorem callBody_exc {m : PyStr} {body : Block} {e : PExc} (h : R.run m body env w = .ret (.exc e, env') w') :
    callBody R m body env w = (.error e, w') := by
  unfold callBody; rw [h]

end

theorem callFn_call {R : Rt} {m : PyStr} {f : FnDef} {ds as : List Val} {kws l : List (String × Val)} {w : W}
    (hb : bindArgs (withDefaults f.params ds) as kws = some l) (hy : f.body.yields = false) :
    callFn R m f ds as kws w = callBody R m f.body (envOf l) w := by
  unfold callFn; rw [hb]; simp only [hy]; rfl

theorem callFn_gen {R : Rt} {m : PyStr} {f : FnDef} {ds as : List Val} {kws l : List (String × Val)} {w : W}
    (hb : bindArgs (withDefaults f.params ds) as kws = some l) (hy : f.body.yields = true) :
    callFn R m f ds as kws w = (.ok (.gen m f.body l), w) := by
  unfold callFn; rw [hb]; simp only [hy]; rfl

theorem run_at (P : Rt) (n : Nat) (m : PyStr) (body : Block) (env : Env) (w : W) :
    (P.at (n + 1)).run m body env w = execBlock (P.at n) (P.globals m) none body env w := rfl

end Atop.Src
