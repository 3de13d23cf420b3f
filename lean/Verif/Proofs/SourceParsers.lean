import Verif.Proofs.SourceRows
/-!
# The generators of atoparser/parsers/atop_1_26.py
-/

namespace Atop.Src
open Spec

/-- The local variable `x` holds an object of type `T`, which the model calls `o`. -/
def Holds (env : Env) (w : W) (x : String) (o : PyObj) (T : CType) : Prop :=
  T.good = true ∧ ∃ v m, env x = some v ∧ Rep w v (pyItem T m) ∧ o = pyItem T m

/-- The path leads to an integer. -/
def intAt (T : CType) (p : List PyStr) : Bool :=
  match resolve T p with
  | some (_, .int _ _) => true
  | _ => false

/-- The path leads to a text or a character. -/
def textAt (T : CType) (p : List PyStr) : Bool :=
  match resolve T p with
  | some (_, .array .char _) => true
  | some (_, .char) => true
  | _ => false

section
variable {R : Rt} {G : PyStr → Option Val} {env : Env} {w : W} {x : String} {o : PyObj} {T : CType}

theorem holds_path (h : Holds env w x o T) (p : List PyStr) (hp : p ≠ []) (hc : (resolve T p).isSome = true) :
    ∃ v ob, eval R G (chain (.name x) p) env w = (.ok v, w) ∧ Rep w v ob ∧ o.path p = .ok ob ∧
      ∃ q m, resolve T p = some q ∧ ob = pyField q.2 m := by
  obtain ⟨hg, v, m, hx, hr, rfl⟩ := h
  cases hq : resolve T p with
  | none => rw [hq] at hc; cases hc
  | some q =>
    obtain ⟨off, ft⟩ := q
    obtain ⟨v', h1, h2⟩ := chain_field (R := R) (G := G) p (.name x) (eval_name hx) hr hg hp hq
    exact ⟨v', _, h1, h2, path_resolve p m hg hp hq, _, _, rfl, rfl⟩

theorem entry_get (h : Holds env w x o T) (p : List PyStr) (hp : p ≠ []) (hc : (resolve T p).isSome = true) :
    Entry R G env w (chain (.name x) p) (get o p) := by
  obtain ⟨v, ob, h1, h2, h3, -⟩ := holds_path (R := R) (G := G) h p hp hc
  have : get o p = .ok ob.toJ := by unfold Atop.get; rw [h3]; rfl
  rw [this]
  exact ⟨v, h1, rep_toJ h2⟩

theorem eval_int (h : Holds env w x o T) (p : List PyStr) (hp : p ≠ []) (hc : intAt T p = true) :
    ∃ i, eval R G (chain (.name x) p) env w = (.ok (.int i), w) ∧ getInt o p = .ok i := by
  have hs : (resolve T p).isSome = true := by
    unfold intAt at hc; split at hc
    · rename_i h; rw [h]; rfl
    · cases hc
  obtain ⟨v, ob, h1, h2, h3, q, m, h4, h5⟩ := holds_path (R := R) (G := G) h p hp hs
  unfold intAt at hc
  rw [h4] at hc
  obtain ⟨off, ft⟩ := q
  cases ft with
  | int n s =>
    simp only [pyField, pyItem] at h5
    subst h5
    cases h2 with
    | int i =>
      refine ⟨_, h1, ?_⟩
      unfold getInt; rw [h3]; rfl
  | _ => simp at hc

theorem eval_bytes (h : Holds env w x o T) (p : List PyStr) (hp : p ≠ []) (hc : textAt T p = true) :
    ∃ b, eval R G (chain (.name x) p) env w = (.ok (.bytes b), w) ∧ getBytes o p = .ok b := by
  have hs : (resolve T p).isSome = true := by
    unfold textAt at hc; split at hc
    · rename_i h; rw [h]; rfl
    · rename_i h; rw [h]; rfl
    · cases hc
  obtain ⟨v, ob, h1, h2, h3, q, m, h4, h5⟩ := holds_path (R := R) (G := G) h p hp hs
  have hb : ∃ b, ob = .bytes b := by
    unfold textAt at hc
    rw [h4] at hc
    obtain ⟨off, ft⟩ := q
    split at hc
    · rename_i h; cases h; exact ⟨_, h5⟩
    · rename_i h; cases h; exact ⟨_, h5⟩
    · cases hc
  obtain ⟨b, rfl⟩ := hb
  cases h2 with
  | bytes =>
    refine ⟨b, h1, ?_⟩
    unfold getBytes; rw [h3]; rfl

/-! ### The kinds of entries -/

variable {a b c : PyStr}

theorem entry_get1 (h : Holds env w x o T) (hc : (resolve T [a]).isSome = true) :
    Entry R G env w (.attr (.name x) a) (get o [a]) := entry_get h [a] (by simp) hc

theorem entry_get2 (h : Holds env w x o T) (hc : (resolve T [a, b]).isSome = true) :
    Entry R G env w (.attr (.attr (.name x) a) b) (get o [a, b]) := entry_get h [a, b] (by simp) hc

theorem entry_get3 (h : Holds env w x o T) (hc : (resolve T [a, b, c]).isSome = true) :
    Entry R G env w (.attr (.attr (.attr (.name x) a) b) c) (get o [a, b, c]) := entry_get h [a, b, c] (by simp) hc

theorem entry_decode {e : Expr} {p : List PyStr} {bs : Bytes} (h1 : eval R G e env w = (.ok (.bytes bs), w))
    (h2 : getBytes o p = .ok bs) : Entry R G env w (.call (.attr e py!"decode") .nil .nil) (getStr o p) := by
  have hf : eval R G (.attr e py!"decode") env w = (.ok (.method (.bytes bs) .decode), w) := (eval_attr h1).trans rfl
  have hstep : eval R G (.call (.attr e py!"decode") .nil .nil) env w =
      (do return .str (← E.lift (decodeStrict bs)) : E Val) w := by
    simp only [eval, evals, evalKws]
    have hf' := hf
    simp only [eval] at hf'
    rw [E.bind_ok hf', E.bind_ok (E.pure_eq' _ _), E.bind_ok (E.pure_eq' _ _)]
    rfl
  unfold getStr
  rw [h2]
  show Entry R G env w _ (do return .str (← decodeStrict bs))
  unfold Entry
  cases hd : decodeStrict bs with
  | ok s =>
    refine ⟨.str s, ?_, rfl⟩
    rw [hstep, hd]; rfl
  | error e =>
    show _ = _
    rw [hstep, hd]; rfl

theorem entry_str1 (h : Holds env w x o T) (hc : textAt T [a] = true) :
    Entry R G env w (.call (.attr (.attr (.name x) a) py!"decode") .nil .nil) (getStr o [a]) := by
  obtain ⟨bs, h1, h2⟩ := eval_bytes (R := R) (G := G) h [a] (by simp) hc
  exact entry_decode h1 h2

theorem entry_str2 (h : Holds env w x o T) (hc : textAt T [a, b] = true) :
    Entry R G env w (.call (.attr (.attr (.attr (.name x) a) b) py!"decode") .nil .nil) (getStr o [a, b]) := by
  obtain ⟨bs, h1, h2⟩ := eval_bytes (R := R) (G := G) h [a, b] (by simp) hc
  exact entry_decode h1 h2

theorem entry_const (s : PyStr) : Entry R G env w (.const (.str s)) (.ok (.str s)) := ⟨.str s, by simp only [eval]; rfl, rfl⟩

theorem entry_name {i : Int} (h : env x = some (.int i)) : Entry R G env w (.name x) (.ok (.int i)) :=
  ⟨.int i, eval_name h, rfl⟩

theorem eval_bin_ok {op : BinOp} {e1 e2 : Expr} {v1 v2 v : Val} (h1 : eval R G e1 env w = (.ok v1, w))
    (h2 : eval R G e2 env w = (.ok v2, w)) (h : binop op v1 v2 = E.pure v) : eval R G (.bin op e1 e2) env w = (.ok v, w) := by
  simp only [eval]
  rw [E.bind_ok h1, E.bind_ok h2, h]; rfl

theorem entry_add {a b c a' b' c' : PyStr} (h : Holds env w x o T) (hc : intAt T [a, b, c] = true) (hc' : intAt T [a', b', c'] = true) :
    Entry R G env w (.bin .add (.attr (.attr (.attr (.name x) a) b) c) (.attr (.attr (.attr (.name x) a') b') c'))
      (addAttr o [a, b, c] [a', b', c']) := by
  obtain ⟨i, h1, h2⟩ := eval_int (R := R) (G := G) h [a, b, c] (by simp) hc
  obtain ⟨j, h3, h4⟩ := eval_int (R := R) (G := G) h [a', b', c'] (by simp) hc'
  have : addAttr o [a, b, c] [a', b', c'] = .ok (.int (i + j)) := by unfold addAttr; rw [h2, h4]; rfl
  rw [this]
  exact ⟨.int (i + j), eval_bin_ok h1 h3 rfl, rfl⟩

theorem entry_kib (h : Holds env w x o T) (hc : intAt T [a, b] = true) :
    Entry R G env w (.bin .mul (.attr (.attr (.name x) a) b) (.const (.int 1024))) (getKiB o [a, b]) := by
  obtain ⟨i, h1, h2⟩ := eval_int (R := R) (G := G) h [a, b] (by simp) hc
  have : getKiB o [a, b] = .ok (.int (i * 1024)) := by unfold getKiB; rw [h2]; rfl
  rw [this]
  exact ⟨.int (i * 1024), eval_bin_ok h1 (v2 := .int 1024) (by simp only [eval]; rfl) rfl, rfl⟩

theorem entry_flag {args : PArgs} {flag : Nat} {e : Expr} (h : Holds env w "header" args.header T)
    (hc : intAt T [py!"supportflags"] = true) (he : eval R G e env w = (.ok (.int flag), w)) :
    Entry R G env w (.ifExp (.bin .bitAnd (.attr (.name "header") py!"supportflags") e) (.const (.str py!"y")) (.const (.str py!"n")))
      (flagYN args flag) := by
  obtain ⟨i, h1, h2⟩ := eval_int (R := R) (G := G) h [py!"supportflags"] (by simp) hc
  have hm : flagYN args flag = .ok (.str (if pyAnd i flag ≠ 0 then py!"y" else py!"n")) := by unfold flagYN; rw [h2]; rfl
  rw [hm]
  refine ⟨.str (if pyAnd i flag ≠ 0 then py!"y" else py!"n"), ?_, rfl⟩
  have hb : eval R G (.bin .bitAnd (.attr (.name "header") py!"supportflags") e) env w = (.ok (.int (pyAnd i flag)), w) :=
    eval_bin_ok h1 he (by simp only [binop]; rw [if_pos (by omega)]; simp)
  by_cases hz : pyAnd i flag = 0
  · rw [eval_if_false hb (by simp [truth, hz]), eval_const]
    simp [hz, constVal]
  · rw [eval_if_true hb (by simp [truth]; omega), eval_const]
    simp [hz, constVal]

/-- `int.from_bytes(e, byteorder="big")` -/
theorem entry_big (hG : G py!"int" = none) (h : Holds env w x o T) (hc : textAt T [a] = true) :
    Entry R G env w (.call (.attr (.glob py!"int") py!"from_bytes") exprs![.attr (.name x) a]
        (.cons "byteorder" (.const (.str py!"big")) .nil)) (do return .int (beNat (← getBytes o [a]))) := by
  obtain ⟨bs, h1, h2⟩ := eval_bytes (R := R) (G := G) h [a] (by simp) hc
  rw [h2]
  refine ⟨.int (beNat bs), ?_, rfl⟩
  have hg : eval R G (.glob py!"int") env w = (.ok (.builtin .int), w) := eval_builtin hG rfl
  have hf : eval R G (.attr (.glob py!"int") py!"from_bytes") env w = (.ok (.method (.builtin .int) .fromBytes), w) :=
    (eval_attr hg).trans rfl
  exact (eval_call hf (evals_one h1) (evalKws_cons (eval_const _ _ _) evalKws_nil)).trans rfl

end

/-! ### Lists of objects -/

/-- Item by item, objects of type `T`. -/
inductive Reps (w : W) (T : CType) : List Val → List PyObj → Prop
  | nil : Reps w T [] []
  | cons {v vs m os} : Rep w v (pyItem T m) → Reps w T vs os → Reps w T (v :: vs) (pyItem T m :: os)

theorem reps_range {w : W} {e : CType} {n blk off : Nat} : ∀ (l : List Nat), (∀ k ∈ l, k < n) →
    Reps w e (l.map fun k => itemAt w e blk (off + k * e.size))
      (l.map fun k => pyItem e (chunk (mem w blk off (n * e.size)) e.size k))
  | [], _ => .nil
  | k :: l, h => by
    have hk : k < n := h k (by simp)
    have hs : k * e.size + e.size ≤ n * e.size := by
      rw [← Nat.succ_mul]; exact Nat.mul_le_mul_right _ hk
    have : chunk (mem w blk off (n * e.size)) e.size k = mem w blk (off + k * e.size) e.size := by
      unfold chunk; exact mem_mem hs
    simp only [List.map_cons]
    refine .cons ?_ (reps_range l fun k' h' => h k' (by simp [h']))
    rw [this]; exact rep_item w e blk _

/-- The path leads to an array of objects of type `e`. -/
def arrayAt (T : CType) (p : List PyStr) (e : CType) : Prop := ∃ o n, resolve T p = some (o, .array e n) ∧ e ≠ .char

section
variable {R : Rt} {G : PyStr → Option Val} {env : Env} {w : W} {x : String} {o : PyObj} {T : CType}

/-- Iterating over an array attribute. -/
theorem eval_items (h : Holds env w x o T) (p : List PyStr) (hp : p ≠ []) {e : CType} (hc : arrayAt T p e) :
    ∃ v vs os, eval R G (chain (.name x) p) env w = (.ok v, w) ∧ items v w = (.ok vs, w) ∧ getItems o p = .ok os ∧
      Reps w e vs os ∧ (∀ m body args, v ≠ .gen m body args) := by
  obtain ⟨off, n, hq, he⟩ := hc
  obtain ⟨v, ob, h1, h2, h3, q, m, h4, h5⟩ := holds_path (R := R) (G := G) h p hp (by rw [hq]; rfl)
  rw [hq] at h4
  cases h4
  have hf : pyField (.array e n) m = .array e n m := by
    unfold pyField
    split
    · rename_i h; cases h; exact absurd rfl he
    · rfl
  rw [hf] at h5
  subst h5
  cases h2 with
  | array _ _ blk off' =>
    refine ⟨_, _, (chunks (mem w blk off' (CType.array e n).size) e.size n).map (pyItem e), h1, rfl, ?_, ?_, by intros; simp⟩
    · unfold getItems; rw [h3]; rfl
    · unfold arrayItems chunks
      rw [List.map_map]
      exact reps_range (n := n) (List.range n) (fun k hk => List.mem_range.mp hk)

end

/-! ### The arguments -/

/-- Header, record and system statistics of version 1.26. -/
abbrev HT : CType := headerTy V1_26.Header
abbrev RT : CType := V1_26.Header.Record
abbrev ST : CType := V1_26.Header.SStat
abbrev TT : CType := V1_26.Header.TStat

/-- The four arguments of a parser. -/
structure ArgsAre (w : W) (hv rv sv : Val) (tv : List Val) (a : PArgs) : Prop where
  header : ∃ m, Rep w hv (pyItem HT m) ∧ a.header = pyItem HT m
  record : ∃ m, Rep w rv (pyItem RT m) ∧ a.record = pyItem RT m
  sstat : ∃ m, Rep w sv (pyItem ST m) ∧ a.sstat = pyItem ST m
  tstats : Reps w TT tv a.tstats

/-- The three arguments every row is made from are still in their variables. -/
structure Base (w : W) (a : PArgs) (env : Env) : Prop where
  header : Holds env w "header" a.header HT
  record : Holds env w "record" a.record RT
  sstat : Holds env w "sstat" a.sstat ST

theorem HT_good : HT.good = true := by decide +kernel
theorem RT_good : RT.good = true := by decide +kernel
theorem ST_good : ST.good = true := by decide +kernel
theorem TT_good : TT.good = true := by decide +kernel

theorem Holds.set {env : Env} {w : W} {x y : String} {o : PyObj} {T : CType} {v : Val} (h : Holds env w x o T) (hn : x ≠ y) :
    Holds (env.set y v) w x o T := by
  obtain ⟨hg, v', m, h1, h2, h3⟩ := h
  exact ⟨hg, v', m, by rw [Env.set_ne _ _ hn]; exact h1, h2, h3⟩

theorem Base.set {w : W} {a : PArgs} {env : Env} (h : Base w a env) {y : String} (v : Val)
    (h1 : "header" ≠ y) (h2 : "record" ≠ y) (h3 : "sstat" ≠ y) : Base w a (env.set y v) :=
  ⟨h.header.set h1, h.record.set h2, h.sstat.set h3⟩

/-- The local variables when a parser starts. -/
def parserEnv (hv rv sv : Val) (tv : List Val) : Env :=
  envOf [("header", hv), ("record", rv), ("sstat", sv), ("tstats", .list tv)]

theorem base_start {w : W} {hv rv sv : Val} {tv : List Val} {a : PArgs} (h : ArgsAre w hv rv sv tv a) :
    Base w a (parserEnv hv rv sv tv) := by
  obtain ⟨m1, h1, e1⟩ := h.header
  obtain ⟨m2, h2, e2⟩ := h.record
  obtain ⟨m3, h3, e3⟩ := h.sstat
  exact ⟨⟨HT_good, hv, m1, rfl, h1, e1⟩, ⟨RT_good, rv, m2, rfl, h2, e2⟩, ⟨ST_good, sv, m3, rfl, h3, e3⟩⟩

/-! ### The loops -/

section
variable {R : Rt} {G : PyStr → Option Val} {cur : Option PExc} {w : W} {a : PArgs}

/-- `for stat in tstats: values = {...}; yield values` -/
theorem turns_rows {x : String} {T : CType} {its : Items} {f : PyObj → List (PyStr × Except Exc JVal)} (hg : T.good = true)
    (hx1 : "header" ≠ x) (hx2 : "record" ≠ x) (hx3 : "sstat" ≠ x)
    (h2 : (keysOf its).Nodup) (hrow : ∀ env o, Base w a env → Holds env w x o T → Entries R G env w its (f o)) :
    ∀ {vs : List Val} {os : List PyObj}, Reps w T vs os →
    Turns w [x] (execBlock R G cur (block![.assign (.name "values") (.dict its), .yield (.name "values")])) (Base w a) vs
      (os.map fun o => row (f o))
  | _, _, .nil => .nil
  | _, _, .cons (v := v) (vs := vs) (m := m) (os := os) hv hs => by
    rw [List.map_cons]
    have key : ∀ env, Base w a env → Base w a (env.set x v) ∧ Holds (env.set x v) w x (pyItem T m) T :=
      fun env hb => ⟨hb.set v hx1 hx2 hx3, hg, v, m, Env.set_same _ _ _, hv, rfl⟩
    cases hr : row (f (pyItem T m)) with
    | error e =>
      refine .err fun env hb => ?_
      obtain ⟨k1, k2⟩ := key env hb
      have h1 := hrow _ _ k1 k2
      have := rowBody (cur := cur) h1 h2
      rw [hr] at this
      exact ⟨_, _, rfl, this⟩
    | ok r =>
      refine .row (fun env hb => ?_) (turns_rows hg hx1 hx2 hx3 h2 hrow hs)
      obtain ⟨k1, k2⟩ := key env hb
      have h1 := hrow _ _ k1 k2
      have := rowBody (cur := cur) h1 h2
      rw [hr] at this
      obtain ⟨kvs, h3, h4⟩ := this
      exact ⟨_, kvs, _, rfl, h3, h4, k1.set _ (by decide) (by decide) (by decide)⟩

/-- `if test: break` before the rest of the body. -/
theorem guard_brk {env : Env} {t : Expr} {rest : Block} {v : Val} (h : eval R G t env w = (.ok v, w)) (ht : truth v = true) :
    execBlock R G cur (.cons (.ifte t block![.brk] block![]) rest) env w = .ret (.brk, env) w := by
  simp only [execBlock, exec]
  rw [withE_ok h, if_pos ht]
  rfl

theorem guard_on {env : Env} {t : Expr} {rest : Block} {v : Val} (h : eval R G t env w = (.ok v, w)) (ht : truth v = false) :
    execBlock R G cur (.cons (.ifte t block![.brk] block![]) rest) env w = execBlock R G cur rest env w := by
  simp only [execBlock, exec]
  rw [withE_ok h, if_neg (by simp [ht])]
  rfl

/-- `for x in ...: if not x.name: break; values = {...}; yield values` -/
theorem turns_named {x : String} {T : CType} {its : Items} {f : PyObj → List (PyStr × Except Exc JVal)} (hg : T.good = true)
    (hx1 : "header" ≠ x) (hx2 : "record" ≠ x) (hx3 : "sstat" ≠ x) (hname : textAt T [py!"name"] = true)
    (h2 : (keysOf its).Nodup) (hrow : ∀ env o, Base w a env → Holds env w x o T → Entries R G env w its (f o)) :
    ∀ {vs : List Val} {os : List PyObj}, Reps w T vs os →
    Turns w [x] (execBlock R G cur (block![.ifte (.not (.attr (.name x) py!"name")) block![.brk] block![],
        .assign (.name "values") (.dict its), .yield (.name "values")])) (Base w a) vs
      (untilEmptyName (fun o => row (f o)) os)
  | _, _, .nil => .nil
  | _, _, .cons (v := v) (vs := vs) (m := m) (os := os) hv hs => by
    have key : ∀ env, Base w a env → Base w a (env.set x v) ∧ Holds (env.set x v) w x (pyItem T m) T :=
      fun env hb => ⟨hb.set v hx1 hx2 hx3, hg, v, m, Env.set_same _ _ _, hv, rfl⟩
    have hb : ∃ b, getBytes (pyItem T m) [py!"name"] = .ok b ∧ ∀ env, Base w a env →
        eval R G (.attr (.name x) py!"name") (env.set x v) w = (.ok (.bytes b), w) := by
      obtain ⟨b, -, h2'⟩ := eval_bytes (R := R) (G := G) (env := fun y => if y = x then some v else none) (w := w) (x := x)
        (o := pyItem T m) (T := T) ⟨hg, v, m, by simp, hv, rfl⟩ [py!"name"] (by simp) hname
      refine ⟨b, h2', fun env he => ?_⟩
      obtain ⟨b', h1', h2''⟩ := eval_bytes (R := R) (G := G) (key env he).2 [py!"name"] (by simp) hname
      rw [h2'] at h2''
      cases h2''
      exact h1'
    obtain ⟨b, hb1, hb2⟩ := hb
    rw [untilEmptyName, hb1]
    dsimp only
    by_cases hz : b.isEmpty = true
    · rw [if_pos hz]
      refine .brk fun env he => ⟨_, _, rfl, guard_brk (eval_not (hb2 env he)) ?_⟩
      simp [truth, hz]
    · rw [if_neg hz]
      have hon : ∀ env, Base w a env → truth (.bool (!truth (.bytes b))) = false := by
        intro _ _; simp [truth]; simpa using hz
      cases hr : row (f (pyItem T m)) with
      | error e =>
        refine .err fun env he => ?_
        obtain ⟨k1, k2⟩ := key env he
        have h1 := hrow _ _ k1 k2
        have := rowBody (cur := cur) h1 h2
        rw [hr] at this
        exact ⟨_, _, rfl, (guard_on (eval_not (hb2 env he)) (hon env he)).trans this⟩
      | ok r =>
        refine .row (fun env he => ?_) (turns_named hg hx1 hx2 hx3 hname h2 hrow hs)
        obtain ⟨k1, k2⟩ := key env he
        have h1 := hrow _ _ k1 k2
        have := rowBody (cur := cur) h1 h2
        rw [hr] at this
        obtain ⟨kvs, h3, h4⟩ := this
        exact ⟨_, kvs, _, rfl, (guard_on (eval_not (hb2 env he)) (hon env he)).trans h3, h4,
          k1.set _ (by decide) (by decide) (by decide)⟩

/-- A function consisting of one loop over the items of a value. -/
theorem for_yields {xs : List String} {it : Expr} {body : Block} {P : Env → Prop} {env : Env} {v : Val} {vs : List Val}
    {es : List (Except Exc (List (PyStr × JVal)))} (hv : eval R G it env w = (.ok v, w))
    (hng : ∀ m b args, v ≠ .gen m b args) (hi : items v w = (.ok vs, w))
    (ht : Turns w xs (execBlock R G cur body) P vs es) (hP : P env) :
    Yields w (execBlock R G cur (block![.for xs it body]) env w) (Rows.ofList es) := by
  have h : exec R G cur (.for xs it body) env w = forList xs (execBlock R G cur body) vs env w := by
    simp only [exec]
    rw [withE_ok hv]
    split
    · rename_i h; exact absurd rfl (hng _ _ _)
    · exact withE_ok hi
  simp only [execBlock]
  rw [h]
  exact yields_last (forList_yields ht env hP) _ (fun _ => rfl) (fun _ _ => rfl)

end

end Atop.Src
