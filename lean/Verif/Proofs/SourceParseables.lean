import Verif.Props.Source
import Verif.Props.Parseables
/-!
# `parse_file`, from its text: the rows of the parseables
-/

namespace Atop.Src
open Spec
set_option maxRecDepth 20000

/-! ## The keys of a row -/

theorem row_keys : ∀ {xs : List (PyStr × Except Exc JVal)} {r : List (PyStr × JVal)}, row xs = .ok r → r.map Prod.fst = xs.map Prod.fst
  | [], r, h => by cases h; rfl
  | (k, e) :: xs, r, h => by
    unfold row at h
    cases e with
    | error x => cases h
    | ok v =>
      cases hr : row xs with
      | error x => rw [hr] at h; cases h
      | ok r' =>
        rw [hr] at h
        cases h
        simp only [List.map_cons, row_keys hr]

theorem mem_ofList : ∀ {es : List (Except Exc (List (PyStr × JVal)))} {r : List (PyStr × JVal)}, r ∈ (Rows.ofList es).rows → .ok r ∈ es
  | [], r, h => by cases h
  | .ok r' :: es, r, h => by
    rcases List.mem_cons.mp h with rfl | h
    · exact List.mem_cons_self
    · exact List.mem_cons_of_mem _ (mem_ofList h)
  | .error e :: es, r, h => by cases h

/-- None of these rows has the key. -/
def Free (k : PyStr) (es : List (Except Exc (List (PyStr × JVal)))) : Prop := ∀ r, .ok r ∈ es → k ∉ r.map Prod.fst

theorem free_row {k : PyStr} {xs : List (PyStr × Except Exc JVal)} (h : k ∉ xs.map Prod.fst) : ∀ r, row xs = .ok r → k ∉ r.map Prod.fst :=
  fun r hr => by rw [row_keys hr]; exact h

theorem free_ofList {k : PyStr} {es : List (Except Exc (List (PyStr × JVal)))} (h : Free k es) :
    ∀ r ∈ (Rows.ofList es).rows, k ∉ r.map Prod.fst := fun r hr => h r (mem_ofList hr)

theorem free_one {k : PyStr} {xs : List (PyStr × Except Exc JVal)} (h : k ∉ xs.map Prod.fst) : Free k [row xs] :=
  fun r hr => free_row h r (List.mem_singleton.mp hr).symm

theorem free_map {k : PyStr} {α : Type} {l : List α} {f : α → List (PyStr × Except Exc JVal)} (h : ∀ t, k ∉ (f t).map Prod.fst) :
    Free k (l.map fun t => row (f t)) := by
  intro r hr
  obtain ⟨t, -, ht⟩ := List.mem_map.mp hr
  exact free_row (h t) r ht

theorem free_guard {k : PyStr} {x : Except Exc (List (Except Exc (List (PyStr × JVal))))} (h : ∀ l, x = .ok l → Free k l) :
    ∀ r ∈ (Rows.guard x).rows, k ∉ r.map Prod.fst := by
  cases x with
  | error e => intro r hr; cases hr
  | ok l => exact free_ofList (h l rfl)

theorem free_until {k : PyStr} {f : PyObj → Except Exc (List (PyStr × JVal))} (h : ∀ x r, f x = .ok r → k ∉ r.map Prod.fst) :
    ∀ l, Free k (untilEmptyName f l)
  | [] => by intro r hr; cases hr
  | x :: l => by
    intro r hr
    unfold untilEmptyName at hr
    split at hr
    · cases List.mem_singleton.mp hr
    · split at hr
      · cases hr
      · rcases List.mem_cons.mp hr with h1 | h1
        · exact h x r h1.symm
        · exact free_until h l r h1

theorem free_cpu {k : PyStr} {a : PArgs} (hk : k ∉ [py!"timestamp", py!"interval", py!"ticks", py!"proc", py!"system", py!"user", py!"niced", py!"idle",
    py!"wait", py!"irq", py!"softirq", py!"steal", py!"guest"]) : ∀ l n, Free k (cpuLoop a l n)
  | [], _ => by intro r hr; cases hr
  | x :: l, n => by
    intro r hr
    unfold cpuLoop at hr
    split at hr
    · cases List.mem_singleton.mp hr
    · split at hr
      · cases hr
      · rcases List.mem_cons.mp hr with h1 | h1
        · exact free_row hk r h1.symm
        · exact free_cpu hk l (n + 1) r h1

theorem free_bind {k : PyStr} {α : Type} {x : Except Exc α} {f : α → List (Except Exc (List (PyStr × JVal)))} (h : ∀ a, Free k (f a)) :
    ∀ r ∈ (Rows.guard (do return f (← x))).rows, k ∉ r.map Prod.fst := by
  refine free_guard ?_
  intro l hl
  cases x with
  | error e => cases hl
  | ok a => cases hl; exact h a

/-- No row of a parseable has a column `parseable`. -/
theorem rows_free {p : PyStr} {f : PArgs → Rows} (hp : (p, f) ∈ parseableMap) (a : PArgs) :
    ∀ r ∈ (f a).rows, py!"parseable" ∉ r.map Prod.fst := by
  simp only [parseableMap, List.mem_cons, Prod.mk.injEq, List.not_mem_nil, or_false] at hp
  rcases hp with ⟨-, rfl⟩ | ⟨-, rfl⟩ | ⟨-, rfl⟩ | ⟨-, rfl⟩ | ⟨-, rfl⟩ | ⟨-, rfl⟩ | ⟨-, rfl⟩ | ⟨-, rfl⟩ | ⟨-, rfl⟩ | ⟨-, rfl⟩ |
    ⟨-, rfl⟩ | ⟨-, rfl⟩ | ⟨-, rfl⟩ | ⟨-, rfl⟩ | ⟨-, rfl⟩
  · exact free_bind fun l => free_cpu (by decide) l 0
  · exact free_ofList (free_one (by simp [stamp]))
  · exact free_ofList (free_one (by simp [stamp]))
  · exact free_bind fun l => free_until (fun x => free_row (by simp [stamp])) l
  · exact free_bind fun l => free_until (fun x => free_row (by simp [stamp])) l
  · exact free_bind fun l => free_until (fun x => free_row (by simp [stamp])) l
  · exact free_ofList (free_one (by simp [stamp]))
  · exact free_bind fun l => free_until (fun x => free_row (by simp [stamp])) l
  · exact free_ofList (free_one (by simp [stamp]))
  · exact free_ofList (free_one (by simp [stamp]))
  · exact free_ofList (free_map fun t => by simp [stamp, procId])
  · exact free_ofList (free_map fun t => by simp [stamp, procId])
  · exact free_ofList (free_map fun t => by simp [stamp, procId])
  · exact free_ofList (free_map fun t => by simp [stamp, procId])
  · exact free_ofList (free_one (by simp [stamp]))

/-! ## The loops -/

/-- Only these variables have changed. -/
def Kept (xs : List String) (env env' : Env) : Prop := ∀ y, y ∉ xs → env' y = env y

theorem Kept.refl (xs : List String) (env : Env) : Kept xs env env := fun _ _ => rfl
theorem Kept.trans {xs : List String} {a b c : Env} (h : Kept xs a b) (k : Kept xs b c) : Kept xs a c :=
  fun y hy => (k y hy).trans (h y hy)
theorem Kept.set {xs : List String} {env : Env} {x : String} {v : Val} (h : x ∈ xs) : Kept xs env (env.set x v) :=
  fun y hy => Env.set_ne env v (by rintro rfl; exact hy h)
theorem Kept.mono {xs ys : List String} {a b : Env} (h : Kept xs a b) (k : ∀ x ∈ xs, x ∈ ys) : Kept ys a b :=
  fun y hy => h y (fun hx => hy (k y hx))

section
variable {Z : Zlib} {fs : FileSystem} {args : CommandLine} {R : Rt} {G : PyStr → Option Val} {w : W}

local notation "P" => program Z fs args

/-- The body of the innermost loop (atoparser/reader.py:99-100). -/
def rowBlock : Block := block![
  .assign (.sub (.name "sample") (.const (.str py!"parseable"))) (.name "parseable"),
  .expr (.call (.attr (.name "samples") py!"append") exprs![(.name "sample")] .nil)]

/-- The entries of one parser. -/
def tagged (p : PyStr) (rows : List (List (PyStr × JVal))) : List JVal := rows.map fun r => .dict (r ++ [(py!"parseable", .str p)])

theorem row_round {env : Env} {p : PyStr} {vs : List Val} {kvs : List (PyStr × Val)} (hp : env "parseable" = some (.str p))
    (hs : env "samples" = some (.list vs)) (hk : py!"parseable" ∉ kvs.map Prod.fst) :
    ∃ env', execBlock R G none rowBlock (env.set "sample" (.dict kvs)) w = .ret (.next, env') w ∧
      env' "samples" = some (.list (vs ++ [.dict (kvs ++ [(py!"parseable", .str p)])])) ∧ Kept ["sample", "samples"] env env' := by
  unfold rowBlock
  have h1 : (env.set "sample" (.dict kvs)) "parseable" = some (.str p) := hp
  have h2 : (env.set "sample" (.dict kvs)) "sample" = some (.dict kvs) := rfl
  have h3 : (env.set "sample" (.dict kvs)) "samples" = some (.list vs) := hs
  have h4 : Kept ["sample", "samples"] env (env.set "sample" (.dict kvs)) := Kept.set (by simp)
  generalize env.set "sample" (.dict kvs) = env1 at h1 h2 h3 h4
  have hst : store R G (.sub (.name "sample") (.const (.str py!"parseable"))) (.str p) env1 w =
      (.ok (env1.set "sample" (.dict (kvs ++ [(py!"parseable", .str p)]))), w) := by
    simp only [store]
    rw [E.bind_ok (eval_name h2), E.bind_ok (eval_const _ _ _)]
    have : setItem (.dict kvs) (constVal (.str py!"parseable")) (.str p) w = (.ok (.dict (kvs ++ [(py!"parseable", .str p)])), w) := by
      show (Except.ok (Val.dict (dictSet py!"parseable" (.str p) kvs)), w) = _
      rw [dictSet_new hk]
    rw [E.bind_ok this]
    rfl
  rw [block_next (exec_store (eval_name h1) hst)]
  have h5 : (env1.set "sample" (.dict (kvs ++ [(py!"parseable", .str p)]))) "samples" = some (.list vs) := h3
  have h6 : (env1.set "sample" (.dict (kvs ++ [(py!"parseable", .str p)]))) "sample" = some (.dict (kvs ++ [(py!"parseable", .str p)])) := rfl
  have h7 : Kept ["sample", "samples"] env1 (env1.set "sample" (.dict (kvs ++ [(py!"parseable", .str p)]))) := Kept.set (by simp)
  generalize env1.set "sample" (.dict (kvs ++ [(py!"parseable", .str p)])) = env2 at h5 h6 h7
  rw [block_next (exec_append_name h5 (eval_name h6)), block_nil]
  exact ⟨_, rfl, rfl, (h4.trans h7).trans (Kept.set (by simp))⟩

/-- `for sample in parser(...): ...` -/
theorem row_loop {p : PyStr} {c : Co (Ctl × Env)} {rs : Rows} (hy : Yields w c rs) :
    ∀ {env : Env} {vs : List Val}, (∀ r ∈ rs.rows, py!"parseable" ∉ r.map Prod.fst) → env "parseable" = some (.str p) → env "samples" = some (.list vs) →
    match rs.err with
    | none => ∃ env' us, forGen ["sample"] (execBlock R G none rowBlock) c env = .ret (.next, env') w ∧
        env' "samples" = some (.list (vs ++ us)) ∧ toJs us = tagged p rs.rows ∧ Kept ["sample", "samples"] env env'
    | some e => ∃ env', forGen ["sample"] (execBlock R G none rowBlock) c env = .ret (.exc (.sys e), env') w := by
  induction hy with
  | done env0 =>
    intro env vs _ _ hs
    exact ⟨env, [], rfl, by rw [List.append_nil]; exact hs, rfl, Kept.refl _ _⟩
  | err e env0 =>
    intro env vs _ _ _
    exact ⟨env, rfl⟩
  | @row kvs k r rs' hr _ ih =>
    intro env vs hf hp hs
    have hk : py!"parseable" ∉ kvs.map Prod.fst := by
      have := hf r List.mem_cons_self
      rw [← hr, toJkvs_map, List.map_map] at this
      exact this
    obtain ⟨env1, h1, h2, h3⟩ := row_round (R := R) (G := G) (w := w) hp hs hk
    have hp1 : env1 "parseable" = some (.str p) := (h3 _ (by decide)).trans hp
    have heq : forGen ["sample"] (execBlock R G none rowBlock) (.yield (.dict kvs) w k) env = forGen ["sample"] (execBlock R G none rowBlock) (k none w) env1 := by
      show (execBlock R G none rowBlock (env.set "sample" (.dict kvs)) w).bind _ = _
      rw [h1]
      rfl
    have ih' := ih (fun r' hr' => hf r' (List.mem_cons_of_mem _ hr')) hp1 h2
    dsimp only at ih' ⊢
    rw [heq]
    cases he : rs'.err with
    | some e => rw [he] at ih'; exact ih'
    | none =>
      rw [he] at ih'
      obtain ⟨env', us, i1, i2, i3, i4⟩ := ih'
      refine ⟨env', .dict (kvs ++ [(py!"parseable", .str p)]) :: us, i1, ?_, ?_, h3.trans i4⟩
      · rw [i2]; simp
      · simp only [toJs, toJ, toJkvs_append, hr, i3, tagged, List.map_cons]
        rfl

/-- The body of the loop over the parseables (atoparser/reader.py:97-100). -/
def parseableBlock : Block := block![
  .for ["sample"] (.call (.sub (.name "parsers") (.name "parseable")) exprs![(.name "header"), (.name "record"), (.name "sstat"), (.name "tstats")] .nil) rowBlock]

/-- `PARSEABLE_MAP["1.26"]` -/
def parserDict : Val := .dict (parserTable.map fun p => (p.1, .fn py!"atoparser.parsers.atop_1_26" p.2.1 []))

/-- The variables the loop over the parseables reads. -/
structure RowVars (i rb sb : Nat) (tbs : List Nat) (env : Env) : Prop where
  parsers : env "parsers" = some parserDict
  header : env "header" = some (.hdr i)
  record : env "record" = some (.view V1_26.Header.Record rb 0)
  sstat : env "sstat" = some (.view V1_26.Header.SStat sb 0)
  tstats : env "tstats" = some (.list (tbs.map fun b => .view V1_26.Header.TStat b 0))

def rowNames : List String := ["sample", "samples", "parseable"]

theorem RowVars.kept {i rb sb : Nat} {tbs : List Nat} {env env' : Env} (h : RowVars i rb sb tbs env) (k : Kept rowNames env env') :
    RowVars i rb sb tbs env' :=
  ⟨(k _ (by decide)).trans h.parsers, (k _ (by decide)).trans h.header, (k _ (by decide)).trans h.record,
   (k _ (by decide)).trans h.sstat, (k _ (by decide)).trans h.tstats⟩

theorem parseables_loop {n i rb sb : Nat} {tbs : List Nat} {o : PHdr} (ho : w.headers[i]? = some o) (hc : o.cls = V1_26.Header) :
    ∀ (ps : List PyStr) {env : Env} {vs : List Val}, RowVars i rb sb tbs env → env "samples" = some (.list vs) →
    match parseableRows (argsAt w o.blk rb sb tbs) ps with
    | .ok rows => ∃ env' us, forList ["parseable"] (execBlock ((P).at (n + 1)) G none parseableBlock) (ps.map .str) env w = .ret (.next, env') w ∧
        env' "samples" = some (.list (vs ++ us)) ∧ toJs us = rows ∧ Kept rowNames env env'
    | .error e => ∃ env', forList ["parseable"] (execBlock ((P).at (n + 1)) G none parseableBlock) (ps.map .str) env w = .ret (.exc (.sys e), env') w
  | [], env, vs, _, hs => ⟨env, [], rfl, by rw [List.append_nil]; exact hs, rfl, Kept.refl _ _⟩
  | p :: ps, env, vs, hv, hs => by
    have hk1 : Kept rowNames env (env.set "parseable" (.str p)) := Kept.set (by decide)
    have hv1 := hv.kept hk1
    have hp1 : (env.set "parseable" (.str p)) "parseable" = some (.str p) := rfl
    have hs1 : (env.set "parseable" (.str p)) "samples" = some (.list vs) := hs
    have heq : forList ["parseable"] (execBlock ((P).at (n + 1)) G none parseableBlock) ((p :: ps).map .str) env w =
      (execBlock ((P).at (n + 1)) G none parseableBlock (env.set "parseable" (.str p)) w).bind
        (loopNext (forList ["parseable"] (execBlock ((P).at (n + 1)) G none parseableBlock) (ps.map .str))) := rfl
    rw [heq]
    generalize env.set "parseable" (.str p) = env1 at hk1 hv1 hp1 hs1
    have hsub : ∀ {f : FnDef} {rows}, parserTable.lookup p = some (f, rows) →
        eval ((P).at (n + 1)) G (.sub (.name "parsers") (.name "parseable")) env1 w = (.ok (.fn py!"atoparser.parsers.atop_1_26" f []), w) := by
      intro f rows hl
      refine (eval_sub (eval_name hv1.parsers) (eval_name hp1)).trans ?_
      show getItem (.dict _) (.str p) w = _
      unfold getItem
      dsimp only
      rw [lookup_map (fun q : FnDef × (PArgs → Rows) => Val.fn py!"atoparser.parsers.atop_1_26" q.1 []), hl]
      rfl
    unfold parseableRows
    rw [model_map, lookup_map]
    cases hl : parserTable.lookup p with
    | none =>
      refine ⟨env1, ?_⟩
      have he : eval ((P).at (n + 1)) G (.sub (.name "parsers") (.name "parseable")) env1 w = (.error (.sys .keyError), w) := by
        refine (eval_sub (eval_name hv1.parsers) (eval_name hp1)).trans ?_
        show getItem (.dict _) (.str p) w = _
        unfold getItem
        dsimp only
        rw [lookup_map (fun q : FnDef × (PArgs → Rows) => Val.fn py!"atoparser.parsers.atop_1_26" q.1 []), hl]
        rfl
      unfold parseableBlock
      rw [block_exc (exec_for_err (eval_call_fn_err he))]
      rfl
    | some q =>
      obtain ⟨f, rows⟩ := q
      obtain ⟨f1, f2, f3⟩ := table_follows Z fs args (n := n) ho hc rb sb tbs hl
      have hcall : eval ((P).at (n + 1)) G (.call (.sub (.name "parsers") (.name "parseable")) exprs![(.name "header"), (.name "record"), (.name "sstat"), (.name "tstats")] .nil) env1 w =
          (.ok (.gen py!"atoparser.parsers.atop_1_26" f.body [("header", .hdr i), ("record", .view V1_26.Header.Record rb 0),
            ("sstat", .view V1_26.Header.SStat sb 0), ("tstats", .list (tbs.map fun b => .view V1_26.Header.TStat b 0))]), w) := by
        refine (eval_call (hsub hl) (evals_cons (eval_name hv1.header) (evals_cons (eval_name hv1.record) (evals_cons (eval_name hv1.sstat)
          (evals_one (eval_name hv1.tstats))))) evalKws_nil).trans ?_
        exact callFn_gen (by rw [f1]; rfl) f2
      have hfree := rows_free (p := p) (f := rows) (by
        have := lookup_in (l := parseableMap) (k := p) (v := rows) (by rw [model_map, lookup_map, hl]; rfl)
        exact this) (argsAt w o.blk rb sb tbs)
      have hloop := row_loop (R := (P).at (n + 1)) (G := G) (p := p) f3 hfree hp1 hs1
      have hblk : execBlock ((P).at (n + 1)) G none parseableBlock env1 w =
          (forGen ["sample"] (execBlock ((P).at (n + 1)) G none rowBlock) (execBlock ((P).at n) ((P).globals py!"atoparser.parsers.atop_1_26") none f.body
            (parserEnv (.hdr i) (.view V1_26.Header.Record rb 0) (.view V1_26.Header.SStat sb 0) (tbs.map fun b => .view V1_26.Header.TStat b 0)) w) env1).bind
          (fun q w' => match q with
            | (.next, env') => execBlock ((P).at (n + 1)) G none .nil env' w'
            | q => .ret q w') := by
        unfold parseableBlock
        rw [execBlock]
        dsimp only
        rw [exec_for_gen hcall]
        rfl
      rw [hblk]
      simp only [Option.map_some]
      cases he : (rows (argsAt w o.blk rb sb tbs)).err with
      | some e =>
        rw [he] at hloop
        obtain ⟨env2, h2⟩ := hloop
        rw [h2]
        exact ⟨env2, rfl⟩
      | none =>
        rw [he] at hloop
        obtain ⟨env2, us, h2, h3, h4, h5⟩ := hloop
        rw [h2]
        have hk2 : Kept rowNames env1 env2 := h5.mono (by decide)
        have ih := parseables_loop (n := n) ho hc ps (hv1.kept hk2) h3
        have hnext : ((Co.ret (Ctl.next, env2) w).bind (fun q w' => match q with
            | (.next, env') => execBlock ((P).at (n + 1)) G none .nil env' w'
            | q => Co.ret q w')).bind (loopNext (forList ["parseable"] (execBlock ((P).at (n + 1)) G none parseableBlock) (ps.map .str))) =
            forList ["parseable"] (execBlock ((P).at (n + 1)) G none parseableBlock) (ps.map .str) env2 w := by
          show (execBlock ((P).at (n + 1)) G none .nil env2 w).bind _ = _
          rw [block_nil]
          rfl
        rw [hnext]
        cases hr : parseableRows (argsAt w o.blk rb sb tbs) ps with
        | error e => rw [hr] at ih; exact ih
        | ok rest =>
          rw [hr] at ih
          obtain ⟨env3, us', i1, i2, i3, i4⟩ := ih
          refine ⟨env3, us ++ us', i1, by rw [i2, List.append_assoc], ?_, (hk1.trans hk2).trans i4⟩
          rw [toJs_map, List.map_append, ← toJs_map, ← toJs_map, h4, i3]
          rfl

end
end Atop.Src
