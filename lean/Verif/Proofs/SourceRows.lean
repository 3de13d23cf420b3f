import Verif.Proofs.SourceBase
/-!
# Generators that yield dictionaries
-/

namespace Atop.Src
open Spec

/-- Stepping through the generator, with nothing changed in between, gives the rows and the ending of the model. -/
inductive Yields (w : W) : Co (Ctl × Env) → Rows → Prop
  | done (env : Env) : Yields w (.ret (.next, env) w) ⟨[], none⟩
  | err (e : Exc) (env : Env) : Yields w (.ret (.exc (.sys e), env) w) ⟨[], some e⟩
  | row {kvs : List (PyStr × Val)} {k : Option PExc → W → Co (Ctl × Env)} {r : List (PyStr × JVal)} {rs : Rows} :
    toJkvs kvs = r → Yields w (k none w) rs → Yields w (.yield (.dict kvs) w k) ⟨r :: rs.rows, rs.err⟩

section
variable {R : Rt} {G : PyStr → Option Val} {cur : Option PExc}

/-- `values = {...}; yield values` -/
theorem rowBody {env : Env} {w : W} {its : Items} {xs : List (PyStr × Except Exc JVal)} (h : Entries R G env w its xs)
    (hnd : (keysOf its).Nodup) :
    match row xs with
    | .ok r => ∃ kvs, execBlock R G cur (block![.assign (.name "values") (.dict its), .yield (.name "values")]) env w =
        .yield (.dict kvs) w (resumed (env.set "values" (.dict kvs))) ∧ toJkvs kvs = r
    | .error e => execBlock R G cur (block![.assign (.name "values") (.dict its), .yield (.name "values")]) env w =
        .ret (.exc (.sys e), env) w := by
  have hi := evalItems_row h (h.keys ▸ hnd) [] (by simp)
  cases hr : row xs with
  | error e =>
    rw [hr] at hi
    dsimp only at hi ⊢
    have he : eval R G (.dict its) env w = (.error (.sys e), w) := by simp only [eval]; exact E.bind_err hi
    simp only [execBlock, exec]
    rw [withE_err (E.bind_err he)]
    rfl
  | ok r =>
    rw [hr] at hi
    obtain ⟨kvs, h1, h2⟩ := hi
    refine ⟨kvs, ?_, h2⟩
    have he : eval R G (.dict its) env w = (.ok (.dict kvs), w) := by
      simp only [eval]; rw [E.bind_ok h1]; rfl
    simp only [execBlock, exec]
    have hs : (do store R G (.name "values") (← eval R G (.dict its) env) env : E Env) w =
        (.ok (env.set "values" (.dict kvs)), w) := by
      rw [E.bind_ok he]; rfl
    rw [withE_ok hs]
    dsimp only [Co.bind]
    rw [withE_ok (eval_name (Env.set_same env "values" (.dict kvs)))]
    exact yield_last _ _ _

/-- A generator without a loop. -/
theorem single_yields {env : Env} {w : W} {its : Items} {xs : List (PyStr × Except Exc JVal)} (h : Entries R G env w its xs)
    (hnd : (keysOf its).Nodup) :
    Yields w (execBlock R G cur (block![.assign (.name "values") (.dict its), .yield (.name "values")]) env w)
      (Rows.ofList [row xs]) := by
  have hb := rowBody (cur := cur) h hnd
  cases hr : row xs with
  | error e =>
    rw [hr] at hb
    dsimp only at hb
    rw [hb]
    exact .err e env
  | ok r =>
    rw [hr] at hb
    obtain ⟨kvs, h1, h2⟩ := hb
    rw [h1]
    exact .row h2 (.done _)

end

/-- What the body of a loop does with one item after another: the rows of the loop. -/
inductive Turns (w : W) (xs : List String) (body : Env → W → Co (Ctl × Env)) (P : Env → Prop) :
    List Val → List (Except Exc (List (PyStr × JVal))) → Prop
  | nil : Turns w xs body P [] []
  | brk {v vs} : (∀ env, P env → ∃ env' env'', assignNames xs v env = some env' ∧ body env' w = .ret (.brk, env'') w) →
    Turns w xs body P (v :: vs) []
  | err {v vs e es} : (∀ env, P env → ∃ env' env'', assignNames xs v env = some env' ∧
      body env' w = .ret (.exc (.sys e), env'') w) → Turns w xs body P (v :: vs) (.error e :: es)
  | row {v vs r es} : (∀ env, P env → ∃ env' kvs env'', assignNames xs v env = some env' ∧
      body env' w = .yield (.dict kvs) w (resumed env'') ∧ toJkvs kvs = r ∧ P env'') →
    Turns w xs body P vs es → Turns w xs body P (v :: vs) (.ok r :: es)

theorem forList_yields {w : W} {xs : List String} {body : Env → W → Co (Ctl × Env)} {P : Env → Prop} :
    ∀ {vs : List Val} {es : List (Except Exc (List (PyStr × JVal)))}, Turns w xs body P vs es →
    ∀ env, P env → Yields w (forList xs body vs env w) (Rows.ofList es)
  | _, _, .nil, env, _ => .done env
  | _, _, .brk h, env, hP => by
    obtain ⟨env', env'', h1, h2⟩ := h env hP
    rw [forList, h1]
    dsimp only
    rw [h2]
    exact .done env''
  | _, _, .err h, env, hP => by
    obtain ⟨env', env'', h1, h2⟩ := h env hP
    rw [forList, h1]
    dsimp only
    rw [h2]
    exact .err _ env''
  | _, _, .row h hs, env, hP => by
    obtain ⟨env', kvs, env'', h1, h2, h3, h4⟩ := h env hP
    rw [forList, h1]
    dsimp only
    rw [h2]
    exact .row h3 (forList_yields hs env'' h4)

/-- Going on after the loop, when nothing follows. -/
theorem yields_last {w : W} {c : Co (Ctl × Env)} {rs : Rows} (h : Yields w c rs)
    (f : Ctl × Env → W → Co (Ctl × Env)) (hf : ∀ env, f (.next, env) w = .ret (.next, env) w)
    (he : ∀ e env, f (.exc e, env) w = .ret (.exc e, env) w) : Yields w (c.bind f) rs := by
  induction h with
  | done env => rw [Co.bind, hf]; exact .done env
  | err e env => rw [Co.bind, he]; exact .err e env
  | row h1 _ ih => exact .row h1 ih

end Atop.Src
