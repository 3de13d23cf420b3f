import Verif.Source.Argparse
/-!
# C72: the general `argparse` on the declarations of atoparser/reader.py

`Argparse.parse` (Verif/Source/Argparse.lean), given the declarations that the text of `parse_args` makes, does what
`parseArgs` (Verif/Model/Cli.lean) does.
-/

namespace Atop.Src.Args
set_option maxRecDepth 20000

/-- The declarations that `parse_args` makes. -/
def filesDecl : Argparse.ArgDecl := { strings := [], dest := py!"files", plus := true }
def parseablesDecl : Argparse.ArgDecl :=
  { strings := [py!"-P", py!"--parseables"], dest := py!"parseables", plus := true, choices := some choices }
def prettyDecl : Argparse.ArgDecl := { strings := [py!"-p", py!"--pretty-print"], dest := py!"pretty_print", plus := false }
def tstatsDecl : Argparse.ArgDecl := { strings := [py!"--tstats"], dest := py!"show_tstats", plus := false }
def cstatsDecl : Argparse.ArgDecl := { strings := [py!"--cstats"], dest := py!"show_cstats", plus := false }
def readerDecls : List Argparse.ArgDecl := [filesDecl, parseablesDecl, prettyDecl, tstatsDecl, cstatsDecl]

/-- The action of an option. -/
def actOf : Opt → Argparse.Act
  | .help => .help
  | .parseables => .decl parseablesDecl
  | .prettyPrint => .decl prettyDecl
  | .tstats => .decl tstatsDecl
  | .cstats => .decl cstatsDecl

local notation "T" => Argparse.optionTable readerDecls

theorem table_eq : T = optionStrings.map fun o => (o.1, actOf o.2) := rfl

theorem lookup_map {α β : Type} (f : α → β) (w : PyStr) : ∀ l : List (PyStr × α),
    (l.map fun o => (o.1, f o.2)).lookup w = (l.lookup w).map f
  | [] => rfl
  | (k, v) :: l => by
    simp only [List.map_cons, List.lookup_cons]
    cases w == k
    · exact lookup_map f w l
    · rfl

theorem table_lookup (w : PyStr) : (T).lookup w = (optionStrings.lookup w).map actOf := by rw [table_eq, lookup_map]

/-- The same option tuple. -/
def tupleOf (t : OptTuple) : Argparse.OTuple :=
  { action := t.action.map actOf, optionString := t.optionString, sep := t.sep, explicitArg := t.explicitArg }

theorem tuples_eq (w : PyStr) : Argparse.getOptionTuples T w = (getOptionTuples w).map tupleOf := by
  unfold Argparse.getOptionTuples getOptionTuples
  rw [table_eq]
  split
  · simp only [List.filter_map, List.map_map]
    rfl
  · simp only [List.filterMap_map, List.map_filterMap]
    congr 1
    funext o
    simp only [Function.comp]
    split
    · rfl
    · split <;> rfl

/-- Mapping the result. -/
def mapOk {α β : Type} (f : α → β) : Except Exit α → Except Exit β
  | .ok a => .ok (f a)
  | .error e => .error e

theorem optional_eq (U : Nat → Bool) (w : PyStr) :
    Argparse.parseOptional T U w = mapOk (Option.map tupleOf) (parseOptional U w) := by
  unfold Argparse.parseOptional parseOptional
  rw [tuples_eq, table_lookup, table_lookup]
  split
  · rfl
  · cases optionStrings.lookup w with
    | some a => rfl
    | none =>
      dsimp only [Option.map]
      split
      · rfl
      · have hrest : (match (getOptionTuples w).map tupleOf with
          | [t] => (.ok (some t) : Except Exit (Option Argparse.OTuple))
          | _ :: _ :: _ => .error .usage
          | [] => if negativeNumber U w then .ok none else if 32 ∈ w then .ok none else .ok (some { action := none, optionString := w })) =
          mapOk (Option.map tupleOf) (match getOptionTuples w with
          | [t] => .ok (some t)
          | _ :: _ :: _ => .error .usage
          | [] => if negativeNumber U w then .ok none else if 32 ∈ w then .ok none else .ok (some { action := none, optionString := w })) := by
          rcases getOptionTuples w with _ | ⟨t, _ | ⟨t', r⟩⟩
          · dsimp only [List.map]
            split
            · rfl
            · split <;> rfl
          · rfl
          · rfl
        cases (partitionEq w).2 with
        | none => exact hrest
        | some e =>
          cases optionStrings.lookup (partitionEq w).1 with
          | none => exact hrest
          | some a => rfl

/-- The same class of argument. -/
def tokOf : Tok → Argparse.Tok
  | .opt t w => .opt (tupleOf t) w
  | .arg w => .arg w
  | .dash => .dash

theorem tok_word (t : Tok) : (tokOf t).word = t.word := by cases t <;> rfl
theorem tok_isOpt (t : Tok) : (tokOf t).isOpt = t.isOpt := by cases t <;> rfl

theorem words_eq (l : List Tok) : (l.map tokOf).map Argparse.Tok.word = l.map Tok.word := by
  rw [List.map_map]; exact List.map_congr_left fun t _ => tok_word t

theorem classify_eq (U : Nat → Bool) : ∀ argv, Argparse.classify T U argv = mapOk (List.map tokOf) (classify U argv)
  | [] => rfl
  | w :: ws => by
    unfold Argparse.classify classify
    rw [optional_eq, classify_eq U ws]
    split
    · show _ = Except.ok (List.map tokOf _)
      rw [List.map_cons, List.map_map]
      rfl
    · rcases parseOptional U w with e | _ | t <;> rcases classify U ws with e' | r <;> rfl

theorem match_eq (a : Opt) (n : Nat) : Argparse.matchArgument (actOf a) n = matchArgument a n := by
  cases a <;> rfl

theorem leading_eq : ∀ l : List Tok, Argparse.leadingArgs (l.map tokOf) = leadingArgs l
  | [] => rfl
  | .arg w :: r => by
    show w :: Argparse.leadingArgs (r.map tokOf) = w :: leadingArgs r
    rw [leading_eq r]
  | .opt _ _ :: _ => rfl
  | .dash :: _ => rfl

/-- The same actions. -/
def consumedOf (c : Consumed) : Argparse.Consumed :=
  { actions := c.actions.map fun p => (actOf p.1, p.2), extras := c.extras, taken := c.taken }

theorem following_eq (l : List PyStr) (a : Opt) :
    Argparse.consumeFollowing l (actOf a) = mapOk consumedOf (consumeFollowing l a) := by
  unfold Argparse.consumeFollowing consumeFollowing
  rw [match_eq]
  cases matchArgument a l.length <;> rfl

theorem explicit_eq (l : List PyStr) : ∀ (e : PyStr) (a : Opt) (o s : PyStr),
    Argparse.consumeExplicit T l (actOf a) o s e = mapOk consumedOf (consumeExplicit l a o s e) := by
  intro e
  induction h : e.length using Nat.strongRecOn generalizing e with
  | _ n ih =>
    intro a o s
    unfold Argparse.consumeExplicit consumeExplicit
    dsimp only
    rw [match_eq]
    split
    · cases e with
      | nil => rfl
      | cons c cs =>
        dsimp only
        split
        · rfl
        · rw [table_lookup]
          cases optionStrings.lookup [45, c] with
          | none => rfl
          | some a' =>
            simp only [Option.map]
            have key : ∀ (x : Except Exit Consumed) (y : Except Exit Argparse.Consumed), y = mapOk consumedOf x →
                (do let r ← y; return ({ r with actions := (actOf a, []) :: r.actions } : Argparse.Consumed)) =
                  mapOk consumedOf (do let r ← x; return { r with actions := (a, []) :: r.actions }) := by
              rintro x _ rfl
              cases x <;> rfl
            split
            · exact key _ _ (following_eq l a')
            · refine key _ _ (ih _ ?_ _ rfl a' _ _); subst h; simp only [List.length_cons]; omega
            · split
              · rename_i h'; cases h'
              · rename_i h'; cases h'; exact absurd rfl (by assumption)
              · rename_i h'; cases h'
                refine key _ _ (ih _ ?_ _ rfl a' _ _); subst h; simp only [List.length_cons]; omega
    · split <;> rfl

theorem consume_eq (t : OptTuple) (w : PyStr) (l : List PyStr) :
    Argparse.consumeOptional T (tupleOf t) w l = mapOk consumedOf (consumeOptional t w l) := by
  unfold Argparse.consumeOptional consumeOptional
  obtain ⟨a, o, s, e⟩ := t
  cases a with
  | none => rfl
  | some a =>
    cases e with
    | none => exact following_eq l a
    | some e => exact explicit_eq l e a o _

/-- The attributes of the result. -/
def attrsOf (files : Argparse.AVal) (ns : Namespace) : List (PyStr × Argparse.AVal) :=
  [(py!"files", files), (py!"parseables", match ns.parseables with | none => .none | some l => .strs l),
   (py!"pretty_print", .bool ns.prettyPrint), (py!"show_tstats", .bool ns.showTstats), (py!"show_cstats", .bool ns.showCstats)]

theorem action_eq (fv : Argparse.AVal) (ns : Namespace) (a : Opt) (l : List PyStr) :
    Argparse.takeAction (attrsOf fv ns) (actOf a, l) = mapOk (attrsOf fv) (takeAction ns (a, l)) := by
  cases a
  · rfl
  · show (if l.all (choices.contains ·) then _ else _) = _
    unfold takeAction
    dsimp only
    split <;> rfl
  · rfl
  · rfl
  · rfl

theorem actions_eq (fv : Argparse.AVal) : ∀ (l : List (Opt × List PyStr)) (ns : Namespace),
    Argparse.takeActions (attrsOf fv ns) (l.map fun p => (actOf p.1, p.2)) = mapOk (attrsOf fv) (takeActions ns l)
  | [], _ => rfl
  | (a, as) :: r, ns => by
    show (do Argparse.takeActions (← Argparse.takeAction (attrsOf fv ns) (actOf a, as)) _) = mapOk _ (do takeActions (← takeAction ns (a, as)) r)
    rw [action_eq]
    cases takeAction ns (a, as) with
    | error e => rfl
    | ok ns' => exact actions_eq fv r ns'

theorem takeAction_files {ns ns' : Namespace} {p : Opt × List PyStr} (h : takeAction ns p = .ok ns') : ns'.files = ns.files := by
  obtain ⟨a, l⟩ := p
  cases a
  · cases h
  · unfold takeAction at h
    dsimp only at h
    split at h
    · cases h; rfl
    · cases h
  all_goals cases h; rfl

theorem takeActions_files : ∀ {l : List (Opt × List PyStr)} {ns ns' : Namespace}, takeActions ns l = .ok ns' → ns'.files = ns.files
  | [], _, _, h => by cases h; rfl
  | p :: r, ns, ns', h => by
    change (do takeActions (← takeAction ns p) r) = .ok ns' at h
    cases hp : takeAction ns p with
    | error e => rw [hp] at h; cases h
    | ok x => rw [hp] at h; exact (takeActions_files h).trans (takeAction_files hp)

/-- The files attribute: not set until the positional is filled. -/
def filesOf (open_ : Bool) (files : List PyStr) : Argparse.AVal := if open_ then .none else .strs files

/-- The same state. -/
def stOf (st : CliState) : Argparse.St :=
  { ns := attrsOf (filesOf st.open_ st.ns.files) st.ns, open_ := st.open_, extras := st.extras }

theorem run_eq : ∀ l : List Tok, Argparse.argDashRun (l.map tokOf) = argDashRun l
  | [] => rfl
  | .arg w :: r => by
    show Argparse.argDashRun (r.map tokOf) + 1 = argDashRun r + 1
    rw [run_eq r]
  | .opt _ _ :: _ => rfl
  | .dash :: r => by
    show Argparse.argDashRun (r.map tokOf) + 1 = argDashRun r + 1
    rw [run_eq r]

theorem positional_eq : ∀ l : List Tok, Argparse.matchPositional (l.map tokOf) = matchFiles l
  | [] => rfl
  | .arg w :: r => by
    show Argparse.argDashRun (r.map tokOf) + 1 = argDashRun r + 1
    rw [run_eq r]
  | .opt _ _ :: _ => rfl
  | .dash :: r => by
    show (match Argparse.matchPositional (r.map tokOf) with | 0 => 0 | n + 1 => n + 2) = (match matchFiles r with | 0 => 0 | n + 1 => n + 2)
    rw [positional_eq r]

theorem positionals_eq (st : CliState) (toks : List Tok) :
    Argparse.consumePositionals py!"files" (stOf st) (toks.map tokOf) =
      (stOf (consumePositionals st toks).1, (consumePositionals st toks).2) := by
  unfold Argparse.consumePositionals consumePositionals
  rw [positional_eq]
  obtain ⟨ns, o, ex⟩ := st
  cases o with
  | false => rfl
  | true =>
    show (if true = true then _ else _) = _
    simp only [if_true]
    cases matchFiles toks with
    | zero => rfl
    | succ n =>
      dsimp only
      rw [← List.map_take, words_eq]
      rfl

theorem any_eq (l : List Tok) : (l.map tokOf).any Argparse.Tok.isOpt = l.any Tok.isOpt := by
  rw [List.any_map]
  congr 1
  funext t
  exact tok_isOpt t

theorem takeWhile_eq (l : List Tok) : (l.map tokOf).takeWhile (!Argparse.Tok.isOpt ·) = (l.takeWhile (!Tok.isOpt ·)).map tokOf := by
  rw [List.takeWhile_map]
  congr 2
  funext t
  simp only [Function.comp, tok_isOpt]

theorem dropWhile_eq (l : List Tok) : (l.map tokOf).dropWhile (!Argparse.Tok.isOpt ·) = (l.dropWhile (!Tok.isOpt ·)).map tokOf := by
  rw [List.dropWhile_map]
  congr 2
  funext t
  simp only [Function.comp, tok_isOpt]

theorem loop_eq (toks : List Tok) : ∀ st : CliState,
    Argparse.loop T py!"files" (stOf st) (toks.map tokOf) = mapOk stOf (cliLoop st toks) := by
  induction h : toks.length using Nat.strongRecOn generalizing toks with
  | _ n ih =>
    intro st
    have hpos : ∀ x r, toks = x :: r → (match Argparse.consumePositionals py!"files" (stOf st) ((x :: r).map tokOf) with
        | (st', 0) => Argparse.loop T py!"files" { st' with extras := st'.extras ++ (((x :: r).map tokOf).takeWhile (!Argparse.Tok.isOpt ·)).map Argparse.Tok.word }
            ((r.map tokOf).dropWhile (!Argparse.Tok.isOpt ·))
        | (st', n + 1) => Argparse.loop T py!"files" st' ((r.map tokOf).drop n)) =
      mapOk stOf (match consumePositionals st (x :: r) with
        | (st', 0) => cliLoop { st' with extras := st'.extras ++ ((x :: r).takeWhile (!Tok.isOpt ·)).map Tok.word } (r.dropWhile (!Tok.isOpt ·))
        | (st', n + 1) => cliLoop st' (r.drop n)) := by
      intro x r e
      subst e
      rw [positionals_eq, takeWhile_eq, dropWhile_eq, words_eq]
      rcases consumePositionals st (x :: r) with ⟨st', _ | m⟩
      · refine ih _ ?_ (r.dropWhile (!Tok.isOpt ·)) rfl { st' with extras := st'.extras ++ ((x :: r).takeWhile (!Tok.isOpt ·)).map Tok.word }
        have := (List.dropWhile_sublist (fun t : Tok => !t.isOpt) (l := r)).length_le
        subst h; simp only [List.length_cons]; omega
      · dsimp only
        rw [← List.map_drop]
        exact ih _ (by subst h; simp only [List.length_cons, List.length_drop]; omega) _ rfl _
    unfold Argparse.loop cliLoop
    rw [any_eq]
    split
    · cases toks with
      | nil => rfl
      | cons x r =>
        cases x with
        | arg w => exact hpos _ _ rfl
        | dash => exact hpos _ _ rfl
        | opt t w =>
          show (match Argparse.consumeOptional T (tupleOf t) w (Argparse.leadingArgs (r.map tokOf)) with
            | .error e => (.error e : Except Exit Argparse.St)
            | .ok c => match Argparse.takeActions (stOf st).ns c.actions with
              | .error e => .error e
              | .ok ns => Argparse.loop T py!"files" { stOf st with ns, extras := (stOf st).extras ++ c.extras } ((r.map tokOf).drop c.taken)) = _
          rw [leading_eq, consume_eq]
          dsimp only
          cases consumeOptional t w (leadingArgs r) with
          | error e => rfl
          | ok c =>
            simp only [mapOk]
            show (match Argparse.takeActions (attrsOf (filesOf st.open_ st.ns.files) st.ns) (c.actions.map fun p => (actOf p.1, p.2)) with
              | .error e => (.error e : Except Exit Argparse.St)
              | .ok ns => Argparse.loop T py!"files" { stOf st with ns, extras := st.extras ++ c.extras } ((r.map tokOf).drop c.taken)) = _
            rw [actions_eq]
            cases ht : takeActions st.ns c.actions with
            | error e => rfl
            | ok ns =>
              simp only [mapOk]
              rw [← List.map_drop, ← takeActions_files ht]
              exact ih _ (by subst h; simp only [List.length_cons, List.length_drop]; omega) _ rfl { st with ns, extras := st.extras ++ c.extras }
    · dsimp only
      rw [positionals_eq]
      simp only [← List.map_drop, words_eq]
      rfl

/-- `parser.parse_args()` for the declarations of the reader. -/
theorem parse_eq (U : Nat → Bool) (argv : List PyStr) :
    Argparse.parse U readerDecls argv = some (mapOk (fun ns => attrsOf (.strs ns.files) ns) (parseArgs U argv)) := by
  show some (do
    let toks ← Argparse.classify T U argv
    let st ← Argparse.loop T py!"files" { ns := Argparse.defaults readerDecls } toks
    if st.open_ || !st.extras.isEmpty then (.error .usage : Except Exit _) else return st.ns) = _
  unfold parseArgs
  rw [classify_eq]
  cases classify U argv with
  | error e => rfl
  | ok toks =>
    show some (do
      let st ← Argparse.loop T py!"files" (stOf { ns := { files := [] } }) (toks.map tokOf)
      if st.open_ || !st.extras.isEmpty then (.error .usage : Except Exit _) else return st.ns) =
      some (mapOk _ (do
        let st ← cliLoop { ns := { files := [] } } toks
        if st.open_ || !st.extras.isEmpty then (.error .usage : Except Exit _) else return st.ns))
    rw [loop_eq]
    cases cliLoop { ns := { files := [] } } toks with
    | error e => rfl
    | ok st =>
      obtain ⟨ns, o, ex⟩ := st
      cases o <;> cases ex <;> rfl

end Atop.Src.Args
