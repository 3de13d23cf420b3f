import Verif.Model.Cli
/-!
# The `argparse` library

What `ArgumentParser.add_argument` and `ArgumentParser.parse_args` do, for any declarations of the following kinds: options
with `action="store_true"`, options with `nargs="+"` (with or without `choices`), and one positional with `nargs="+"`.
After CPython 3.11 (Lib/argparse.py; functions named in the comments).  The texts of the help and of usage errors are not
modelled.  Verif/Model/Cli.lean is the same library specialised by hand to the declarations of atoparser/reader.py; that the
two agree is part of C72.
-/

namespace Atop.Src.Argparse

/-- A declared argument. -/
structure ArgDecl where
  /-- `option_strings`; empty for a positional -/
  strings : List PyStr
  /-- the attribute of the result -/
  dest : PyStr
  /-- `nargs="+"`; otherwise `action="store_true"` -/
  plus : Bool
  choices : Option (List PyStr) := none
  deriving DecidableEq

/-- The values of the attributes of the result. -/
inductive AVal
  | none
  | bool (b : Bool)
  | strs (l : List PyStr)

/-- The actions of the options: the automatic `-h` and the declared ones. -/
inductive Act
  | help
  | decl (d : ArgDecl)
  deriving DecidableEq

/-- `_get_optional_kwargs`: the attribute of an option, from its first long spelling, or else its first one. -/
def destOf (strings : List PyStr) : Option PyStr :=
  match strings.find? (fun s => s.take 2 = py!"--") with
  | some s => some ((s.dropWhile (· == 45)).map fun c => if c = 45 then 95 else c)
  | none => match strings with
    | s :: _ => some ((s.dropWhile (· == 45)).map fun c => if c = 45 then 95 else c)
    | [] => none

/-- `add_argument(*names, nargs=, action=, dest=, choices=)`; nothing when the declaration is of another kind. -/
def addArgument (names : List PyStr) (nargs action dest : Option PyStr) (choices : Option (List PyStr)) : Option ArgDecl :=
  if names.all (fun s => s.head? = some 45) && !names.isEmpty then
    match (match dest with | some d => some d | none => destOf names) with
    | none => none
    | some d =>
      if action = none ∧ nargs = some py!"+" then some { strings := names, dest := d, plus := true, choices }
      else if action = some py!"store_true" ∧ nargs = none ∧ choices = none then some { strings := names, dest := d, plus := false }
      else none
  else
    match names with
    | [x] => if action = none ∧ nargs = some py!"+" ∧ dest = none ∧ choices = none then
        some { strings := [], dest := x, plus := true } else none
    | _ => none

/-- `_option_string_actions` -/
def optionTable (ds : List ArgDecl) : List (PyStr × Act) :=
  [(py!"-h", .help), (py!"--help", .help)] ++ ds.flatMap fun d => d.strings.map fun s => (s, .decl d)

/-- What `_parse_optional` returns for an option: `action, option_string, sep, explicit_arg`. -/
structure OTuple where
  action : Option Act
  optionString : PyStr
  sep : Option PyStr := none
  explicitArg : Option PyStr := none

section
variable (T : List (PyStr × Act))

/-- `_get_option_tuples` -/
def getOptionTuples (w : PyStr) : List OTuple :=
  if w.take 2 = py!"--" then
    let p := partitionEq w
    (T.filter (fun o => p.1.isPrefixOf o.1)).map fun o =>
      { action := some o.2, optionString := o.1, sep := p.2.map (fun _ => py!"="), explicitArg := p.2 }
  else
    T.filterMap fun o =>
      if o.1 = w.take 2 then some { action := some o.2, optionString := o.1, sep := some [], explicitArg := some (w.drop 2) }
      else if w.isPrefixOf o.1 then some { action := some o.2, optionString := o.1 }
      else none

/-- `_parse_optional`: `none` for a positional.  (No declared option looks like a negative number.) -/
def parseOptional (U : Nat → Bool) (w : PyStr) : Except Exit (Option OTuple) :=
  if w.head? ≠ some 45 then .ok none
  else
    match T.lookup w with
    | some a => .ok (some { action := some a, optionString := w })
    | none =>
      if w.length = 1 then .ok none
      else
        match (partitionEq w).2, T.lookup (partitionEq w).1 with
        | some e, some a =>
          .ok (some { action := some a, optionString := (partitionEq w).1, sep := some py!"=", explicitArg := some e })
        | _, _ =>
          match getOptionTuples T w with
          | [t] => .ok (some t)
          | _ :: _ :: _ => .error .usage
          | [] =>
            if negativeNumber U w then .ok none
            else if 32 ∈ w then .ok none
            else .ok (some { action := none, optionString := w })

/-- An argument with its class: `O` (with the option tuple), `A` or `-`. -/
inductive Tok
  | opt (t : OTuple) (w : PyStr)
  | arg (w : PyStr)
  | dash

/-- The argument itself. -/
def Tok.word : Tok → PyStr
  | .opt _ w => w
  | .arg w => w
  | .dash => py!"--"

/-- `_parse_known_args`, the classification of the arguments. -/
def classify (U : Nat → Bool) : List PyStr → Except Exit (List Tok)
  | [] => .ok []
  | w :: ws =>
    if w = py!"--" then .ok (.dash :: ws.map .arg)
    else do
      let o ← parseOptional T U w
      let r ← classify U ws
      match o with
      | none => return .arg w :: r
      | some t => return .opt t w :: r

/-- `_match_argument`: `A+` or nothing, for `n` arguments that follow; `none` is an error. -/
def matchArgument (a : Act) (n : Nat) : Option Nat :=
  match a with
  | .help => some 0
  | .decl d => if d.plus then (if n = 0 then none else some n) else some 0

/-- The leading `A`s. -/
def leadingArgs : List Tok → List PyStr
  | .arg w :: r => w :: leadingArgs r
  | _ => []

/-- What an option word does: the actions with their arguments, unrecognized words, and the number of following
arguments taken. -/
structure Consumed where
  actions : List (Act × List PyStr)
  extras : List PyStr := []
  taken : Nat := 0

/-- `consume_optional`, the case of no explicit argument. -/
def consumeFollowing (following : List PyStr) (a : Act) : Except Exit Consumed :=
  match matchArgument a following.length with
  | none => .error .usage
  | some n => .ok { actions := [(a, following.take n)], taken := n }

/-- `consume_optional`, the loop while there is an explicit argument `e`. -/
def consumeExplicit (following : List PyStr) (a : Act) (optionString : PyStr) (sep : PyStr) (e : PyStr) :
    Except Exit Consumed :=
  let count := matchArgument a 1
  if count = some 0 ∧ optionString[1]? ≠ some 45 ∧ e ≠ [] then
    match e with
    | [] => .error .usage
    | c :: cs =>
      if sep ≠ [] ∨ c = 45 then .error .usage
      else
        match T.lookup [45, c] with
        | none => .ok { actions := [(a, [])], extras := [45 :: c :: cs] }
        | some a' => do
          let r ←
            match cs with
            | [] => consumeFollowing following a'
            | 61 :: e' => consumeExplicit following a' [45, c] py!"=" e'
            | d :: ds => consumeExplicit following a' [45, c] [] (d :: ds)
          return { r with actions := (a, []) :: r.actions }
  else if count = some 1 then .ok { actions := [(a, [e])] }
  else .error .usage
  termination_by e.length

/-- `consume_optional` -/
def consumeOptional (t : OTuple) (w : PyStr) (following : List PyStr) : Except Exit Consumed :=
  match t.action with
  | none => .ok { actions := [], extras := [w] }
  | some a =>
    match t.explicitArg with
    | none => consumeFollowing following a
    | some e => consumeExplicit T following a t.optionString (t.sep.getD []) e

/-- `setattr(namespace, dest, value)` -/
def setAttr (k : PyStr) (v : AVal) : List (PyStr × AVal) → List (PyStr × AVal)
  | [] => [(k, v)]
  | (k', v') :: r => if k' = k then (k, v) :: r else (k', v') :: setAttr k v r

/-- `take_action` for an option: `_get_values` checks the choices, then the action runs. -/
def takeAction (ns : List (PyStr × AVal)) : Act × List PyStr → Except Exit (List (PyStr × AVal))
  | (.help, _) => .error .help
  | (.decl d, args) =>
    if d.plus then
      if (match d.choices with | some c => args.all (c.contains ·) | none => true) then .ok (setAttr d.dest (.strs args) ns)
      else .error .usage
    else .ok (setAttr d.dest (.bool true) ns)

/-- The actions of one option word, in order. -/
def takeActions (ns : List (PyStr × AVal)) : List (Act × List PyStr) → Except Exit (List (PyStr × AVal))
  | [] => .ok ns
  | a :: r => do takeActions (← takeAction ns a) r

/-- The state of `_parse_known_args`: the namespace, whether the positional is still to be filled, the unrecognized
words. -/
structure St where
  ns : List (PyStr × AVal)
  open_ : Bool := true
  extras : List PyStr := []

/-- `[A-]*` -/
def argDashRun : List Tok → Nat
  | .arg _ :: r => argDashRun r + 1
  | .dash :: r => argDashRun r + 1
  | _ => 0

/-- `_match_arguments_partial` for one positional with `nargs="+"`, pattern `-*A[A-]*`; 0 when it does not match. -/
def matchPositional : List Tok → Nat
  | .arg _ :: r => argDashRun r + 1
  | .dash :: r => match matchPositional r with | 0 => 0 | n + 1 => n + 2
  | _ => 0

/-- `consume_positionals`: the new state and the number of arguments consumed.  `_get_values` drops the first `--`. -/
def consumePositionals (dest : PyStr) (st : St) (toks : List Tok) : St × Nat :=
  if st.open_ then
    match matchPositional toks with
    | 0 => (st, 0)
    | n + 1 => ({ st with ns := setAttr dest (.strs (((toks.take (n + 1)).map Tok.word).erase py!"--")) st.ns, open_ := false }, n + 1)
  else (st, 0)

/-- Is it an option? -/
def Tok.isOpt : Tok → Bool
  | .opt _ _ => true
  | _ => false

/-- `_parse_known_args`: positionals and optionals alternately while an option is left, then the last positionals. -/
def loop (dest : PyStr) (st : St) (toks : List Tok) : Except Exit St :=
  if toks.any Tok.isOpt then
    match toks with
    | [] => .ok st
    | .opt t w :: r =>
      match consumeOptional T t w (leadingArgs r) with
      | .error e => .error e
      | .ok c =>
        match takeActions st.ns c.actions with
        | .error e => .error e
        | .ok ns => loop dest { st with ns, extras := st.extras ++ c.extras } (r.drop c.taken)
    | x :: r =>
      match consumePositionals dest st (x :: r) with
      | (st', 0) =>
        loop dest { st' with extras := st'.extras ++ ((x :: r).takeWhile (!Tok.isOpt ·)).map Tok.word }
          (r.dropWhile (!Tok.isOpt ·))
      | (st', n + 1) => loop dest st' (r.drop n)
  else
    let p := consumePositionals dest st toks
    .ok { p.1 with extras := p.1.extras ++ (toks.drop p.2).map Tok.word }
  termination_by toks.length
  decreasing_by
    · simp only [List.length_drop, List.length_cons]; omega
    · have := (List.dropWhile_sublist (fun t : Tok => !t.isOpt) (l := r)).length_le
      simp only [List.length_cons]; omega
    · simp only [List.length_drop, List.length_cons]; omega
end

/-- The attributes before anything is read: `False` for `store_true`, otherwise `None`. -/
def defaults (ds : List ArgDecl) : List (PyStr × AVal) :=
  ds.map fun d => (d.dest, if d.plus then .none else .bool false)

/-- `parser.parse_args()` on the words `argv`: the attributes of the result, or the exit.  Nothing unless exactly one
positional is declared. -/
def parse (U : Nat → Bool) (ds : List ArgDecl) (argv : List PyStr) : Option (Except Exit (List (PyStr × AVal))) :=
  match ds.filter (fun d => d.strings.isEmpty) with
  | [p] => some (do
    let toks ← classify (optionTable ds) U argv
    let st ← loop (optionTable ds) p.dest { ns := defaults ds } toks
    if st.open_ || !st.extras.isEmpty then .error .usage else return st.ns)
  | _ => none

end Atop.Src.Argparse
