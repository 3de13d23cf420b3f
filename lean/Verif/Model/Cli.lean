import Verif.Model.Json
/-!
# `parse_args` (atoparser/reader.py:18-59) and the command line of the program

`parse_args` declares a parser and calls `ArgumentParser.parse_args()`.  The declarations are the table
`optionStrings` and the constants beside it; what `argparse` does with them is modelled after CPython 3.11
(Lib/argparse.py; lines quoted by function name), for exactly the features these declarations use: one positional
with `nargs="+"`, one option with `nargs="+"` and `choices`, three `store_true` options and the automatic `-h`.
The texts of usage errors and of the help are not modelled, only that the program exits (status 2 or 0) without
processing anything.
-/

namespace Atop

/-- The optional arguments declared at atoparser/reader.py:31-57, and the automatic help. -/
inductive Opt
  | help | parseables | prettyPrint | tstats | cstats
  deriving DecidableEq, Repr

/-- `_option_string_actions`: the spellings of each option (atoparser/reader.py:32-33,40-41,46,52), `-h` and `--help`
being added by `ArgumentParser` first. -/
def optionStrings : List (PyStr × Opt) := [
  (py!"-h", .help), (py!"--help", .help), (py!"-P", .parseables), (py!"--parseables", .parseables),
  (py!"-p", .prettyPrint), (py!"--pretty-print", .prettyPrint), (py!"--tstats", .tstats), (py!"--cstats", .cstats)]

/-- `choices=PARSEABLES` (atoparser/reader.py:35). -/
def choices : List PyStr := parseableMap.map (·.1)

/-- How the program ends before processing any file: `parser.error` (status 2) or the help action (status 0). -/
inductive Exit
  | usage | help
  deriving DecidableEq, Repr

/-- What `_parse_optional` returns for an option: `action, option_string, sep, explicit_arg`. -/
structure OptTuple where
  action : Option Opt
  optionString : PyStr
  sep : Option PyStr := none
  explicitArg : Option PyStr := none
  deriving DecidableEq, Repr

/-- `text.partition("=")`: the part before the first `=`, and the part after it if there is one. -/
def partitionEq : PyStr → PyStr × Option PyStr
  | [] => ([], none)
  | c :: cs =>
    if c = 61 then ([], some cs)
    else let r := partitionEq cs; (c :: r.1, r.2)

/-- `_get_option_tuples` -/
def getOptionTuples (w : PyStr) : List OptTuple :=
  if w.take 2 = py!"--" then
    let p := partitionEq w
    (optionStrings.filter (fun o => p.1.isPrefixOf o.1)).map fun o =>
      { action := some o.2, optionString := o.1, sep := p.2.map (fun _ => py!"="), explicitArg := p.2 }
  else
    optionStrings.filterMap fun o =>
      if o.1 = w.take 2 then some { action := some o.2, optionString := o.1, sep := some [], explicitArg := some (w.drop 2) }
      else if w.isPrefixOf o.1 then some { action := some o.2, optionString := o.1 }
      else none

/-- `_negative_number_matcher`: `^-\d+$|^-\d*\.\d+$`; `$` also matches before a final line break.  `U` says which
code points `\d` matches (Unicode decimal digits). -/
def negativeNumber (U : Nat → Bool) (w : PyStr) : Bool :=
  let body (t : PyStr) : Bool :=
    (!t.isEmpty && t.all U) ||
      (List.range t.length).any fun i =>
        (t.take i).all U && t[i]? == some 46 && !(t.drop (i + 1)).isEmpty && (t.drop (i + 1)).all U
  match w with
  | 45 :: t => body t || (t.getLast? == some 10 && body t.dropLast)
  | _ => false

/-- `_parse_optional`: `none` for a positional. -/
def parseOptional (U : Nat → Bool) (w : PyStr) : Except Exit (Option OptTuple) :=
  if w.head? ≠ some 45 then .ok none
  else
    match optionStrings.lookup w with
    | some a => .ok (some { action := some a, optionString := w })
    | none =>
      if w.length = 1 then .ok none
      else
        match (partitionEq w).2, optionStrings.lookup (partitionEq w).1 with
        | some e, some a =>
          .ok (some { action := some a, optionString := (partitionEq w).1, sep := some py!"=", explicitArg := some e })
        | _, _ =>
          match getOptionTuples w with
          | [t] => .ok (some t)
          | _ :: _ :: _ => .error .usage                        -- "ambiguous option"
          | [] =>
            if negativeNumber U w then .ok none
            else if 32 ∈ w then .ok none
            else .ok (some { action := none, optionString := w })

/-- An argument with its class: `O` (with the option tuple), `A` or `-`. -/
inductive Tok
  | opt (t : OptTuple) (w : PyStr)
  | arg (w : PyStr)
  | dash
  deriving DecidableEq, Repr

/-- The argument itself. -/
def Tok.word : Tok → PyStr
  | .opt _ w => w
  | .arg w => w
  | .dash => py!"--"

/-- `_parse_known_args`, the classification of the arguments. -/
def classify (U : Nat → Bool) : List PyStr → Except Exit (List Tok)
  | [] => .ok []
  | w :: ws =>
    if w = py!"--" then .ok (.dash :: ws.map .arg)
    else do
      let o ← parseOptional U w
      let r ← classify U ws
      match o with
      | none => return .arg w :: r
      | some t => return .opt t w :: r

/-- Number of arguments an option takes when the following ones have this many leading `A`s (`_match_argument`):
`A+` for `--parseables`, nothing for the others; `none` is the error "expected at least one argument". -/
def matchArgument (a : Opt) (n : Nat) : Option Nat :=
  match a with
  | .parseables => if n = 0 then none else some n
  | _ => some 0

/-- The leading `A`s. -/
def leadingArgs : List Tok → List PyStr
  | .arg w :: r => w :: leadingArgs r
  | _ => []

/-- What an option word does: the actions with their arguments, unrecognized words, and the number of following
arguments taken. -/
structure Consumed where
  actions : List (Opt × List PyStr)
  extras : List PyStr := []
  taken : Nat := 0

/-- `consume_optional`, the case of no explicit argument. -/
def consumeFollowing (following : List PyStr) (a : Opt) : Except Exit Consumed :=
  match matchArgument a following.length with
  | none => .error .usage
  | some n => .ok { actions := [(a, following.take n)], taken := n }

/-- `consume_optional`, the loop while there is an explicit argument `e` (`-pPCPU` is `-p -P CPU`). -/
def consumeExplicit (following : List PyStr) (a : Opt) (optionString : PyStr) (sep : PyStr) (e : PyStr) :
    Except Exit Consumed :=
  let count := matchArgument a 1
  if count = some 0 ∧ optionString[1]? ≠ some 45 ∧ e ≠ [] then
    match e with
    | [] => .error .usage                                       -- excluded by the condition
    | c :: cs =>
      if sep ≠ [] ∨ c = 45 then .error .usage                   -- "ignored explicit argument"
      else
        match optionStrings.lookup [45, c] with
        | none => .ok { actions := [(a, [])], extras := [45 :: c :: cs] }
        | some a' => do
          let r ←
            match cs with
            | [] => consumeFollowing following a'
            | 61 :: e' => consumeExplicit following a' [45, c] py!"=" e'
            | d :: ds => consumeExplicit following a' [45, c] [] (d :: ds)
          return { r with actions := (a, []) :: r.actions }
  else if count = some 1 then .ok { actions := [(a, [e])] }
  else .error .usage                                            -- "ignored explicit argument"
  termination_by e.length

/-- `consume_optional` -/
def consumeOptional (t : OptTuple) (w : PyStr) (following : List PyStr) : Except Exit Consumed :=
  match t.action with
  | none => .ok { actions := [], extras := [w] }
  | some a =>
    match t.explicitArg with
    | none => consumeFollowing following a
    | some e => consumeExplicit following a t.optionString (t.sep.getD []) e

/-- `take_action` for an option: `_get_values` checks the choices, then the action runs. -/
def takeAction (ns : Namespace) : Opt × List PyStr → Except Exit Namespace
  | (.help, _) => .error .help
  | (.parseables, args) =>
    if args.all (choices.contains ·) then .ok { ns with parseables := some args } else .error .usage
  | (.prettyPrint, _) => .ok { ns with prettyPrint := true }
  | (.tstats, _) => .ok { ns with showTstats := true }
  | (.cstats, _) => .ok { ns with showCstats := true }

/-- The actions of one option word, in order. -/
def takeActions (ns : Namespace) : List (Opt × List PyStr) → Except Exit Namespace
  | [] => .ok ns
  | a :: r => do takeActions (← takeAction ns a) r

/-- The state of `_parse_known_args`: the namespace, whether `files` is still to be filled, the unrecognized words. -/
structure CliState where
  ns : Namespace
  open_ : Bool := true
  extras : List PyStr := []

/-- `[A-]*` -/
def argDashRun : List Tok → Nat
  | .arg _ :: r => argDashRun r + 1
  | .dash :: r => argDashRun r + 1
  | _ => 0

/-- `_match_arguments_partial` for `files`, pattern `-*A[A-]*`; 0 when it does not match. -/
def matchFiles : List Tok → Nat
  | .arg _ :: r => argDashRun r + 1
  | .dash :: r => match matchFiles r with | 0 => 0 | n + 1 => n + 2
  | _ => 0

/-- `consume_positionals`: the new state and the number of arguments consumed.  `_get_values` drops the first `--`. -/
def consumePositionals (st : CliState) (toks : List Tok) : CliState × Nat :=
  if st.open_ then
    match matchFiles toks with
    | 0 => (st, 0)
    | n + 1 => ({ st with ns := { st.ns with files := ((toks.take (n + 1)).map Tok.word).erase py!"--" }, open_ := false }, n + 1)
  else (st, 0)

/-- Is it an option? -/
def Tok.isOpt : Tok → Bool
  | .opt _ _ => true
  | _ => false

/-- `_parse_known_args`: positionals and optionals alternately while an option is left, then the last positionals. -/
def cliLoop (st : CliState) (toks : List Tok) : Except Exit CliState :=
  if toks.any Tok.isOpt then
    match toks with
    | [] => .ok st                                              -- excluded by the condition
    | .opt t w :: r =>
      match consumeOptional t w (leadingArgs r) with
      | .error e => .error e
      | .ok c =>
        match takeActions st.ns c.actions with
        | .error e => .error e
        | .ok ns => cliLoop { st with ns, extras := st.extras ++ c.extras } (r.drop c.taken)
    | x :: r =>
      match consumePositionals st (x :: r) with
      | (st', 0) => -- extra arguments up to the next option
        cliLoop { st' with extras := st'.extras ++ ((x :: r).takeWhile (!Tok.isOpt ·)).map Tok.word }
          (r.dropWhile (!Tok.isOpt ·))
      | (st', n + 1) => cliLoop st' (r.drop n)
  else
    let p := consumePositionals st toks
    .ok { p.1 with extras := p.1.extras ++ (toks.drop p.2).map Tok.word }
  termination_by toks.length
  decreasing_by
    · simp only [List.length_drop, List.length_cons]; omega
    · have := (List.dropWhile_sublist (fun t : Tok => !t.isOpt) (l := r)).length_le
      simp only [List.length_cons]; omega
    · simp only [List.length_drop, List.length_cons]; omega

/-- atoparser/reader.py:18-59 `parse_args` on `sys.argv[1:]`: the namespace, or the exit.  `files` is required and
unrecognized words are an error. -/
def parseArgs (U : Nat → Bool) (argv : List PyStr) : Except Exit Namespace := do
  let toks ← classify U argv
  let st ← cliLoop { ns := { files := [] } } toks
  if st.open_ || !st.extras.isEmpty then .error .usage else return st.ns

/-- How the program ends. -/
inductive Ended
  /-- normally, status 0 -/
  | done
  /-- by an exception, status 1 -/
  | raised (e : Exc)
  /-- by `argparse`, status 2 or 0, nothing having been processed -/
  | exited (e : Exit)

/-- atoparser/reader.py:115-130 the program: what the parsed files print on the standard output (the help text of
`-h`, which `argparse` prints, is not included), and how it ends. -/
def program (U : Nat → Bool) (Z : Zlib) (fs : FileSystem) (argv : List PyStr) : PyStr × Ended :=
  match parseArgs U argv with
  | .error e => ([], .exited e)
  | .ok ns =>
    match mainText Z fs ns with
    | (out, none) => (out, .done)
    | (out, some e) => (out, .raised e)

end Atop
