import Verif.Model.Json
/-!
# The command lines the program accepts

A grammar of the accepted command lines and what they ask for, written as relations on the words of the line.  It
does not mention the argument parser.  `Namespace` (the result of `parse_args`) is a record of five fields.

Usage: `[-P PARSEABLE [PARSEABLE ...]] [-p] [--tstats] [--cstats] files [files ...]`
-/

namespace Atop.Spec

/-- What one option asks for. -/
inductive Effect
  | pretty | tstats | cstats | parseables (names : List PyStr)

/-- The long options. -/
def longOptions : List PyStr :=
  [py!"--help", py!"--parseables", py!"--pretty-print", py!"--tstats", py!"--cstats"]

/-- The names that may follow `-P`. -/
def parseableNames : List PyStr :=
  [py!"cpu", py!"CPL", py!"CPU", py!"DSK", py!"LVM", py!"MDD", py!"MEM", py!"NETL", py!"NETU", py!"PAG", py!"PRC",
    py!"PRG", py!"PRM", py!"PRN", py!"SWP"]

/-- A long option, in full or shortened so that no other long option starts like that. -/
def Abbreviates (w full : PyStr) : Prop := w <+: full ∧ ∀ o ∈ longOptions, w <+: o → o = full

/-- An option in one word: `-p`, `-pp`, `--pretty-print`, `--tstats`, `--cstats`, `-PCPU`, `-P=CPU`, `-pPCPU`,
`--parseables=CPU`, with the long options possibly abbreviated. -/
inductive OneWord : PyStr → List Effect → Prop
  | p (k : Nat) : OneWord (py!"-" ++ List.replicate (k + 1) 112) (List.replicate (k + 1) .pretty)
  | pretty (w : PyStr) : Abbreviates w py!"--pretty-print" → OneWord w [.pretty]
  | tstats (w : PyStr) : Abbreviates w py!"--tstats" → OneWord w [.tstats]
  | cstats (w : PyStr) : Abbreviates w py!"--cstats" → OneWord w [.cstats]
  | P (k : Nat) (eq : Bool) (x : PyStr) : x ∈ parseableNames →
    OneWord (py!"-" ++ List.replicate k 112 ++ py!"P" ++ (if eq then py!"=" else []) ++ x)
      (List.replicate k .pretty ++ [.parseables [x]])
  | parseables (w x : PyStr) : Abbreviates w py!"--parseables" → x ∈ parseableNames →
    OneWord (w ++ py!"=" ++ x) [.parseables [x]]

/-- The word that starts a list of parseables: `-P`, `-pP`, `--parseables`. -/
inductive ListWord : PyStr → List Effect → Prop
  | P (k : Nat) : ListWord (py!"-" ++ List.replicate k 112 ++ py!"P") (List.replicate k .pretty)
  | parseables (w : PyStr) : Abbreviates w py!"--parseables" → ListWord w []

/-- An option with its words. -/
structure Piece where
  words : List PyStr
  /-- is it a list of parseables, the names standing in words of their own? -/
  isList : Bool
  effects : List Effect

/-- The options. -/
inductive Piece.Valid : Piece → Prop
  | one (w : PyStr) (es : List Effect) : OneWord w es → Piece.Valid ⟨[w], false, es⟩
  | list (w : PyStr) (es : List Effect) (names : List PyStr) : ListWord w es → names ≠ [] →
    (∀ x ∈ names, x ∈ parseableNames) → Piece.Valid ⟨w :: names, true, es ++ [.parseables names]⟩

/-- `-5`, `-1.5`, `-.5`, possibly with a line break at the end; `U` says which characters are digits. -/
def NegativeNumber (U : Nat → Bool) (w : PyStr) : Prop :=
  ∃ body tail, w = py!"-" ++ body ++ tail ∧ (tail = [] ∨ tail = py!"\n") ∧
    ((body ≠ [] ∧ ∀ c ∈ body, U c = true) ∨
     ∃ a b, body = a ++ py!"." ++ b ∧ b ≠ [] ∧ (∀ c ∈ a, U c = true) ∧ ∀ c ∈ b, U c = true)

/-- Words that look like one of the options: they start with `-h`, `-P` or `-p`, or with `--` and, up to the first
`=`, like a long option. -/
def LooksLikeOption (w : PyStr) : Prop :=
  (∃ c ∈ py!"hPp", [45, c] <+: w) ∨
  ∃ a b, w = a ++ b ∧ py!"--" <+: a ∧ 61 ∉ a ∧ (b = [] ∨ b.head? = some 61) ∧ ∃ o ∈ longOptions, a <+: o

/-- Words taken for file names when no `--` precedes them: those not starting with `-`, the word `-`, and words
that do not look like an option and are negative numbers or contain a space. -/
def FileWord (U : Nat → Bool) (w : PyStr) : Prop :=
  w ≠ py!"--" ∧ (w.head? ≠ some 45 ∨ w = py!"-" ∨ (¬ LooksLikeOption w ∧ (NegativeNumber U w ∨ 32 ∈ w)))

/-- The accepted command lines, the files they name and the effects they ask for.  The files stand together; options
may precede and follow them, but a list of parseables must not directly precede them.  After `--` every word is
a file. -/
inductive Line (U : Nat → Bool) : List PyStr → List PyStr → List Effect → Prop
  | plain (before after : List Piece) (files : List PyStr) :
    (∀ p ∈ before, p.Valid) → (∀ p ∈ after, p.Valid) → (∀ p, before.getLast? = some p → p.isList = false) →
    files ≠ [] → (∀ f ∈ files, FileWord U f) →
    Line U (before.flatMap Piece.words ++ files ++ after.flatMap Piece.words) files
      (before.flatMap Piece.effects ++ after.flatMap Piece.effects)
  | dashed (before : List Piece) (files more : List PyStr) :
    (∀ p ∈ before, p.Valid) → (files ≠ [] → ∀ p, before.getLast? = some p → p.isList = false) →
    files ++ more ≠ [] → (∀ f ∈ files, FileWord U f) →
    Line U (before.flatMap Piece.words ++ files ++ [py!"--"] ++ more) (files ++ more) (before.flatMap Piece.effects)

/-- The names given by the last `-P`, if there is one. -/
def lastParseables : List Effect → Option (List PyStr)
  | [] => none
  | e :: es =>
    match lastParseables es, e with
    | some ps, _ => some ps
    | none, .parseables ps => some ps
    | none, _ => none

/-- The settings asked for. -/
structure Settings (files : List PyStr) (es : List Effect) (ns : Namespace) : Prop where
  files : ns.files = files
  parseables : ns.parseables = lastParseables es
  pretty : ns.prettyPrint = true ↔ .pretty ∈ es
  tstats : ns.showTstats = true ↔ .tstats ∈ es
  cstats : ns.showCstats = true ↔ .cstats ∈ es

end Atop.Spec
