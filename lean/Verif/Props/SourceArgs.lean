import Verif.Props.SourceReader
import Verif.Proofs.SourceClasses
/-!
# C72: `parse_args` from its source text

The text of `parse_args` of atoparser/reader.py (Verif/Source/Text.lean, generated from /repo): the parser it makes, the
declarations it adds to it and what `argparse` (Verif/Source/Argparse.lean, a model of the library for any declarations of
these kinds) makes of the command line with them.
-/

namespace Atop.Src
open Spec
set_option maxRecDepth 20000

section
variable (Z : Zlib) (fs : FileSystem) (args : CommandLine)

/-- The object with these attributes, in this order. -/
def namespaceVal (files : List PyStr) (parseables : Option (List PyStr)) (pretty tst cst : Bool) : Val :=
  .inst py!"Namespace" [
    (py!"files", .list (files.map .str)),
    (py!"parseables", match parseables with | some l => .list (l.map .str) | none => .none),
    (py!"pretty_print", .bool pretty), (py!"show_tstats", .bool tst), (py!"show_cstats", .bool cst)]

/-- **C72** `parse_args()`, executed as it is written, whatever the state: it returns the object the model describes or
exits as the model says, and changes nothing. -/
theorem C72_parse_args (n : Nat) (w : W) :
    ((program Z fs args).at (n + 1)).call py!"atoparser.reader" py!"parse_args" [] [] w =
      match parseArgs args.U args.argv with
      | .ok ns => (.ok (namespaceVal ns.files ns.parseables ns.prettyPrint ns.showTstats ns.showCstats), w)
      | .error e => (.error (.exit e), w) := by
  refine (call_parse_args (Z := Z) (fs := fs) (args := args) (n := n) (w := w)).trans ?_
  cases parseArgs args.U args.argv with
  | error e => rfl
  | ok ns => obtain ⟨f, p, a, b, c⟩ := ns; cases p <;> rfl

/-- **C72** Put together with C51: the text of `parse_args` returns exactly on the command lines of the grammar of
Verif/Spec/Cli.lean, with the files and settings that the line asks for; on every other line it exits. -/
theorem C72_grammar (n : Nat) (w : W) :
    (∃ files es ns, Line args.U args.argv files es ∧ Settings files es ns ∧
      ((program Z fs args).at (n + 1)).call py!"atoparser.reader" py!"parse_args" [] [] w =
        (.ok (namespaceVal ns.files ns.parseables ns.prettyPrint ns.showTstats ns.showCstats), w)) ∨
    ((¬ ∃ files es, Line args.U args.argv files es) ∧ ∃ e : Exit,
      ((program Z fs args).at (n + 1)).call py!"atoparser.reader" py!"parse_args" [] [] w = (.error (.exit e), w)) := by
  have h := C72_parse_args Z fs args n w
  cases hp : parseArgs args.U args.argv with
  | ok ns =>
    rw [hp] at h
    obtain ⟨files, es, hl, hs⟩ := (C51_exact args.U args.argv ns).mp hp
    exact .inl ⟨files, es, ns, hl, hs, h⟩
  | error e =>
    rw [hp] at h
    refine .inr ⟨?_, e, h⟩
    rintro ⟨files, es, hl⟩
    classical
    have := (C51_exact args.U args.argv
      { files, parseables := lastParseables es, prettyPrint := decide (Effect.pretty ∈ es), showTstats := decide (Effect.tstats ∈ es),
        showCstats := decide (Effect.cstats ∈ es) }).mpr ⟨files, es, hl, rfl, rfl, by simp, by simp, by simp⟩
    rw [hp] at this
    cases this

/-- **C72** The usage line: options, files and `-P` with names, given to the text of `parse_args`. -/
theorem C72_usage (U : Nat → Bool) (files names : List PyStr) (p t c : Bool) (hne : files ≠ [])
    (hf : ∀ f ∈ files, f.head? ≠ some 45) (hx : ∀ x ∈ names, x ∈ parseableNames) (n : Nat) (w : W) :
    ((program Z fs ⟨U, (if p then [py!"-p"] else []) ++ (if t then [py!"--tstats"] else []) ++ (if c then [py!"--cstats"] else []) ++
        files ++ (if names = [] then [] else py!"-P" :: names)⟩).at (n + 1)).call py!"atoparser.reader" py!"parse_args" [] [] w =
      (.ok (namespaceVal files (if names = [] then none else some names) p t c), w) := by
  refine (C72_parse_args Z fs _ n w).trans ?_
  rw [show parseArgs U _ = _ from C51_usage U files names p t c hne hf hx]

/-- **C72** An exit of `parse_args` is the end of the program: nothing has been opened, read or printed. -/
theorem C72_exit (hfs : LibFiles fs) (n : Nat) (out : PyStr) (w : World) {e : Exit}
    (h : ((program Z fs args).at 1).call py!"atoparser.reader" py!"parse_args" [] [] W.empty = (.error (.exit e), W.empty)) : ∃ w',
    ((program Z fs args).at (n + 7)).call py!"atoparser.reader" py!"main" [] [] (emb out w) = (.error (.exit e), emb out w') := by
  obtain ⟨w', hm⟩ := C70_main Z fs args hfs n out w
  have hp := C72_parse_args Z fs args 0 W.empty
  rw [h] at hp
  cases hq : parseArgs args.U args.argv with
  | ok ns => rw [hq] at hp; cases hp
  | error e' =>
    rw [hq] at hp hm
    cases hp
    exact ⟨w', hm⟩

end

/-! ## Concrete cases -/

example (Z : Zlib) (fs : FileSystem) (w : W) :
    ((program Z fs ⟨fun _ => false, [py!"-pP", py!"CPU", py!"cpu", py!"--ts", py!"a.log", py!"--", py!"-b"]⟩).at 1).call
        py!"atoparser.reader" py!"parse_args" [] [] w =
      (.ok (namespaceVal [py!"a.log", py!"-b"] (some [py!"CPU", py!"cpu"]) true true false), w) := by
  rw [C72_parse_args Z fs _ 0 w]
  kernel_rfl

example (Z : Zlib) (fs : FileSystem) (w : W) :
    ((program Z fs ⟨fun _ => false, [py!"a", py!"-h", py!"--nothing"]⟩).at 1).call py!"atoparser.reader" py!"parse_args" [] [] w =
      (.error (.exit .help), w) := by
  rw [C72_parse_args Z fs _ 0 w]
  kernel_rfl

example (Z : Zlib) (fs : FileSystem) (w : W) :
    ((program Z fs ⟨fun _ => false, [py!"-P", py!"PRD", py!"--", py!"a"]⟩).at 1).call py!"atoparser.reader" py!"parse_args" [] [] w =
      (.error (.exit .usage), w) := by
  rw [C72_parse_args Z fs _ 0 w]
  kernel_rfl

end Atop.Src
