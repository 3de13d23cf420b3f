import Verif.Proofs.SourceReader
import Verif.Props.Cli
/-!
# C70: the command line program from its source text

`parse_file` and `main` of atoparser/reader.py (Verif/Source/Text.lean, generated from /repo), executed by the rules of
Verif/Source/Semantics.lean together with everything they call, do what the model says, for every file system and
whatever the state was before.
-/

namespace Atop.Src
open Spec
set_option maxRecDepth 20000

section
variable (Z : Zlib) (fs : FileSystem) (args : CommandLine)

/-- **C70** `parse_file(file, parseables, pretty_print, show_tstats, show_cstats)`, executed as it is written, whatever
has been printed, read and made before: it prints exactly the text the model gives and returns `None`, or prints
nothing and raises what the model raises. -/
theorem C70_parse_file (hfs : LibFiles fs) (n : Nat) (out : PyStr) (w : World) (file : PyStr) (parseables : Option (List PyStr))
    (pretty tst cst : Bool) : ∃ w',
    ((program Z fs args).at (n + 6)).call py!"atoparser.reader" py!"parse_file"
        [.str file, namesVal parseables, .bool pretty, .bool tst, .bool cst] [] (emb out w) =
      match parseFileText Z fs file parseables pretty tst cst with
      | .ok t => (.ok .none, emb (out ++ t) w')
      | .error e => (.error (embExc e), emb out w') :=
  call_parse_file hfs (as := [.str file, namesVal parseables, .bool pretty, .bool tst, .bool cst]) (kws := [])
    (l := [("file", .str file), ("parseables", namesVal parseables), ("pretty_print", .bool pretty), ("show_tstats", .bool tst),
      ("show_cstats", .bool cst)]) rfl rfl rfl rfl rfl rfl

/-- **C70** `parse_file(file)`: the arguments left out are `None`, `True`, `False` and `False`. -/
theorem C70_defaults (hfs : LibFiles fs) (n : Nat) (out : PyStr) (w : World) (file : PyStr) : ∃ w',
    ((program Z fs args).at (n + 6)).call py!"atoparser.reader" py!"parse_file" [.str file] [] (emb out w) =
      match parseFileText Z fs file none true false false with
      | .ok t => (.ok .none, emb (out ++ t) w')
      | .error e => (.error (embExc e), emb out w') :=
  call_parse_file hfs (ps := none) (as := [.str file]) (kws := [])
    (l := [("file", .str file), ("parseables", .none), ("pretty_print", .bool true), ("show_tstats", .bool false),
      ("show_cstats", .bool false)]) rfl rfl rfl rfl rfl rfl

/-- **C70** `main()`, executed as it is written (`parse_args` included, see C72): when the command line is accepted, the
standard output is that of the model, to the point of the exception if there is one, and so is the exception; otherwise
`argparse` exits and nothing else happens. -/
theorem C70_main (hfs : LibFiles fs) (n : Nat) (out : PyStr) (w : World) : ∃ w',
    ((program Z fs args).at (n + 7)).call py!"atoparser.reader" py!"main" [] [] (emb out w) =
      match parseArgs args.U args.argv with
      | .error e => (.error (.exit e), emb out w')
      | .ok ns => (match (mainText Z fs ns).2 with | none => .ok .none | some e => .error (embExc e),
         emb (out ++ (mainText Z fs ns).1) w') := by
  obtain ⟨w', h⟩ := call_main (Z := Z) (fs := fs) (args := args) (n := n) (out := out) (w := w) hfs
  refine ⟨w', h.trans ?_⟩
  unfold mainResult
  cases parseArgs args.U args.argv with
  | error e => show (Except.error (PExc.exit e), emb (out ++ []) w') = _; rw [List.append_nil]
  | ok ns => dsimp only; cases (mainText Z fs ns).2 <;> rfl

/-- How the text ends and how the model ends are the same. -/
def SameEnd : Except PExc Val → Ended → Prop
  | .ok .none, .done => True
  | .error x, .raised e => x = embExc e
  | .error x, .exited e => x = .exit e
  | _, _ => False

/-- **C70** The whole program from the source, run from a fresh state on any command line: what it writes is what the
model of the program writes, and it ends as that does. -/
theorem C70_program (hfs : LibFiles fs) (n : Nat) : ∃ r w',
    ((program Z fs args).at (n + 7)).call py!"atoparser.reader" py!"main" [] [] W.empty = (r, w') ∧
      w'.out = (Atop.program args.U Z fs args.argv).1 ∧ SameEnd r (Atop.program args.U Z fs args.argv).2 := by
  obtain ⟨w', h⟩ := C70_main Z fs args hfs n [] { file := { data := [] } }
  refine ⟨_, _, h, ?_⟩
  unfold Atop.program
  cases parseArgs args.U args.argv with
  | error e => exact ⟨rfl, rfl⟩
  | ok ns =>
    dsimp only
    rcases mainText Z fs ns with ⟨t, _ | e⟩
    · exact ⟨rfl, trivial⟩
    · exact ⟨rfl, rfl⟩

/-- **C70** Put together with C52: the text of the program, run on the bytes of a complete log of any supported version,
prints a JSON text with exactly one reading, an array with one object per written sample that shows the written bytes
by the literal layout of the version. -/
theorem C70_log (U : Nat → Bool) {r : Row} (hr : r ∈ table) {hb : Bytes} (H : ValidHeader r hb) {ws : List WSample}
    (hw : ∀ w ∈ ws, w.Valid Z r) (hmax : ws.length ≤ 86400) (hfs : LibFiles fs) {file : PyStr} {s : Stream}
    (hf : fs file (usesGzip file) = .ok s) (hs : s.rest = hb ++ body r ws) (plain : s.short = none)
    (hd : file.head? ≠ some 45) (ts cs : Bool) (n : Nat) :
    ∃ B docs a, layoutOf r.version = some B ∧ docs.length = ws.length ∧
      (∀ (i : Nat) w v, ws[i]? = some w → docs[i]? = some v → EntryShows B hb w ts cs v) ∧ Says (.list docs) a ∧
      ∀ pretty : Bool, ∃ t w', ((program Z fs ⟨U, (if pretty then [py!"-p"] else []) ++ (if ts then [py!"--tstats"] else []) ++
          (if cs then [py!"--cstats"] else []) ++ [file]⟩).at (n + 7)).call py!"atoparser.reader" py!"main" [] [] W.empty =
            (.ok .none, w') ∧ w'.out = t ∧
        JsonText true t a ∧ ∀ b, JsonText true t b → b = a := by
  obtain ⟨B, docs, a, h1, h2, h3, h4, h5⟩ := C52_log U hr H hw hmax hf hs plain hd ts cs
  refine ⟨B, docs, a, h1, h2, h3, h4, fun pretty => ?_⟩
  obtain ⟨t, e, ht⟩ := h5 pretty
  obtain ⟨q, w', c1, c2, c3⟩ := C70_program Z fs ⟨U, (if pretty then [py!"-p"] else []) ++ (if ts then [py!"--tstats"] else []) ++
          (if cs then [py!"--cstats"] else []) ++ [file]⟩ hfs n
  rw [e] at c2 c3
  obtain rfl : q = .ok .none := by
    rcases q with x | v
    · exact c3.elim
    · cases v <;> first | rfl | exact c3.elim
  exact ⟨t, w', c1, c2, ht⟩

end

/-! ## Concrete cases -/

theorem oneFile_lib (b : Bytes) : LibFiles (oneFile b) := fun _ _ _ h => by cases h

/-- Every version: three samples in, a document of three entries printed. -/
example (U : Nat → Bool) (r : Row) (hr : r ∈ table) : ∃ docs a t w', docs.length = 3 ∧ Says (.list docs) a ∧
    ((program toyZ (oneFile (toyHeader r ++ body r (toyLog r))) ⟨U, [py!"-p", py!"--tstats", py!"x"]⟩).at 7).call py!"atoparser.reader"
      py!"main" [] [] W.empty = (.ok .none, w') ∧ w'.out = t ∧ JsonText true t a := by
  obtain ⟨B, docs, a, -, h, -, hs, hp⟩ := C70_log toyZ (oneFile (toyHeader r ++ body r (toyLog r))) U hr (toyHeader_valid r hr)
    (toyLog_valid r hr) (by simp [toyLog]) (oneFile_lib _) (file := py!"x") (s := { data := toyHeader r ++ body r (toyLog r) }) rfl
    (by simp [Stream.rest]) rfl (by decide) true false 0
  obtain ⟨t, w', h2, h3, h4, -⟩ := hp true
  exact ⟨docs, a, t, w', h, hs, h2, h3, h4⟩

/-- A parseable on a version that has none: one entry with the error, printed compactly; a file that is not a log; a file
that is not there. -/
example (args : CommandLine) : ∃ w', ((program toyZ (oneFile (toyHeader newest)) args).at 6).call py!"atoparser.reader" py!"parse_file"
      [.str py!"f", .list [.str py!"CPU"], .bool false, .bool false, .bool false] [] (emb py!"> " { file := { data := [] } }) =
    (.ok .none, emb (py!"> " ++ py!"[{\"error\": \"Atop version 2.12 does not support parseables, only full raw output.\", \"file\": \"f\"}]\n") w') := by
  obtain ⟨w', h⟩ := C70_parse_file toyZ (oneFile (toyHeader newest)) args (oneFile_lib _) 0 py!"> " { file := { data := [] } } py!"f" (some [py!"CPU"]) false false false
  have ht : parseFileText toyZ (oneFile (toyHeader newest)) py!"f" (some [py!"CPU"]) false false false =
    .ok py!"[{\"error\": \"Atop version 2.12 does not support parseables, only full raw output.\", \"file\": \"f\"}]\n" := by decide +kernel
  rw [ht] at h
  exact ⟨w', h⟩

example (args : CommandLine) : ∃ w' t, ((program toyZ (oneFile [1, 2, 3]) args).at 6).call py!"atoparser.reader" py!"parse_file" [.str py!"f"] []
      (emb py!"> " { file := { data := [] } }) = (.error (.value t), emb py!"> " w') := by
  obtain ⟨w', h⟩ := C70_defaults toyZ (oneFile [1, 2, 3]) args (oneFile_lib _) 0 py!"> " { file := { data := [] } } py!"f"
  have ht : ∃ t, parseFileText toyZ (oneFile [1, 2, 3]) py!"f" none true false false = .error (.valueError (.badMagic t)) := ⟨_, by rfl⟩
  obtain ⟨t, ht⟩ := ht
  rw [ht] at h
  exact ⟨w', t, h⟩

example (Z : Zlib) : ∃ w', ((program Z (fun _ _ => .error .osError) ⟨fun _ => false, [py!"a", py!"b"]⟩).at 7).call py!"atoparser.reader"
      py!"main" [] [] W.empty = (.error (.sys .osError), emb [] w') := by
  obtain ⟨w', h⟩ := C70_main Z (fun _ _ => .error .osError) ⟨fun _ => false, [py!"a", py!"b"]⟩ (fun _ _ => rfl) 0 [] { file := { data := [] } }
  rw [show parseArgs (fun _ => false) [py!"a", py!"b"] = .ok { files := [py!"a", py!"b"] } from
    C51_usage _ [py!"a", py!"b"] [] false false false (by simp) (by decide) (by simp)] at h
  exact ⟨w', h⟩

end Atop.Src
