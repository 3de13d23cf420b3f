import Verif.Proofs.Minimal
import Verif.Props.Print
import Verif.Props.SourceReader
/-!
# C77: the printed text, character for character
-/

namespace Atop
open Spec

/-- **C77** What `parse_file` writes is determined to the last character: the entries have exactly one text without white
space, and the output is that text laid out, indented or compact, and a line break. -/
theorem C77_text {Z : Zlib} {fs : FileSystem} {file : PyStr} {ps : Option (List PyStr)} {ts cs : Bool} {docs : List JVal}
    (h : parsePath Z fs (optsOf ps ts cs) file = .ok docs) : ∃ m, Minimal (.list docs) m ∧
      (∀ m', Minimal (.list docs) m' → m' = m) ∧
      ∀ pretty, parseFileText Z fs file ps pretty ts cs = .ok (layOut pretty 0 .outside m ++ [10]) := by
  have hj := path_json h
  refine ⟨_, minimal_mini hj, fun m' h' => minimal_unique h', fun pretty => ?_⟩
  obtain ⟨t, h1, h2⟩ := laid pretty hj 0 []
  rw [List.append_nil] at h2
  have e : layOut pretty 0 .outside [] = [] := by rw [layOut]
  rw [e, List.append_nil] at h2
  exact fileText_ok.mpr ⟨docs, t, h, h1, by rw [h2]⟩

/-- **C77** The same for the standard output of a whole run: the texts of the documents, laid out, each followed by a line
break, one after the other. -/
theorem C77_stdout (Z : Zlib) (fs : FileSystem) (args : Namespace) : ∃ ms : List PyStr,
    (mainText Z fs args).1 = (ms.map fun m => layOut args.prettyPrint 0 .outside m ++ [10]).flatten ∧
    ms.length = (runMain Z fs (optsOf args.parseables args.showTstats args.showCstats) args.files).1.length ∧
    ∀ (i : Nat) d m, (runMain Z fs (optsOf args.parseables args.showTstats args.showCstats) args.files).1[i]? = some d →
      ms[i]? = some m → Minimal (.list d) m := by
  unfold mainText
  generalize args.files = files
  induction files with
  | nil => exact ⟨[], rfl, rfl, by simp [runMain]⟩
  | cons f rest ih =>
    obtain ⟨ms, h1, h2, h3⟩ := ih
    cases hp : parsePath Z fs (optsOf args.parseables args.showTstats args.showCstats) f with
    | error e =>
      rw [mainLoop, C43_error args.prettyPrint hp, runMain, hp]
      exact ⟨[], rfl, rfl, by simp⟩
    | ok doc =>
      obtain ⟨m, g1, -, g2⟩ := C77_text hp
      rw [mainLoop, g2, runMain, hp]
      refine ⟨m :: ms, ?_, by simpa using h2, ?_⟩
      · rw [List.map_cons, List.flatten_cons, ← h1]
      · intro i d t hd ht
        cases i with
        | zero => injection hd with hd; injection ht with ht; subst hd; subst ht; exact g1
        | succ i => exact h3 i d t hd ht

namespace Src
set_option maxRecDepth 20000

/-- **C77** The source: `parse_file` of atoparser/reader.py, executed as it is written, writes that text. -/
theorem C77_source {Z : Zlib} {fs : FileSystem} (args : CommandLine) (hfs : LibFiles fs) (n : Nat) (out : PyStr) (w : World)
    {file : PyStr} {ps : Option (List PyStr)} {ts cs : Bool} {docs : List JVal}
    (h : parsePath Z fs (optsOf ps ts cs) file = .ok docs) : ∃ m, Minimal (.list docs) m ∧ ∀ pretty, ∃ w',
      ((program Z fs args).at (n + 6)).call py!"atoparser.reader" py!"parse_file"
          [.str file, namesVal ps, .bool pretty, .bool ts, .bool cs] [] (emb out w) =
        (.ok .none, emb (out ++ (layOut pretty 0 .outside m ++ [10])) w') := by
  obtain ⟨m, h1, -, h2⟩ := C77_text h
  refine ⟨m, h1, fun pretty => ?_⟩
  obtain ⟨w', e⟩ := C70_parse_file Z fs args hfs n out w file ps pretty ts cs
  rw [h2 pretty] at e
  exact ⟨w', e⟩

/-- **C77** The source: the whole program, on any command line that is accepted. -/
theorem C77_program {Z : Zlib} {fs : FileSystem} (args : CommandLine) (hfs : LibFiles fs) (n : Nat) {ns : Namespace}
    (ha : parseArgs args.U args.argv = .ok ns) : ∃ ms : List PyStr, ∃ r w',
    ((program Z fs args).at (n + 7)).call py!"atoparser.reader" py!"main" [] [] W.empty = (r, w') ∧
    w'.out = (ms.map fun m => layOut ns.prettyPrint 0 .outside m ++ [10]).flatten ∧
    ms.length = (runMain Z fs (optsOf ns.parseables ns.showTstats ns.showCstats) ns.files).1.length ∧
    ∀ (i : Nat) d m, (runMain Z fs (optsOf ns.parseables ns.showTstats ns.showCstats) ns.files).1[i]? = some d →
      ms[i]? = some m → Minimal (.list d) m := by
  obtain ⟨ms, h1, h2, h3⟩ := C77_stdout Z fs ns
  obtain ⟨r, w', e, ho, -⟩ := C70_program Z fs args hfs n
  refine ⟨ms, r, w', e, ?_, h2, h3⟩
  rw [ho, ← h1]
  unfold Atop.program
  rw [ha]
  dsimp only
  rcases mainText Z fs ns with ⟨t, _ | e⟩ <;> rfl

end Src

/-! ## Concrete cases -/

/-- A text without white space, indented and compact. -/
example : layOut true 0 .outside py!"[{\"a,[\\\"\":[1,-2.5],\"b\":{}},[]]" =
    py!"[\n  {\n    \"a,[\\\"\": [\n      1,\n      -2.5\n    ],\n    \"b\": {}\n  },\n  []\n]" := by decide +kernel
example : layOut false 0 .outside py!"[{\"a,[\\\"\":[1,-2.5],\"b\":{}},[]]" =
    py!"[{\"a,[\\\"\": [1, -2.5], \"b\": {}}, []]" := by decide +kernel
/-- The literal of a text with each kind of character. -/
example : literal py!"é😀\n\x0c\x08\x7f~" = py!"\"\\u00e9\\ud83d\\ude00\\n\\f\\b\\u007f~\"" := by decide +kernel

/-- The toy log of every version, with every option: one text, printed in both layouts. -/
example (r : Row) (hr : r ∈ table) : ∃ docs m,
    parsePath toyZ (oneFile (toyHeader r ++ body r (toyLog r))) (optsOf none true true) py!"x" = .ok docs ∧ docs.length = 3 ∧
    Minimal (.list docs) m ∧ ∀ pretty,
    parseFileText toyZ (oneFile (toyHeader r ++ body r (toyLog r))) py!"x" none pretty true true =
      .ok (layOut pretty 0 .outside m ++ [10]) := by
  obtain ⟨c, docs, -, h1, h2, -⟩ := C29_written_log hr (toyHeader_valid r hr) (toyLog_valid r hr) (by simp [toyLog])
    (o := optsOf none true true) rfl py!"x" (s := { data := toyHeader r ++ body r (toyLog r) }) (by simp [Stream.rest]) rfl
  have hp : parsePath toyZ (oneFile (toyHeader r ++ body r (toyLog r))) (optsOf none true true) py!"x" = .ok docs := by
    rw [path_oneFile]; exact h1
  obtain ⟨m, hm, -, ht⟩ := C77_text hp
  exact ⟨docs, m, hp, h2, hm, ht⟩

end Atop
