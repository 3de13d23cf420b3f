import Verif.Props.Growing
import Verif.Props.SourceResult
/-!
# C59: the second call from the source text, and the texts printed
-/

namespace Atop

theorem dumpsItems_append {p : Bool} {l : Nat} : ∀ {d e : List JVal} {t u : PyStr}, dumpsItems p l d = .ok t →
    dumpsItems p l (d ++ e) = .ok u → ∃ more, u = t ++ more
  | [], e, t, u, h, k => by
    rw [dumpsItems] at h
    cases h
    exact ⟨u, rfl⟩
  | v :: vs, e, t, u, h, k => by
    rw [List.cons_append] at k
    rw [dumpsItems] at h k
    cases h1 : dumpsAt p l v with
    | error x => rw [h1] at h; cases h
    | ok a =>
      rw [h1] at h k
      cases h2 : dumpsItems p l vs with
      | error x => rw [h2] at h; cases h
      | ok b =>
        cases h3 : dumpsItems p l (vs ++ e) with
        | error x => rw [h3] at k; cases k
        | ok c =>
          rw [h2] at h
          rw [h3] at k
          cases h
          cases k
          obtain ⟨more, rfl⟩ := dumpsItems_append h2 h3
          exact ⟨more, by simp [List.append_assoc]⟩

/-- The text of a longer list starts with that of the shorter one up to its closing bracket. -/
theorem dumps_longer {p : Bool} {d e : List JVal} {t u : PyStr} (h : dumps p (.list d) = .ok t) (k : dumps p (.list (d ++ e)) = .ok u) :
    ∃ stem lf more, (lf = [] ∨ lf = [10]) ∧ t = stem ++ lf ++ py!"]" ∧ u = stem ++ more := by
  unfold dumps at h k
  cases d with
  | nil =>
    rw [dumpsAt] at h
    cases h
    refine ⟨py!"[", [], u.drop 1, .inl rfl, rfl, ?_⟩
    cases e with
    | nil => rw [List.nil_append, dumpsAt] at k; cases k; rfl
    | cons v vs =>
      rw [List.nil_append, dumpsAt] at k
      cases h1 : dumpsAt p (0 + 1) v with
      | error x => rw [h1] at k; cases k
      | ok a =>
        rw [h1] at k
        cases h2 : dumpsItems p (0 + 1) vs with
        | error x => rw [h2] at k; cases k
        | ok b =>
          rw [h2] at k
          cases k
          rfl
  | cons v vs =>
    rw [List.cons_append] at k
    rw [dumpsAt] at h k
    cases h1 : dumpsAt p (0 + 1) v with
    | error x => rw [h1] at h; cases h
    | ok a =>
      rw [h1] at h k
      cases h2 : dumpsItems p (0 + 1) vs with
      | error x => rw [h2] at h; cases h
      | ok b =>
        cases h3 : dumpsItems p (0 + 1) (vs ++ e) with
        | error x => rw [h3] at k; cases k
        | ok c =>
          rw [h2] at h
          rw [h3] at k
          cases h
          cases k
          obtain ⟨more, rfl⟩ := dumpsItems_append h2 h3
          refine ⟨py!"[" ++ newline p (0 + 1) ++ a ++ b, newline p 0, more ++ newline p 0 ++ py!"]", ?_, rfl, by simp [List.append_assoc]⟩
          cases p
          · exact .inl rfl
          · exact .inr rfl

end Atop

namespace Atop.Src
open Spec
set_option maxRecDepth 20000

/-- **C59** The source of `parse_file`, executed twice: on a plain file and, with the same arguments, on that file with bytes
appended (`fs` is what is on disk the first time, `fs'` the second time; the header is complete the first time).  Either both calls
raise the same exception and print nothing; or the first prints, and the second raises and prints nothing, or prints a text
that starts with the first text without its closing bracket.  The entries read from the second text are those read
from the first, followed by further ones. -/
theorem C59_source {Z : Zlib} (S : Streaming Z) {fs fs' : FileSystem} (hfs : LibFiles fs) (hfs' : LibFiles fs') (args args' : CommandLine)
    {n : Nat} {file : PyStr} (parseables : Option (List PyStr)) (pretty tst cst : Bool) {s t : Stream}
    (hf : fs file (usesGzip file) = .ok s) (hf' : fs' file (usesGzip file) = .ok t) {old new : Bytes}
    (hs : s.rest = old) (ht : t.rest = old ++ new) (hl : 480 ≤ old.length) (ps : s.short = none) (pt : t.short = none) :
    let call := fun fs args => ((program Z fs args).at (n + 6)).call py!"atoparser.reader" py!"parse_file"
        [.str file, namesVal parseables, .bool pretty, .bool tst, .bool cst] [] W.empty
    let first := call fs args
    let second := call fs' args'
    (∃ e, first.1 = .error e ∧ first.2.out = [] ∧ second.1 = .error e ∧ second.2.out = []) ∨
    (first.1 = .ok .none ∧ ∃ docs a, Says (.list docs) a ∧ JsonText true first.2.out a ∧ (∀ b, JsonText true first.2.out b → b = a) ∧
      ((∃ e, second.1 = .error e ∧ second.2.out = []) ∨
       (second.1 = .ok .none ∧
        (∃ stem lf more, (lf = [] ∨ lf = [10]) ∧ first.2.out = stem ++ lf ++ py!"]\n" ∧ second.2.out = stem ++ more) ∧
        ∃ further a', Says (.list (docs ++ further)) a' ∧ JsonText true second.2.out a' ∧ ∀ b, JsonText true second.2.out b → b = a'))) := by
  dsimp only
  obtain ⟨w1, h1⟩ := C70_parse_file Z fs args hfs n [] { file := { data := [] } } file parseables pretty tst cst
  obtain ⟨w2, h2⟩ := C70_parse_file Z fs' args' hfs' n [] { file := { data := [] } } file parseables pretty tst cst
  have h1 : ((program Z fs args).at (n + 6)).call py!"atoparser.reader" py!"parse_file"
        [.str file, namesVal parseables, .bool pretty, .bool tst, .bool cst] [] W.empty = _ := h1
  have h2 : ((program Z fs' args').at (n + 6)).call py!"atoparser.reader" py!"parse_file"
        [.str file, namesVal parseables, .bool pretty, .bool tst, .bool cst] [] W.empty = _ := h2
  rw [h1, h2]
  have C := C59_rerun S (optsOf parseables tst cst) file old new hs ht hl ps pt
  have p1 : parsePath Z fs (optsOf parseables tst cst) file = (parseFile Z (optsOf parseables tst cst) file s).1 := by
    unfold parsePath; rw [hf]; rfl
  have p2 : parsePath Z fs' (optsOf parseables tst cst) file = (parseFile Z (optsOf parseables tst cst) file t).1 := by
    unfold parsePath; rw [hf']; rfl
  rw [← p1, ← p2] at C
  cases hp : parsePath Z fs (optsOf parseables tst cst) file with
  | error e =>
    rw [hp] at C
    left
    rw [C43_error pretty hp, C43_error pretty C]
    exact ⟨_, rfl, rfl, rfl, rfl⟩
  | ok docs =>
    rw [hp] at C
    right
    obtain ⟨a, ha, hpr⟩ := C43_printed hp
    obtain ⟨t1, e1, hj, hu⟩ := hpr pretty
    rw [e1]
    refine ⟨rfl, docs, a, ha, hj, hu, ?_⟩
    cases hq : parsePath Z fs' (optsOf parseables tst cst) file with
    | error e =>
      left
      rw [C43_error pretty hq]
      exact ⟨_, rfl, rfl⟩
    | ok docs' =>
      right
      obtain ⟨further, rfl⟩ := C docs' hq
      obtain ⟨a', ha', hpr'⟩ := C43_printed hq
      obtain ⟨t2, e2, hj', hu'⟩ := hpr' pretty
      rw [e2]
      refine ⟨rfl, ?_, further, a', ha', hj', hu'⟩
      obtain ⟨d1, u1, i1, i2, rfl⟩ := fileText_ok.mp e1
      obtain ⟨d2, u2, j1, j2, rfl⟩ := fileText_ok.mp e2
      rw [hp] at i1; cases i1
      rw [hq] at j1; cases j1
      obtain ⟨stem, lf, more, k1, rfl, rfl⟩ := dumps_longer i2 j2
      exact ⟨stem, lf, more ++ [10], k1, by
        show stem ++ lf ++ py!"]" ++ [10] = stem ++ lf ++ py!"]\n"
        rw [List.append_assoc]; rfl, by
        show stem ++ more ++ [10] = _
        rw [List.append_assoc]⟩

/-- For any recorded header and valid samples: the file printed after the first samples and after the later ones. -/
theorem regrown_written {Z : Zlib} (law : Streaming Z) {r : Row} (hr : r ∈ table) {hb : Bytes} (hh : ValidHeader r hb) {one more : List WSample}
    (v1 : ∀ w ∈ one, w.Valid Z r) (v2 : ∀ w ∈ more, w.Valid Z r) (hn : (one ++ more).length ≤ 86400) (args : CommandLine) (n : Nat) :
    let call := fun fs => ((program Z fs args).at (n + 6)).call py!"atoparser.reader" py!"parse_file"
        [.str py!"x", namesVal none, .bool true, .bool true, .bool false] [] W.empty
    let first := call (fun _ _ => .ok { data := hb ++ body r one })
    let second := call (fun _ _ => .ok { data := hb ++ body r (one ++ more) })
    first.1 = .ok .none ∧ second.1 = .ok .none ∧
    ∃ stem lf rest, (lf = [] ∨ lf = [10]) ∧ first.2.out = stem ++ lf ++ py!"]\n" ∧ second.2.out = stem ++ rest := by
  dsimp only
  have lib : ∀ d : Bytes, LibFiles (fun _ _ => .ok { data := d }) := by
    intro d p g e he
    cases he
  have ok : ∀ ws : List WSample, (∀ w ∈ ws, w.Valid Z r) → ws.length ≤ 86400 →
      (((program Z (fun _ _ => .ok { data := hb ++ body r ws }) args).at (n + 6)).call py!"atoparser.reader" py!"parse_file"
        [.str py!"x", namesVal none, .bool true, .bool true, .bool false] [] W.empty).1 = .ok .none := by
    intro ws hv hn
    obtain ⟨c, docs, -, h1, -⟩ := C29_written_log hr hh hv hn
      (o := optsOf none true false) rfl py!"x" (s := { data := hb ++ body r ws }) (by simp [Stream.rest]) rfl
    obtain ⟨w', h⟩ := C70_parse_file Z (fun _ _ => .ok { data := hb ++ body r ws }) args (lib _) n []
      { file := { data := [] } } py!"x" none true true false
    have hp : parsePath Z (fun _ _ => .ok { data := hb ++ body r ws }) (optsOf none true false) py!"x" = .ok docs := h1
    obtain ⟨a, -, hpr⟩ := C43_printed hp
    obtain ⟨t, e, -⟩ := hpr true
    rw [e] at h
    exact congrArg Prod.fst h
  have ok1 := ok one v1 (by simp at hn; omega)
  have ok2 := ok (one ++ more) (fun w hw => (List.mem_append.mp hw).elim (v1 w) (v2 w)) hn
  refine ⟨ok1, ok2, ?_⟩
  have C := C59_source (Z := Z) law (lib _) (lib _) args args (n := n) (file := py!"x") none true true false
      (s := { data := hb ++ body r one }) (t := { data := hb ++ body r (one ++ more) })
      rfl rfl (old := hb ++ body r one) (new := body r more)
      (by simp [Stream.rest]) (by rw [List.append_assoc, ← body_append]; simp [Stream.rest])
      (by rw [List.length_append, hh.length]; omega) rfl rfl
  dsimp only at C
  rcases C with ⟨e, h, -⟩ | ⟨-, -, -, -, -, -, ⟨e, h, -⟩ | ⟨-, h, -⟩⟩
  · exact absurd (ok1.symm.trans h) (fun h => by cases h)
  · exact absurd (ok2.symm.trans h) (fun h => by cases h)
  · exact h

/-- Every version: a file with one sample, later with all three: the text printed then starts with the text printed first, up to its
closing bracket. -/
example (r : Row) (hr : r ∈ table) (args : CommandLine) :=
  regrown_written ⟨toyZ_nil, toyZ_append⟩ hr (toyHeader_valid r hr) (one := (toyLog r).take 1) (more := (toyLog r).drop 1)
    (fun w hw => toyLog_valid r hr w (List.mem_of_mem_take hw)) (fun w hw => toyLog_valid r hr w (List.mem_of_mem_drop hw))
    (by rw [List.take_append_drop]; simp [toyLog]) args 0

end Atop.Src
