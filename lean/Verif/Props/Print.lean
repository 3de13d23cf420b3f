import Verif.Proofs.Says
import Verif.Props.Reader
/-!
# The text that the command line program prints: C43 to C46, and the text part of C30
-/

namespace Atop
open Spec

/-- The options of `parse_file` as they reach the conversion. -/
abbrev optsOf (parseables : Option (List PyStr)) (showTstats showCstats : Bool) : Opts :=
  { parseables := parseables.getD [], showTstats, showCstats }

theorem path_json {Z : Zlib} {fs : FileSystem} {o : Opts} {file : PyStr} {docs : List JVal}
    (h : parsePath Z fs o file = .ok docs) : Json (fun t => Text t ∨ t = file) (.list docs) := by
  unfold parsePath at h
  obtain ⟨s, -, h⟩ := bind_ok_iff.mp h
  exact C42_json Z o file s h

theorem fileText_ok {Z : Zlib} {fs : FileSystem} {file : PyStr} {ps : Option (List PyStr)} {pretty ts cs : Bool} {t : PyStr} :
    parseFileText Z fs file ps pretty ts cs = .ok t ↔
      ∃ docs u, parsePath Z fs (optsOf ps ts cs) file = .ok docs ∧ dumps pretty (.list docs) = .ok u ∧ t = u ++ [10] := by
  unfold parseFileText
  rw [bind_ok_iff]
  constructor
  · rintro ⟨docs, h1, h2⟩
    obtain ⟨u, h2, h3⟩ := bind_ok_iff.mp h2
    injection h3 with h3
    exact ⟨docs, u, h1, h2, h3.symm⟩
  · rintro ⟨docs, u, h1, h2, rfl⟩
    exact ⟨docs, h1, bind_ok_iff.mpr ⟨u, h2, rfl⟩⟩

theorem ws_lf : Ws [10] := fun _ h => .inr (.inr (.inl (List.mem_singleton.mp h)))

/-! ## C43 -/

/-- **C43** When `parse_file` has computed its list of entries it prints it: the conversion to text never fails, the text
followed by a line break is JSON (with Python's words for infinities and NaN) that denotes exactly one thing, and that
says the entries: every key, every text, every integer, every float.  Indented and compact output denote the same. -/
theorem C43_printed {Z : Zlib} {fs : FileSystem} {file : PyStr} {ps : Option (List PyStr)} {ts cs : Bool} {docs : List JVal}
    (h : parsePath Z fs (optsOf ps ts cs) file = .ok docs) :
    ∃ a, Says (.list docs) a ∧ ∀ pretty, ∃ t, parseFileText Z fs file ps pretty ts cs = .ok t ∧ JsonText true t a ∧
      ∀ b, JsonText true t b → b = a := by
  obtain ⟨a, ha, hp⟩ := json_prints true (path_json h) (.inl rfl)
  refine ⟨a, ha, fun pretty => ?_⟩
  obtain ⟨u, h1, h2⟩ := hp pretty 0
  have hj : JsonText true (u ++ [10]) a := ⟨[], [10], u, ws_nil, ws_lf, h2, rfl⟩
  exact ⟨u ++ [10], fileText_ok.mpr ⟨docs, u, h, h1, rfl⟩, hj, fun b hb => jsonText_unique hb hj⟩

/-- **C43** Nothing is printed otherwise: an error while reading is the error of `parse_file`. -/
theorem C43_error {Z : Zlib} {fs : FileSystem} {file : PyStr} {ps : Option (List PyStr)} (pretty : Bool) {ts cs : Bool} {e : Exc}
    (h : parsePath Z fs (optsOf ps ts cs) file = .error e) : parseFileText Z fs file ps pretty ts cs = .error e := by
  unfold parseFileText
  rw [h]; rfl

/-- **C43** `parse_file(file)` with everything else left out shows the entries of the options `None`, `False`, `False`,
indented. -/
theorem C43_defaults (Z : Zlib) (fs : FileSystem) (file : PyStr) :
    parseFileText Z fs file = parseFileText Z fs file none true false false := rfl

/-- **C43** What is printed was computed. -/
theorem C43_only {Z : Zlib} {fs : FileSystem} {file : PyStr} {ps : Option (List PyStr)} {pretty ts cs : Bool} {t : PyStr}
    (h : parseFileText Z fs file ps pretty ts cs = .ok t) :
    ∃ docs a, parsePath Z fs (optsOf ps ts cs) file = .ok docs ∧ JsonText true t a ∧ Says (.list docs) a := by
  obtain ⟨docs, u, h1, h2, rfl⟩ := fileText_ok.mp h
  obtain ⟨a, ha, hp⟩ := C43_printed h1
  obtain ⟨t, e, hj, -⟩ := hp pretty
  rw [h] at e
  injection e with e
  exact ⟨docs, a, h1, e ▸ hj, ha⟩

/-! ## C44 -/

/-- **C44** The printed text is ASCII: printable characters and line breaks, ending in a line break. -/
theorem C44_ascii {Z : Zlib} {fs : FileSystem} {file : PyStr} {ps : Option (List PyStr)} {pretty ts cs : Bool} {t : PyStr}
    (h : parseFileText Z fs file ps pretty ts cs = .ok t) :
    (∀ c ∈ t, c = 10 ∨ (32 ≤ c ∧ c ≤ 126)) ∧ t.getLast? = some 10 := by
  obtain ⟨docs, u, h1, h2, rfl⟩ := fileText_ok.mp h
  refine ⟨?_, by simp⟩
  intro c hc
  rcases List.mem_append.mp hc with hc | hc
  · rcases dumpsAt_chars pretty 0 _ u h2 c hc with h | h
    · exact .inr h
    · exact .inl h.2
  · exact .inl (List.mem_singleton.mp hc)

/-- **C44** Without `-p` it is exactly one line. -/
theorem C44_one_line {Z : Zlib} {fs : FileSystem} {file : PyStr} {ps : Option (List PyStr)} {ts cs : Bool} {t : PyStr}
    (h : parseFileText Z fs file ps false ts cs = .ok t) : ∃ l, t = l ++ [10] ∧ 10 ∉ l ∧ 13 ∉ l := by
  obtain ⟨docs, u, h1, h2, rfl⟩ := fileText_ok.mp h
  have hc : ∀ c ∈ u, 32 ≤ c ∧ c ≤ 126 := fun c hc => by
    rcases dumpsAt_chars false 0 _ u h2 c hc with h | ⟨h, -⟩
    · exact h
    · cases h
  exact ⟨u, rfl, fun h => by have := hc 10 h; omega, fun h => by have := hc 13 h; omega⟩

/-! ## C45 -/

/-- **C45** The printed text is JSON in the sense of RFC 8259 exactly when no float in it is an infinity or a NaN. -/
theorem C45_rfc {Z : Zlib} {fs : FileSystem} {file : PyStr} {ps : Option (List PyStr)} {pretty ts cs : Bool} {docs : List JVal}
    {t : PyStr} (h : parsePath Z fs (optsOf ps ts cs) file = .ok docs)
    (ht : parseFileText Z fs file ps pretty ts cs = .ok t) : (∃ a, JsonText false t a) ↔ AllFinite (.list docs) := by
  obtain ⟨docs', u, h1, h2, rfl⟩ := fileText_ok.mp ht
  rw [h] at h1
  injection h1 with h1
  subst h1
  constructor
  · rintro ⟨a, x, y, v, hx, hy, hv, he⟩
    obtain ⟨b, hb, hp⟩ := C43_printed h
    obtain ⟨t, e, hj, hu⟩ := hp pretty
    rw [ht] at e
    injection e with e
    subst e
    obtain rfl := hu a (jsonText_python ⟨x, y, v, hx, hy, hv, he⟩)
    exact rfc_finite hv _ hb
  · intro hf
    obtain ⟨a, -, hp⟩ := json_prints false (path_json h) (.inr hf)
    obtain ⟨u', e, hv⟩ := hp pretty 0
    rw [show dumpsAt pretty 0 (.list docs) = dumps pretty (.list docs) from rfl, h2] at e
    injection e with e
    subst e
    exact ⟨a, [], [10], u, ws_nil, ws_lf, hv, rfl⟩

/-! ## C46 -/

theorem file_noHigh {file : PyStr} (hf : NoHigh file) (s : PyStr) : Text s ∨ s = file → NoHigh s
  | .inl h => fun c hc => by have := h c hc; unfold scalar at this; omega
  | .inr h => h ▸ hf

/-- **C46** Two runs of `parse_file` that print the same text have computed the same entries (up to which NaN a NaN is),
whatever the files, the options and the indentation.  (File names come from decoding, so they have no high surrogates.) -/
theorem C46_faithful {Z Z' : Zlib} {fs fs' : FileSystem} {file file' : PyStr} {ps ps' : Option (List PyStr)}
    {pretty pretty' ts ts' cs cs' : Bool} {docs docs' : List JVal} {t : PyStr} (hn : NoHigh file) (hn' : NoHigh file')
    (h : parsePath Z fs (optsOf ps ts cs) file = .ok docs) (h' : parsePath Z' fs' (optsOf ps' ts' cs') file' = .ok docs')
    (ht : parseFileText Z fs file ps pretty ts cs = .ok t) (ht' : parseFileText Z' fs' file' ps' pretty' ts' cs' = .ok t) :
    Alike (.list docs) (.list docs') := by
  obtain ⟨a, ha, hp⟩ := C43_printed h
  obtain ⟨a', ha', hp'⟩ := C43_printed h'
  obtain ⟨u, e, hj, -⟩ := hp pretty
  obtain ⟨u', e', -, hu⟩ := hp' pretty'
  rw [ht] at e; injection e with e; subst e
  rw [ht'] at e'; injection e' with e'; subst e'
  obtain rfl := hu a hj
  exact says_inj (file_noHigh hn) (file_noHigh hn') (path_json h) (path_json h') ha ha'

/-! ## The standard output of `main` -/

/-- **C30** The standard output of `main` is the texts of the files, in order, one after the other, up to the file that
fails; the exception of that file ends the program. -/
theorem C30_stdout (Z : Zlib) (fs : FileSystem) (args : Namespace) : ∃ texts : List PyStr,
    (mainText Z fs args).1 = texts.flatten ∧ texts.length ≤ args.files.length ∧
    (∀ (i : Nat) f t, args.files[i]? = some f → texts[i]? = some t →
      parseFileText Z fs f args.parseables args.prettyPrint args.showTstats args.showCstats = .ok t) ∧
    ((mainText Z fs args).2 = none → texts.length = args.files.length) ∧
    (∀ e, (mainText Z fs args).2 = some e → ∃ f, args.files[texts.length]? = some f ∧
      parseFileText Z fs f args.parseables args.prettyPrint args.showTstats args.showCstats = .error e) := by
  unfold mainText
  generalize args.files = files
  induction files with
  | nil => exact ⟨[], rfl, by simp, by simp, by simp, by simp [mainLoop]⟩
  | cons f rest ih =>
    obtain ⟨texts, h1, h2, h3, h4, h5⟩ := ih
    cases hp : parseFileText Z fs f args.parseables args.prettyPrint args.showTstats args.showCstats with
    | error e =>
      refine ⟨[], by rw [mainLoop, hp]; rfl, by simp, by simp, by rw [mainLoop, hp]; simp, ?_⟩
      intro e' he
      rw [mainLoop, hp] at he
      injection he with he
      exact ⟨f, rfl, he ▸ hp⟩
    | ok t =>
      refine ⟨t :: texts, by rw [mainLoop, hp, List.flatten_cons, ← h1], by simpa using h2, ?_, ?_, ?_⟩
      · intro i g u hg hu
        cases i with
        | zero => injection hg with hg; injection hu with hu; exact hg ▸ hu ▸ hp
        | succ i => exact h3 i g u hg hu
      · rw [mainLoop, hp]; simpa using h4
      · rw [mainLoop, hp]; simpa using h5

/-- **C44** Without `-p` the standard output of `main` has exactly one line per file that was printed, each of them a
complete JSON text. -/
theorem C44_stdout_lines (Z : Zlib) (fs : FileSystem) (args : Namespace) (hp : args.prettyPrint = false) :
    ∃ lines : List PyStr, (mainText Z fs args).1 = (lines.map (· ++ [10])).flatten ∧
      ((mainText Z fs args).2 = none → lines.length = args.files.length) ∧
      ∀ l ∈ lines, 10 ∉ l ∧ ∃ a, JsonText true l a := by
  obtain ⟨texts, h1, h2, h3, h4, -⟩ := C30_stdout Z fs args
  have key : ∀ t ∈ texts, ∃ l, t = l ++ [10] ∧ 10 ∉ l ∧ ∃ a, JsonText true l a := by
    intro t ht
    obtain ⟨i, hi⟩ := List.getElem?_of_mem ht
    have hlt := (List.getElem?_eq_some_iff.mp hi).1
    have hf := List.getElem?_eq_getElem (show i < args.files.length by omega)
    have e := h3 i _ t hf hi
    rw [hp] at e
    obtain ⟨docs, u, e1, e2, rfl⟩ := fileText_ok.mp e
    obtain ⟨l, he, hl, -⟩ := C44_one_line e
    obtain rfl := (List.append_inj' he rfl).1
    obtain ⟨a, -, hpr⟩ := json_prints true (path_json e1) (.inl rfl)
    obtain ⟨u', e3, hv⟩ := hpr false 0
    rw [show dumpsAt false 0 (.list docs) = dumps false (.list docs) from rfl, e2] at e3
    injection e3 with e3
    subst e3
    exact ⟨u, rfl, hl, a, [], [], u, ws_nil, ws_nil, hv, by simp⟩
  rw [h1]
  have : ∃ lines : List PyStr, texts = lines.map (· ++ [10]) ∧ ∀ l ∈ lines, 10 ∉ l ∧ ∃ a, JsonText true l a := by
    clear h1 h2 h3 h4
    induction texts with
    | nil => exact ⟨[], rfl, by simp⟩
    | cons t ts ih =>
      obtain ⟨l, rfl, hl⟩ := key t (by simp)
      obtain ⟨ls, rfl, hls⟩ := ih (fun t ht => key t (by simp [ht]))
      exact ⟨l :: ls, rfl, by simpa using ⟨hl, hls⟩⟩
  obtain ⟨lines, rfl, hl⟩ := this
  exact ⟨lines, rfl, by simpa using h4, hl⟩

/-- The documents of `main` and their texts. -/
theorem main_docs (Z : Zlib) (fs : FileSystem) (args : Namespace) : ∀ files : List PyStr,
    (mainLoop Z fs args files).2 = (runMain Z fs (optsOf args.parseables args.showTstats args.showCstats) files).2 ∧
    ∃ texts : List PyStr, (mainLoop Z fs args files).1 = (texts.map (· ++ [10])).flatten ∧
      texts.length = (runMain Z fs (optsOf args.parseables args.showTstats args.showCstats) files).1.length ∧
      ∀ (i : Nat) d t, (runMain Z fs (optsOf args.parseables args.showTstats args.showCstats) files).1[i]? = some d →
        texts[i]? = some t → ∃ f ∈ files, Json (fun t => Text t ∨ t = f) (.list d) ∧
          ∃ a, ValueText true t a ∧ Says (.list d) a
  | [] => ⟨rfl, [], rfl, rfl, by simp [runMain]⟩
  | f :: rest => by
    obtain ⟨h0, texts, h1, h2, h3⟩ := main_docs Z fs args rest
    cases hp : parsePath Z fs (optsOf args.parseables args.showTstats args.showCstats) f with
    | error e =>
      have hp' := C43_error args.prettyPrint hp
      rw [mainLoop, hp', runMain, hp]
      exact ⟨rfl, [], rfl, rfl, by simp⟩
    | ok doc =>
      obtain ⟨a, ha, hpr⟩ := json_prints true (path_json hp) (.inl rfl)
      obtain ⟨u, e, hv⟩ := hpr args.prettyPrint 0
      have ht : parseFileText Z fs f args.parseables args.prettyPrint args.showTstats args.showCstats = .ok (u ++ [10]) :=
        fileText_ok.mpr ⟨doc, u, hp, e, rfl⟩
      rw [mainLoop, ht, runMain, hp]
      refine ⟨h0, u :: texts, ?_, by simpa using h2, ?_⟩
      · rw [List.map_cons, List.flatten_cons, ← h1]
      · intro i d t hd htx
        cases i with
        | zero =>
          injection hd with hd; injection htx with htx; subst hd; subst htx
          exact ⟨f, by simp, path_json hp, a, hv, ha⟩
        | succ i =>
          obtain ⟨g, hg, r⟩ := h3 i d t hd htx
          exact ⟨g, by simp [hg], r⟩

/-- **C30** `main` ends with the exception of the run. -/
theorem C30_stdout_exception (Z : Zlib) (fs : FileSystem) (args : Namespace) :
    (mainText Z fs args).2 = (runMain Z fs (optsOf args.parseables args.showTstats args.showCstats) args.files).2 :=
  (main_docs Z fs args args.files).1

theorem docs_alike {docs docs' : List (List JVal)} {texts texts' : List PyStr} (hl : texts.length = docs.length)
    (hl' : texts'.length = docs'.length) {P P' : PyStr → Prop} (hP : ∀ f, P f → NoHigh f) (hP' : ∀ f, P' f → NoHigh f)
    (h : ∀ (i : Nat) d t, docs[i]? = some d → texts[i]? = some t → ∃ f, P f ∧ Json (fun t => Text t ∨ t = f) (.list d) ∧
          ∃ a, ValueText true t a ∧ Says (.list d) a)
    (h' : ∀ (i : Nat) d t, docs'[i]? = some d → texts'[i]? = some t → ∃ f, P' f ∧ Json (fun t => Text t ∨ t = f) (.list d) ∧
          ∃ a, ValueText true t a ∧ Says (.list d) a)
    (e : (texts.map (· ++ [10])).flatten = (texts'.map (· ++ [10])).flatten) :
    docs.length = docs'.length ∧ ∀ (i : Nat) d d', docs[i]? = some d → docs'[i]? = some d' → Alike (.list d) (.list d') := by
  induction docs generalizing docs' texts texts' with
  | nil =>
    obtain rfl := List.length_eq_zero_iff.mp hl
    cases texts' with
    | nil =>
      obtain rfl := List.length_eq_zero_iff.mp hl'.symm
      exact ⟨rfl, by simp⟩
    | cons t ts => 
      have := congrArg List.length e
      simp at this
  | cons d docs ih =>
    cases texts with
    | nil => cases hl
    | cons t texts =>
    cases texts' with
    | nil =>
      have := congrArg List.length e
      simp at this
    | cons t' texts' =>
    cases docs' with
    | nil => cases hl'
    | cons d' docs' =>
    obtain ⟨f, hf, j, a, hv, hs⟩ := h 0 d t rfl rfl
    obtain ⟨f', hf', j', a', hv', hs'⟩ := h' 0 d' t' rfl rfl
    simp only [List.map_cons, List.flatten_cons, List.append_assoc] at e
    have dl : ∀ x, Delim ([10] ++ x) := fun x c hc => by injection hc with hc; exact .inl (.inr (.inr (.inl hc.symm)))
    obtain ⟨rfl, rfl, e⟩ := value_unique hv hv' (dl _) (dl _) e
    injection e with _ e
    obtain ⟨r1, r2⟩ := ih (docs' := docs') (texts := texts) (texts' := texts') (by simpa using hl) (by simpa using hl')
      (fun i d t hd ht => h (i + 1) d t hd ht) (fun i d t hd ht => h' (i + 1) d t hd ht) e
    refine ⟨by simp [r1], ?_⟩
    intro i x x' hx hx'
    cases i with
    | zero =>
      injection hx with hx; injection hx' with hx'; subst hx; subst hx'
      exact says_inj (file_noHigh (hP _ hf)) (file_noHigh (hP' _ hf')) j j' hs hs'
    | succ i => exact r2 i x x' hx hx'

/-- **C46** The same for whole runs over any number of files: the standard output splits into documents in only one
way, so two runs with the same output have printed as many documents, and pairwise the same ones. -/
theorem C46_stdout {Z Z' : Zlib} {fs fs' : FileSystem} {args args' : Namespace} (hn : ∀ f ∈ args.files, NoHigh f)
    (hn' : ∀ f ∈ args'.files, NoHigh f) (e : (mainText Z fs args).1 = (mainText Z' fs' args').1)
    {docs docs' : List (List JVal)}
    (h : (runMain Z fs (optsOf args.parseables args.showTstats args.showCstats) args.files).1 = docs)
    (h' : (runMain Z' fs' (optsOf args'.parseables args'.showTstats args'.showCstats) args'.files).1 = docs') :
    docs.length = docs'.length ∧ ∀ (i : Nat) d d', docs[i]? = some d → docs'[i]? = some d' → Alike (.list d) (.list d') := by
  obtain ⟨-, texts, h1, h2, h3⟩ := main_docs Z fs args args.files
  obtain ⟨-, texts', h1', h2', h3'⟩ := main_docs Z' fs' args' args'.files
  rw [h] at h2 h3
  rw [h'] at h2' h3'
  unfold mainText at e
  rw [h1, h1'] at e
  exact docs_alike h2 h2' hn hn' h3 h3' e

/-! ## Concrete cases -/

/-- A float, a compact and an indented text. -/
example : floatStr 0x3DCCCCCD = py!"0.10000000149011612" := by decide +kernel
example : dumps false (.list [.dict [(py!"é😀\n", .int (-7)), (py!"x", .list [])]]) =
    .ok py!"[{\"\\u00e9\\ud83d\\ude00\\n\": -7, \"x\": []}]" := by decide +kernel
example : dumps true (.list [.dict [(py!"a", .list [.int 1, .int 2]), (py!"b", .dict [])]]) =
    .ok py!"[\n  {\n    \"a\": [\n      1,\n      2\n    ],\n    \"b\": {}\n  }\n]" := by decide +kernel

/-- A file system with one file. -/
def oneFile (data : Bytes) : FileSystem := fun _ _ => .ok { data }

theorem path_oneFile (Z : Zlib) (data : Bytes) (o : Opts) (file : PyStr) :
    parsePath Z (oneFile data) o file = (parseFile Z o file { data }).1 := rfl

/-- The toy log of every version is printed, with every option. -/
example (r : Row) (hr : r ∈ table) (pretty : Bool) : ∃ docs t a,
    parsePath toyZ (oneFile (toyHeader r ++ body r (toyLog r))) (optsOf none true true) py!"x" = .ok docs ∧ docs.length = 3 ∧
    parseFileText toyZ (oneFile (toyHeader r ++ body r (toyLog r))) py!"x" none pretty true true = .ok t ∧
    JsonText true t a ∧ Says (.list docs) a := by
  obtain ⟨c, docs, -, h1, h2, -⟩ := C29_written_log hr (toyHeader_valid r hr) (toyLog_valid r hr) (by simp [toyLog])
    (o := optsOf none true true) rfl py!"x" (s := { data := toyHeader r ++ body r (toyLog r) }) (by simp [Stream.rest]) rfl
  have hp : parsePath toyZ (oneFile (toyHeader r ++ body r (toyLog r))) (optsOf none true true) py!"x" = .ok docs := by
    rw [path_oneFile]; exact h1
  obtain ⟨a, ha, hpr⟩ := C43_printed hp
  obtain ⟨t, ht, hj, -⟩ := hpr pretty
  exact ⟨docs, t, a, hp, h2, ht, hj, ha⟩

/-- A log of another version and a request for parseables: the line that is printed. -/
example : ∃ r ∈ table, r.version = py!"2.12" ∧
    parseFileText toyZ (oneFile (toyHeader r)) py!"a\"b" (some [py!"CPU"]) false =
      .ok py!"[{\"error\": \"Atop version 2.12 does not support parseables, only full raw output.\", \"file\": \"a\\\"b\"}]\n" := by
  exact ⟨table.getLast (by decide), List.getLast_mem _, by decide, by decide +kernel⟩

end Atop
