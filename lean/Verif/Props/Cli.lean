import Verif.Proofs.CliBack
import Verif.Props.Layouts
/-!
# The command line (C51) and the program (C52)
-/

namespace Atop
open Spec

/-! ## C51 -/

/-- **C51** `parse_args` accepts exactly the command lines of the grammar, and its result is what they ask for. -/
theorem C51_exact (U : Nat → Bool) (argv : List PyStr) (ns : Namespace) :
    parseArgs U argv = .ok ns ↔ ∃ files es, Line U argv files es ∧ Settings files es ns := by
  constructor
  · intro h
    obtain ⟨files, es, hl, rfl⟩ := accepted_line U h
    exact ⟨files, es, hl, (settings_iff _ _ _).mpr rfl⟩
  · rintro ⟨files, es, hl, hs⟩
    rw [line_accepted U hl, (settings_iff _ _ _).mp hs]

/-- **C51** A line of the grammar can be read in one way only, as far as files and settings are concerned. -/
theorem C51_unambiguous {U : Nat → Bool} {argv files files' : List PyStr} {es es' : List Effect} {ns ns' : Namespace}
    (h : Line U argv files es) (h' : Line U argv files' es') (s : Settings files es ns) (s' : Settings files' es' ns') :
    ns = ns' := by
  have e := (C51_exact U argv ns).mpr ⟨_, _, h, s⟩
  rw [(C51_exact U argv ns').mpr ⟨_, _, h', s'⟩] at e
  exact (Except.ok.inj e).symm

/-- **C51** No word is dropped or invented: an accepted line names at least one file, every file is a word of the line,
every word that does not start with `-` is a file or the name of a parseable, and the parseables asked for are a
nonempty list of known names. -/
theorem C51_words {U : Nat → Bool} {argv : List PyStr} {ns : Namespace} (h : parseArgs U argv = .ok ns) :
    ns.files ≠ [] ∧ ns.files.Sublist argv ∧ (∀ w ∈ argv, w.head? ≠ some 45 → w ∈ ns.files ∨ w ∈ parseableNames) ∧
    ∀ ps, ns.parseables = some ps → ps ≠ [] ∧ ∀ x ∈ ps, x ∈ parseableNames := by
  obtain ⟨files, es, hl, hs⟩ := (C51_exact U argv ns).mp h
  obtain ⟨h1, h2, -, -, -⟩ := hs
  rw [h1, h2]
  cases hl with
  | plain before after files hb ha hla hne hf =>
    refine ⟨hne, ((List.sublist_append_right _ _).trans (List.sublist_append_left _ _)), ?_, ?_⟩
    · intro w hw hd
      rcases List.mem_append.mp hw with hw | hw
      · rcases List.mem_append.mp hw with hw | hw
        · exact .inr ((pieces_words hb w hw).resolve_left hd)
        · exact .inl hw
      · exact .inr ((pieces_words ha w hw).resolve_left hd)
    · intro ps hps
      rcases List.mem_append.mp (lastParseables_mem hps) with hm | hm
      · obtain ⟨p, hp, hm⟩ := List.mem_flatMap.mp hm; exact piece_names (hb p hp) ps hm
      · obtain ⟨p, hp, hm⟩ := List.mem_flatMap.mp hm; exact piece_names (ha p hp) ps hm
  | dashed before files more hb hla hne hf =>
    refine ⟨hne, ?_, ?_, ?_⟩
    · exact ((List.sublist_append_right _ _).trans (List.sublist_append_left _ _)).append (List.Sublist.refl _)
    · intro w hw hd
      rcases List.mem_append.mp hw with hw | hw
      · rcases List.mem_append.mp hw with hw | hw
        · rcases List.mem_append.mp hw with hw | hw
          · exact .inr ((pieces_words hb w hw).resolve_left hd)
          · exact .inl (List.mem_append_left _ hw)
        · rw [List.mem_singleton.mp hw] at hd; exact absurd rfl hd
      · exact .inl (List.mem_append_right _ hw)
    · intro ps hps
      obtain ⟨p, hp, hm⟩ := List.mem_flatMap.mp (lastParseables_mem hps)
      exact piece_names (hb p hp) ps hm

/-- **C51** The usage line: options, files and options in their plain spelling, in any number, are accepted as they are
read. -/
theorem C51_usage (U : Nat → Bool) (files names : List PyStr) (p t c : Bool) (hne : files ≠ [])
    (hf : ∀ f ∈ files, f.head? ≠ some 45) (hx : ∀ x ∈ names, x ∈ parseableNames) :
    parseArgs U ((if p then [py!"-p"] else []) ++ (if t then [py!"--tstats"] else []) ++ (if c then [py!"--cstats"] else []) ++
        files ++ (if names = [] then [] else py!"-P" :: names)) =
      .ok { files, parseables := if names = [] then none else some names, prettyPrint := p, showTstats := t, showCstats := c } := by
  have hfw : ∀ f ∈ files, FileWord U f := fun f h => ⟨fun e => hf f h (by rw [e]; rfl), .inl (hf f h)⟩
  have vp : Piece.Valid ⟨[py!"-p"], false, [.pretty]⟩ := .one _ _ (.p 0)
  have vt : Piece.Valid ⟨[py!"--tstats"], false, [.tstats]⟩ := .one _ _ (.tstats _ (by decide))
  have vc : Piece.Valid ⟨[py!"--cstats"], false, [.cstats]⟩ := .one _ _ (.cstats _ (by decide))
  have line := Line.plain (U := U) ((if p then [⟨[py!"-p"], false, [.pretty]⟩] else []) ++
    (if t then [⟨[py!"--tstats"], false, [.tstats]⟩] else []) ++ (if c then [⟨[py!"--cstats"], false, [.cstats]⟩] else []))
    (if names = [] then [] else [⟨py!"-P" :: names, true, [.parseables names]⟩]) files (by
      intro q hq
      cases p <;> cases t <;> cases c <;> simp at hq <;> rcases hq with rfl | rfl | rfl <;> assumption) (by
      intro q hq
      split at hq
      · cases hq
      · rename_i hn
        rw [List.mem_singleton.mp hq]
        exact .list _ [] names (.P 0) hn hx) (by
      intro q hq
      have := List.mem_of_getLast? hq
      cases p <;> cases t <;> cases c <;> simp at this <;> rcases this with rfl | rfl | rfl <;> rfl) hne hfw
  have e : ∀ (b : Bool) (q : Piece), (if b then [q] else []).flatMap Piece.words = if b then q.words else [] := by
    intro b q; cases b <;> simp
  have e' : (if names = [] then [] else [(⟨py!"-P" :: names, true, [.parseables names]⟩ : Piece)]).flatMap Piece.words =
      if names = [] then [] else py!"-P" :: names := by split <;> simp
  rw [List.flatMap_append, List.flatMap_append, e, e, e, e'] at line
  refine (C51_exact U _ _).mpr ⟨files, _, line, rfl, ?_, ?_, ?_, ?_⟩ <;>
    cases p <;> cases t <;> cases c <;> split <;> simp_all [lastParseables]

/-- **C51** `-P` takes every word up to the next option: a word after it, or after names that follow it, that is not the
name of a parseable makes the program refuse the line, also when it was meant as a file. -/
theorem C51_greedy {U : Nat → Bool} {pre names post : List PyStr} {w x : PyStr} {es : List Effect} (hn : py!"--" ∉ pre)
    (hw : ListWord w es) (hns : ∀ f ∈ names, FileWord U f) (hx : FileWord U x) (hk : x ∉ parseableNames) :
    ∃ e, parseArgs U (pre ++ w :: (names ++ x :: post)) = .error e := by
  cases h : parseArgs U (pre ++ w :: (names ++ x :: post)) with
  | error e => exact ⟨e, rfl⟩
  | ok ns =>
    exfalso
    obtain ⟨t, ht, hdo⟩ := listWord_does U hw
    have hwd := parse_ne_dash ht
    have hnf : ¬ FileWord U w := by rw [fileWord_iff U w hwd, ht]; nofun
    rcases option_inv hn hwd hnf h with ⟨es', h1⟩ | ⟨-, names', rest, e, -, hk', hr⟩
    · -- the word of a list is not an option in one word
      obtain ⟨t', ht', hdo'⟩ := oneWord_does U h1
      rw [ht] at ht'
      obtain rfl : t = t' := by simpa using ht'
      obtain ⟨a, ha, -⟩ := hdo [x] (by simp)
      obtain ⟨a', ha', -⟩ := hdo' [x]
      rw [ha] at ha'
      have := congrArg Consumed.taken (Except.ok.inj ha')
      cases this
    · rcases List.append_eq_append_iff.mp e with ⟨l, e1, e2⟩ | ⟨l, e1, e2⟩
      · cases l with
        | nil => exact hr x post e2.symm hx
        | cons y l =>
          rw [List.cons_append] at e2
          obtain ⟨rfl, -⟩ := List.cons.inj e2
          exact hk (hk' x (by rw [e1]; simp))
      · cases l with
        | nil => exact hr x post e2 hx
        | cons y l => exact hr y _ e2 (hns y (by rw [e1]; simp))

/-- **C51** A word starting with `-`, before any `--`, that is neither an option nor a file word is refused. -/
theorem C51_unknown_option {U : Nat → Bool} {pre post : List PyStr} {w : PyStr} (hn : py!"--" ∉ pre) (hw : w ≠ py!"--")
    (hf : ¬ FileWord U w) (h1 : ∀ es, ¬ OneWord w es) (h2 : ∀ es, ¬ ListWord w es) :
    ∃ e, parseArgs U (pre ++ w :: post) = .error e := by
  cases h : parseArgs U (pre ++ w :: post) with
  | error e => exact ⟨e, rfl⟩
  | ok ns =>
    rcases option_inv hn hw hf h with ⟨es, h⟩ | ⟨⟨es, h⟩, -⟩
    · exact absurd h (h1 es)
    · exact absurd h (h2 es)

theorem pieces_no_dash {ps : List Piece} (h : ∀ p ∈ ps, p.Valid) : py!"--" ∉ ps.flatMap Piece.words := by
  intro hm
  obtain ⟨p, hp, hm⟩ := List.mem_flatMap.mp hm
  have hv := h p hp
  cases hv with
  | one w es hw =>
    rw [List.mem_singleton] at hm
    obtain ⟨t, ht, -⟩ := oneWord_does (fun _ => false) hw
    exact parse_ne_dash ht hm.symm
  | list w es names hw hne hx =>
    rcases List.mem_cons.mp hm with hm | hm
    · obtain ⟨t, ht, -⟩ := listWord_does (fun _ => false) hw
      exact parse_ne_dash ht hm.symm
    · exact absurd (hx _ hm) (by decide)

/-- **C51** After the first `--` every word is a file as it stands, whatever it looks like. -/
theorem C51_dashes {U : Nat → Bool} {pre more : List PyStr} {ns : Namespace} (hn : py!"--" ∉ pre)
    (h : parseArgs U (pre ++ py!"--" :: more) = .ok ns) :
    ∃ files, ns.files = files ++ more ∧ files.Sublist pre := by
  obtain ⟨files, es, hl, hs⟩ := (C51_exact U _ ns).mp h
  generalize hargv : pre ++ py!"--" :: more = argv at hl
  cases hl with
  | plain before after files hb ha hla hne hf =>
    exfalso
    have : py!"--" ∈ pre ++ py!"--" :: more := by simp
    rw [hargv] at this
    rcases List.mem_append.mp this with h | h
    · rcases List.mem_append.mp h with h | h
      · exact pieces_no_dash hb h
      · exact (hf _ h).1 rfl
    · exact pieces_no_dash ha h
  | dashed before files more' hb hla hne hf =>
    have hq : py!"--" ∉ before.flatMap Piece.words ++ files := by
      intro h
      rcases List.mem_append.mp h with h | h
      · exact pieces_no_dash hb h
      · exact (hf _ h).1 rfl
    have key : ∀ (a b c d : List PyStr), py!"--" ∉ a → py!"--" ∉ b → a ++ py!"--" :: c = b ++ py!"--" :: d → a = b ∧ c = d := by
      intro a
      induction a with
      | nil =>
        intro b c d _ hb e
        cases b with
        | nil => exact ⟨rfl, (List.cons.inj e).2⟩
        | cons x b => exact absurd (by rw [← (List.cons.inj e).1]; simp) hb
      | cons x a ih =>
        intro b c d ha hb e
        cases b with
        | nil => exact absurd (by rw [(List.cons.inj e).1]; simp) ha
        | cons y b =>
          obtain ⟨h1, h2⟩ := List.cons.inj e
          obtain ⟨h3, h4⟩ := ih b c d (fun h => ha (by simp [h])) (fun h => hb (by simp [h])) h2
          exact ⟨by rw [h1, h3], h4⟩
    obtain ⟨rfl, rfl⟩ := key pre _ more more' hn hq (by rw [hargv]; simp)
    exact ⟨files, hs.files, List.sublist_append_right _ _⟩

/-! ## C52 -/

/-- **C52** The program, on any command line: either the line is of the grammar, and the standard output is the texts of
the named files under the asked settings, in order, up to the first file that fails, whose exception ends the
program; or it is not, nothing is processed and the program exits with a usage error or the help. -/
theorem C52_program (U : Nat → Bool) (Z : Zlib) (fs : FileSystem) (argv : List PyStr) :
    (∃ files es ns, Line U argv files es ∧ Settings files es ns ∧
      ∃ texts : List PyStr, (program U Z fs argv).1 = texts.flatten ∧ texts.length ≤ files.length ∧
        (∀ (i : Nat) f t, files[i]? = some f → texts[i]? = some t →
          parseFileText Z fs f ns.parseables ns.prettyPrint ns.showTstats ns.showCstats = .ok t) ∧
        (((program U Z fs argv).2 = .done ∧ texts.length = files.length) ∨
         ∃ f e, files[texts.length]? = some f ∧ (program U Z fs argv).2 = .raised e ∧
          parseFileText Z fs f ns.parseables ns.prettyPrint ns.showTstats ns.showCstats = .error e)) ∨
    ((¬ ∃ files es, Line U argv files es) ∧ (program U Z fs argv).1 = [] ∧ ∃ e, (program U Z fs argv).2 = .exited e) := by
  unfold program
  cases h : parseArgs U argv with
  | error e =>
    refine .inr ⟨?_, rfl, e, rfl⟩
    rintro ⟨files, es, hl⟩
    rw [line_accepted U hl] at h
    cases h
  | ok ns =>
    obtain ⟨files, es, hl, hs⟩ := (C51_exact U argv ns).mp h
    refine .inl ⟨files, es, ns, hl, hs, ?_⟩
    obtain ⟨texts, h1, h2, h3, h4, h5⟩ := C30_stdout Z fs ns
    rw [hs.files] at h2 h3 h4 h5
    refine ⟨texts, ?_, h2, h3, ?_⟩
    · rw [← h1]
      dsimp only
      cases hm : mainText Z fs ns with
      | mk out e => cases e <;> rfl
    · dsimp only
      cases hm : mainText Z fs ns with
      | mk out e =>
        rw [hm] at h4 h5
        cases e with
        | none => exact .inl ⟨rfl, h4 rfl⟩
        | some e =>
          obtain ⟨f, hf, he⟩ := h5 e rfl
          exact .inr ⟨f, e, hf, rfl, he⟩

/-- **C52** From the command line and the bytes of a complete log to the characters printed: `atoparser [-p] [--tstats]
[--cstats] FILE` ends normally, and the standard output is a JSON text with exactly one reading, an array with one
object per written sample that shows the written bytes by the literal layout of the version. -/
theorem C52_log (U : Nat → Bool) {Z : Zlib} {r : Row} (hr : r ∈ table) {hb : Bytes} (H : ValidHeader r hb)
    {ws : List WSample} (W : ∀ w ∈ ws, w.Valid Z r) (hmax : ws.length ≤ 86400) {fs : FileSystem} {file : PyStr} {s : Stream}
    (hf : fs file (usesGzip file) = .ok s) (hs : s.rest = hb ++ body r ws) (plain : s.short = none)
    (hd : file.head? ≠ some 45) (ts cs : Bool) :
    ∃ B docs a, layoutOf r.version = some B ∧ docs.length = ws.length ∧
      (∀ (i : Nat) w v, ws[i]? = some w → docs[i]? = some v → EntryShows B hb w ts cs v) ∧ Says (.list docs) a ∧
      ∀ pretty : Bool, ∃ t, program U Z fs ((if pretty then [py!"-p"] else []) ++ (if ts then [py!"--tstats"] else []) ++
          (if cs then [py!"--cstats"] else []) ++ [file]) = (t, .done) ∧
        JsonText true t a ∧ ∀ b, JsonText true t b → b = a := by
  obtain ⟨B, docs, a, h1, h2, h3, h4, h5⟩ := C49_printed hr H W hmax hf hs plain ts cs
  refine ⟨B, docs, a, h1, h2, h3, h4, fun pretty => ?_⟩
  obtain ⟨t, e, ht⟩ := h5 pretty
  refine ⟨t, ?_, ht⟩
  have := C51_usage U [file] [] pretty ts cs (by simp) (fun f hm => by rw [List.mem_singleton.mp hm]; exact hd) nofun
  rw [if_pos rfl, List.append_nil] at this
  unfold program
  rw [this]
  have hm : mainText Z fs { files := [file], parseables := none, prettyPrint := pretty, showTstats := ts, showCstats := cs } =
      (t, none) := by
    unfold mainText
    simp only [mainLoop]
    rw [e]
    simp
  dsimp only
  rw [if_pos rfl, hm]

/-! ## Concrete cases -/

/-- `atoparser -pP=CPU f --tst`: a cluster with an explicit argument, a file, an abbreviated option. -/
example (U : Nat → Bool) : parseArgs U [py!"-pP=CPU", py!"f", py!"--tst"] =
    .ok { files := [py!"f"], parseables := some [py!"CPU"], prettyPrint := true, showTstats := true } := by
  refine (C51_exact U _ _).mpr ⟨[py!"f"], _, Line.plain (U := U) [⟨[py!"-pP=CPU"], false, [.pretty, .parseables [py!"CPU"]]⟩]
    [⟨[py!"--tst"], false, [.tstats]⟩] [py!"f"] ?_ ?_ ?_ ?_ ?_, ?_⟩
  · intro p hp; rw [List.mem_singleton.mp hp]; exact .one _ _ (.P 1 true py!"CPU" (by decide))
  · intro p hp; rw [List.mem_singleton.mp hp]; exact .one _ _ (.tstats py!"--tst" (by decide))
  · intro p hp; cases hp; rfl
  · simp
  · intro f hf; rw [List.mem_singleton.mp hf]; exact ⟨by decide, .inl (by decide)⟩
  · exact ⟨rfl, rfl, by simp, by simp, by simp⟩

/-- `atoparser -P CPU MEM -P cpu -- -x --`: the last `-P` counts; after `--` a file may start with `-`. -/
example (U : Nat → Bool) : parseArgs U [py!"-P", py!"CPU", py!"MEM", py!"-P", py!"cpu", py!"--", py!"-x", py!"--"] =
    .ok { files := [py!"-x", py!"--"], parseables := some [py!"cpu"] } := by
  refine (C51_exact U _ _).mpr ⟨_, _, Line.dashed (U := U) [⟨[py!"-P", py!"CPU", py!"MEM"], true, [.parseables [py!"CPU", py!"MEM"]]⟩,
    ⟨[py!"-P", py!"cpu"], true, [.parseables [py!"cpu"]]⟩] [] [py!"-x", py!"--"] ?_ ?_ ?_ ?_, ?_⟩
  · intro p hp
    rcases List.mem_cons.mp hp with rfl | hp
    · exact .list _ _ [py!"CPU", py!"MEM"] (.P 0) (by simp) (by decide)
    · rw [List.mem_singleton.mp hp]; exact .list _ _ [py!"cpu"] (.P 0) (by simp) (by decide)
  · exact fun h => absurd rfl h
  · simp
  · nofun
  · exact ⟨rfl, rfl, by simp, by simp, by simp⟩

/-- The toy log of every version, from the command line `atoparser -p --tstats x`. -/
example (U : Nat → Bool) (r : Row) (hr : r ∈ table) : ∃ docs a t, docs.length = 3 ∧ Says (.list docs) a ∧
    program U toyZ (oneFile (toyHeader r ++ body r (toyLog r))) [py!"-p", py!"--tstats", py!"x"] = (t, .done) ∧ JsonText true t a := by
  obtain ⟨B, docs, a, -, h, -, hs, hp⟩ := C52_log U hr (toyHeader_valid r hr) (toyLog_valid r hr) (by simp [toyLog])
    (fs := oneFile (toyHeader r ++ body r (toyLog r))) (file := py!"x") (s := { data := toyHeader r ++ body r (toyLog r) }) rfl (by simp [Stream.rest]) rfl (by decide) true false
  obtain ⟨t, h1, h2, -⟩ := hp true
  exact ⟨docs, a, t, h, hs, h1, h2⟩

/-- README.md:78 `atoparser ~/atop.log -P CPU --pretty` -/
example (U : Nat → Bool) : parseArgs U [py!"atop.log", py!"-P", py!"CPU", py!"--pretty"] =
    .ok { files := [py!"atop.log"], parseables := some [py!"CPU"], prettyPrint := true } := by
  refine (C51_exact U _ _).mpr ⟨_, _, Line.plain (U := U) [] [⟨[py!"-P", py!"CPU"], true, [.parseables [py!"CPU"]]⟩,
    ⟨[py!"--pretty"], false, [.pretty]⟩] [py!"atop.log"] ?_ ?_ ?_ ?_ ?_, ?_⟩
  · nofun
  · intro p hp
    rcases List.mem_cons.mp hp with rfl | hp
    · exact .list _ _ [py!"CPU"] (.P 0) (by simp) (by decide)
    · rw [List.mem_singleton.mp hp]; exact .one _ _ (.pretty py!"--pretty" (by decide))
  · nofun
  · simp
  · intro f hf; rw [List.mem_singleton.mp hf]; exact ⟨by decide, .inl (by decide)⟩
  · exact ⟨rfl, rfl, by simp, by simp, by simp⟩

/-- The pitfall `atoparser -P CPU f`: `f` is taken for a parseable and refused. -/
example (U : Nat → Bool) : ∃ e, parseArgs U [py!"-P", py!"CPU", py!"f"] = .error e :=
  C51_greedy (U := U) (pre := []) (names := [py!"CPU"]) (post := []) (by simp) (.P 0)
    (fun f hf => by rw [List.mem_singleton.mp hf]; exact ⟨by decide, .inl (by decide)⟩) ⟨by decide, .inl (by decide)⟩ (by decide)

/-- A mistyped option is refused. -/
example : ∃ e, parseArgs (fun c => decide (48 ≤ c ∧ c ≤ 57)) [py!"f", py!"--pretty-printx"] = .error e := by
  generalize hU : (fun c : Nat => decide (48 ≤ c ∧ c ≤ 57)) = U
  have hp : parseOptional U py!"--pretty-printx" = .ok (some { action := none, optionString := py!"--pretty-printx" }) := by
    rw [← hU]; rfl
  refine C51_unknown_option (pre := [py!"f"]) (post := []) (by decide) (by decide) ?_ ?_ ?_
  · rw [fileWord_iff U _ (by decide), hp]; nofun
  · intro es h
    obtain ⟨t, ht, hd⟩ := oneWord_does U h
    rw [hp] at ht
    cases ht
    obtain ⟨_, ha, -⟩ := hd []
    cases ha
  · intro es h
    obtain ⟨t, ht, hd⟩ := listWord_does U h
    rw [hp] at ht
    cases ht
    obtain ⟨_, ha, -⟩ := hd [[]] (by simp)
    cases ha

end Atop
