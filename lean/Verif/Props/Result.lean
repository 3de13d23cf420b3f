import Verif.Spec.Result
import Verif.Props.Wanted
import Verif.Props.Messages
/-!
# C61: everything the program does, from the bytes

`Spec.Prescribed` (Verif/Spec/Result.lean) says what must come of a file.
-/

namespace Atop
open Spec

/-- Entries are determined by what they show. -/
theorem entry_unique {v : PyStr} {B : Blocks} (hB : layoutOf v = some B) {hb : Bytes} {w : WSample} {ts cs : Bool} {a b : JVal}
    (ha : EntryShows B hb w ts cs a) (hb' : EntryShows B hb w ts cs b) : a = b := by
  have hm : (v, B) ∈ layouts := by
    unfold layoutOf at hB
    obtain ⟨l, r, e, -⟩ := List.lookup_eq_some_iff.mp hB
    rw [e]; simp
  obtain ⟨hd, rd, sd, tl, cl, rfl, a1, a2, a3, ⟨a4, a5⟩, a6, a7⟩ := ha
  obtain ⟨hd', rd', sd', tl', cl', rfl, b1, b2, b3, ⟨b4, b5⟩, b6, b7⟩ := hb'
  obtain rfl := C49_complete hm (.inl rfl) a1 b1
  obtain rfl := C49_complete hm (.inr (.inl rfl)) a2 b2
  obtain rfl := C49_complete hm (.inr (.inr (.inl rfl))) a3 b3
  obtain rfl : tl = tl' := by
    refine List.ext_getElem (a4.trans b4.symm) fun i h1 h2 => ?_
    have hi : i < w.tstats.length := a4 ▸ h1
    exact C49_complete hm (.inr (.inr (.inr (.inl rfl)))) (a5 i _ _ (List.getElem?_eq_getElem hi) (List.getElem?_eq_getElem h1))
      (b5 i _ _ (List.getElem?_eq_getElem hi) (List.getElem?_eq_getElem h2))
  obtain rfl : cl = cl' := by
    refine List.ext_getElem (a6.trans b6.symm) fun i h1 h2 => ?_
    have hi : i < w.groups.length := a6 ▸ h1
    obtain ⟨n, hn, c, ps, e1, c1, c2, c3⟩ := a7 i _ _ (List.getElem?_eq_getElem hi) (List.getElem?_eq_getElem h1)
    obtain ⟨n', hn', c', ps', e1', c1', c2', c3'⟩ := b7 i _ _ (List.getElem?_eq_getElem hi) (List.getElem?_eq_getElem h2)
    obtain rfl : n = n' := Option.some.inj (hn.symm.trans hn')
    rw [e1, e1', C49_complete hm (.inr (.inr (.inr (.inr hn.symm)))) c1 c1']
    suffices ps = ps' by rw [this]
    refine List.ext_getElem (by omega) fun j h1 h2 => ?_
    obtain ⟨k, hk, s1⟩ := c3 j _ (List.getElem?_eq_getElem h1)
    obtain ⟨k', hk', s1'⟩ := c3' j _ (List.getElem?_eq_getElem h2)
    rw [hk, hk', storedInt_unique (by decide) s1 s1']
  rfl

theorem allShow_unique {α} {P : α → JVal → Prop} (hP : ∀ x a b, P x a → P x b → a = b) {xs : List α} {u v : List JVal}
    (hu : AllShow P xs u) (hv : AllShow P xs v) : u = v := by
  refine List.ext_getElem (hu.1.trans hv.1.symm) fun i h1 h2 => ?_
  have hi : i < xs.length := hu.1 ▸ h1
  exact hP _ _ _ (hu.2 i _ _ (List.getElem?_eq_getElem hi) (List.getElem?_eq_getElem h1))
    (hv.2 i _ _ (List.getElem?_eq_getElem hi) (List.getElem?_eq_getElem h2))

/-- Refusals are those of `get_header`. -/
theorem refused_iff {s : Stream} (enough : s.short = none ∨ 480 ≤ s.rest.length) (e : Exc) :
    (getHeader true s).1 = .error e ↔ RefusedWith (first480 s.rest) e := by
  constructor
  · intro h
    obtain ⟨-, -, k3, k4⟩ := C09_rejection_kinds s enough
    rcases k4 e h with ⟨text, rfl⟩ | ⟨text, rfl⟩ | rfl
    · obtain ⟨a, b⟩ := (C50_wrong_magic s enough true text).mp h
      exact .magic a b
    · obtain ⟨a, b, c, d⟩ := (C50_incompatible s enough text).mp h
      exact .sizes a b c d
    · obtain ⟨a, b⟩ := k3.mp h
      exact .old a b
  · intro h
    cases h with
    | magic a b => exact (C50_wrong_magic s enough true _).mpr ⟨a, b⟩
    | sizes a b c d => exact (C50_incompatible s enough _).mpr ⟨a, b, c, d⟩
    | old a b => exact (C09_rejection_kinds s enough).2.2.1.mpr ⟨a, b⟩

/-- **C61** `parse_file` (on an opened file, with names of parseables the program knows, or none) does exactly what is
prescribed for the bytes, whatever they are. -/
theorem C61_parse_file (Z : Zlib) {o : Opts} (hn : ∀ p ∈ o.parseables, p ∈ parseableNames) (file : PyStr) (s : Stream)
    (r : Except Exc (List JVal)) : (parseFile Z o file s).1 = r ↔ Prescribed Z o file s r := by
  have back : ∀ r, Prescribed Z o file s r → (parseFile Z o file s).1 = r := by
    intro r h
    cases h with
    | noHeader he hl => exact C29_refused Z o file (C09_damaged_container s _ he hl true)
    | refused enough he => exact C29_refused Z o file ((refused_iff enough _).mpr he)
    | entries enough hA hp hd ht hB hdocs =>
      obtain ⟨B', docs', hB', e1, e2, e3⟩ := ((C54_any_stream Z hp file rfl hd).2 enough).2.1 hA ht
      obtain rfl := Option.some.inj (hB.symm.trans hB')
      have hu := allShow_unique (P := fun (f : Found) v => EntryShows _ (first480 s.rest) f.written o.showTstats o.showCstats v)
        (fun (f : Found) a b ha hb => entry_unique (w := f.written) hB ha hb) hdocs ⟨e2, e3⟩
      rw [e1, hu]
    | trouble enough hA hp hd ht => exact ((C54_any_stream Z hp file rfl hd).2 enough).2.2 hA _ rfl ht
    | unsupported enough hA hp hv => rw [C27_unsupported Z o file s enough hA hv hp]
    | @rows fs _ _ enough hA hp hv hd ht hdocs =>
      have hgood : ∀ q ∈ wantedLog (first480 s.rest) o.parseables fs, q.2.Good := by
        intro q hq
        obtain ⟨i, hi, rfl⟩ := List.getElem_of_mem hq
        obtain ⟨ss, hss, -⟩ := hdocs.2 i _ _ (List.getElem?_eq_getElem hi) (List.getElem?_eq_getElem (hdocs.1 ▸ hi))
        exact ⟨ss, hss⟩
      obtain ⟨docs', e1, e2, e3⟩ := ((((C56_any_stream Z hp hn file rfl hd).2 enough).2.2 hA hv).2 hgood).1 ht
      have hu := allShow_unique (P := fun (q : PyStr × Wanted) v => RowShows q.1 q.2 v)
        (fun (q : PyStr × Wanted) a b ha hb => C56_row_unique (p := q.1) (w := q.2) ha hb) hdocs
        ⟨e2, fun i q v hq hv => e3 i q.1 q.2 v hq hv⟩
      rw [e1, hu]
    | badText enough hA hp hv hd hbad => exact (((C56_any_stream Z hp hn file rfl hd).2 enough).2.2 hA hv).1 hbad
    | rowTrouble enough hA hp hv hd hgood ht =>
      exact ((((C56_any_stream Z hp hn file rfl hd).2 enough).2.2 hA hv).2 hgood).2 _ rfl ht
  refine ⟨?_, back r⟩
  rintro rfl
  suffices ∃ r, Prescribed Z o file s r by
    obtain ⟨r, hr⟩ := this
    rw [back r hr]; exact hr
  by_cases enough : s.short = none ∨ 480 ≤ s.rest.length
  · rcases hg : getHeader true s with ⟨e | h, s'⟩
    · exact ⟨_, .refused enough ((refused_iff enough e).mp (by rw [hg]))⟩
    · have hA := (C08_header_accepted_iff s enough).mp ⟨h, by rw [hg]⟩
      cases hd : decodeLog Z (usedRow (first480 s.rest)) (readsCGroups (first480 s.rest)) s.short.isNone 86400 (s.rest.drop 480) with
      | mk fs t =>
        by_cases hp : o.parseables = []
        · obtain ⟨-, c⟩ := C54_any_stream Z hp file rfl hd
          by_cases ht : EndsQuietly s.short t
          · obtain ⟨B, docs, hB, e1, e2, e3⟩ := (c enough).2.1 hA ht
            exact ⟨_, .entries enough hA hp hd ht hB ⟨e2, e3⟩⟩
          · cases t with
            | none => exact absurd (fun x hx => by cases hx) ht
            | some t =>
              exact ⟨_, .trouble enough hA hp hd fun h => ht fun x hx => by cases hx; exact h⟩
        · by_cases hv : major (first480 s.rest) = 1 ∧ minor (first480 s.rest) = 26
          · by_cases hbad : ∃ q ∈ wantedLog (first480 s.rest) o.parseables fs, ¬ q.2.Good
            · exact ⟨_, .badText enough hA hp hv hd hbad⟩
            · have hgood : ∀ q ∈ wantedLog (first480 s.rest) o.parseables fs, q.2.Good := fun q hq =>
                Classical.byContradiction fun h => hbad ⟨q, hq, h⟩
              by_cases ht : EndsQuietly s.short t
              · obtain ⟨docs, e1, e2, e3⟩ := ((((C56_any_stream Z hp hn file rfl hd).2 enough).2.2 hA hv).2 hgood).1 ht
                exact ⟨_, .rows enough hA hp hv hd ht ⟨e2, fun i q v => e3 i q.1 q.2 v⟩⟩
              · cases t with
                | none => exact absurd (fun x hx => by cases hx) ht
                | some t => exact ⟨_, .rowTrouble enough hA hp hv hd hgood fun h => ht fun x hx => by cases hx; exact h⟩
          · exact ⟨_, .unsupported enough hA hp hv⟩
  · cases he : s.short with
    | none => exact absurd (.inl he) enough
    | some e => exact ⟨_, .noHeader he (by have := fun h => enough (.inr h); omega)⟩

/-- **C61** Something is prescribed for every file, and only one thing. -/
theorem C61_determined (Z : Zlib) {o : Opts} (hn : ∀ p ∈ o.parseables, p ∈ parseableNames) (file : PyStr) (s : Stream) :
    ∃ r, Prescribed Z o file s r ∧ ∀ r', Prescribed Z o file s r' → r' = r :=
  ⟨_, (C61_parse_file Z hn file s _).mp rfl, fun r' h => ((C61_parse_file Z hn file s r').mpr h).symm⟩

/-- What must come of a path: the error of opening it, or what is prescribed for the opened file. -/
def Spec.PathPrescribed (Z : Zlib) (fs : FileSystem) (o : Opts) (file : PyStr) (r : Except Exc (List JVal)) : Prop :=
  (∃ e, fs file (usesGzip file) = .error e ∧ r = .error e) ∨ ∃ s, fs file (usesGzip file) = .ok s ∧ Prescribed Z o file s r

theorem parsePath_open {Z : Zlib} {fs : FileSystem} {o : Opts} {file : PyStr} {s : Stream}
    (h : fs file (usesGzip file) = .ok s) : parsePath Z fs o file = (parseFile Z o file s).1 := by
  unfold parsePath; rw [h]; rfl

theorem parsePath_iff (Z : Zlib) (fs : FileSystem) {o : Opts} (hn : ∀ p ∈ o.parseables, p ∈ parseableNames) (file : PyStr)
    (r : Except Exc (List JVal)) : parsePath Z fs o file = r ↔ PathPrescribed Z fs o file r := by
  unfold parsePath PathPrescribed
  cases hf : fs file (usesGzip file) with
  | error e =>
    constructor
    · rintro rfl; exact .inl ⟨e, rfl, rfl⟩
    · rintro (⟨e', h, rfl⟩ | ⟨s, h, -⟩) <;> cases h; rfl
  | ok s =>
    constructor
    · intro h; exact .inr ⟨s, rfl, (C61_parse_file Z hn file s r).mp h⟩
    · rintro (⟨e', h, rfl⟩ | ⟨s', h, h'⟩) <;> cases h
      exact (C61_parse_file Z hn file s r).mpr h'

/-- **C61** The whole program, on any command line and any files.  Either the line is of the grammar; then the standard
output is one text per file, in the order named, each of them JSON with exactly one reading, which says the entries
prescribed for that file; and either this goes through all the files, or it stops at the first file for which an exception is
prescribed, which ends the program.  Or the line is not of the grammar: nothing is read or printed. -/
theorem C61_program (U : Nat → Bool) (Z : Zlib) (fs : FileSystem) (argv : List PyStr) :
    (∃ files es ns, Line U argv files es ∧ Settings files es ns ∧ ∃ texts : List PyStr,
      (program U Z fs argv).1 = texts.flatten ∧ texts.length ≤ files.length ∧
      (∀ (i : Nat) f t, files[i]? = some f → texts[i]? = some t → ∃ docs a,
        PathPrescribed Z fs (optsOf ns.parseables ns.showTstats ns.showCstats) f (.ok docs) ∧ Says (.list docs) a ∧
        JsonText true t a ∧ ∀ b, JsonText true t b → b = a) ∧
      (((program U Z fs argv).2 = .done ∧ texts.length = files.length) ∨
       ∃ f e, files[texts.length]? = some f ∧ (program U Z fs argv).2 = .raised e ∧
        PathPrescribed Z fs (optsOf ns.parseables ns.showTstats ns.showCstats) f (.error e))) ∨
    ((¬ ∃ files es, Line U argv files es) ∧ (program U Z fs argv).1 = [] ∧ ∃ e, (program U Z fs argv).2 = .exited e) := by
  rcases C52_program U Z fs argv with ⟨files, es, ns, hl, hs, texts, h1, h2, h3, h4⟩ | h
  · left
    have hw := (C51_words ((C51_exact U argv ns).mpr ⟨files, es, hl, hs⟩)).2.2.2
    have hn : ∀ p ∈ (optsOf ns.parseables ns.showTstats ns.showCstats).parseables, p ∈ parseableNames := by
      intro p hp
      unfold optsOf at hp
      cases hps : ns.parseables with
      | none => rw [hps] at hp; cases hp
      | some ps => rw [hps] at hp; exact (hw ps hps).2 p hp
    refine ⟨files, es, ns, hl, hs, texts, h1, h2, ?_, ?_⟩
    · intro i f t hf ht
      obtain ⟨docs, a, hd, -⟩ := C43_only (h3 i f t hf ht)
      obtain ⟨a, ha, hp⟩ := C43_printed hd
      obtain ⟨t', e, hj, hu⟩ := hp ns.prettyPrint
      rw [h3 i f t hf ht] at e
      cases e
      exact ⟨docs, a, (parsePath_iff Z fs hn f _).mp hd, ha, hj, hu⟩
    · rcases h4 with h4 | ⟨f, e, a, b, c⟩
      · exact .inl h4
      · refine .inr ⟨f, e, a, b, (parsePath_iff Z fs hn f _).mp ?_⟩
        cases hp : parsePath Z fs (optsOf ns.parseables ns.showTstats ns.showCstats) f with
        | error e' => rw [C43_error ns.prettyPrint hp] at c; cases c; rfl
        | ok docs =>
          obtain ⟨_, -, hp⟩ := C43_printed hp
          obtain ⟨t', e', -⟩ := hp ns.prettyPrint
          rw [e'] at c; cases c
  · exact .inr h

/-! ## Concrete cases -/

/-- The toy log of every version: three entries are prescribed. -/
example (r : Row) (hr : r ∈ table) : ∃ docs, docs.length = 3 ∧
    Prescribed toyZ { showTstats := true } py!"x" { data := toyHeader r ++ body r (toyLog r) } (.ok docs) := by
  obtain ⟨c, docs, -, h1, h2, -⟩ := C29_written_log hr (toyHeader_valid r hr) (toyLog_valid r hr) (by simp [toyLog])
    (o := { showTstats := true }) rfl py!"x" (s := { data := toyHeader r ++ body r (toyLog r) }) (by simp [Stream.rest]) rfl
  exact ⟨docs, h2, (C61_parse_file toyZ (by simp) _ _ _).mp h1⟩

/-- The same in a container that was cut after the last sample: its error is prescribed. -/
example (r : Row) (hr : r ∈ table) :
    Prescribed toyZ {} py!"x.gz" { data := toyHeader r ++ body r (toyLog r), short := some .eofError } (.error .eofError) := by
  have H := toyHeader_valid r hr
  have hs : Stream.rest { data := toyHeader r ++ body r (toyLog r), short := some .eofError } =
      toyHeader r ++ (body r (toyLog r)).take (body r (toyLog r)).length := by rw [List.take_length]; rfl
  obtain ⟨c, -, -, h⟩ := C32_cut_container_reported hr H (toyLog_valid r hr) (body r (toyLog r)).length false 86400
    (by simp [toyLog]) .eofError (by nofun) hs rfl
  have hd : first480 (Stream.rest { data := toyHeader r ++ body r (toyLog r), short := some .eofError }) = toyHeader r := by
    show first480 (toyHeader r ++ body r (toyLog r)) = _
    unfold first480
    rw [List.take_append_of_le_length (by rw [H.length]), ← H.length, List.take_length]
    simp [H.length]
  have enough : 480 ≤ (Stream.rest { data := toyHeader r ++ body r (toyLog r), short := some .eofError }).length := by
    rw [hs, List.length_append, H.length]; omega
  obtain ⟨c', -, hg⟩ := C08_header_result _ (.inr enough) (by rw [hd]; exact (valid_accepts hr H).2.2.1)
  obtain ⟨-, h2⟩ := C29_full_output toyZ (o := {}) rfl py!"x.gz" hg
  exact (C61_parse_file toyZ (by simp) _ _ _).mp (h2 _ h)

/-- An empty file: a refusal quoting four zero bytes is prescribed. -/
example (Z : Zlib) (o : Opts) : Prescribed Z o py!"x" { data := [] } (.error (.valueError (.badMagic
    py!"File does not contain raw atop output (wrong magic number): 0x0"))) :=
  .refused (.inl rfl) (.magic (by decide +kernel) ⟨py!"0", ⟨by decide, by decide +kernel, by decide, by decide +kernel⟩, rfl⟩)

/-- Two files of which the second is empty: the text of the first is printed, then the program ends with the refusal. -/
example (U : Nat → Bool) (r : Row) (hr : r ∈ table) : ∃ docs a t, docs.length = 3 ∧ Says (.list docs) a ∧ JsonText true t a ∧
    program U toyZ (fun f _ => .ok { data := if f = py!"x" then toyHeader r ++ body r (toyLog r) else [] }) [py!"x", py!"y"] =
      (t, .raised (.valueError (.badMagic py!"File does not contain raw atop output (wrong magic number): 0x0"))) := by
  generalize hfs : (fun f _ => .ok { data := if f = py!"x" then toyHeader r ++ body r (toyLog r) else [] } : FileSystem) = fs
  obtain ⟨c, docs, -, h1, h2, -⟩ := C29_written_log hr (toyHeader_valid r hr) (toyLog_valid r hr) (by simp [toyLog])
    (o := optsOf none false false) rfl py!"x" (s := { data := toyHeader r ++ body r (toyLog r) }) (by simp [Stream.rest]) rfl
  have hx : parsePath toyZ fs (optsOf none false false) py!"x" = .ok docs := by
    have hopen : fs py!"x" (usesGzip py!"x") = .ok { data := toyHeader r ++ body r (toyLog r) } := by
      rw [← hfs]; dsimp only; rw [if_pos rfl]
    rw [parsePath_open hopen]; exact h1
  have hy : parsePath toyZ fs (optsOf none false false) py!"y" = .error (.valueError (.badMagic
      py!"File does not contain raw atop output (wrong magic number): 0x0")) := by
    refine (parsePath_iff toyZ fs (by simp) py!"y" _).mpr (.inr ⟨{ data := [] }, by rw [← hfs]; dsimp only; rw [if_neg (by decide)], ?_⟩)
    exact .refused (.inl rfl) (.magic (by decide +kernel) ⟨py!"0", ⟨by decide, by decide +kernel, by decide, by decide +kernel⟩, rfl⟩)
  obtain ⟨a, hs, hp⟩ := C43_printed hx
  obtain ⟨t, e, hj, -⟩ := hp false
  refine ⟨docs, a, t, h2, hs, hj, ?_⟩
  have hargs := C51_usage U [py!"x", py!"y"] [] false false false (by simp) (by decide) nofun
  simp only [Bool.false_eq_true, if_false, if_true, List.nil_append, List.append_nil] at hargs
  unfold program
  rw [hargs]
  have hm : mainText toyZ fs { files := [py!"x", py!"y"], parseables := none, prettyPrint := false, showTstats := false, showCstats := false } =
      (t, some (.valueError (.badMagic py!"File does not contain raw atop output (wrong magic number): 0x0"))) := by
    unfold mainText
    simp only [mainLoop]
    rw [e, C43_error false hy]
    simp
  dsimp only
  rw [hm]

end Atop
