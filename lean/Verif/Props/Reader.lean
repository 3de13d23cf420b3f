import Verif.Proofs.Parse
import Verif.Spec.Document
import Verif.Props.Header
import Verif.Props.Iteration
import Verif.Props.Parseables
import Verif.Props.RoundTrip
/-!
# C27-C31, C42: the command line program
-/

namespace Atop
open Spec

variable {Z : Zlib}

/-! ## `parse_file` in terms of `get_header` and `generate_statistics` -/

theorem latched_cached {h : Header} {v : Nat × Nat} (hc : h.cache = some v) : h.latched = h := by
  unfold Header.latched Header.version
  rw [hc]; dsimp only; rw [← hc]

theorem semantic_cached {h : Header} {v : Nat × Nat} (hc : h.cache = some v) : h.semanticVersion = .ok (versionString v) := by
  unfold Header.semanticVersion Header.version
  rw [hc]; rfl

theorem supported_iff {M m : Nat} (hM : M < 256) (hm : m < 256) :
    parseableVersions.contains (versionString (M, m)) = true ↔ M = 1 ∧ m = 26 := by
  unfold parseableVersions
  rw [List.contains_iff_mem, List.mem_singleton]
  have e : versionString (1, 26) = py!"1.26" := by decide +kernel
  rw [← e]
  constructor
  · intro h
    have := versionString_inj hM hm (by decide) (by decide) h
    injection this with a b; exact ⟨a, b⟩
  · rintro ⟨rfl, rfl⟩; rfl

theorem parseFile_ok {s s' : Stream} {h : Header} (hg : getHeader true s = (.ok h, s')) (o : Opts) (file : PyStr)
    (hv : o.parseables = [] ∨ (major (first480 s.rest) = 1 ∧ minor (first480 s.rest) = 26)) :
    (parseFile Z o file s).1 =
      docOf o h (generateStatistics Z none false 86400 s).1 (generateStatistics Z none false 86400 s).2.1 := by
  obtain ⟨h1, R, A, h2, -⟩ := getHeader_ok hg
  have hc : h.cache = some (major (first480 s.rest), minor (first480 s.rest)) := by rw [h1]
  rw [generate_none, hg]
  dsimp only
  have hM := major_lt (first480 s.rest)
  have hgen : generateStatistics Z (some h) false 86400 s' = generateStatistics Z (some h) false (86400 : Nat) s' := rfl
  unfold parseFile
  rw [bind_ok hg]
  rw [bind_ok (show Rd.lift h.semanticVersion s' = (.ok _, s') by rw [semantic_cached hc]; rfl)]
  rw [latched_cached hc]
  rw [if_neg]
  · exact parseLoop_start o h h MAX_SAMPLES_PER_FILE (MAX_SAMPLES_PER_FILE + 1) s' (by decide)
  · rcases hv with hv | hv
    · simp [hv]
    · rw [(supported_iff (by omega) (minor_lt _)).mpr hv]; simp

/-- A file whose header is refused: `parse_file` raises what `get_header` raises and prints nothing. -/
theorem parseFile_refused {s s' : Stream} {e : Exc} (hg : getHeader true s = (.error e, s')) (o : Opts) (file : PyStr) :
    parseFile Z o file s = (.error e, s') := by
  unfold parseFile
  rw [bind_err hg]

/-! ## C27 -/

/-- **C27** Parseables of a version other than 1.26: exactly one entry, naming the version and the file; only the
header has been read, whatever follows it. -/
theorem C27_unsupported (Z : Zlib) (o : Opts) (file : PyStr) (s : Stream) (enough : s.short = none ∨ 480 ≤ s.rest.length)
    (A : Accepts (first480 s.rest)) (hv : ¬ (major (first480 s.rest) = 1 ∧ minor (first480 s.rest) = 26))
    (hp : o.parseables ≠ []) :
    parseFile Z o file s =
      (.ok [.dict [(py!"error", .str (unsupportedMessage (versionText (major (first480 s.rest)) (minor (first480 s.rest))))),
        (py!"file", .str file)]], { s with pos := s.pos + min 480 s.rest.length }) := by
  obtain ⟨c, -, hg⟩ := C08_header_result s enough A
  have hM := major_lt (first480 s.rest)
  unfold parseFile
  rw [bind_ok hg, bind_ok (show Rd.lift _ _ = (.ok _, _) by rw [semantic_cached rfl]; rfl), if_pos, versionText_eq]
  · rfl
  · have : parseableVersions.contains (versionString (major (first480 s.rest), minor (first480 s.rest))) ≠ true := fun h =>
      hv ((supported_iff (by omega) (minor_lt _)).mp h)
    simp only [Bool.not_eq_true] at this
    rw [this]
    simp [hp]

/-- A 2.12 log asked for "CPU" and a made-up name, with rubbish after the header. -/
example : (parseFile toyZ { parseables := [py!"CPU", py!"XYZ"] } py!"a.log" { data := toyHeader newest ++ [1, 2, 3] }).1 =
    .ok [.dict [(py!"error", .str py!"Atop version 2.12 does not support parseables, only full raw output."),
      (py!"file", .str py!"a.log")]] := by
  have e : first480 (Stream.rest { data := toyHeader newest ++ [1, 2, 3] }) = toyHeader newest := by decide +kernel
  have h := C27_unsupported toyZ { parseables := [py!"CPU", py!"XYZ"] } py!"a.log"
    { data := toyHeader newest ++ [1, 2, 3] } (.inl rfl) (by rw [e]; decide +kernel) (by rw [e]; decide +kernel) (by simp)
  rw [h, e]
  have : unsupportedMessage (versionText (major (toyHeader newest)) (minor (toyHeader newest))) =
    py!"Atop version 2.12 does not support parseables, only full raw output." := by decide +kernel
  rw [this]

/-! ## C29 -/

theorem mapM_converted {α} {f : α → Except Exc JVal} {P : JVal → Prop} : ∀ (l : List α),
    (∀ x ∈ l, ∃ v, f x = .ok v ∧ P v) → ∃ vs, l.mapM f = .ok vs ∧ Converted f l vs ∧ ∀ v ∈ vs, P v
  | [], _ => ⟨[], rfl, ⟨rfl, by simp⟩, by simp⟩
  | x :: l, h => by
    obtain ⟨v, hv, hp⟩ := h x (by simp)
    obtain ⟨vs, e, ⟨c1, c2⟩, hps⟩ := mapM_converted l (fun y hy => h y (by simp [hy]))
    refine ⟨v :: vs, by rw [List.mapM_cons, hv, e]; rfl, ⟨by simp [c1], ?_⟩, ?_⟩
    · intro i y w hy hw
      cases i with
      | zero => simp at hy hw; rw [← hy, ← hw]; exact hv
      | succ i => simp at hy hw; exact c2 i y w hy hw
    · intro w hw
      rcases List.mem_cons.mp hw with rfl | hw
      · exact hp
      · exact hps w hw

theorem classFor_mem (hb : Bytes) : classFor hb ∈ versions := by
  unfold classFor headerByVersion
  cases h : versions.find? (fun c => c.supportedVersion == versionString (major hb, minor hb)) with
  | none => show defaultHeader ∈ versions; simp [defaultHeader, versions]
  | some c => exact List.mem_of_find?_eq_some h

theorem header_class {c : HeaderClass} (hc : c ∈ versions) :
    CType.struct (py!"Header:" ++ c.supportedVersion) c.fields [] ∈ classes :=
  List.mem_append_right _ (List.mem_map.mpr ⟨c, hc, rfl⟩)

/-- Every part of the sample can be converted. -/
structure Convertible (x : Sample) : Prop where
  record : x.record.ty ∈ classes
  sstat : x.sstat.ty ∈ classes
  tstats : ∀ t ∈ x.tstats, t.ty ∈ classes
  cgroups : ∀ g ∈ x.cgroups, g.cstat.ty ∈ classes ∧ ∃ n, g.proclist.ty = .array pid_t n

theorem convertible (rot : Bool) (max : Int) {s0 s1 : Stream} {h : Header} (hg : getHeader true s0 = (.ok h, s1))
    (s : Stream) (x : Sample) (hx : x ∈ (generateStatistics Z (some h) rot max s).1) : Convertible x := by
  obtain ⟨a, b, c, d⟩ := C38_completely_filled Z rot max hg s x hx
  obtain ⟨h1, -⟩ := getHeader_ok hg
  have hm : h.cls ∈ versions := by rw [h1]; exact classFor_mem _
  obtain ⟨k1, k2, k3, k4⟩ := C39_classes_used hm
  refine ⟨a.1 ▸ k1, b.1 ▸ k2, fun t ht => (c t ht).1 ▸ k3, fun g hgm => ?_⟩
  obtain ⟨t, e1, e2, -, n, -, e3, -⟩ := d g hgm
  exact ⟨e2 ▸ k4 t e1, n, e3⟩

theorem fullRow_ok {o : Opts} {h : Header} (hm : h.cls ∈ versions) {x : Sample} (C : Convertible x) :
    ∃ v, fullRow o h x = .ok v ∧ FullEntry h.inst o.showTstats o.showCstats x v ∧ Json Text v := by
  obtain ⟨hd, h1, j1⟩ := C20_json (header_class hm) h.buf
  obtain ⟨rd, h2, j2⟩ := C20_json C.record x.record.buf
  obtain ⟨sd, h3, j3⟩ := C20_json C.sstat x.sstat.buf
  obtain ⟨ts, h4, c4, j4⟩ := mapM_converted (f := structToDict) (P := Json Text) x.tstats
    (fun t ht => C20_json (C.tstats t ht) t.buf)
  obtain ⟨cs, h5, c5, j5⟩ := mapM_converted (f := CGroup.toDict) (P := Json Text) x.cgroups (fun g hgm => by
    obtain ⟨k1, n, k2⟩ := C.cgroups g hgm
    obtain ⟨v, -, e, j, -⟩ := C20_cgroup k1 g.cstat.buf g.proclist.buf n
    rw [← k2] at e
    exact ⟨v, e, j⟩)
  refine ⟨_, ?_, ⟨hd, rd, sd, ts, cs, h1, h2, h3, c4, c5, rfl⟩, ?_⟩
  · unfold fullRow
    change structToDict h.inst = _ at h1
    rw [h1]
    change structToDict x.record = _ at h2
    rw [h2]
    change structToDict x.sstat = _ at h3
    rw [h3]
    cases o.showTstats <;> cases o.showCstats <;> simp only [h4, h5, bind, Except.bind, pure, Except.pure] <;> rfl
  · refine .dict ?_ ?_ ?_
    · cases o.showTstats <;> cases o.showCstats <;> simp [-List.cons_append, -List.nodup_cons] <;> decide
    · intro p hp
      simp only [List.mem_append, List.mem_cons, List.not_mem_nil, or_false] at hp
      rcases hp with ((rfl | rfl | rfl) | hp) | hp
      · exact ascii_text rfl
      · exact ascii_text rfl
      · exact ascii_text rfl
      · split at hp
        · simp only [List.mem_singleton] at hp; subst hp; exact ascii_text rfl
        · cases hp
      · split at hp
        · simp only [List.mem_singleton] at hp; subst hp; exact ascii_text rfl
        · cases hp
    · intro p hp
      simp only [List.mem_append, List.mem_cons, List.not_mem_nil, or_false] at hp
      rcases hp with ((rfl | rfl | rfl) | hp) | hp
      · exact j1
      · exact j2
      · exact j3
      · split at hp
        · simp only [List.mem_singleton] at hp; subst hp; exact .list j4
        · cases hp
      · split at hp
        · simp only [List.mem_singleton] at hp; subst hp; exact .list j5
        · cases hp

theorem sampleRowsAll_full {o : Opts} (hp : o.parseables = []) {h : Header} {P : Sample → JVal → Prop} : ∀ (xs : List Sample),
    (∀ x ∈ xs, ∃ v, fullRow o h x = .ok v ∧ P x v) →
    ∃ vs, sampleRowsAll o h xs = .ok vs ∧ vs.length = xs.length ∧
      ∀ (i : Nat) x v, xs[i]? = some x → vs[i]? = some v → P x v
  | [], _ => ⟨[], rfl, rfl, by simp⟩
  | x :: xs, hx => by
    obtain ⟨v, hv, hpv⟩ := hx x (by simp)
    obtain ⟨vs, e, l, hps⟩ := sampleRowsAll_full hp xs (fun y hy => hx y (by simp [hy]))
    refine ⟨v :: vs, ?_, by simp [l], ?_⟩
    · unfold sampleRowsAll sampleRows
      rw [hp, hv, e]; rfl
    · intro i y w hy hw
      cases i with
      | zero => simp at hy hw; rw [← hy, ← hw]; exact hpv
      | succ i => simp at hy hw; exact hps i y w hy hw

/-- **C29** Full output of any file with an accepted header: when iterating over the file ends normally the printed
list has one entry per sample, in order; when it raises, `parse_file` raises the same and prints nothing. -/
theorem C29_full_output (Z : Zlib) {o : Opts} (hp : o.parseables = []) (file : PyStr) {s s' : Stream} {h : Header}
    (hg : getHeader true s = (.ok h, s')) :
    ((generateStatistics Z none false 86400 s).2.1 = .returned → ∃ docs, (parseFile Z o file s).1 = .ok docs ∧
      docs.length = (generateStatistics Z none false 86400 s).1.length ∧
      ∀ (i : Nat) x v, (generateStatistics Z none false 86400 s).1[i]? = some x → docs[i]? = some v →
        FullEntry h.inst o.showTstats o.showCstats x v) ∧
    (∀ e, (generateStatistics Z none false 86400 s).2.1 = .raised e → (parseFile Z o file s).1 = .error e) := by
  rw [parseFile_ok hg o file (.inl hp)]
  have hgn : generateStatistics Z none false 86400 s = generateStatistics Z (some h) false 86400 s' := by
    rw [generate_none, hg]
  obtain ⟨h1, -⟩ := getHeader_ok hg
  have hm : h.cls ∈ versions := by rw [h1]; exact classFor_mem _
  obtain ⟨vs, e1, e2, e3⟩ := sampleRowsAll_full hp (h := h)
    (P := fun x v => FullEntry h.inst o.showTstats o.showCstats x v) (generateStatistics Z none false 86400 s).1 (by
      intro x hx
      rw [hgn] at hx
      obtain ⟨v, a, b, -⟩ := fullRow_ok (o := o) hm (convertible false 86400 hg s' x hx)
      exact ⟨v, a, b⟩)
  unfold docOf
  rw [e1]
  dsimp only
  refine ⟨fun h => ⟨vs, by rw [h], e2, e3⟩, fun e h => by rw [h]⟩

/-- **C29** A file whose header is refused is an error and prints nothing. -/
theorem C29_refused (Z : Zlib) (o : Opts) (file : PyStr) {s : Stream} {e : Exc} (hg : (getHeader true s).1 = .error e) :
    (parseFile Z o file s).1 = .error e := by
  rcases h : getHeader true s with ⟨r, s'⟩
  rw [h] at hg
  dsimp only at hg
  subst hg
  rw [parseFile_refused h]

/-- **C29** A complete log of any version: one entry per written sample, in order, showing exactly the written bytes. -/
theorem C29_written_log {Z : Zlib} {r : Row} (hr : r ∈ table) {hb : Bytes} (H : ValidHeader r hb)
    {ws : List WSample} (W : ∀ w ∈ ws, w.Valid Z r) (hmax : ws.length ≤ 86400) {o : Opts} (hp : o.parseables = [])
    (file : PyStr) {s : Stream} (hs : s.rest = hb ++ body r ws) (plain : s.short = none) :
    ∃ c docs, headerByVersion r.version = some c ∧ (parseFile Z o file s).1 = .ok docs ∧ docs.length = ws.length ∧
      ∀ (i : Nat) w v, ws[i]? = some w → docs[i]? = some v →
        FullEntry (Header.inst ⟨c, hb, none⟩) o.showTstats o.showCstats (presented c w) v := by
  obtain ⟨h, hh, hc, -, -, -, hg⟩ := generate_valid hr H Z false 86400 hs
  obtain ⟨c, hc', hgen⟩ := C01_round_trip hr H W false 86400 (by omega) hs plain
  obtain rfl : h.cls = c := by rw [hc] at hc'; exact Option.some.inj hc'
  obtain ⟨docs, e1, e2, e3⟩ := (C29_full_output Z hp file hg).1 (by rw [hgen])
  rw [hgen] at e2 e3
  refine ⟨_, docs, hc, e1, by simpa using e2, ?_⟩
  intro i w v hw hv
  have := e3 i (presented h.cls w) v (by simp [hw]) hv
  rw [hh] at this ⊢
  exact this

/-- **C29** The same for a log cut at any byte after the header: an entry for every sample that is completely present. -/
theorem C29_cut_log {Z : Zlib} {r : Row} (hr : r ∈ table) {hb : Bytes} (H : ValidHeader r hb)
    {ws : List WSample} (W : ∀ w ∈ ws, w.Valid Z r) (hmax : ws.length < 86400) (k : Nat) {o : Opts} (hp : o.parseables = [])
    (file : PyStr) {s : Stream} (hs : s.rest = hb ++ (body r ws).take k) (plain : s.short = none) :
    ∃ c docs, headerByVersion r.version = some c ∧ (parseFile Z o file s).1 = .ok docs ∧
      docs.length = (completeWithin r ws k).length ∧
      ∀ (i : Nat) w v, (completeWithin r ws k)[i]? = some w → docs[i]? = some v →
        FullEntry (Header.inst ⟨c, hb, none⟩) o.showTstats o.showCstats (presented c w) v := by
  obtain ⟨h, hh, hc, -, -, -, hg⟩ := generate_valid hr H Z false 86400 hs
  obtain ⟨c, hc', hgen⟩ := C02_cut_yields_complete_samples hr H W k false 86400 (by omega) hs plain
  obtain rfl : h.cls = c := by rw [hc] at hc'; exact Option.some.inj hc'
  have hend := C03_truncation_reported_iff hr H W k false 86400 (by omega) hs plain
  have hret : (generateStatistics Z none false 86400 s).2.1 = .returned := by
    rcases hend.2 with h | h
    · have := (hend.1.mp h).1; cases this
    · exact h
  obtain ⟨docs, e1, e2, e3⟩ := (C29_full_output Z hp file hg).1 hret
  rw [hgen] at e2 e3
  refine ⟨_, docs, hc, e1, by simpa using e2, ?_⟩
  intro i w v hw hv
  have := e3 i (presented h.cls w) v (by simp [hw]) hv
  rw [hh] at this ⊢
  exact this

/-- The toy log of every version, all options: three entries. -/
example (r : Row) (hr : r ∈ table) : ∃ docs, (parseFile toyZ { showTstats := true, showCstats := true } py!"x"
    { data := toyHeader r ++ body r (toyLog r) }).1 = .ok docs ∧ docs.length = 3 := by
  obtain ⟨c, docs, -, h1, h2, -⟩ := C29_written_log hr (toyHeader_valid r hr) (toyLog_valid r hr) (by simp [toyLog])
    (o := { showTstats := true, showCstats := true }) rfl py!"x" (s := { data := _ }) (by simp [Stream.rest]; rfl) rfl
  exact ⟨docs, h1, h2⟩

/-! ## C28 -/

theorem parser_lookup (p : PyStr) (g : PArgs → Rows) : Parser p g ↔ parseableMap.lookup p = some g := by
  constructor
  · rintro (_ | _) <;> rfl
  · intro h
    have hm : (p, g) ∈ parseableMap := by
      have : ∀ (l : List (PyStr × (PArgs → Rows))), l.lookup p = some g → (p, g) ∈ l := by
        intro l
        induction l with
        | nil => intro h; cases h
        | cons q l ih =>
          obtain ⟨k, f⟩ := q
          rw [List.lookup_cons]
          by_cases hk : p = k
          · subst hk; intro h; simp at h; subst h; simp
          · intro h
            rw [show (p == k) = false by simpa using hk] at h
            exact List.mem_cons_of_mem _ (ih h)
      exact this _ h
    simp only [parseableMap, List.mem_cons, List.not_mem_nil, or_false, Prod.mk.injEq] at hm
    rcases hm with ⟨rfl, rfl⟩ | ⟨rfl, rfl⟩ | ⟨rfl, rfl⟩ | ⟨rfl, rfl⟩ | ⟨rfl, rfl⟩ | ⟨rfl, rfl⟩ | ⟨rfl, rfl⟩ | ⟨rfl, rfl⟩ |
      ⟨rfl, rfl⟩ | ⟨rfl, rfl⟩ | ⟨rfl, rfl⟩ | ⟨rfl, rfl⟩ | ⟨rfl, rfl⟩ | ⟨rfl, rfl⟩ | ⟨rfl, rfl⟩ <;> constructor

/-- **C28** A name stands for at most one parseable, and on every sample it either gives rows or fails. -/
theorem C28_gives_or_fails (a : PArgs) (p : PyStr) :
    ((∃ rows, Gives a p rows) ∨ ∃ e, Fails a p e) ∧ ¬ ((∃ rows, Gives a p rows) ∧ ∃ e, Fails a p e) := by
  have huniq : ∀ {g g'}, Parser p g → Parser p g' → g = g' := by
    intro g g' h h'
    rw [parser_lookup] at h h'
    rw [h] at h'; exact Option.some.inj h'
  constructor
  · cases h : parseableMap.lookup p with
    | none =>
      refine .inr ⟨.keyError, .inl ⟨fun g hg => ?_, rfl⟩⟩
      rw [parser_lookup, h] at hg; cases hg
    | some g =>
      have hg := (parser_lookup p g).mpr h
      rcases hr : g a with ⟨rows, _ | e⟩
      · exact .inl ⟨rows, g, hg, hr⟩
      · exact .inr ⟨e, .inr ⟨g, rows, hg, hr⟩⟩
  · rintro ⟨⟨rows, g, hg, hr⟩, e, ⟨hn, -⟩ | ⟨g', rows', hg', hr'⟩⟩
    · exact hn g hg
    · rw [huniq hg' hg, hr] at hr'; cases hr'

theorem parseableRows_ok {a : PArgs} {rows : PyStr → List PRow} : ∀ (ps : List PyStr),
    (∀ p ∈ ps, Gives a p (rows p)) → parseableRows a ps = .ok (ps.flatMap fun p => (rows p).map (labelled p))
  | [], _ => rfl
  | p :: ps, h => by
    obtain ⟨g, hg, hr⟩ := h p (by simp)
    rw [parseableRows, (parser_lookup p g).mp hg]
    dsimp only
    rw [hr]
    dsimp only
    rw [parseableRows_ok ps (fun q hq => h q (by simp [hq]))]
    rfl

theorem parseableRows_fail {a : PArgs} {p : PyStr} {e : Exc} (hf : Fails a p e) (post : List PyStr) : ∀ (pre : List PyStr),
    (∀ q ∈ pre, ∃ rows, Gives a q rows) → parseableRows a (pre ++ p :: post) = .error e
  | [], _ => by
    rw [List.nil_append, parseableRows]
    rcases hf with ⟨hn, rfl⟩ | ⟨g, rows, hg, hr⟩
    · cases h : parseableMap.lookup p with
      | none => rfl
      | some g => exact absurd ((parser_lookup p g).mpr h) (hn g)
    · rw [(parser_lookup p g).mp hg]
      dsimp only
      rw [hr]
  | q :: pre, h => by
    obtain ⟨rows, g, hg, hr⟩ := h q (by simp)
    rw [List.cons_append, parseableRows, (parser_lookup q g).mp hg]
    dsimp only
    rw [hr]
    dsimp only
    rw [parseableRows_fail hf post pre (fun x hx => h x (by simp [hx]))]
    rfl

theorem sampleRows_parse {o : Opts} (hp : o.parseables ≠ []) (h : Header) (x : Sample) :
    sampleRows o h x = parseableRows (argsOf h.inst x) o.parseables := by
  unfold sampleRows
  rw [if_neg (by simpa using hp)]; rfl

theorem sampleRowsAll_ok {o : Opts} (hp : o.parseables ≠ []) {h : Header} {rows : PyStr → Sample → List PRow} :
    ∀ (xs : List Sample), (∀ x ∈ xs, ∀ p ∈ o.parseables, Gives (argsOf h.inst x) p (rows p x)) →
    sampleRowsAll o h xs = .ok (xs.flatMap fun x => o.parseables.flatMap fun p => (rows p x).map (labelled p))
  | [], _ => rfl
  | x :: xs, hx => by
    rw [sampleRowsAll, sampleRows_parse hp, parseableRows_ok _ (fun p hq => hx x (by simp) p hq)]
    dsimp only
    rw [sampleRowsAll_ok hp xs (fun y hy => hx y (by simp [hy]))]
    rfl

theorem sampleRowsAll_fail {o : Opts} {h : Header} {x : Sample} {ps qs : List PyStr} {p : PyStr} {e : Exc}
    (hp : o.parseables = ps ++ p :: qs) (hx : ∀ q ∈ ps, ∃ rows, Gives (argsOf h.inst x) q rows)
    (hf : Fails (argsOf h.inst x) p e) (post : List Sample) : ∀ (pre : List Sample),
    (∀ y ∈ pre, ∀ q ∈ o.parseables, ∃ rows, Gives (argsOf h.inst y) q rows) →
    sampleRowsAll o h (pre ++ x :: post) = .error e
  | [], _ => by
    rw [List.nil_append, sampleRowsAll, sampleRows_parse (by simp [hp]), hp, parseableRows_fail hf qs ps hx]
  | y :: pre, hy => by
    have hall : ∀ q ∈ o.parseables, Gives (argsOf h.inst y) q (Classical.epsilon fun rows => Gives (argsOf h.inst y) q rows) :=
      fun q hq => Classical.epsilon_spec (hy y (by simp) q hq)
    rw [List.cons_append, sampleRowsAll, sampleRows_parse (by simp [hp]), parseableRows_ok (rows := fun q => _) _ hall]
    dsimp only
    rw [sampleRowsAll_fail hp hx hf post pre (fun z hz => hy z (by simp [hz]))]

/-- **C28** Any file with an accepted 1.26 header.  When every requested parseable gives its rows on every sample the
iteration yields, the printed list is those rows: sample by sample, within a sample in the order of the request,
each row labelled with its parseable; if the iteration itself raises, so does `parse_file`. -/
theorem C28_output (Z : Zlib) {o : Opts} (hp : o.parseables ≠ []) (file : PyStr) {s s' : Stream} {h : Header}
    (hg : getHeader true s = (.ok h, s')) (hv : major (first480 s.rest) = 1 ∧ minor (first480 s.rest) = 26)
    (rows : PyStr → Sample → List PRow)
    (hrows : ∀ x ∈ (generateStatistics Z none false 86400 s).1, ∀ p ∈ o.parseables, Gives (argsOf h.inst x) p (rows p x)) :
    ((generateStatistics Z none false 86400 s).2.1 = .returned →
      (parseFile Z o file s).1 = .ok ((generateStatistics Z none false 86400 s).1.flatMap fun x =>
        o.parseables.flatMap fun p => (rows p x).map (labelled p))) ∧
    (∀ e, (generateStatistics Z none false 86400 s).2.1 = .raised e → (parseFile Z o file s).1 = .error e) := by
  rw [parseFile_ok hg o file (.inr hv)]
  unfold docOf
  rw [sampleRowsAll_ok hp _ hrows]
  dsimp only
  exact ⟨fun h => by rw [h], fun e h => by rw [h]⟩

/-- **C28** The first parseable that fails, in the order (sample, request), decides the exception: `KeyError` for an
unknown name.  Nothing is printed. -/
theorem C28_failure (Z : Zlib) {o : Opts} (file : PyStr) {s s' : Stream} {h : Header}
    (hg : getHeader true s = (.ok h, s')) (hv : major (first480 s.rest) = 1 ∧ minor (first480 s.rest) = 26)
    {pre post : List Sample} {x : Sample} (hxs : (generateStatistics Z none false 86400 s).1 = pre ++ x :: post)
    {ps qs : List PyStr} {p : PyStr} (hps : o.parseables = ps ++ p :: qs)
    (hpre : ∀ y ∈ pre, ∀ q ∈ o.parseables, ∃ rows, Gives (argsOf h.inst y) q rows)
    (hx : ∀ q ∈ ps, ∃ rows, Gives (argsOf h.inst x) q rows) {e : Exc} (hf : Fails (argsOf h.inst x) p e) :
    (parseFile Z o file s).1 = .error e := by
  rw [parseFile_ok hg o file (.inr hv), hxs]
  unfold docOf
  rw [sampleRowsAll_fail hps hx hf post pre hpre]

/-- **C28** A log without samples: the printed list is empty, whatever is requested. -/
theorem C28_no_samples (Z : Zlib) {o : Opts} (hp : o.parseables ≠ []) (file : PyStr) {s s' : Stream} {h : Header}
    (hg : getHeader true s = (.ok h, s')) (hv : major (first480 s.rest) = 1 ∧ minor (first480 s.rest) = 26)
    (h0 : (generateStatistics Z none false 86400 s).1 = []) (h1 : (generateStatistics Z none false 86400 s).2.1 = .returned) :
    (parseFile Z o file s).1 = .ok [] := by
  have := (C28_output Z hp file hg hv (fun _ _ => []) (by rw [h0]; simp)).1 h1
  rw [this, h0]; rfl

/-- The 1.26 row of the version table. -/
abbrev row126 : Row := ⟨py!"1.26", 1, 26, 80, 88368, 616, none⟩

theorem args_presented (hb : Bytes) (w : WSample) :
    argsOf (Header.inst ⟨V1_26.Header, hb, none⟩) (presented V1_26.Header w) = args126 hb w.record w.sstat w.tstats := by
  unfold argsOf presented args126 Header.inst Inst.obj
  simp only [List.map_map]
  rfl

theorem sizes_valid {Z : Zlib} {hb : Bytes} (H : ValidHeader row126 hb) {w : WSample} (W : w.Valid Z row126) :
    Sizes126 hb w.record w.sstat w.tstats := ⟨H.length, W.record_len, W.sstat_len, W.tstat_len⟩

/-- **C28** A complete 1.26 log as written, in terms of the written bytes. -/
theorem C28_written_log {Z : Zlib} {hb : Bytes} (H : ValidHeader row126 hb)
    {ws : List WSample} (W : ∀ w ∈ ws, w.Valid Z row126) (hmax : ws.length ≤ 86400) {o : Opts} (hp : o.parseables ≠ [])
    (file : PyStr) {s : Stream} (hs : s.rest = hb ++ body row126 ws) (plain : s.short = none)
    (rows : PyStr → WSample → List PRow)
    (hrows : ∀ w ∈ ws, ∀ p ∈ o.parseables, Gives (args126 hb w.record w.sstat w.tstats) p (rows p w)) :
    (parseFile Z o file s).1 = .ok (ws.flatMap fun w => o.parseables.flatMap fun p => (rows p w).map (labelled p)) := by
  have hr : row126 ∈ table := by decide
  obtain ⟨h, hh, hc, -, -, -, hg⟩ := generate_valid hr H Z false 86400 hs
  obtain ⟨c, hc', hgen⟩ := C01_round_trip hr H W false 86400 (by omega) hs plain
  obtain rfl : h.cls = c := by rw [hc] at hc'; exact Option.some.inj hc'
  have hcls : h.cls = V1_26.Header := (Option.some.inj hc).symm
  have hinst : h.inst = Header.inst ⟨V1_26.Header, hb, none⟩ := by
    unfold Header.inst; rw [hcls, hh]
  rw [parseFile_ok hg o file (.inr (by
    have : first480 s.rest = hb := by
      obtain ⟨e, -⟩ := getHeader_ok hg
      rw [hh] at e; exact (congrArg Header.buf e).symm
    rw [this]; exact ⟨H.major, H.minor⟩)), hgen]
  unfold docOf
  dsimp only
  have : ∀ (vs : List WSample), (∀ w ∈ vs, w ∈ ws) → sampleRowsAll o h (vs.map (presented h.cls)) =
      .ok (vs.flatMap fun w => o.parseables.flatMap fun p => (rows p w).map (labelled p)) := by
    intro vs hvs
    induction vs with
    | nil => rfl
    | cons w vs ih =>
      rw [List.map_cons, sampleRowsAll, sampleRows_parse hp, hinst, hcls, args_presented,
        parseableRows_ok (rows := fun p => rows p w) _ (hrows w (hvs w (by simp)))]
      dsimp only
      rw [hcls] at ih
      rw [ih (fun v hv => hvs v (by simp [hv]))]
      rfl
  rw [this ws (fun _ h => h)]

/-- The toy log asked for "SWP" and "CPU": six rows, alternating. -/
theorem toy_swp_cpu : (parseFile toyZ { parseables := [py!"SWP", py!"CPU"] } py!"x" { data := toyHeader row126 ++ body row126 (toyLog row126) }).1 =
    .ok ((toyLog row126).flatMap fun w => [labelled py!"SWP" (swpSpec (toyHeader row126) w.record w.sstat),
      labelled py!"CPU" (cpuTotalSpec (toyHeader row126) w.record w.sstat)]) := by
  have hr : row126 ∈ table := by decide
  have H := toyHeader_valid row126 hr
  have W := toyLog_valid row126 hr
  refine (C28_written_log H W (by simp [toyLog]) (o := { parseables := [py!"SWP", py!"CPU"] }) (by simp) py!"x"
    (s := { data := _ }) (by simp [Stream.rest]) rfl
    (fun p w => if p = py!"SWP" then [swpSpec (toyHeader row126) w.record w.sstat]
      else [cpuTotalSpec (toyHeader row126) w.record w.sstat]) ?_).trans rfl
  intro w hw p hp
  have S := sizes_valid H (W w hw)
  simp only [List.mem_cons, List.not_mem_nil, or_false] at hp
  rcases hp with rfl | rfl
  · exact ⟨_, .SWP, C25_SWP S⟩
  · exact ⟨_, .CPU, C25_CPU S⟩

/-- An unknown name fails on every sample. -/
example (a : PArgs) : Fails a py!"PRD" .keyError := .inl ⟨fun g h => (nomatch (parser_lookup _ g).mp h), rfl⟩

/-! ## C42 -/

/-- Number, float or text. -/
def scalarOk : JVal → Prop
  | .int _ => True
  | .float b => b < 2 ^ 32
  | .str s => Text s
  | _ => False

/-- Distinct ASCII keys, none of them "parseable". -/
def keysOk (row : PRow) : Bool := decide (row.map Prod.fst ++ [py!"parseable"]).Nodup &&
  row.all fun p => p.1.all fun c => decide (c < 128)

/-- Distinct ASCII keys, none of them "parseable", and scalar values. -/
def rowOk (row : PRow) : Prop := keysOk row = true ∧ ∀ p ∈ row, scalarOk p.2

theorem rowOk_json {row : PRow} (h : rowOk row) {p : PyStr} (hp : Text p) : Json Text (labelled p row) := by
  obtain ⟨hk, hv⟩ := h
  unfold keysOk at hk
  rw [Bool.and_eq_true, decide_eq_true_eq, List.all_eq_true] at hk
  refine .dict (by simpa using hk.1) ?_ ?_
  · intro q hq
    rcases List.mem_append.mp hq with hq | hq
    · exact ascii_text (hk.2 q hq)
    · simp only [List.mem_singleton] at hq; subst hq; exact ascii_text rfl
  · intro q hq
    rcases List.mem_append.mp hq with hq | hq
    · have := hv q hq
      obtain ⟨k, v⟩ := q
      cases v with
      | int => exact .int _
      | float => exact .float this
      | str => exact .str this
      | _ => exact this.elim
    · simp only [List.mem_singleton] at hq; subst hq; exact .str hp

theorem parser_text {p : PyStr} {g} (h : Parser p g) : Text p := by
  cases h <;> exact ascii_text rfl

theorem txt_ok {ss : List PyStr} (h : ∀ s ∈ ss, Text s) (k : Nat) : scalarOk (txt ss k) := by
  unfold txt scalarOk
  rw [List.getD_eq_getElem?_getD]
  cases e : ss[k]? with
  | none => intro c hc; cases hc
  | some s => exact h s (List.mem_of_getElem? e)

theorem flag_ok (hb : Bytes) (k : Nat) : scalarOk (flagSpec hb k) := by
  unfold flagSpec scalarOk
  dsimp only
  split <;> exact ascii_text rfl



/-- Solve the value part of `rowOk` for an explicit row. -/
macro "row_values" h:term : tactic => `(tactic|
  (simp only [when, taskSpec, List.forall_mem_append, List.forall_mem_cons, List.forall_mem_nil, List.not_mem_nil, false_imp_iff, implies_true, and_true]
   repeat' apply And.intro
   all_goals first
     | exact trivial
     | exact txt_ok $h _
     | exact flag_ok _ _
     | exact u32_lt _ _
     | exact ascii_text rfl
     | (intro c hc; cases hc; done)))

theorem specs_ok (hb rec sst t : Bytes) (i : Nat) {ss : List PyStr} (h : ∀ s ∈ ss, Text s) :
    rowOk (cpuSpec hb rec sst i) ∧ rowOk (cplSpec rec sst) ∧ rowOk (cpuTotalSpec hb rec sst) ∧
    rowOk (diskSpec rec sst i ss) ∧ rowOk (memSpec hb rec sst) ∧ rowOk (netlSpec rec sst i ss) ∧
    rowOk (netuSpec rec sst) ∧ rowOk (pagSpec hb rec sst) ∧ rowOk (swpSpec hb rec sst) ∧
    rowOk (prcSpec hb rec t ss) ∧ rowOk (prdSpec hb rec t ss) ∧ rowOk (prgSpec rec t ss) ∧
    rowOk (prmSpec hb rec t ss) ∧ rowOk (prnSpec hb rec t ss) := by
  refine ⟨⟨rfl, ?_⟩, ⟨rfl, ?_⟩, ⟨rfl, ?_⟩, ⟨rfl, ?_⟩, ⟨rfl, ?_⟩, ⟨rfl, ?_⟩, ⟨rfl, ?_⟩, ⟨rfl, ?_⟩, ⟨rfl, ?_⟩, ⟨rfl, ?_⟩,
    ⟨rfl, ?_⟩, ⟨rfl, ?_⟩, ⟨rfl, ?_⟩, ⟨rfl, ?_⟩⟩
  · unfold cpuSpec; row_values h
  · unfold cplSpec; row_values h
  · unfold cpuTotalSpec; row_values h
  · unfold diskSpec; row_values h
  · unfold memSpec; row_values h
  · unfold netlSpec; row_values h
  · unfold netuSpec; row_values h
  · unfold pagSpec; row_values h
  · unfold swpSpec; row_values h
  · unfold prcSpec; row_values h
  · unfold prdSpec; row_values h
  · unfold prgSpec; row_values h
  · unfold prmSpec; row_values h
  · unfold prnSpec; row_values h

theorem yields_mem {out : Rows} {n texts mk} (Y : Yields out n texts mk) {P : PRow → Prop}
    (h : ∀ i ss, (∀ s ∈ ss, Text s) → P (mk i ss)) {row : PRow} (hr : row ∈ out.rows) : P row := by
  obtain ⟨i, hi⟩ := List.getElem?_of_mem hr
  obtain ⟨ss, hd, rfl⟩ := Y.rows i row hi
  exact h i ss hd.1

theorem parser_rows_ok {hb rec sst : Bytes} {ts : List Bytes} (S : Sizes126 hb rec sst ts) {p : PyStr} {g : PArgs → Rows}
    (hp : Parser p g) {row : PRow} (hr : row ∈ (g (args126 hb rec sst ts)).rows) : rowOk row := by
  obtain ⟨n1, w1, -⟩ := leading_exists sst 16656 112 256
  obtain ⟨n2, w2, -⟩ := leading_exists sst 45328 112 128
  obtain ⟨n3, w3, -⟩ := leading_exists sst 59664 112 256
  obtain ⟨n4, w4, -⟩ := leading_exists sst 8448 256 32
  have ok := fun t i (ss : List PyStr) (h : ∀ s ∈ ss, Text s) => specs_ok hb rec sst t i h
  have nil : ∀ s ∈ ([] : List PyStr), Text s := fun s hs => nomatch hs
  cases hp with
  | cpu =>
    rw [C22_cpu S] at hr
    obtain ⟨i, -, rfl⟩ := List.mem_map.mp hr
    exact (ok [] i [] nil).1
  | CPL => rw [C25_CPL S] at hr; rw [List.mem_singleton.mp hr]; exact (ok [] 0 [] nil).2.1
  | CPU => rw [C25_CPU S] at hr; rw [List.mem_singleton.mp hr]; exact (ok [] 0 [] nil).2.2.1
  | MEM => rw [C25_MEM S] at hr; rw [List.mem_singleton.mp hr]; exact (ok [] 0 [] nil).2.2.2.2.1
  | NETU => rw [C25_NETU S] at hr; rw [List.mem_singleton.mp hr]; exact (ok [] 0 [] nil).2.2.2.2.2.2.1
  | PAG => rw [C25_PAG S] at hr; rw [List.mem_singleton.mp hr]; exact (ok [] 0 [] nil).2.2.2.2.2.2.2.1
  | SWP => rw [C25_SWP S] at hr; rw [List.mem_singleton.mp hr]; exact (ok [] 0 [] nil).2.2.2.2.2.2.2.2.1
  | DSK => exact yields_mem (C23_DSK S w1) (fun i ss h => (ok [] _ ss h).2.2.2.1) hr
  | MDD => exact yields_mem (C23_MDD S w2) (fun i ss h => (ok [] _ ss h).2.2.2.1) hr
  | LVM => exact yields_mem (C23_LVM S w3) (fun i ss h => (ok [] _ ss h).2.2.2.1) hr
  | NETL => exact yields_mem (C23_NETL S w4) (fun i ss h => (ok [] _ ss h).2.2.2.2.2.1) hr
  | PRC => exact yields_mem (C24_PRC S) (fun i ss h => (ok _ 0 ss h).2.2.2.2.2.2.2.2.2.1) hr
  | PRG => exact yields_mem (C24_PRG S) (fun i ss h => (ok _ 0 ss h).2.2.2.2.2.2.2.2.2.2.2.1) hr
  | PRM => exact yields_mem (C24_PRM S) (fun i ss h => (ok _ 0 ss h).2.2.2.2.2.2.2.2.2.2.2.2.1) hr
  | PRN => exact yields_mem (C24_PRN S) (fun i ss h => (ok _ 0 ss h).2.2.2.2.2.2.2.2.2.2.2.2.2) hr

theorem parseableRows_json {a : PArgs} (h : ∀ p g, Parser p g → ∀ row ∈ (g a).rows, rowOk row) : ∀ (ps : List PyStr) {vs},
    parseableRows a ps = .ok vs → ∀ v ∈ vs, Json Text v
  | [], vs, e, v, hv => by injection e with e; subst e; cases hv
  | p :: ps, vs, e, v, hv => by
    rw [parseableRows] at e
    cases hl : parseableMap.lookup p with
    | none => rw [hl] at e; cases e
    | some g =>
      rw [hl] at e
      dsimp only at e
      rcases hr : g a with ⟨rows, _ | x⟩
      · rw [hr] at e
        dsimp only at e
        rcases hrec : parseableRows a ps with x | ws
        · rw [hrec] at e; cases e
        · rw [hrec] at e
          injection e with e
          subst e
          rcases List.mem_append.mp hv with hv | hv
          · obtain ⟨row, hrow, rfl⟩ := List.mem_map.mp hv
            exact rowOk_json (h p g ((parser_lookup p g).mpr hl) row (by rw [hr]; exact hrow)) (parser_text ((parser_lookup p g).mpr hl))
          · exact parseableRows_json h ps hrec v hv
      · rw [hr] at e; cases e

theorem sampleRowsAll_json {o : Opts} {h : Header} {P : Sample → Prop} (hone : ∀ x, P x → ∀ vs, sampleRows o h x = .ok vs → ∀ v ∈ vs, Json Text v) :
    ∀ (xs : List Sample) {vs}, (∀ x ∈ xs, P x) → sampleRowsAll o h xs = .ok vs → ∀ v ∈ vs, Json Text v
  | [], vs, _, e, v, hv => by injection e with e; subst e; cases hv
  | x :: xs, vs, hx, e, v, hv => by
    rw [sampleRowsAll] at e
    cases h1 : sampleRows o h x with
    | error => rw [h1] at e; cases e
    | ok r =>
      rw [h1] at e
      dsimp only at e
      cases h2 : sampleRowsAll o h xs with
      | error => rw [h2] at e; cases e
      | ok rs =>
        rw [h2] at e
        injection e with e
        subst e
        rcases List.mem_append.mp hv with hv | hv
        · exact hone x (hx x (by simp)) r h1 v hv
        · exact sampleRowsAll_json hone xs (fun y hy => hx y (by simp [hy])) h2 v hv

theorem Json.mono {T U : PyStr → Prop} (h : ∀ s, T s → U s) {v : JVal} (j : Json T v) : Json U v := by
  induction j with
  | int i => exact .int i
  | float hb => exact .float hb
  | str hs => exact .str (h _ hs)
  | list _ ih => exact .list ih
  | dict hn hk _ ih => exact .dict hn (fun p hp => h _ (hk p hp)) ih

theorem number_text : ∀ n < 256, (pyStrNat n).all (fun c => decide (c < 128)) = true := by decide +kernel

theorem text_append {a b : PyStr} (ha : Text a) (hb : Text b) : Text (a ++ b) := fun c hc =>
  (List.mem_append.mp hc).elim (ha c) (hb c)

theorem unsupported_text {a b : Nat} (ha : a < 256) (hb : b < 256) : Text (unsupportedText (versionString (a, b))) :=
  text_append (text_append (ascii_text rfl) (text_append (text_append (ascii_text (number_text a ha)) (ascii_text rfl))
    (ascii_text (number_text b hb)))) (ascii_text rfl)

/-- **C42** Whatever the file contains, in every version and with every option: if `parse_file` gets as far as
printing, what it prints is a list of JSON values with distinct keys in every object, 32-bit floats and texts without
lone surrogates (save possibly the name of the file, which is the caller's). -/
theorem C42_json (Z : Zlib) (o : Opts) (file : PyStr) (s : Stream) {docs : List JVal}
    (h : (parseFile Z o file s).1 = .ok docs) : Json (fun t => Text t ∨ t = file) (.list docs) := by
  refine .list ?_
  rcases hg : getHeader true s with ⟨e | hd, s'⟩
  · rw [parseFile_refused hg] at h; cases h
  · obtain ⟨h1, R, A, -, hpl⟩ := getHeader_ok hg
    have hM := major_lt (first480 s.rest)
    have hm : hd.cls ∈ versions := by rw [h1]; exact classFor_mem _
    by_cases hv : o.parseables = [] ∨ (major (first480 s.rest) = 1 ∧ minor (first480 s.rest) = 26)
    · rw [parseFile_ok hg o file hv] at h
      have hgn : generateStatistics Z none false 86400 s = generateStatistics Z (some hd) false 86400 s' := by
        rw [generate_none, hg]
      unfold docOf at h
      cases hs : sampleRowsAll o hd (generateStatistics Z none false 86400 s).1 with
      | error e => rw [hs] at h; cases h
      | ok rows =>
        rw [hs] at h
        dsimp only at h
        cases hend : (generateStatistics Z none false 86400 s).2.1 with
        | raised e => rw [hend] at h; cases h
        | returned =>
          rw [hend] at h
          injection h with h
          subst h
          refine fun v hvr => Json.mono (fun _ h => .inl h) (sampleRowsAll_json
            (P := fun x => x ∈ (generateStatistics Z none false 86400 s).1) ?_ _ (fun _ h => h) hs v hvr)
          intro x hx vs hvs v hvm
          rw [hgn] at hx
          by_cases hp : o.parseables = []
          · obtain ⟨w, e1, -, j⟩ := fullRow_ok (o := o) hm (convertible false 86400 hg s' x hx)
            unfold sampleRows at hvs
            rw [hp, e1] at hvs
            injection hvs with hvs
            subst hvs
            rw [List.mem_singleton.mp hvm]; exact j
          · have hv' := hv.resolve_left hp
            rw [sampleRows_parse hp] at hvs
            refine parseableRows_json ?_ _ hvs v hvm
            intro p g hpg row hrow
            obtain ⟨⟨a1, a2⟩, ⟨b1, b2⟩, c, -⟩ := C38_completely_filled Z false 86400 hg s' x hx
            have hcls : hd.cls = V1_26.Header := by
              rw [h1]; unfold classFor; dsimp only; rw [hv'.1, hv'.2, show versionString (1, 26) = py!"1.26" by decide +kernel]; rfl
            have hbuf : hd.buf.length = 480 := by rw [h1]; exact first480_length _
            rw [hcls] at a1 a2 b1 b2 c
            have e : argsOf hd.inst x = args126 hd.buf x.record.buf x.sstat.buf (x.tstats.map Inst.buf) := by
              unfold argsOf args126 Header.inst Inst.obj
              rw [hcls, a1, b1, List.map_map]
              congr 1
              apply List.map_congr_left
              intro t ht
              rw [(c t ht).1]; rfl
            rw [e] at hrow
            obtain ⟨-, z2, z3, z4⟩ := sizes126
            refine parser_rows_ok ⟨hbuf, a2.trans z2, b2.trans z3, ?_⟩ hpg hrow
            intro t ht
            obtain ⟨t', ht', rfl⟩ := List.mem_map.mp ht
            exact (c t' ht').2.trans z4
    · have hc : hd.cache = some (major (first480 s.rest), minor (first480 s.rest)) := by rw [h1]
      unfold parseFile at h
      rw [bind_ok hg, bind_ok (show Rd.lift hd.semanticVersion s' = (.ok _, s') by rw [semantic_cached hc]; rfl), if_pos] at h
      · injection h with h
        subst h
        intro v hv
        rw [List.mem_singleton.mp hv]
        refine .dict (by show List.Nodup [py!"error", py!"file"]; decide) ?_ ?_
        · intro p hp
          simp only [List.mem_cons, List.not_mem_nil, or_false] at hp
          rcases hp with rfl | rfl <;> exact .inl (ascii_text rfl)
        · intro p hp
          simp only [List.mem_cons, List.not_mem_nil, or_false] at hp
          rcases hp with rfl | rfl
          · exact .str (.inl (unsupported_text (by omega) (minor_lt _)))
          · exact .str (.inr rfl)
      · have : parseableVersions.contains (versionString (major (first480 s.rest), minor (first480 s.rest))) ≠ true := fun h =>
          hv (.inr ((supported_iff (by omega) (minor_lt _)).mp h))
        simp only [Bool.not_eq_true] at this
        rw [this]
        simp [show o.parseables ≠ [] from fun h => hv (.inl h)]

/-! ## C30, C31 -/

/-- **C31** A path is opened as gzip exactly when ".gz" occurs somewhere in it, and what is printed for it depends
on nothing else in the file system than the stream opened that way. -/
theorem C31_opener (Z : Zlib) (fs : FileSystem) (o : Opts) (file : PyStr) :
    (py!".gz" <:+: file → parsePath Z fs o file = (fs file true).bind fun s => (parseFile Z o file s).1) ∧
    (¬ py!".gz" <:+: file → parsePath Z fs o file = (fs file false).bind fun s => (parseFile Z o file s).1) := by
  unfold parsePath usesGzip
  have h := pyContains_iff py!".gz" file
  constructor
  · intro hf; rw [h.mpr hf]; rfl
  · intro hf
    have : pyContains py!".gz" file = false := by rw [← Bool.not_eq_true, h]; exact hf
    rw [this]; rfl

example : py!".gz" <:+: py!"/var/log/atop.gz.old" ∧ ¬ py!".gz" <:+: py!"/var/log/atop_gz" := by decide +kernel

/-- **C30** The documents printed are those of a prefix of the files, in order; without an exception it is all of
them, otherwise the next file is the one that raised it. -/
theorem C30_prefix (Z : Zlib) (fs : FileSystem) (o : Opts) : ∀ (files : List PyStr),
    (runMain Z fs o files).1.length ≤ files.length ∧
    (∀ (i : Nat) f d, files[i]? = some f → (runMain Z fs o files).1[i]? = some d → parsePath Z fs o f = .ok d) ∧
    ((runMain Z fs o files).2 = none → (runMain Z fs o files).1.length = files.length) ∧
    (∀ e, (runMain Z fs o files).2 = some e →
      ∃ f, files[(runMain Z fs o files).1.length]? = some f ∧ parsePath Z fs o f = .error e)
  | [] => by simp [runMain]
  | f :: rest => by
    obtain ⟨h1, h2, h3, h4⟩ := C30_prefix Z fs o rest
    unfold runMain
    cases hp : parsePath Z fs o f with
    | error e =>
      refine ⟨by simp, by simp, by simp, ?_⟩
      intro e' he
      injection he with he
      subst he
      exact ⟨f, rfl, hp⟩
    | ok doc =>
      refine ⟨by simpa using h1, ?_, by simpa using h3, by simpa using h4⟩
      intro i g d hg hd
      cases i with
      | zero => simp at hg hd; rw [← hg, ← hd]; exact hp
      | succ i => simp at hg hd; exact h2 i g d hg hd

/-- **C30** A document depends only on its own file: two file systems that agree on the listed files (opened the same
way) give the same run. -/
theorem C30_only_own_files (Z : Zlib) (fs fs' : FileSystem) (o : Opts) (files : List PyStr)
    (h : ∀ f ∈ files, ∀ gz, fs f gz = fs' f gz) : runMain Z fs o files = runMain Z fs' o files := by
  induction files with
  | nil => rfl
  | cons f rest ih =>
    unfold runMain
    have : parsePath Z fs o f = parsePath Z fs' o f := by unfold parsePath; rw [h f (by simp)]
    rw [this, ih (fun g hg => h g (by simp [hg]))]

/-- **C30** Running over two lists of files one after the other is running over both lists. -/
theorem C30_append (Z : Zlib) (fs : FileSystem) (o : Opts) (xs ys : List PyStr) (h : (runMain Z fs o xs).2 = none) :
    runMain Z fs o (xs ++ ys) = ((runMain Z fs o xs).1 ++ (runMain Z fs o ys).1, (runMain Z fs o ys).2) := by
  induction xs with
  | nil => rfl
  | cons f rest ih =>
    rw [List.cons_append, runMain, runMain]
    rw [runMain] at h
    cases hp : parsePath Z fs o f with
    | error e => rw [hp] at h; cases h
    | ok doc =>
      rw [hp] at h
      dsimp only at h ⊢
      rw [ih h]; rfl

/-- A readable log, a missing file and another log: one document is printed, then the run ends with the error. -/
example (d : List JVal) (fs : FileSystem) (h1 : parsePath toyZ fs {} py!"a" = .ok d) (h2 : fs py!"b" false = .error .osError) :
    runMain toyZ fs {} [py!"a", py!"b", py!"c"] = ([d], some .osError) := by
  have hb : parsePath toyZ fs {} py!"b" = .error .osError := by
    rw [(C31_opener toyZ fs {} py!"b").2 (by decide +kernel), h2]; rfl
  simp only [runMain, h1, hb]

end Atop
