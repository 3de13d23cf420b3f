import Verif.Props.Fed
/-!
# C80: what is printed for a file that is changed in any way while it is read
-/

namespace Atop
open Spec Prog

theorem fed_parseLoop (Z : Zlib) (o : Opts) (h0 h : Header) (v : Nat × Nat) : ∀ (k : Nat) (f : Fed),
    (Fed.parseLoop Z o h0 h v k f).1 = docOf o h0 (Fed.runLoop Z false h v k f).1 (Fed.runLoop Z false h v k f).2.1
  | 0, _ => rfl
  | k + 1, f => by
    unfold Fed.parseLoop Fed.runLoop
    rcases (readSampleP Z h v).fed f with ⟨(e | _ | x), f'⟩
    · dsimp only
      unfold afterError docOf
      cases endOf false e <;> rfl
    · rfl
    · dsimp only
      rw [docOf_cons, ← fed_parseLoop Z o h0 h v k f']
      cases sampleRows o h0 x with
      | error => rfl
      | ok =>
        dsimp only
        rcases Fed.parseLoop Z o h0 h v k f' with ⟨_ | _, _⟩ <;> rfl

/-- With an accepted header what is printed is the document of the samples yielded. -/
theorem fed_parseFile_ok (Z : Zlib) (gives : Nat → Bytes) {h : Header} (hg : (getHeader true { data := gives 0 }).1 = .ok h) (o : Opts)
    (file : PyStr) (hv : o.parseables = [] ∨ (major (first480 (gives 0)) = 1 ∧ minor (first480 (gives 0)) = 26)) :
    (Fed.parseFile Z o file { gives }).1 = docOf o h (Fed.generateStatistics Z none false 86400 { gives }).1
      (Fed.generateStatistics Z none false 86400 { gives }).2.1 := by
  obtain ⟨f', k1, -, -⟩ := fed_getHeader gives
  obtain ⟨h1, R, -, -, -⟩ := getHeader_ok (s := { data := gives 0 }) (s' := (getHeader true { data := gives 0 }).2) (Prod.ext hg rfl)
  have he : Stream.rest { data := gives 0 } = gives 0 := by simp [Stream.rest]
  rw [he] at h1 R
  have hM := major_lt (first480 (gives 0))
  have hc : h.cache = some (major (first480 (gives 0)), minor (first480 (gives 0))) := by rw [h1]
  have h256 : (major (first480 (gives 0)), minor (first480 (gives 0))).1 < 256 := by show major _ < 256; omega
  rw [fed_none, k1, hg]
  dsimp only
  rw [fed_generate_ready R hc h256 (minor_lt _)]
  unfold Fed.parseFile
  rw [k1, hg]
  dsimp only
  rw [semantic_cached hc, latched_cached hc, latched_cached hc]
  dsimp only
  rw [if_neg, parsedVersion_ready R h256 (minor_lt _)]
  · exact fed_parseLoop Z o h h _ _ f'
  · rcases hv with hv | hv
    · simp [hv]
    · rw [(supported_iff (by omega) (minor_lt _)).mpr hv]; simp

theorem convertible_found {c : HeaderClass} (hm : c ∈ versions) (f : Found) : Convertible (presented c f.written) := by
  obtain ⟨k1, k2, k3, k4⟩ := C39_classes_used hm
  refine ⟨k1, k2, fun t ht => ?_, fun g hg => ?_⟩
  · obtain ⟨b, -, rfl⟩ := List.mem_map.mp ht
    exact k3
  · unfold presented at hg
    dsimp only at hg
    cases hc : c.CStat with
    | none => rw [hc] at hg; cases hg
    | some t =>
      rw [hc] at hg
      obtain ⟨b, -, rfl⟩ := List.mem_map.mp hg
      exact ⟨k4 t hc, _, rfl⟩

/-! ## There is no container to break -/

theorem decodeSampleFrom_whole (Z : Bytes → Option Bytes) (r : Row) (cg : Bool) (gives : Nat → Bytes) (t : Nat) :
    decodeSampleFrom Z r cg gives t ≠ .error .container := by
  have U : ∀ n a, unpackFrom Z n a ≠ .error .container := by
    intro n a
    unfold unpackFrom
    split <;> nofun
  have T : ∀ L n d, decodeTasks L n d ≠ .error .container := by
    intro L n d
    unfold decodeTasks
    split <;> nofun
  intro h
  unfold decodeSampleFrom at h
  dsimp only at h
  split at h
  · cases h
  · split at h
    · rename_i hu; cases h; exact U _ _ hu
    · split at h
      · cases h
      · split at h
        · rename_i hu; cases h; exact U _ _ hu
        · split at h
          · rename_i hu; cases h; exact T _ _ _ hu
          · split at h
            · cases h
            · split at h
              · rename_i hu; cases h; exact U _ _ hu
              · split at h
                · rename_i hu; cases h; exact U _ _ hu
                · split at h
                  · rename_i hu; cases h; exact decodeChain_whole _ _ _ _ _ hu
                  · cases h

theorem decodeLogFrom_whole (Z : Bytes → Option Bytes) (r : Row) (cg : Bool) (gives : Nat → Bytes) : ∀ (n t : Nat),
    (decodeLogFrom Z r cg gives n t).2 ≠ some .container
  | 0, t => nofun
  | n + 1, t => by
    rw [decodeLogFrom]
    cases hd : decodeSampleFrom Z r cg gives t with
    | error e => intro h; cases h; exact decodeSampleFrom_whole Z r cg gives t hd
    | ok q =>
      cases q with
      | none => nofun
      | some q => exact decodeLogFrom_whole Z r cg gives n q.2

/-- **C80** Whatever is done to the file meanwhile, the iteration ends normally, with `zlib.error` - and only if
`raise_on_truncation` - or with `ValueError`; with nothing else. -/
theorem C80_endings (Z : Zlib) {s0 s1 : Stream} {h : Header} (hg : getHeader true s0 = (.ok h, s1)) (rot : Bool) (max : Int)
    (gives : Nat → Bytes) :
    (Fed.generateStatistics Z (some h) rot max { gives }).2.1 = .returned ∨
    (rot = true ∧ (Fed.generateStatistics Z (some h) rot max { gives }).2.1 = .raised .zlibError) ∨
    ∃ k, (Fed.generateStatistics Z (some h) rot max { gives }).2.1 = .raised (.valueError k) := by
  rw [(C80_decoder Z hg rot max gives rfl).2]
  have := decodeLogFrom_whole Z (usedRow (first480 s0.rest)) (readsCGroups (first480 s0.rest)) gives max.toNat 0
  cases ht : (decodeLogFrom Z (usedRow (first480 s0.rest)) (readsCGroups (first480 s0.rest)) gives max.toNat 0).2 with
  | none => exact .inl rfl
  | some t =>
    rw [ht] at this
    cases t with
    | zlib => cases rot <;> simp [troubleExc]
    | short => exact .inr (.inr ⟨_, by simp [troubleExc]; rfl⟩)
    | negative => exact .inr (.inr ⟨_, by simp [troubleExc]; rfl⟩)
    | container => exact absurd rfl this

/-- **C80** `parse_file` without parseables, whatever is done to the file meanwhile: the first answer decides about acceptance,
and the reference decoder about the rest: the entries show exactly the samples it finds in the answers of the reads, also when it
stopped at a block that does not decompress; other trouble leaves the call and there is no document. -/
theorem C80_printed (Z : Zlib) {o : Opts} (hp : o.parseables = []) (file : PyStr) (gives : Nat → Bytes)
    {hb : Bytes} (hhb : hb = first480 (gives 0)) {fs : List Found} {t : Option Trouble}
    (hd : decodeLogFrom Z (usedRow hb) (readsCGroups hb) gives 86400 1 = (fs, t)) :
    (¬ Accepts hb → ∃ e, (Fed.parseFile Z o file { gives }).1 = .error e ∧ ((∃ k, e = .valueError k) ∨ e = .attributeError) ∧
      (e = .attributeError ↔ u32 hb 0 = magic ∧ tooOld hb)) ∧
    (Accepts hb → (t = none ∨ t = some .zlib) → ∃ B docs, layoutOf (usedRow hb).version = some B ∧
      (Fed.parseFile Z o file { gives }).1 = .ok docs ∧ docs.length = fs.length ∧
      ∀ (i : Nat) f v, fs[i]? = some f → docs[i]? = some v → EntryShows B hb f.written o.showTstats o.showCstats v) ∧
    (Accepts hb → t ≠ none → t ≠ some .zlib → ∃ k, (Fed.parseFile Z o file { gives }).1 = .error (.valueError k)) := by
  have he : Stream.rest { data := gives 0 } = gives 0 := by simp [Stream.rest]
  have enough : (Stream.short { data := gives 0 } = none ∨ 480 ≤ (Stream.rest { data := gives 0 }).length) := .inl rfl
  constructor
  · intro hA
    cases hg : (getHeader true { data := gives 0 }).1 with
    | error e =>
      obtain ⟨-, -, k3, k4⟩ := C09_rejection_kinds { data := gives 0 } enough
      rw [hg, he, ← hhb] at k3
      rw [hg] at k4
      obtain ⟨f', k1, -, -⟩ := fed_getHeader gives
      refine ⟨e, by unfold Fed.parseFile; rw [k1, hg], ?_, ⟨fun h => k3.mp (by rw [h]), fun h => by injection k3.mpr h⟩⟩
      rcases k4 e rfl with ⟨_, rfl⟩ | ⟨_, rfl⟩ | rfl
      · exact .inl ⟨_, rfl⟩
      · exact .inl ⟨_, rfl⟩
      · exact .inr rfl
    | ok h => exact absurd ((C08_header_accepted_iff { data := gives 0 } enough).mp ⟨h, hg⟩) (by rw [he, ← hhb]; exact hA)
  by_cases hA : Accepts hb
  · obtain ⟨c, hc, hg⟩ := C08_header_result { data := gives 0 } enough (by rw [he, ← hhb]; exact hA)
    rw [he, ← hhb] at hc hg
    have hg := congrArg Prod.fst hg
    dsimp only at hg
    obtain ⟨d1, d2⟩ := C80_own_header Z false 86400 gives hg (fs := fs) (t := t) (by rw [← hhb]; exact hd)
    have F := (decodeLogFrom_fits (Z := Z) (r := usedRow hb) (cg := readsCGroups hb) (gives := gives) 86400 1).2
    rw [hd] at F
    have hm : c ∈ versions := by
      obtain ⟨h1, -⟩ := getHeader_ok (s := { data := gives 0 }) (s' := (getHeader true { data := gives 0 }).2) (Prod.ext hg rfl)
      have := congrArg Header.cls h1
      dsimp only at this
      rw [this]; exact classFor_mem _
    obtain ⟨vs, e1, e2, e3⟩ := sampleRowsAll_full hp (h := ⟨c, hb, some (major hb, minor hb)⟩)
      (P := fun x v => FullEntry (Header.inst ⟨c, hb, some (major hb, minor hb)⟩) o.showTstats o.showCstats x v)
      (Fed.generateStatistics Z none false 86400 { gives }).1 (by
        intro x hx
        rw [d1] at hx
        obtain ⟨f, -, rfl⟩ := List.mem_map.mp hx
        obtain ⟨v, a, b, -⟩ := fullRow_ok (o := o) (h := ⟨c, hb, some (major hb, minor hb)⟩) hm (convertible_found hm f)
        exact ⟨v, a, b⟩)
    rw [fed_parseFile_ok Z gives hg o file (.inl hp)]
    unfold docOf
    rw [e1, d2]
    dsimp only
    refine ⟨fun _ ht => ?_, fun _ t1 t2 => ?_⟩
    · obtain ⟨c', B, hc', hB, -⟩ := layout_facts (usedRow_mem hb)
      refine ⟨B, vs, hB, ?_, by rw [e2, d1, List.length_map], ?_⟩
      · rcases ht with rfl | rfl <;> rfl
      · intro i f v hf hv
        have F := F f (List.mem_of_getElem? hf)
        have hfe := e3 i (presented c f.written) v (by rw [d1, List.getElem?_map, hf]; rfl) hv
        refine entry_shows (usedRow_mem hb) hc hB (by rw [hhb]; exact first480_length _) F.record F.sstat F.tstats ?_ ?_ hfe
        · intro hn
          refine F.noGroups ?_
          cases hcg : readsCGroups hb with
          | false => rfl
          | true =>
            have := hA.2.2.2.2.2.2 hcg
            rw [hn] at this; cases this
        · intro g hgm n hn
          obtain ⟨g1, g2⟩ := F.groups g hgm
          rw [hn] at g1
          exact ⟨Nat.le_of_eq g1.symm, by omega⟩
    · have N := decodeLogFrom_whole Z (usedRow hb) (readsCGroups hb) gives 86400 1
      rw [hd] at N
      cases t with
      | none => exact absurd rfl t1
      | some t =>
        cases t with
        | zlib => exact absurd rfl t2
        | short => exact ⟨_, rfl⟩
        | negative => exact ⟨_, rfl⟩
        | container => exact absurd rfl N
  · exact ⟨fun h => absurd h hA, fun h => absurd h hA⟩

/-- **C80** With parseables, for a file of version 1.26, whatever is done to it meanwhile: the rows each parseable gives for
each sample found in the answers of the reads, in order. -/
theorem C80_parseables (Z : Zlib) {o : Opts} (hp : o.parseables ≠ []) (file : PyStr) (gives : Nat → Bytes)
    {hb : Bytes} (hhb : hb = first480 (gives 0)) (hA : Accepts hb) (hv : major hb = 1 ∧ minor hb = 26)
    {fs : List Found} {t : Option Trouble} (hd : decodeLogFrom Z row126 false gives 86400 1 = (fs, t))
    (rows : PyStr → Found → List PRow)
    (hrows : ∀ f ∈ fs, ∀ p ∈ o.parseables, Gives (args126 hb f.record f.sstat f.tstats) p (rows p f)) :
    ((t = none ∨ t = some .zlib) → (Fed.parseFile Z o file { gives }).1 =
      .ok (fs.flatMap fun f => o.parseables.flatMap fun p => (rows p f).map (labelled p))) ∧
    (t ≠ none → t ≠ some .zlib → ∃ k, (Fed.parseFile Z o file { gives }).1 = .error (.valueError k)) := by
  have he : Stream.rest { data := gives 0 } = gives 0 := by simp [Stream.rest]
  have hu : usedRow hb = row126 ∧ readsCGroups hb = false := by
    unfold usedRow readsCGroups
    rw [hv.1, hv.2]
    decide +kernel
  obtain ⟨c, hc, hg⟩ := C08_header_result { data := gives 0 } (.inl rfl) (by rw [he, ← hhb]; exact hA)
  rw [he, ← hhb] at hc hg
  have hg := congrArg Prod.fst hg
  dsimp only at hg
  rw [hu.1] at hc
  obtain rfl : c = V1_26.Header := (Option.some.inj hc).symm
  obtain ⟨d1, d2⟩ := C80_own_header Z false 86400 gives hg (fs := fs) (t := t) (by rw [← hhb, hu.1, hu.2]; exact hd)
  rw [fed_parseFile_ok Z gives hg o file (.inr (by rw [← hhb]; exact hv)), d1, d2]
  unfold docOf
  dsimp only
  have : ∀ (vs : List Found), (∀ w ∈ vs, w ∈ fs) → sampleRowsAll o ⟨V1_26.Header, hb, some (major hb, minor hb)⟩
      (vs.map fun f => presented V1_26.Header f.written) =
      .ok (vs.flatMap fun w => o.parseables.flatMap fun p => (rows p w).map (labelled p)) := by
    intro vs hvs
    induction vs with
    | nil => rfl
    | cons w vs ih =>
      have ha : argsOf (Header.inst ⟨V1_26.Header, hb, some (major hb, minor hb)⟩) (presented V1_26.Header w.written) =
        args126 hb w.record w.sstat w.tstats := args_presented hb w.written
      rw [List.map_cons, sampleRowsAll, sampleRows_parse hp, ha,
        parseableRows_ok (rows := fun p => rows p w) _ (hrows w (hvs w (by simp)))]
      dsimp only
      rw [ih (fun v hv => hvs v (by simp [hv]))]
      rfl
  rw [this fs (fun _ h => h)]
  dsimp only
  have N := decodeLogFrom_whole Z row126 false gives 86400 1
  rw [hd] at N
  refine ⟨?_, fun t1 t2 => ?_⟩
  · rintro (rfl | rfl) <;> rfl
  · cases t with
    | none => exact absurd rfl t1
    | some t =>
      cases t with
      | zlib => exact absurd rfl t2
      | short => exact ⟨_, rfl⟩
      | negative => exact ⟨_, rfl⟩
      | container => exact absurd rfl N

/-- **C80** With parseables, for a file whose first answer is the header of another version: one entry that says so, and nothing
more of the file is read. -/
theorem C80_unsupported (Z : Zlib) {o : Opts} (hp : o.parseables ≠ []) (file : PyStr) (gives : Nat → Bytes)
    {hb : Bytes} (hhb : hb = first480 (gives 0)) (hA : Accepts hb) (hv : ¬ (major hb = 1 ∧ minor hb = 26)) :
    (Fed.parseFile Z o file { gives }).1 = .ok [.dict [(py!"error", .str (unsupportedMessage (versionText (major hb) (minor hb)))),
      (py!"file", .str file)]] ∧
    (Fed.parseFile Z o file { gives }).2.reads = 1 := by
  have he : Stream.rest { data := gives 0 } = gives 0 := by simp [Stream.rest]
  obtain ⟨c, hc, hg⟩ := C08_header_result { data := gives 0 } (.inl rfl) (by rw [he, ← hhb]; exact hA)
  rw [he, ← hhb] at hc hg
  have hg := congrArg Prod.fst hg
  dsimp only at hg
  obtain ⟨f', k1, -, k3⟩ := fed_getHeader gives
  have hM := major_lt hb
  have : parseableVersions.contains (versionString (major hb, minor hb)) = false := by
    cases hb' : parseableVersions.contains (versionString (major hb, minor hb)) with
    | false => rfl
    | true => exact absurd ((supported_iff (by omega) (minor_lt _)).mp hb') hv
  unfold Fed.parseFile
  rw [k1, hg]
  dsimp only
  rw [semantic_cached rfl]
  dsimp only
  rw [if_pos (by rw [this]; cases h : o.parseables with | nil => exact absurd h hp | cons => rfl)]
  rw [versionText_eq]
  exact ⟨rfl, k3⟩

/-! ## The overwritten file -/

theorem replaced_start : toyHeader oldest = first480 (replaced 0) := by
  rw [← toy_start oldest (by decide)]
  rw [show replaced 0 = (toyFile oldest).rest from (List.drop_zero (l := (toyFile oldest).data)).symm]

theorem replaced_found : ∃ z : Bytes, z.length = 88368 ∧ decodeLogFrom oddZ oldest false replaced 86400 1 =
    ([⟨shortRecord 1700000000, z, [], []⟩, ⟨shortRecord 1800000000, z, [], []⟩], some .zlib) :=
  ⟨_, List.length_replicate, overwritten_decoded (g := replaced) (a := 1) fun i => by rw [Nat.add_comm]; rfl⟩

theorem short_length (time : Nat) : (shortRecord time).length = 80 := by simp [shortRecord, le, zeros]

theorem oldest_used : usedRow (toyHeader oldest) = oldest ∧ readsCGroups (toyHeader oldest) = false ∧ Accepts (toyHeader oldest) := by
  have hr : oldest ∈ table := by decide
  obtain ⟨u1, u2, u3, -⟩ := valid_accepts hr (toyHeader_valid oldest hr)
  exact ⟨u1, u2, u3⟩

/-- **C80** `C80_printed`: two entries, although the file ends in something that is no statistics. -/
example : ∃ docs, (Fed.parseFile oddZ {} py!"x" { gives := replaced }).1 = .ok docs ∧ docs.length = 2 := by
  obtain ⟨z, -, hz⟩ := replaced_found
  obtain ⟨u1, u2, u3⟩ := oldest_used
  obtain ⟨-, docs, -, e1, e2, -⟩ := (C80_printed oddZ (o := {}) rfl py!"x" replaced replaced_start (by rw [u1, u2]; exact hz)).2.1 u3 (.inr rfl)
  exact ⟨docs, e1, e2⟩

/-- **C80** `C80_endings`. -/
example {h : Header} (hg : getHeader true (toyFile oldest) = (.ok h, toyOpen oldest)) := C80_endings oddZ hg true 86400 overwritten

/-- **C80** `C80_parseables`: two rows. -/
example : ∃ docs, (Fed.parseFile oddZ { parseables := [py!"SWP"] } py!"x" { gives := replaced }).1 = .ok docs ∧ docs.length = 2 := by
  obtain ⟨z, hl, hz⟩ := replaced_found
  obtain ⟨u1, u2, u3⟩ := oldest_used
  have H := toyHeader_valid oldest (by decide)
  have := (C80_parseables oddZ (o := { parseables := [py!"SWP"] }) (by simp) py!"x" replaced replaced_start u3 ⟨H.major, H.minor⟩ hz
    (fun _ f => [swpSpec (toyHeader oldest) f.record f.sstat]) (by
      intro f hf p hp
      rw [List.mem_singleton] at hp
      subst hp
      refine ⟨_, .SWP, C25_SWP ?_⟩
      simp only [List.mem_cons, List.not_mem_nil, or_false] at hf
      rcases hf with rfl | rfl
      · exact ⟨H.length, short_length _, hl, nofun⟩
      · exact ⟨H.length, short_length _, hl, nofun⟩)).1 (.inr rfl)
  exact ⟨_, this, rfl⟩

/-- **C80** `C80_unsupported`: any other version, whatever follows the header. -/
example {r : Row} (hr : r ∈ table) (hv : ¬ (r.major = 1 ∧ r.minor = 26)) (g : Nat → Bytes) :=
  have H := toyHeader_valid r hr
  C80_unsupported toyZ (o := { parseables := [py!"SWP"] }) (by simp) py!"x" (fun t => if t = 0 then (toyFile r).rest else g t)
    (toy_start r hr).symm (valid_accepts hr H).2.2.1 (by rw [H.major, H.minor]; exact hv)

end Atop
