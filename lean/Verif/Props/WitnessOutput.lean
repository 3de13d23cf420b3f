import Verif.Props.Witness
import Verif.Props.Print
import Verif.Props.Dict
/-!
# Concrete cases, theorem by theorem: headers, dictionaries, documents, texts
-/

namespace Atop
open Spec

/-! ## Headers -/

/-- **C09** `C09_known_version_value_error`: a header of version 2.12 with a wrong task length. -/
example : ∃ e w, (getHeader true { data := (toyHeader newest).set 32 1 }).1 = .error e ∧ e = .valueError w := by
  obtain ⟨text, h⟩ : ∃ text, (getHeader true { data := (toyHeader newest).set 32 1 }).1 = .error (.valueError (.incompatible text)) :=
    (C09_rejection_kinds { data := (toyHeader newest).set 32 1 } (.inl rfl)).2.1.mpr (by decide +kernel)
  obtain ⟨w, hw⟩ := C09_known_version_value_error { data := (toyHeader newest).set 32 1 } (.inl rfl) (r := newest) (by decide +kernel) h
  exact ⟨_, w, h, hw⟩

/-- **C09** `C09_damaged_container`: a container that ends after 100 bytes of the header. -/
example : (getHeader true { data := (toyHeader newest).take 100, short := some .eofError }).1 = .error .eofError :=
  C09_damaged_container _ _ rfl (by decide +kernel) true

/-- **C11** `C11_dispatch`: every version; the class of the log is that of its row. -/
example (r : Row) (hr : r ∈ table) : ∃ h, (getHeader true (toyFile r)).1 = .ok h ∧ h.cls.supportedVersion = r.version ∧
    h.cls.TStat.size = r.tstat := by
  obtain ⟨h, c, -, -, -, hg, -, -, -⟩ := toy_open r hr
  have H := toyHeader_valid r hr
  have k := (C11_dispatch (toyFile r) (.inl rfl) true (by rw [hg])).2.2.1 r (by
    rw [toy_start r hr, H.major, H.minor]; exact rowFor_table r hr)
  exact ⟨h, by rw [hg], k.1, k.2.2.2.1⟩

/-- **C11** and a version that is not in the table: the newest structures. -/
example : ∃ h, (getHeader true { data := (toyHeader newest).set 4 200 }).1 = .ok h ∧ h.cls = V2_12.Header := by
  have A : Accepts (first480 (Stream.rest { data := (toyHeader newest).set 4 200 })) := by
    refine ⟨by decide +kernel, by decide +kernel, by decide +kernel⟩
  obtain ⟨h, hh⟩ := (C08_header_accepted_iff { data := (toyHeader newest).set 4 200 } (.inl rfl)).mpr A
  exact ⟨h, hh, (C11_dispatch { data := (toyHeader newest).set 4 200 } (.inl rfl) true hh).2.2.2 (by decide +kernel)⟩

/-! ## Dictionaries -/

/-- The memory of a 1.26 CPU structure: 3 cores announced. -/
def cpuMem : Bytes := [3, 0, 0, 0, 0, 0, 0, 0] ++ List.replicate 24 0 ++ [0, 0, 0x80, 0x3F] ++ List.replicate 7324 1

/-- **C17** `C17_limited`, `C17_every_list`: the list of cores has three entries. -/
example : V1_26.CPUStat ∈ classes ∧ cpuMem.length = V1_26.CPUStat.size ∧ (py!"cpu", py!"nrcpu") ∈ limitersOf V1_26.CPUStat ∧
    (py!"cpu", CType.array V1_26.PerCPU 64) ∈ fieldsOf V1_26.CPUStat ∧
    ∃ d vs, structToDict ⟨V1_26.CPUStat, cpuMem⟩ = .ok (.dict d) ∧ d.lookup py!"cpu" = some (.list vs) ∧ vs.length = 3 := by
  have hc : V1_26.CPUStat ∈ classes := by decide +kernel
  have hl : cpuMem.length = V1_26.CPUStat.size := by decide +kernel
  have hm : (py!"cpu", py!"nrcpu") ∈ limitersOf V1_26.CPUStat := by decide +kernel
  refine ⟨hc, hl, hm, by decide +kernel, ?_⟩
  obtain ⟨d, hd, -⟩ := C16_keys hc cpuMem
  obtain ⟨o, e, cap, c, vs, h1, h2, h3, h4, -⟩ := C17_limited hc hl hd hm
  have hp : place V1_26.CPUStat py!"nrcpu" = some (0, .int 8 true) := by decide +kernel
  have hk := ((C18_int hc hl hd hp (by decide)).2 3).mpr ⟨by unfold inRange; decide, by decide +kernel⟩
  rw [hk] at h2
  cases h2
  have hcap : place V1_26.CPUStat py!"cpu" = some (192, .array V1_26.PerCPU 64) := by decide +kernel
  rw [hcap] at h1
  cases h1
  exact ⟨d, vs, hd, h3, h4⟩

/-- **C16** `C16_nested`: the totals are converted as a structure of their own. -/
example : ∃ d v, structToDict ⟨V1_26.CPUStat, cpuMem⟩ = .ok (.dict d) ∧
    structToDict ⟨V1_26.PerCPU, slot cpuMem 80 V1_26.PerCPU⟩ = .ok v ∧ d.lookup py!"all" = some v := by
  have hc : V1_26.CPUStat ∈ classes := by decide +kernel
  obtain ⟨d, hd, -⟩ := C16_keys hc cpuMem
  obtain ⟨-, v, h1, h2⟩ := C16_nested hc cpuMem hd (n := py!"all") (o := 80) (ft := V1_26.PerCPU) (by decide +kernel) rfl
  exact ⟨d, v, hd, h1, h2⟩

/-- **C18** `C18_float`: the load average 1.0. -/
example : ∃ d, structToDict ⟨V1_26.CPUStat, cpuMem⟩ = .ok (.dict d) ∧ d.lookup py!"lavg1" = some (.float 0x3F800000) := by
  have hc : V1_26.CPUStat ∈ classes := by decide +kernel
  obtain ⟨d, hd, -⟩ := C16_keys hc cpuMem
  exact ⟨d, hd, (C18_float hc (by decide +kernel) hd (n := py!"lavg1") (o := 32) (by decide +kernel) (by decide) 0x3F800000).mpr
    ⟨by decide, by decide +kernel⟩⟩

/-- **C19** `C19_text`, `C19_round_trip`, `C19_sublist`: a node name with umlauts in a field filled to the end with junk. -/
example : ∃ d, structToDict ⟨Shared.UTSName, List.replicate 65 0 ++ (encodeText py!"hé" ++ 0 :: List.replicate 261 0xFF)⟩ = .ok (.dict d) ∧
    d.lookup py!"nodename" = some (.str py!"hé") := by
  have hc : Shared.UTSName ∈ classes := by decide +kernel
  obtain ⟨d, hd, -⟩ := C16_keys hc (List.replicate 65 0 ++ (encodeText py!"hé" ++ 0 :: List.replicate 261 0xFF))
  exact ⟨d, hd, C19_round_trip hc _ hd (n := py!"nodename") (o := 65) (k := 65) (by decide +kernel) (by decide) (by decide)
    (by decide) (.inr ⟨List.replicate 61 0xFF, by decide +kernel⟩)⟩

/-- **C19** `C19_char`: the state of a 1.26 task. -/
example : ∃ o d, place V1_26.TStat py!"gen" = some (0, V1_26.GEN) ∧ place V1_26.GEN py!"state" = some (o, .char) ∧
    structToDict ⟨V1_26.GEN, List.replicate V1_26.GEN.size 83⟩ = .ok (.dict d) ∧ d.lookup py!"state" = some (.str py!"S") := by
  have hc : V1_26.GEN ∈ classes := by decide +kernel
  obtain ⟨d, hd, -⟩ := C16_keys hc (List.replicate V1_26.GEN.size 83)
  have hp : place V1_26.GEN py!"state" = some (60, .char) := by decide +kernel
  obtain ⟨x, h1, h2⟩ := C19_char hc (by simp) hd hp (by decide)
  have : (List.replicate V1_26.GEN.size (83 : UInt8))[60]? = some 83 := by decide +kernel
  rw [this] at h1
  cases h1
  exact ⟨60, d, by decide +kernel, hp, hd, h2⟩

/-! ## Documents -/

theorem toy_rest (r : Row) : (toyFile r).rest = toyHeader r ++ body r (toyLog r) := by simp [Stream.rest, toyFile]

theorem path_only (Z : Zlib) (s : Stream) (o : Opts) :
    parsePath Z (fun f _ => if f = py!"a" then .ok s else .error .osError) o py!"a" = (parseFile Z o py!"a" s).1 := rfl

theorem path_plain (Z : Zlib) (s : Stream) (o : Opts) :
    parsePath Z (fun _ gz => if gz then .error .osError else .ok s) o py!"x" = (parseFile Z o py!"x" s).1 := rfl

theorem toy126 : row126 ∈ table := by decide

/-- **C28** `C28_written_log`, `C28_output`: two parseables of the 1.26 log. -/
example (file : PyStr) : (parseFile toyZ { parseables := [py!"CPU", py!"MEM"] } file (toyFile row126)).1 =
    .ok ((toyLog row126).flatMap fun w => [labelled py!"CPU" (cpuTotalSpec (toyHeader row126) w.record w.sstat),
      labelled py!"MEM" (memSpec (toyHeader row126) w.record w.sstat)]) := by
  have V := toyLog_valid row126 toy126
  have H := toyHeader_valid row126 toy126
  have S : ∀ w ∈ toyLog row126, Sizes126 (toyHeader row126) w.record w.sstat w.tstats := fun w hw =>
    ⟨H.length, (V w hw).record_len, (V w hw).sstat_len, (V w hw).tstat_len⟩
  rw [C28_written_log H V (by decide) (o := { parseables := [py!"CPU", py!"MEM"] }) (by simp) file (s := toyFile row126) (toy_rest row126) rfl
    (fun p w => if p = py!"CPU" then [cpuTotalSpec (toyHeader row126) w.record w.sstat] else [memSpec (toyHeader row126) w.record w.sstat])]
  · rfl
  · intro w hw p hp
    simp only [List.mem_cons, List.not_mem_nil, or_false] at hp
    rcases hp with rfl | rfl
    · exact ⟨_, .CPU, C25_CPU (S w hw)⟩
    · exact ⟨_, .MEM, C25_MEM (S w hw)⟩

/-- The 1.26 log, read. -/
theorem toy126_read : ∃ h c, headerByVersion row126.version = some c ∧ getHeader true (toyFile row126) = (.ok h, toyOpen row126) ∧
    major (first480 (toyFile row126).rest) = 1 ∧ minor (first480 (toyFile row126).rest) = 26 ∧
    generateStatistics toyZ none false 86400 (toyFile row126) =
      ([presented c (toySample row126), presented c (toySample row126), presented c (toySample row126)], .returned, toyEnd row126) := by
  obtain ⟨h, c, hc, -, -, hg, -, -, hs⟩ := toy_open row126 toy126
  have H := toyHeader_valid row126 toy126
  refine ⟨h, c, hc, hg, ?_, ?_, ?_⟩
  · rw [toy_start row126 toy126, H.major]
  · rw [toy_start row126 toy126, H.minor]
  · rw [C07_header_passed toyZ false 86400 hg, hs false 86400 (by decide)]

/-- **C28** `C28_failure`: a parseable that does not exist, after one that does. -/
example (file : PyStr) : (parseFile toyZ { parseables := [py!"CPU", py!"PRD"] } file (toyFile row126)).1 = .error .keyError := by
  obtain ⟨h, c, hc, hg, v1, v2, hs⟩ := toy126_read
  refine C28_failure toyZ file hg ⟨v1, v2⟩ (pre := []) (by rw [hs]; rfl) (ps := [py!"CPU"]) (p := py!"PRD") (qs := []) rfl nofun ?_
    (.inl ⟨fun g hg => (nomatch (parser_lookup _ g).mp hg), rfl⟩)
  intro q hq
  obtain rfl := List.mem_singleton.mp hq
  have hh : h = ⟨classFor (toyHeader row126), toyHeader row126, some (major (toyHeader row126), minor (toyHeader row126))⟩ := by
    obtain ⟨h', e', -, -, -, -, hg'⟩ := generate_valid toy126 (toyHeader_valid row126 toy126) toyZ true 0 (toy_rest row126)
    have e1 := Except.ok.inj (Prod.mk.inj (hg.symm.trans hg')).1
    exact e1.trans e'
  have hcls : classFor (toyHeader row126) = V1_26.Header := (Option.some.inj (valid_accepts toy126 (toyHeader_valid row126 toy126)).2.2.2).symm
  have hinst : h.inst = Header.inst ⟨V1_26.Header, toyHeader row126, none⟩ := by
    unfold Header.inst; rw [hh, hcls]
  have hcc : c = V1_26.Header := (Option.some.inj hc).symm
  rw [hinst, hcc, args_presented]
  exact ⟨_, _, .CPU, C25_CPU (sizes_valid (toyHeader_valid row126 toy126) (toySample_valid row126 toy126))⟩

/-- **C28** `C28_no_samples`: a 1.26 header and nothing else. -/
example (file : PyStr) : (parseFile toyZ { parseables := [py!"CPU"] } file { data := toyHeader row126 }).1 = .ok [] := by
  have H := toyHeader_valid row126 toy126
  have e : ({ data := toyHeader row126 } : Stream).rest = toyHeader row126 ++ body row126 [] := by simp [Stream.rest, body]
  have f : first480 ({ data := toyHeader row126 } : Stream).rest = toyHeader row126 := by decide +kernel
  obtain ⟨c, -, h1⟩ := C01_round_trip toy126 H (Z := toyZ) (ws := []) nofun false 86400 (by decide) e rfl
  obtain ⟨h, -, -, -, -, -, hg⟩ := generate_valid toy126 H toyZ true 0 e
  exact C28_no_samples toyZ (by simp) file hg ⟨by rw [f, H.major], by rw [f, H.minor]⟩ (by rw [h1]; rfl) (by rw [h1])

/-- **C29** `C29_refused`: not an atop file. -/
example (o : Opts) (file : PyStr) : ∃ text, (parseFile toyZ o file { data := [1, 2, 3] }).1 = .error (.valueError (.badMagic text)) := by
  obtain ⟨text, h⟩ := (C09_rejection_kinds { data := [1, 2, 3] } (.inl rfl)).1.mpr (by decide +kernel)
  exact ⟨text, C29_refused toyZ o file h⟩

/-- **C29** `C29_cut_log`: cut 100 bytes into the third sample. -/
example (r : Row) (hr : r ∈ table) (file : PyStr) : ∃ docs,
    (parseFile toyZ { showTstats := true } file
      { data := toyHeader r ++ (body r (toyLog r)).take (2 * ((toySample r).bytes r).length + 10) }).1 = .ok docs ∧ docs.length = 2 := by
  obtain ⟨c, docs, -, h1, h2, -⟩ := C29_cut_log hr (toyHeader_valid r hr) (toyLog_valid r hr) (by simp [toyLog])
    (2 * ((toySample r).bytes r).length + 10) (o := { showTstats := true }) rfl file
    (s := { data := toyHeader r ++ (body r (toyLog r)).take (2 * ((toySample r).bytes r).length + 10) }) rfl rfl
  refine ⟨docs, h1, h2.trans ?_⟩
  have hl : 10 < ((toySample r).bytes r).length := by
    have := (toyRecord_facts r hr).1
    have h32 : ∀ r ∈ table, 10 < r.record := by decide
    have := h32 r hr
    have e : (toySample r).record = toyRecord r := rfl
    simp only [WSample.bytes, List.length_append, e]
    omega
  simp only [toyLog, completeWithin]
  rw [if_pos (by omega), if_pos (by omega), if_neg (by omega)]
  rfl

/-- **C30** `C30_only_own_files`, `C30_append`: two file systems that differ in a file that is not named; a second
file behind a first one that was printed. -/
example (r : Row) (hr : r ∈ table) : ∃ d,
    runMain toyZ (fun f _ => if f = py!"a" then .ok (toyFile r) else .error .osError) {} [py!"a"] = ([d], none) ∧ d.length = 3 ∧
    runMain toyZ (fun _ _ => .ok (toyFile r)) {} [py!"a"] = ([d], none) ∧
    runMain toyZ (fun f _ => if f = py!"a" then .ok (toyFile r) else .error .osError) {} ([py!"a"] ++ [py!"b"]) = ([d], some .osError) := by
  obtain ⟨c, docs, -, h1, h2, -⟩ := C29_written_log hr (toyHeader_valid r hr) (toyLog_valid r hr) (by simp [toyLog])
    (o := {}) rfl py!"a" (s := toyFile r) (toy_rest r) rfl
  have hp : parsePath toyZ (fun f _ => if f = py!"a" then .ok (toyFile r) else .error .osError) {} py!"a" = .ok docs := (path_only toyZ (toyFile r) {}).trans h1
  have hm : runMain toyZ (fun f _ => if f = py!"a" then .ok (toyFile r) else .error .osError) {} [py!"a"] = ([docs], none) := by
    simp [runMain, hp]
  refine ⟨docs, hm, by rw [h2]; rfl, ?_, ?_⟩
  · rw [← hm]
    refine C30_only_own_files toyZ _ _ {} [py!"a"] ?_
    intro f hf gz
    obtain rfl := List.mem_singleton.mp hf
    rfl
  · rw [C30_append toyZ _ {} [py!"a"] [py!"b"] (by rw [hm]), hm]
    rfl

/-! ## Texts -/

/-- **C44**, **C45**: `C44_ascii`, `C44_one_line`, `C45_rfc` on the log of every version, with all options. -/
example (r : Row) (hr : r ∈ table) : ∃ docs t l, parsePath toyZ (oneFile (toyFile r).data) (optsOf none true true) py!"x" = .ok docs ∧
    docs.length = 3 ∧ parseFileText toyZ (oneFile (toyFile r).data) py!"x" none false true true = .ok t ∧ t = l ++ [10] ∧ 10 ∉ l ∧
    ((∃ a, JsonText false t a) ↔ AllFinite (.list docs)) := by
  obtain ⟨c, docs, -, h1, h2, -⟩ := C29_written_log hr (toyHeader_valid r hr) (toyLog_valid r hr) (by simp [toyLog])
    (o := optsOf none true true) rfl py!"x" (s := toyFile r) (toy_rest r) rfl
  have hp : parsePath toyZ (oneFile (toyFile r).data) (optsOf none true true) py!"x" = .ok docs := (path_oneFile toyZ _ _ _).trans h1
  obtain ⟨a, -, k⟩ := C43_printed hp
  obtain ⟨t, ht, -⟩ := k false
  obtain ⟨l, e1, e2, -⟩ := C44_one_line ht
  exact ⟨docs, t, l, hp, by rw [h2]; rfl, ht, e1, e2, C45_rfc hp ht⟩

/-- **C46** `C46_faithful`: the same log in two file systems, one of which has no gzip files. -/
example (r : Row) (hr : r ∈ table) : ∃ docs docs' t, docs.length = 3 ∧
    parsePath toyZ (oneFile (toyFile r).data) (optsOf none false false) py!"x" = .ok docs ∧
    parsePath toyZ (fun _ gz => if gz then .error .osError else .ok (toyFile r)) (optsOf none false false) py!"x" = .ok docs' ∧
    parseFileText toyZ (oneFile (toyFile r).data) py!"x" none true false false = .ok t ∧
    parseFileText toyZ (fun _ gz => if gz then .error .osError else .ok (toyFile r)) py!"x" none true false false = .ok t ∧
    Alike (.list docs) (.list docs') := by
  obtain ⟨c, docs, -, h1, h2, -⟩ := C29_written_log hr (toyHeader_valid r hr) (toyLog_valid r hr) (by simp [toyLog])
    (o := optsOf none false false) rfl py!"x" (s := toyFile r) (toy_rest r) rfl
  have hp : parsePath toyZ (oneFile (toyFile r).data) (optsOf none false false) py!"x" = .ok docs := (path_oneFile toyZ _ _ _).trans h1
  have hp' : parsePath toyZ (fun _ gz => if gz then .error .osError else .ok (toyFile r)) (optsOf none false false) py!"x" = .ok docs :=
    (path_plain toyZ (toyFile r) _).trans h1
  obtain ⟨a, -, k⟩ := C43_printed hp
  obtain ⟨t, ht, -⟩ := k true
  have ht' : parseFileText toyZ (fun _ gz => if gz then .error .osError else .ok (toyFile r)) py!"x" none true false false = .ok t := by
    rw [fileText_ok] at ht ⊢
    obtain ⟨d, u, e1, e2, e3⟩ := ht
    rw [hp] at e1
    cases e1
    exact ⟨docs, u, hp', e2, e3⟩
  exact ⟨docs, docs, t, by rw [h2]; rfl, hp, hp', ht, ht', C46_faithful (by unfold NoHigh; decide) (by unfold NoHigh; decide) hp hp' ht ht'⟩

end Atop
