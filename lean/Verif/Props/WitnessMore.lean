import Verif.Props.WitnessOutput
import Verif.Props.Parseables
import Verif.Props.Wanted
import Verif.Props.Decode
import Verif.Props.Damage
import Verif.Props.Options
import Verif.Props.Unchecked
import Verif.Props.Growing
import Verif.Props.Gzip
import Verif.Props.Repr
import Verif.Props.Zlib
import Verif.Props.Live
import Verif.Props.Messages
import Verif.Props.Protocol
import Verif.Props.Schema
import Verif.Props.Visible
import Verif.Props.Cli
/-!
# Concrete cases, theorem by theorem: parseables, decoders, compressed files, command lines

An example whose conclusion is long leaves it to be inferred: what it shows is that the hypotheses are met.
-/

namespace Atop
open Spec

/-! ## The structures -/

/-- **C39** `C39_elements`: the 64 cores of a 1.26 sample. -/
example (mem : Bytes) : ∃ items, getItems (Inst.obj ⟨V1_26.CPUStat, mem⟩) [py!"cpu"] = .ok items ∧ items.length = 64 := by
  obtain ⟨items, h1, h2, -⟩ := C39_elements (t := V1_26.CPUStat) (by decide +kernel) (n := py!"cpu") (o := 192) (k := 64)
    (e := V1_26.PerCPU) (by decide +kernel) (by decide +kernel) mem 5 (by decide)
  exact ⟨items, h1, h2⟩

/-- **C40** `C40_limiters`: the interfaces of a 2.12 sample are limited by `nrintf`. -/
example : (py!"intf", py!"nrintf") ∈ limitersOf V1_26.IntfStat ∧ ∃ o w s, place V1_26.IntfStat py!"nrintf" = some (o, .int w s) := by
  have hm : (py!"intf", py!"nrintf") ∈ limitersOf V1_26.IntfStat := by decide +kernel
  obtain ⟨-, o, w, s, h, -⟩ := C40_limiters (t := V1_26.IntfStat) (by decide +kernel) hm
  exact ⟨hm, o, w, s, h⟩

/-- **C21** `C21_visible`, **C41** `C41_determined`: two records that differ in padding only, and their interval. -/
example : structToDict ⟨V1_26.Record, List.replicate 80 7⟩ = structToDict ⟨V1_26.Record, (List.replicate 80 7).set 12 9⟩ ∧
    (List.replicate 80 7 : Bytes)[24 + 1]? = ((List.replicate 80 7 : Bytes).set 12 9)[24 + 1]? := by
  have ht : V1_26.Record ∈ classes := by decide +kernel
  have e := (C21_hidden ht (mem := List.replicate 80 7) (by decide +kernel) (i := 12)
    (.future (n := py!"sfuture") (o := 10) (ft := .array c_ushort 3) (by decide +kernel) (by decide +kernel) (by decide)
    (by decide +kernel)) 9).symm
  exact ⟨e, C41_determined ht (by decide +kernel) (by decide +kernel) e
    (.field (n := py!"interval") (ft := c_uint) (by decide +kernel) rfl (by decide +kernel) (.int (by decide)))⟩

/-! ## Headers -/

/-- **C10** `C10_top_bit`: versions 2.10 and 130.10 are the same version to both classes. -/
example : (Header.mk V2_10.Header [0, 0, 0, 0, 10, 2] none).version = (Header.mk V2_12.Header [0, 0, 0, 0, 10, 130] none).version :=
  C10_top_bit _ _ (by simp [versions]) (by simp [versions]) _ _ (by decide +kernel)

/-- **C33** `C33_latched`, **C13** `C13_count_attribute`: a header read from the log (`toy_open` gives it). -/
example {r : Row} {h : Header} (hg : getHeader true (toyFile r) = (.ok h, toyOpen r)) (b : Bytes) :=
  And.intro (C33_latched hg b) (C13_count_attribute hg b)

/-- **C50** `C50_magic_recoverable`: an empty file and one with two zero bytes have the same message. -/
example : ∃ text, (getHeader true { data := [] }).1 = .error (.valueError (.badMagic text)) ∧
    (getHeader false { data := [0, 0] }).1 = .error (.valueError (.badMagic text)) ∧
    u32 (first480 (Stream.rest { data := [] })) 0 = u32 (first480 (Stream.rest { data := [0, 0] })) 0 := by
  have h1 := (C50_wrong_magic { data := [] } (.inl rfl) true _).mpr ⟨by decide +kernel, py!"0",
    ⟨by decide, by decide +kernel, by decide, by decide +kernel⟩, rfl⟩
  have h2 := (C50_wrong_magic { data := [0, 0] } (.inl rfl) false _).mpr ⟨by decide +kernel, py!"0",
    ⟨by decide, by decide +kernel, by decide, by decide +kernel⟩, rfl⟩
  exact ⟨_, h1, h2, C50_magic_recoverable _ _ (.inl rfl) (.inl rfl) true false _ h1 h2⟩

/-! ## Task and cgroup lists -/

/-- **C14** `C14_entry_bytes`, `C14_pid_partition`: the second cgroup of a written sample; the pids are handed out in full. -/
example : (∃ c, (toyGroups.map fun g => g.entry.take 432)[1]? = some c ∧
      c = ((toyGroups.map WGroup.entry).flatten.drop (sumOf 0 (toyGroups.map fun g => g.entry.take 432) 1).toNat).take 432) ∧
    (toyGroups.map WGroup.pids).flatten = (toyGroups.map WGroup.pids).flatten.take
      (4 * (sumOf 16 (toyGroups.map fun g => g.entry.take 432) 2).toNat) := by
  refine ⟨⟨_, rfl, C14_entry_bytes toyWalk (k := 1) rfl (by decide +kernel)⟩, ?_⟩
  exact (C14_pid_partition toyWalk).1

/-! ## The parseables -/

/-- A 1.26 system sample in which every name is used and every counter is not zero. -/
def fullSst : Bytes := List.replicate 88368 7

theorem fullSizes : Sizes126 (List.replicate 480 0) (List.replicate 80 0) fullSst [exTask, exTask] :=
  ⟨exSizes.1, exSizes.2, List.length_replicate, exSizes.4⟩

theorem fullLeading {base w cap : Nat} (h : base + cap * w ≤ 88368) (hw : 0 < w) : Leading fullSst base w cap cap := by
  refine ⟨Nat.le_refl _, fun i hi => ?_, .inl rfl⟩
  have : base + i * w < 88368 := Nat.lt_of_lt_of_le (Nat.add_lt_add_left ((Nat.mul_lt_mul_right hw).mpr hi) _) h
  unfold u8 fullSst
  rw [List.getD_eq_getElem?_getD, List.getElem?_replicate_of_lt this]
  decide

/-- **C23** `C23_DSK`, `C23_LVM`, `C23_MDD`, `C23_NETL`: every slot of every table is in use. -/
example := C23_DSK fullSizes (fullLeading (by decide) (by decide))
example := C23_LVM fullSizes (fullLeading (by decide) (by decide))
example := C23_MDD fullSizes (fullLeading (by decide) (by decide))
example := C23_NETL fullSizes (fullLeading (by decide) (by decide))

/-- **C24** `C24_PRC`, `C24_PRD`, `C24_PRM`, `C24_PRN`, `C24_PRG`: two tasks called "é". -/
example := C24_PRC exSizes
example := C24_PRD exSizes
example := C24_PRM exSizes
example := C24_PRN exSizes
example := C24_PRG exSizes

/-- **C25** `C25_CPL`, `C25_CPU`, `C25_MEM`, `C25_NETU`, `C25_PAG`, `C25_SWP` on a sample without zeros. -/
example := C25_CPL fullSizes
example := C25_CPU fullSizes
example := C25_MEM fullSizes
example := C25_NETU fullSizes
example := C25_PAG fullSizes
example := C25_SWP fullSizes

/-- **C26** `C26_raises_iff`: the sample with a disk whose name is the byte 0xFF: the first disk is shown, the second fails. -/
example : (parse_DSK (args126 (List.replicate 480 0) (List.replicate 80 0) exSst [exTask, exTask])).err = some .unicodeDecodeError ∧
    (parse_DSK (args126 (List.replicate 480 0) (List.replicate 80 0) exSst [exTask, exTask])).rows.length = 1 := by
  obtain ⟨n, texts, hw, h⟩ := C26_raises_iff exSizes (p := py!"DSK") (f := parse_DSK) (by rw [allParseables]; simp [parseableMap])
  have hf : field exSst (16656 + 1 * 112) 32 = [0xFF] := by decide +kernel
  have bad : ¬ ∃ ss, Decoded [field exSst (16656 + 1 * 112) 32] ss := by
    rintro ⟨ss, h1, h2⟩
    rw [hf] at h2
    cases ss with
    | nil => cases h2
    | cons x ss =>
      simp only [List.map_cons, List.cons.injEq] at h2
      have := decodeStrict_encodeText x (h1 x (by simp))
      rw [h2.1] at this
      cases this
  have good : ∃ ss, Decoded [field exSst (16656 + 0 * 112) 32] ss := ⟨[py!"sda"], by decide, by decide +kernel⟩
  have two : n = 2 ∧ texts = fun i => [field exSst (16656 + i * 112) 32] := by
    cases hw with
    | single hm => exact absurd hm (by decide)
    | task hm => exact absurd hm (by decide)
    | dsk hl =>
      refine ⟨?_, rfl⟩
      obtain ⟨-, a, b⟩ := hl
      have z : u8 exSst (16656 + 2 * 112) = 0 := by decide +kernel
      have o0 : u8 exSst (16656 + 0 * 112) ≠ 0 := by decide +kernel
      have o1 : u8 exSst (16656 + 1 * 112) ≠ 0 := by decide +kernel
      have : ¬ 2 < n := fun hn => a 2 hn z
      rcases b with b | b
      · omega
      · have h0 : n ≠ 0 := by rintro rfl; exact o0 b
        have h1 : n ≠ 1 := by rintro rfl; exact o1 b
        omega
  obtain ⟨rfl, rfl⟩ := two
  rcases h with ⟨-, -, h⟩ | ⟨k, hk, h1, h2, h3, h4⟩
  · exact absurd (h 1 (by omega)) bad
  · have : k = 1 := by
      have : k ≠ 0 := by rintro rfl; exact h4 good
      omega
    subst this
    exact ⟨h1, h2⟩

/-! ## The decoders -/

/-- **C53** `C53_decoder`: the log of any version (`toy_open` gives the header). -/
example {r : Row} (hr : r ∈ table) {h : Header} (hg : getHeader true (toyFile r) = (.ok h, toyOpen r)) :
    (generateStatistics toyZ (some h) true 5 (toyOpen r)).1 = ((toyLog r).map (foundOf r)).map (fun f => presented h.cls f.written) := by
  have H := toyHeader_valid r hr
  obtain ⟨u1, u2, u3, -⟩ := valid_accepts hr H
  obtain ⟨-, -, -, -, -, -, hrest, -, -⟩ := toy_open r hr
  refine (C53_decoder toyZ hg true 5 (toyOpen r) (fs := (toyLog r).map (foundOf r)) (t := none) ?_).1
  rw [toy_start r hr, u1, u2, hrest]
  exact C53_written hr (toyLog_valid r hr) (by simp [toyLog])

/-- The hypothesis of the theorems about whole files, met by the log of any version. -/
theorem decoded_start {r : Row} (hr : r ∈ table) {hb bd : Bytes} (H : ValidHeader r hb) {s : Stream} (hs : s.rest = hb ++ bd) :
    usedRow hb = r ∧ readsCGroups hb = r.cstat.isSome ∧ s.rest.drop 480 = bd := by
  obtain ⟨u1, u2, -, -⟩ := valid_accepts hr H
  exact ⟨u1, u2, by rw [hs, List.drop_left' H.length]⟩

theorem toy_decoded {r : Row} (hr : r ∈ table) : toyHeader r = first480 (toyFile r).rest ∧
    decodeLog toyZ (usedRow (toyHeader r)) (readsCGroups (toyHeader r)) true 86400 ((toyFile r).rest.drop 480) = ((toyLog r).map (foundOf r), none) := by
  refine ⟨(toy_start r hr).symm, ?_⟩
  obtain ⟨u1, u2, u3⟩ := decoded_start hr (toyHeader_valid r hr) (toy_rest r)
  rw [u1, u2, u3]
  exact C53_written hr (toyLog_valid r hr) (Nat.le_of_ble_eq_true rfl)

/-- **C54** `C54_any_stream`, `C54_any_file`, `C54_program`: the log of any version. -/
example {r : Row} (hr : r ∈ table) (file : PyStr) := C54_any_stream toyZ (o := {}) rfl file (s := toyFile r) (toy_decoded hr).1 (toy_decoded hr).2
example {r : Row} (hr : r ∈ table) (file : PyStr) := C54_any_file toyZ (o := {}) rfl file (s := toyFile r) rfl (toy_decoded hr).1 (toy_decoded hr).2

theorem program_prints (U : Nat → Bool) {Z : Zlib} {fs : FileSystem} {file : PyStr} {s : Stream} (hf : fs file (usesGzip file) = .ok s)
    (plain : s.short = none) (hdash : file.head? ≠ some 45) (ts cs pretty : Bool) {hb : Bytes} (hhb : hb = first480 s.rest) (hA : Accepts hb)
    {found : List Found} (hd : decodeLog Z (usedRow hb) (readsCGroups hb) true 86400 (s.rest.drop 480) = (found, none)) :
    ∃ docs a text, docs.length = found.length ∧ Says (.list docs) a ∧ program U Z fs ((if pretty then [py!"-p"] else []) ++
      (if ts then [py!"--tstats"] else []) ++ (if cs then [py!"--cstats"] else []) ++ [file]) = (text, .done) ∧ JsonText true text a := by
  have k := C54_program U Z hf plain hdash ts cs pretty hhb hd rfl
  rw [if_pos ⟨hA, .inl rfl⟩] at k
  obtain ⟨B, docs, a, text, -, h1, -, h2, h3, h4, -⟩ := k
  exact ⟨docs, a, text, h1, h2, h3, h4⟩

example {r : Row} (hr : r ∈ table) (U : Nat → Bool) (ts cs pretty : Bool) := program_prints U (fs := fun _ _ => .ok (toyFile r)) (file := py!"x")
  rfl rfl (by decide) ts cs pretty (toy_decoded hr).1 (valid_accepts hr (toyHeader_valid r hr)).2.2.1 (toy_decoded hr).2

/-- **C54** and a file that breaks off inside its header in a damaged container. -/
example : (parseFile toyZ {} py!"x" { data := [1, 2, 3], short := some .eofError }).1 = .error .eofError :=
  (C54_any_stream toyZ (o := {}) rfl py!"x" (s := { data := [1, 2, 3], short := some .eofError }) rfl rfl).1 _ rfl (by decide)

/-- **C56** `C56_any_stream`, `C56_any_file`, `C56_program`: two parseables of any log; of the 1.26 log, with what follows. -/
example {r : Row} (hr : r ∈ table) (file : PyStr) := C56_any_stream toyZ (o := ⟨[py!"CPU", py!"PRC"], false, false⟩) (by simp) (by decide) file
  (s := toyFile r) (toy_decoded hr).1 (toy_decoded hr).2
example {r : Row} (hr : r ∈ table) (file : PyStr) := C56_any_file toyZ (o := ⟨[py!"CPU", py!"PRC"], false, false⟩) (by simp) (by decide) file
  (s := toyFile r) rfl (toy_decoded hr).1 (toy_decoded hr).2 (valid_accepts hr (toyHeader_valid r hr)).2.2.1
example (U : Nat → Bool) (ts cs pretty : Bool) := C56_program U toyZ (fs := fun _ _ => .ok (toyFile row126)) (file := py!"x")
  (s := toyFile row126) rfl rfl (by decide) ts cs pretty (names := [py!"CPU", py!"PRC"]) (by simp) (by decide)
  (toy_decoded (by decide)).1 (valid_accepts (by decide) (toyHeader_valid row126 (by decide))).2.2.1
  ⟨(toyHeader_valid row126 (by decide)).major, (toyHeader_valid row126 (by decide)).minor⟩ (toy_decoded (by decide)).2 rfl

/-- **C55** `C55_unchecked`, `C55_checked`: headers returned with and without the check; the one without exists for every file that
begins with the number of atop. -/
example {r : Row} (hr : r ∈ table) {h h' : Header} {s1 s2 : Stream} (hg : getHeader true (toyFile r) = (.ok h, s1))
    (hu : getHeader false (toyFile r) = (.ok h', s2)) (s : Stream) {fs : List Found} {t : Option Trouble}
    (hd : decodeLogIn toyZ (usedRow (toyHeader r)) (u32 (toyHeader r) 32) (i32 (toyHeader r) 456) (readsCGroups (toyHeader r)) s.short.isNone 5 s.rest = (fs, t)) :=
  And.intro (C55_checked toyZ hg hu true 5 s)
    (C55_unchecked toyZ hu (toy_start r hr).symm (valid_accepts hr (toyHeader_valid r hr)).2.2.1.2.1 true 5 s hd)

example {r : Row} (hr : r ∈ table) : ∃ h, (getHeader false (toyFile r)).1 = .ok h := by
  obtain ⟨h, hh, -⟩ := (C09_unchecked (toyFile r) (.inl rfl)).2 (by rw [toy_start r hr]; exact (valid_accepts hr (toyHeader_valid r hr)).2.2.1.1)
  exact ⟨h, hh⟩

theorem fst_pair {α β : Type} {p : α × β} {a : α} (h : p.1 = a) : p = (a, p.2) := by rw [← h]

/-- **C55** `C55_too_old`: a header of version 1.20 that was returned without the check. -/
example : ∃ h s1, getHeader false { data := toyHeader { newest with major := 1, minor := 20 } } = (.ok h, s1) ∧
    ∀ s rot, (generateStatistics toyZ (some h) rot 5 s).1 = [] := by
  obtain ⟨h, hh, -⟩ := (C09_unchecked { data := toyHeader { newest with major := 1, minor := 20 } } (.inl rfl)).2 (by decide +kernel)
  exact ⟨h, _, fst_pair hh, fun s rot => (C55_too_old toyZ (fst_pair hh) rfl (by decide +kernel) rot 5 s).1⟩

/-! ## The formats -/

theorem zLog_valid (r : Row) (hr : r ∈ table) : ∀ w ∈ [zSample r, zSample r], w.Valid Deflate.decompress r := by
  intro w hw
  simp only [List.mem_cons, List.not_mem_nil, or_false, or_self] at hw
  rw [hw]; exact zSample_valid r hr

/-- **C57** `C57_round_trip`: two samples compressed as zlib streams. -/
example (r : Row) (hr : r ∈ table) (rot : Bool) := C57_round_trip hr (toyHeader_valid r hr) (zLog_valid r hr) rot 9 (by simp)
  (s := { data := toyHeader r ++ body r [zSample r, zSample r] }) (by simp [Stream.rest]) rfl

/-- **C57** `C57_growing_log`, **C59** `C59_zlib_format`: the header and one sample, then the second. -/
example (r : Row) (hr : r ∈ table) (rot rot' : Bool) := C57_growing_log rot rot' 9 (s := { data := toyHeader r ++ body r [zSample r] })
  (t := { data := (toyHeader r ++ body r [zSample r]) ++ body r [zSample r] }) (toyHeader r ++ body r [zSample r]) (body r [zSample r])
  (by simp [Stream.rest]) (by simp [Stream.rest]) (by rw [List.length_append, (toyHeader_valid r hr).length]; exact Nat.le_add_right _ _) rfl rfl

theorem zlib_docs {o : Opts} {file : PyStr} {s t : Stream} (old new : Bytes) (hs : s.rest = old) (ht : t.rest = old ++ new)
    (hl : 480 ≤ old.length) (ps : s.short = none) (pt : t.short = none) {docs docs' : List JVal}
    (h : (parseFile Deflate.decompress o file s).1 = .ok docs) (h' : (parseFile Deflate.decompress o file t).1 = .ok docs') : docs <+: docs' := by
  have k := C59_zlib_format o file old new hs ht hl ps pt
  rw [h] at k
  exact k docs' h'

example (r : Row) (hr : r ∈ table) : ∃ docs docs', (parseFile Deflate.decompress {} py!"x" { data := toyHeader r ++ body r [zSample r] }).1 = .ok docs ∧
    (parseFile Deflate.decompress {} py!"x" { data := (toyHeader r ++ body r [zSample r]) ++ body r [zSample r] }).1 = .ok docs' ∧
    docs.length = 1 ∧ docs'.length = 2 ∧ docs <+: docs' := by
  have H := toyHeader_valid r hr
  obtain ⟨_, docs, -, h1, h2, -⟩ := C29_written_log hr H (Z := Deflate.decompress) (ws := [zSample r])
    (fun w hw => zLog_valid r hr w (by simp at hw; simp [hw])) (Nat.le_of_ble_eq_true rfl)
    (o := {}) rfl py!"x" (s := { data := toyHeader r ++ body r [zSample r] }) (by simp [Stream.rest]) rfl
  obtain ⟨_, docs', -, h1', h2', -⟩ := C29_written_log hr H (zLog_valid r hr) (Nat.le_of_ble_eq_true rfl)
    (o := {}) rfl py!"x" (s := { data := (toyHeader r ++ body r [zSample r]) ++ body r [zSample r] }) (by simp [Stream.rest, body]) rfl
  exact ⟨docs, docs', h1, h1', h2, h2', zlib_docs (toyHeader r ++ body r [zSample r]) (body r [zSample r]) (by simp [Stream.rest]) (by simp [Stream.rest])
    (by rw [List.length_append, H.length]; exact Nat.le_add_right _ _) rfl rfl h1 h1'⟩

/-- **C59** `C59_rerun`, **C36** `C36_growing_log_own_header` with the decompressor of the examples. -/

theorem rerun_docs {Z : Zlib} (S : Streaming Z) {o : Opts} {file : PyStr} {s t : Stream} (old new : Bytes) (hs : s.rest = old) (ht : t.rest = old ++ new)
    (hl : 480 ≤ old.length) (ps : s.short = none) (pt : t.short = none) {docs docs' : List JVal}
    (h : (parseFile Z o file s).1 = .ok docs) (h' : (parseFile Z o file t).1 = .ok docs') : docs <+: docs' := by
  have k := C59_rerun S o file old new hs ht hl ps pt
  rw [h] at k
  exact k docs' h'

example (r : Row) (hr : r ∈ table) {o : Opts} (new : Bytes) {docs docs' : List JVal} :=
  rerun_docs ⟨toyZ_nil, toyZ_append⟩ (o := o) (file := py!"x") (s := toyFile r) (docs := docs) (docs' := docs')
  (t := { data := (toyHeader r ++ body r (toyLog r)) ++ new }) (toyHeader r ++ body r (toyLog r)) new (toy_rest r)
  (by simp [Stream.rest]) (by rw [List.length_append, (toyHeader_valid r hr).length]; exact Nat.le_add_right _ _) rfl rfl
example (r : Row) (hr : r ∈ table) (new : Bytes) := C36_growing_log_own_header toyZ toyZ_nil toyZ_append true false 9 (s := toyFile r)
  (t := { data := (toyHeader r ++ body r (toyLog r)) ++ new }) (toyHeader r ++ body r (toyLog r)) new (toy_rest r)
  (by simp [Stream.rest]) (by rw [List.length_append, (toyHeader_valid r hr).length]; exact Nat.le_add_right _ _) rfl rfl

/-- **C57** `C57_bounded_by_size`. -/
example {r : Row} {h : Header} (hg : getHeader true (toyFile r) = (.ok h, toyOpen r)) (s : Stream) := C57_bounded_by_size hg true 9 s

/-- **C60** `C60_intact`, `C60_round_trip`: the log of any version in a gzip file. -/
example (r : Row) (o : Opts) {s : Stream} (O : Gzip.Opens (Gzip.store (toyHeader r ++ body r (toyLog r))) s) :=
  C60_intact toyZ o (fs := fun _ _ => .ok s) (file := py!"x.gz") (by decide) rfl O (Gzip.gunzip_single (Gzip.member_store _))
example (r : Row) (hr : r ∈ table) {s : Stream} (O : Gzip.Opens (Gzip.store (toyHeader r ++ body r (toyLog r))) s) :=
  C60_round_trip hr (toyHeader_valid r hr) (toyLog_valid r hr) true 9 (by simp [toyLog]) (Gzip.gunzip_single (Gzip.member_store _)) O

/-- **C60** `C60_cut_any`: "hi" in a gzip file and what is left of it. -/
example (hd : Option Header) {s t : Stream} (O : Gzip.Opens (hiGz.take 21) s) (T : Gzip.Opens hiGz t) :=
  C60_cut_any toyZ true hd 9 (raw := hiGz) (c := [104, 105]) (by decide +kernel) 21 O T (by decide +kernel)

/-- **C60** `C60_nothing_left`: an empty file is opened as an empty stream. -/
example : ∃ s w, Gzip.Opens [] s ∧ (parseFile toyZ {} py!"x.gz" s).1 = .error (.valueError w) := by
  have O : Gzip.Opens [] { data := [] } := by
    refine ⟨rfl, fun c e => ?_, fun e => ?_, fun e => ?_⟩
    · exact ⟨by have h : Gzip.gunzip [] = some [] := by decide +kernel
                rw [h] at e; exact Option.some.inj e, rfl⟩
    · have h : Gzip.gunzip [] = some [] := by decide +kernel
      rw [h] at e; cases e
    · have h : Gzip.gunzip [] = some [] := by decide +kernel
      rw [h] at e; cases e
  obtain ⟨w, h⟩ := C60_nothing_left toyZ {} py!"x.gz" O
  exact ⟨_, w, O, h⟩

/-- **C62** `C62_float`, `C62_special`: 1.0 and infinity. -/
example (t : PyStr) := C62_float (b := 0x3F800000) (by decide) false t
example (t : PyStr) := C62_special (b := 0x7F800000) (by decide) false t

/-! ## Damaged and growing logs -/

/-- **C64** `C64_independent`, `C64_document`: two good samples around a damaged one. -/
theorem mixed_framed (r : Row) (hr : r ∈ table) : ∀ w ∈ [toySample r, damagedSample r, toySample r], w.Framed r := by
  intro w hw
  simp only [List.mem_cons, List.not_mem_nil, or_false] at hw
  rcases hw with rfl | rfl | rfl
  · exact (toySample_valid r hr).framed
  · exact damaged_framed r hr
  · exact (toySample_valid r hr).framed

example (r : Row) (hr : r ∈ table) (rot : Bool) := C64_independent (Z := toyZ) hr (toyHeader_valid r hr) (mixed_framed r hr) rot 9 (by simp)
  (s := { data := toyHeader r ++ body r [toySample r, damagedSample r, toySample r] }) (by simp [Stream.rest]) rfl
example (r : Row) (hr : r ∈ table) := C64_document (Z := toyZ) hr (toyHeader_valid r hr) (mixed_framed r hr) (by simp) (o := {}) (.inl rfl) py!"x"
  (s := { data := toyHeader r ++ body r [toySample r, damagedSample r, toySample r] }) (by simp [Stream.rest]) rfl

/-! ## Command lines -/

/-- **C51** `C51_words`, `C51_dashes`, `C51_unambiguous`. -/
example (U : Nat → Bool) : ∃ ns, parseArgs U [py!"-p", py!"a", py!"-P", py!"CPU"] = .ok ns ∧ ns.files ≠ [] := by
  have h := C51_usage U [py!"a"] [py!"CPU"] true false false (by simp) (by decide) (by decide)
  exact ⟨_, h, (C51_words h).1⟩

example (U : Nat → Bool) : ∃ ns files, parseArgs U [py!"-P", py!"CPU", py!"--", py!"-x", py!"--"] = .ok ns ∧ ns.files = files ++ [py!"-x", py!"--"] ∧
    files.Sublist [py!"-P", py!"CPU"] := by
  have h : parseArgs U [py!"-P", py!"CPU", py!"--", py!"-x", py!"--"] = .ok { files := [py!"-x", py!"--"], parseables := some [py!"CPU"] } := by
    refine (C51_exact U _ _).mpr ⟨_, _, Line.dashed (U := U) [⟨[py!"-P", py!"CPU"], true, [.parseables [py!"CPU"]]⟩] [] [py!"-x", py!"--"] ?_ ?_ ?_ ?_, ?_⟩
    · intro p hp
      rw [List.mem_singleton.mp hp]; exact .list _ _ [py!"CPU"] (.P 0) (by simp) (by decide)
    · exact fun h => absurd rfl h
    · simp
    · nofun
    · exact ⟨rfl, rfl, by simp, by simp, by simp⟩
  obtain ⟨files, h1, h2⟩ := C51_dashes (U := U) (pre := [py!"-P", py!"CPU"]) (more := [py!"-x", py!"--"]) (by decide) h
  exact ⟨_, files, h, h1, h2⟩

/-- **C51** `C51_unambiguous`: `-- f` is one command line however its words are cut (here: `f` before or after the dashes). -/
example (U : Nat → Bool) {files : List PyStr} {es : List Effect} {ns ns' : Namespace} (h : Line U [py!"--", py!"f"] files es) (s : Settings files es ns)
    (s' : Settings [py!"f"] [] ns') : ns = ns' :=
  C51_unambiguous h (Line.dashed (U := U) [] [] [py!"f"] (by simp) (fun h => absurd rfl h) (by simp) (by simp)) s s'

/-! ## Iterators -/

/-- **C03** `C03_truncation_reported_iff`: the log of any version, cut anywhere. -/
example (r : Row) (hr : r ∈ table) (k : Nat) (rot : Bool) := C03_truncation_reported_iff hr (toyHeader_valid r hr) (toyLog_valid r hr) k rot 9
  (by simp [toyLog]) (s := { data := toyHeader r ++ (body r (toyLog r)).take k }) (by simp [Stream.rest]) rfl

/-- **C47** `C47_finished`: one step, closed, and then every further step ends at once. -/
example {r : Row} (hr : r ∈ table) : ∃ h x g s', getHeader true (toyFile r) = (.ok h, toyOpen r) ∧
    Gen.history toyZ true [.next, .close] (.start (some h) 5) (toyOpen r) = ([.yield x] ++ [.closed], g, s') ∧
    Gen.history toyZ true [.next, .close, .next] g s' = ([.stop, .closed, .stop], .done, s') := by
  obtain ⟨h, c, -, -, -, hg, -, -, hs⟩ := toy_open r hr
  have k := C07_stepping_is_running toyZ (some h) true 5 (toyOpen r) 6 (by decide)
  rw [hs true 5 (by decide)] at k
  rcases hx : Gen.next toyZ true (.start (some h) 5) (toyOpen r) with ⟨o, g, s'⟩
  rw [Gen.collect, hx] at k
  cases o with
  | stop => cases k
  | raise e => cases k
  | yield x =>
    rcases hy : Gen.history toyZ true [.next, .close] (.start (some h) 5) (toyOpen r) with ⟨l, g2, s2⟩
    have e : l = [.yield x, .closed] := by
      have := congrArg Prod.fst hy
      simp only [Gen.history, Gen.step, hx] at this
      rw [← this]; rfl
    subst e
    exact ⟨h, x, g2, s2, hg, hy, C47_finished toyZ (some h) true 5 (toyOpen r) [.next, .close] [.next, .close, .next] (l := [.yield x]) hy (by simp)⟩

/-! ## Documents -/

/-- **C58** `C58_details_ignored`. -/
example (r : Row) := C58_details_ignored toyZ [py!"CPU"] (by simp) true true false true py!"x" (toyFile r)

end Atop
