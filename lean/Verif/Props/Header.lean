import Verif.Proofs.Run
import Verif.Props.Toy
/-!
# C08-C12, C33: the header

`Spec.Accepts`, `Spec.usedRow`, `Spec.tooOld`, `Spec.first480` (Verif/Spec/Format.lean) state the acceptance rule in
literal offsets and numbers.
-/

namespace Atop
open Spec

theorem first480_length (b : Bytes) : (first480 b).length = 480 := by
  simp [first480]; omega

theorem versions_row {c : HeaderClass} (hc : c ∈ versions) : ∃ r, (c, r) ∈ versions.zip table := by
  obtain ⟨i, hi, rfl⟩ := List.mem_iff_getElem.mp hc
  have h2 : i < table.length := hi
  exact ⟨table[i], List.mem_iff_getElem.mpr ⟨i, by rw [List.length_zip]; exact Nat.lt_min.mpr ⟨hi, h2⟩, by simp⟩⟩

theorem getHeader_plain (check : Bool) {s : Stream} (enough : s.short = none ∨ 480 ≤ s.rest.length) :
    getHeader check s = (headerOf check (first480 s.rest), s.adv (min 480 s.rest.length)) := by
  rcases enough with plain | h
  · rw [getHeader_eq, Stream.readinto_none plain]; rfl
  · rw [getHeader_eq, Stream.readinto_enough h]; rfl

theorem versionText_eq (M m : Nat) : versionText M m = versionString (M, m) := by
  simp [versionText, versionString, pyStrNat, Nat.repr, toString]

/-- **C08** `get_header(raw_file)` checks: the argument left out is `True`. -/
theorem C08_default : (getHeader : Rd Header) = getHeader true := rfl

/-- **C08** `get_header` succeeds exactly on the headers that satisfy the acceptance rule (for a plain file of any length, or a
damaged `.gz` file whose first 480 bytes can be had; `C09_damaged_container` has the remaining files). -/
theorem C08_header_accepted_iff (s : Stream) (enough : s.short = none ∨ 480 ≤ s.rest.length) :
    (∃ h, (getHeader true s).1 = .ok h) ↔ Accepts (first480 s.rest) := by
  rw [getHeader_plain true enough]
  constructor
  · rintro ⟨h, he⟩; exact (headerOf_ready (first480_length _) he).2.1
  · intro A; exact ⟨_, headerOf_accepts A⟩

/-- **C08** What it returns: a header of the class of the version in use, with the file's bytes, the file positioned
after them. -/
theorem C08_header_result (s : Stream) (enough : s.short = none ∨ 480 ≤ s.rest.length) (A : Accepts (first480 s.rest)) :
    ∃ c, headerByVersion (usedRow (first480 s.rest)).version = some c ∧
      getHeader true s = (.ok ⟨c, first480 s.rest, some (major (first480 s.rest), minor (first480 s.rest))⟩,
        { s with pos := s.pos + min 480 s.rest.length }) := by
  refine ⟨classFor (first480 s.rest), ?_, ?_⟩
  · obtain ⟨F, hn, hs⟩ := classFor_facts (first480 s.rest)
    cases hr : rowFor (major (first480 s.rest)) (minor (first480 s.rest)) with
    | none => rw [(hn hr).1, (hn hr).2]; rfl
    | some r =>
      obtain ⟨hm, he, h1, h2, -, h3⟩ := hs r hr
      rw [he, (table_versionString r hm).1, h1, h2, h3]
  · rw [getHeader_plain true enough, headerOf_accepts A]; rfl

/-- Every supported version has accepted headers, and a header damaged in one length byte is refused. -/
example (r : Row) (hr : r ∈ table) (rest : Bytes) : Accepts (first480 (toyHeader r ++ rest)) := by
  have H := toyHeader_valid r hr
  have : first480 (toyHeader r ++ rest) = toyHeader r := by
    unfold first480
    rw [List.take_append_of_le_length (by rw [H.length]; omega), ← H.length, List.take_length]
    simp [H.length]
  rw [this]; exact (valid_accepts hr H).2.2.1

example : ∀ r ∈ table, ¬ Accepts (first480 ((toyHeader r).set 32 0xFF)) := by decide +kernel

/-- **C08, deviation** The docstring promises `ValueError` when the file is shorter than a header; files that end
after the length fields are accepted (here: 36 bytes, every version without cgroups). -/
theorem C08_short_file_accepted : ∀ r ∈ table, r.cstat = none → Accepts (first480 ((toyHeader r).take 36)) := by
  decide +kernel

/-- **C09** Why `get_header` fails on a plain file, or on a damaged `.gz` file whose first 480 bytes can be had. -/
theorem C09_rejection_kinds (s : Stream) (enough : s.short = none ∨ 480 ≤ s.rest.length) :
    ((∃ text, (getHeader true s).1 = .error (.valueError (.badMagic text))) ↔ u32 (first480 s.rest) 0 ≠ 0xFEEDBEEF) ∧
    ((∃ text, (getHeader true s).1 = .error (.valueError (.incompatible text))) ↔
      u32 (first480 s.rest) 0 = 0xFEEDBEEF ∧ ¬ tooOld (first480 s.rest) ∧
        ¬ lengthsMatch (usedRow (first480 s.rest)) (readsCGroups (first480 s.rest)) (first480 s.rest)) ∧
    ((getHeader true s).1 = .error .attributeError ↔
      u32 (first480 s.rest) 0 = 0xFEEDBEEF ∧ tooOld (first480 s.rest)) ∧
    (∀ e, (getHeader true s).1 = .error e →
      (∃ text, e = .valueError (.badMagic text)) ∨ (∃ text, e = .valueError (.incompatible text)) ∨
        e = .attributeError) := by
  rw [getHeader_plain true enough]
  generalize first480 s.rest = hb
  dsimp only
  unfold headerOf magic
  rw [if_neg (show ¬ (true = false) by simp)]
  by_cases h1 : u32 hb 0 = 0xFEEDBEEF
  · rw [if_neg (by simp [h1])]
    by_cases h2 : tooOld hb
    · rw [if_pos h2]; simp [h1, h2]
    · rw [if_neg h2]
      by_cases h3 : lengthsMatch (usedRow hb) (readsCGroups hb) hb
      · rw [if_pos h3]; simp [h1, h2, h3]
      · rw [if_neg h3]; simp [h1, h2, h3]
  · rw [if_pos h1]; simp [h1]

/-- **C09** A header of a supported version is never refused with anything but `ValueError`. -/
theorem C09_known_version_value_error (s : Stream) (enough : s.short = none ∨ 480 ≤ s.rest.length) {r : Row}
    (known : rowFor (major (first480 s.rest)) (minor (first480 s.rest)) = some r) {e : Exc}
    (h : (getHeader true s).1 = .error e) : ∃ w, e = .valueError w := by
  obtain ⟨-, -, h3, h4⟩ := C09_rejection_kinds s enough
  rcases h4 e h with ⟨_, rfl⟩ | ⟨_, rfl⟩ | rfl
  · exact ⟨_, rfl⟩
  · exact ⟨_, rfl⟩
  · have := (h3.mp h).2.1; rw [known] at this; cases this

/-- **C09** Without the compatibility check only the magic can be refused. -/
theorem C09_unchecked (s : Stream) (enough : s.short = none ∨ 480 ≤ s.rest.length) :
    ((∃ text, (getHeader false s).1 = .error (.valueError (.badMagic text))) ↔ u32 (first480 s.rest) 0 ≠ 0xFEEDBEEF) ∧
    (u32 (first480 s.rest) 0 = 0xFEEDBEEF → ∃ h, (getHeader false s).1 = .ok h ∧ h.buf = first480 s.rest) := by
  rw [getHeader_plain false enough]
  generalize first480 s.rest = hb
  dsimp only
  unfold headerOf magic
  by_cases h1 : u32 hb 0 = 0xFEEDBEEF
  · rw [if_neg (by simp [h1]), if_pos rfl]; simp [h1]
  · rw [if_pos h1]; simp [h1]

/-- **C09** A damaged container inside the header surfaces as the container's own error. -/
theorem C09_damaged_container (s : Stream) (e : Exc) (damaged : s.short = some e) (h : s.rest.length < 480)
    (check : Bool) : (getHeader check s).1 = .error e := by
  rw [getHeader_eq, Stream.readinto_eq, Stream.read_raise h damaged]

/-- All the outcomes of C09 occur: an empty file; a 2.12 header with a wrong task length; version 2.2. -/
example : ∃ text, (getHeader true { data := [] }).1 = .error (.valueError (.badMagic text)) :=
  (C09_rejection_kinds { data := [] } (.inl rfl)).1.mpr (by decide +kernel)
example : ∃ text, (getHeader true { data := (toyHeader newest).set 32 1 }).1 =
    .error (.valueError (.incompatible text)) :=
  (C09_rejection_kinds { data := (toyHeader newest).set 32 1 } (.inl rfl)).2.1.mpr (by decide +kernel)
example : (getHeader true { data := (toyHeader newest).set 4 2 }).1 = .error .attributeError :=
  (C09_rejection_kinds { data := (toyHeader newest).set 4 2 } (.inl rfl)).2.2.1.mpr (by decide +kernel)

/-- **C10** Version decoding: for every header class and content, the version numbers are bits 8-14 and 0-7 of the
version word and the text is `"major.minor"`. -/
theorem C10_semantic_version (c : HeaderClass) (hc : c ∈ versions) (b : Bytes) :
    (Header.mk c b none).version = .ok (u16 b 4 / 256 % 128, u16 b 4 % 256) ∧
    (Header.mk c b none).semanticVersion = .ok (versionText (u16 b 4 / 256 % 128) (u16 b 4 % 256)) := by
  obtain ⟨r, hr⟩ := versions_row hc
  have h := header_version_of_none (facts_all _ hr) b
  have h' : (Header.mk c b none).version = .ok (u16 b 4 / 256 % 128, u16 b 4 % 256) := by
    rw [h, ← splitVersion_eq, splitVersion_u16]
  refine ⟨h', ?_⟩
  rw [versionText_eq]
  unfold Header.semanticVersion
  rw [h']; rfl

/-- **C10** The top bit of the version word is ignored: headers whose words agree on the low 15 bits have the same
version, whatever else they contain. -/
theorem C10_top_bit (c c' : HeaderClass) (hc : c ∈ versions) (hc' : c' ∈ versions) (b b' : Bytes)
    (h : u16 b 4 % 32768 = u16 b' 4 % 32768) :
    (Header.mk c b none).version = (Header.mk c' b' none).version := by
  rw [(C10_semantic_version c hc b).1, (C10_semantic_version c' hc' b').1,
    show u16 b 4 / 256 % 128 = u16 b' 4 / 256 % 128 by omega, show u16 b 4 % 256 = u16 b' 4 % 256 by omega]

/-- **C10** Two headers have the same version text exactly when their version words agree on the low 15 bits. -/
theorem C10_text_injective (c c' : HeaderClass) (hc : c ∈ versions) (hc' : c' ∈ versions) (b b' : Bytes) :
    (Header.mk c b none).semanticVersion = (Header.mk c' b' none).semanticVersion ↔
      u16 b 4 % 32768 = u16 b' 4 % 32768 := by
  rw [(C10_semantic_version c hc b).2, (C10_semantic_version c' hc' b').2, versionText_eq, versionText_eq]
  constructor
  · intro h
    have := versionString_inj (by dsimp only; omega) (by dsimp only; omega) (by dsimp only; omega) (by dsimp only; omega)
      (Except.ok.inj h)
    injection this with h1 h2
    omega
  · intro h
    rw [show u16 b 4 / 256 % 128 = u16 b' 4 / 256 % 128 by omega, show u16 b 4 % 256 = u16 b' 4 % 256 by omega]

/-- "2.10" with and without the top bit. -/
example : u16 [0, 0, 0, 0, 10, 2] 4 % 32768 = u16 [0, 0, 0, 0, 10, 130] 4 % 32768 := by decide

/-- **C10** Splitting the text at the dot and reading the numbers gives them back. -/
theorem C10_text_round_trip (c : HeaderClass) (hc : c ∈ versions) (b : Bytes) :
    parsedVersion ⟨c, b, none⟩ = .ok (u16 b 4 / 256 % 128, u16 b 4 % 256) := by
  have h := (C10_semantic_version c hc b).2
  unfold parsedVersion
  rw [h, versionText_eq]
  exact parse_versionString _ (by dsimp only; omega) (by dsimp only; omega)

example : (Header.mk V2_10.Header (toyHeader ⟨py!"2.10", 2, 10, 96, 1030216, 992, none⟩) none).semanticVersion =
    .ok py!"2.10" := by
  rw [(C10_semantic_version V2_10.Header (by simp [versions]) _).2]
  decide +kernel

/-- **C11** Dispatch: an accepted header has the class of the recorded version when that is supported, of 2.12
otherwise; the bytes are those of the file. -/
theorem C11_dispatch (s : Stream) (enough : s.short = none ∨ 480 ≤ s.rest.length) (check : Bool) {h : Header}
    (hg : (getHeader check s).1 = .ok h) :
    h.buf = first480 s.rest ∧ h.cls ∈ versions ∧
    (∀ r, rowFor (major (first480 s.rest)) (minor (first480 s.rest)) = some r →
      h.cls.supportedVersion = r.version ∧ h.cls.Record.size = r.record ∧ h.cls.SStat.size = r.sstat ∧
      h.cls.TStat.size = r.tstat ∧ h.cls.CStat.map CType.size = r.cstat) ∧
    (rowFor (major (first480 s.rest)) (minor (first480 s.rest)) = none → h.cls = V2_12.Header) := by
  rw [getHeader_plain check enough] at hg
  generalize first480 s.rest = hb at *
  have hh : h.cls = classFor hb ∧ h.buf = hb := by
    unfold headerOf at hg
    split at hg
    · cases hg
    · split at hg
      · cases hg; exact ⟨rfl, rfl⟩
      · split at hg
        · cases hg
        · split at hg
          · cases hg; exact ⟨rfl, rfl⟩
          · cases hg
  obtain ⟨F, hn, hs⟩ := classFor_facts hb
  refine ⟨hh.2, ?_, ?_, ?_⟩
  · rw [hh.1]
    cases hr : rowFor (major hb) (minor hb) with
    | none => rw [(hn hr).1]; simp [versions, defaultHeader]
    | some r => exact (List.of_mem_zip (hs r hr).2.2.2.2.1).1
  · intro r hr
    obtain ⟨-, he, -⟩ := hs r hr
    rw [he] at F
    rw [hh.1]
    exact ⟨F.version, F.record, F.sstat, F.tstat, F.cstat⟩
  · intro hr; rw [hh.1]; exact (hn hr).1

/-- **C11** Every header class occupies 480 bytes and the table of versions is exactly the supported one. -/
theorem C11_header_sizes : versions.map (fun c => (c.supportedVersion, c.size)) = table.map (fun r => (r.version, 480)) := by
  decide +kernel

/-- **C11** Looking a version text up gives the class carrying that text, and nothing for other texts. -/
theorem C11_lookup (v : PyStr) : (headerByVersion v).map HeaderClass.supportedVersion =
    if v ∈ table.map Row.version then some v else none := by
  unfold headerByVersion
  have ht : table.map Row.version = versions.map HeaderClass.supportedVersion := by decide +kernel
  rw [ht]
  have : ∀ l : List HeaderClass, (l.find? (fun c => c.supportedVersion == v)).map HeaderClass.supportedVersion =
      if v ∈ l.map HeaderClass.supportedVersion then some v else none := by
    intro l
    induction l with
    | nil => rfl
    | cons c cs ih =>
      rw [List.find?_cons]
      by_cases h : c.supportedVersion = v
      · simp [h]
      · have h' : (c.supportedVersion == v) = false := by simpa using h
        rw [h']
        dsimp only
        rw [ih]
        simp [Ne.symm h]
  exact this versions

/-- **C12** After the check, the task length the header carries equals the size of the task structure, and the cgroup
length (when cgroups will be read) that of the cgroup structure. -/
theorem C12_slice_width {s : Stream} {h : Header} {s' : Stream} (hg : getHeader true s = (.ok h, s')) :
    (∃ M m, h.version = .ok (M, m) ∧
      (h.inst.intAttr (if M ≥ 2 ∧ m ≥ 3 then py!"tstatlen" else py!"pstatlen") = .ok (h.cls.TStat.size : Int)) ∧
      (M ≥ 2 ∧ m ≥ 11 → ∃ t, h.cls.CStat = some t ∧ h.inst.intAttr py!"cstatlen" = .ok (t.size : Int))) ∧
    h.inst.intAttr py!"rawreclen" = .ok (h.cls.Record.size : Int) ∧
    h.inst.intAttr py!"sstatlen" = .ok (h.cls.SStat.size : Int) := by
  have hck : h.checkCompatibility = .ok () ∧ ∃ hb, hb.length = 480 ∧ h.buf = hb ∧
      Ready h (usedRow hb) (major hb, minor hb) (readsCGroups hb) ∧ Accepts hb := by
    rw [getHeader_eq, Stream.readinto_eq] at hg
    rcases hr : Stream.read 480 s with ⟨e | g, s1⟩
    · rw [hr] at hg; cases hg
    · rw [hr] at hg
      dsimp only at hg
      have hl : (g ++ List.replicate (480 - g.length) (0 : UInt8)).length = 480 := by
        unfold Stream.read at hr
        split at hr
        · cases hr; simp; omega
        · split at hr
          · cases hr; simp; omega
          · cases hr
      generalize g ++ List.replicate (480 - g.length) (0 : UInt8) = hb at hl hg
      have he : headerOf true hb = .ok h := by injection hg
      obtain ⟨h1, h2, h3⟩ := headerOf_ready hl he
      refine ⟨?_, hb, hl, by rw [h1], h3, h2⟩
      rw [h1, headerOf_check hb hl _ (.inr rfl), if_neg h2.2.1, if_pos h2.2.2]
  obtain ⟨-, hb, hl, hbuf, R, A⟩ := hck
  have e1 : h.inst.intAttr py!"rawreclen" = .ok (u16 h.buf 12 : Int) := intAttr_u16 (t := h.inst.ty) R.facts.rawreclen h.buf
  have e2 : h.inst.intAttr py!"sstatlen" = .ok (u32 h.buf 28 : Int) := intAttr_u32 (t := h.inst.ty) R.facts.sstatlen h.buf
  refine ⟨⟨major hb, minor hb, R.ver, ?_, ?_⟩, ?_, ?_⟩
  · by_cases h3 : major hb ≥ 2 ∧ minor hb ≥ 3
    · have hx := R.facts.tstatlen
      rw [if_neg (R.old.mp h3)] at hx
      rw [if_pos h3]
      exact (intAttr_u32 (t := h.inst.ty) hx h.buf).trans (by rw [R.facts.tstat, R.tlen])
    · have hx := R.facts.pstatlen
      rw [if_pos (Classical.byContradiction fun hh => h3 (R.old.mpr hh))] at hx
      rw [if_neg h3]
      exact (intAttr_u32 (t := h.inst.ty) hx h.buf).trans (by rw [R.facts.tstat, R.tlen])
  · intro h11
    have hcg : readsCGroups hb = true := R.cg_iff.mp h11
    rw [hcg] at R
    obtain ⟨t, n, h1, h2, h3, h4⟩ := cstat_some R
    refine ⟨t, h1, ?_⟩
    have hx := R.facts.cstatlen
    rw [h2] at hx
    exact (intAttr_i32 (t := h.inst.ty) hx h.buf (by show 456 + 4 ≤ h.buf.length; rw [hbuf]; omega)).trans
      (by rw [i32_of_u32_lt h4 (R.csmall n h2).2.1, h3])
  · rw [e1, hbuf, A.2.2.2.1, R.facts.record]
  · rw [e2, hbuf, A.2.2.2.2.1, R.facts.sstat]

example (r : Row) (hr : r ∈ table) : ∃ h s', getHeader true { data := toyHeader r } = (.ok h, s') ∧
    h.inst.intAttr py!"rawreclen" = .ok (h.cls.Record.size : Int) := by
  obtain ⟨h, -, -, -, -, -, hg⟩ := generate_valid hr (toyHeader_valid r hr) toyZ true 1 (s := { data := toyHeader r })
    (rest := []) (by simp [Stream.rest])
  exact ⟨h, _, hg, (C12_slice_width hg).2.1⟩

/-- **C33** A header returned by `get_header` keeps its version whatever is done to its memory afterwards. -/
theorem C33_latched {s : Stream} {h : Header} {s' : Stream} (hg : getHeader true s = (.ok h, s')) (b : Bytes) :
    ({ h with buf := b } : Header).version = h.version ∧
    ({ h with buf := b } : Header).semanticVersion = h.semanticVersion ∧
    parsedVersion { h with buf := b } = parsedVersion h := by
  have hc : ∃ v, h.cache = some v := by
    rw [getHeader_eq] at hg
    rcases hr : Stream.readinto 480 s with ⟨e | hb, s1⟩
    · rw [hr] at hg; cases hg
    · rw [hr] at hg
      dsimp only at hg
      have he : headerOf true hb = .ok h := by injection hg
      unfold headerOf at he
      split at he
      · cases he
      · rw [if_neg (show ¬ (true = false) by simp)] at he
        split at he
        · cases he
        · split at he
          · cases he; exact ⟨_, rfl⟩
          · cases he
  obtain ⟨v, hv⟩ := hc
  have : ({ h with buf := b } : Header).version = h.version := by
    unfold Header.version; rw [hv]
  refine ⟨this, ?_, ?_⟩ <;> simp only [parsedVersion, Header.semanticVersion, this]

/-- **C33** The same for any header once its version has been evaluated; evaluating it again changes nothing. -/
theorem C33_evaluate_once (h : Header) (v : Nat × Nat) (hv : h.version = .ok v) (b : Bytes) :
    ({ h.latched with buf := b } : Header).version = .ok v ∧
    ({ h.latched with buf := b } : Header).semanticVersion = .ok (versionText v.1 v.2) ∧
    h.latched.latched = h.latched := by
  have h1 : h.latched = { h with cache := some v } := by unfold Header.latched; rw [hv]
  rw [h1, versionText_eq]
  exact ⟨rfl, rfl, rfl⟩

/-- Latching is not vacuous: before the first evaluation (possible with `check_compatibility=False`) the answer follows
the memory, afterwards it does not. -/
example : (Header.mk V2_3.Header ((toyHeader newest).set 4 3) none).version = .ok (2, 3) ∧
    (Header.mk V2_3.Header ((toyHeader newest).set 4 9) none).version = .ok (2, 9) ∧
    ({ (Header.mk V2_3.Header ((toyHeader newest).set 4 3) none).latched with buf := (toyHeader newest).set 4 9 } : Header).version
      = .ok (2, 3) := by
  have h1 : (Header.mk V2_3.Header ((toyHeader newest).set 4 3) none).version = .ok (2, 3) := by
    rw [(C10_semantic_version V2_3.Header (by simp [versions]) _).1]; decide +kernel
  refine ⟨h1, ?_, (C33_evaluate_once _ _ h1 _).1⟩
  rw [(C10_semantic_version V2_3.Header (by simp [versions]) _).1]; decide +kernel

end Atop
