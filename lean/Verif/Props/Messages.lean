import Verif.Proofs.Messages
import Verif.Props.Header
/-!
# C50: what the errors of `get_header` say
-/

namespace Atop
open Spec

theorem reads_cstat (hb : Bytes) (h : readsCGroups hb = true) : ∃ n, (usedRow hb).cstat = some n := by
  unfold readsCGroups at h
  rw [decide_eq_true_eq] at h
  unfold usedRow
  cases hr : rowFor (major hb) (minor hb) with
  | none => exact ⟨_, rfl⟩
  | some r =>
    obtain ⟨-, -, hs⟩ := classFor_facts hb
    obtain ⟨hm, -, hM, hmi, -⟩ := hs r hr
    obtain ⟨-, -, -, -, t2, -⟩ := table_versionString r hm
    rw [hM, hmi] at t2
    exact Option.isSome_iff_exists.mp (t2.mp h)

/-- **C50** A file that does not start with the magic number is refused with a text quoting its first four bytes as
a hexadecimal number; no other file is refused with such a text. -/
theorem C50_wrong_magic (s : Stream) (enough : s.short = none ∨ 480 ≤ s.rest.length) (check : Bool) (text : PyStr) :
    (getHeader check s).1 = .error (.valueError (.badMagic text)) ↔
      u32 (first480 s.rest) 0 ≠ 0xFEEDBEEF ∧ MagicMessage (first480 s.rest) text := by
  rw [getHeader_plain check enough, magicMessage_iff]
  generalize first480 s.rest = hb
  dsimp only
  unfold headerOf magic
  by_cases h1 : u32 hb 0 = 0xFEEDBEEF
  · rw [if_neg (by simp [h1])]
    simp only [h1, ne_eq, not_true, false_and, iff_false]
    intro h
    split at h
    · cases h
    · split at h
      · cases h
      · split at h <;> cases h
  · rw [if_pos h1]
    simp only [ne_eq, h1, not_false_eq_true, true_and, Except.error.injEq, Exc.valueError.injEq, ValueWhy.badMagic.injEq]
    exact eq_comm

/-- **C50** Lengths that do not fit are reported with, for each structure in turn, the length the file announces and
the length of that structure in the version used. -/
theorem C50_incompatible (s : Stream) (enough : s.short = none ∨ 480 ≤ s.rest.length) (text : PyStr) :
    (getHeader true s).1 = .error (.valueError (.incompatible text)) ↔
      u32 (first480 s.rest) 0 = 0xFEEDBEEF ∧ ¬ tooOld (first480 s.rest) ∧
      ¬ lengthsMatch (usedRow (first480 s.rest)) (readsCGroups (first480 s.rest)) (first480 s.rest) ∧
      SizesMessage (first480 s.rest) text := by
  rw [getHeader_plain true enough, sizesMessage_iff _ _ (reads_cstat _)]
  generalize first480 s.rest = hb
  dsimp only
  unfold headerOf magic
  rw [if_neg (show ¬ (true = false) by simp)]
  by_cases h1 : u32 hb 0 = 0xFEEDBEEF
  · rw [if_neg (by simp [h1])]
    by_cases h2 : tooOld hb
    · rw [if_pos h2]; simp [h2]
    · rw [if_neg h2]
      by_cases h3 : lengthsMatch (usedRow hb) (readsCGroups hb) hb
      · rw [if_pos h3]; simp [h3]
      · rw [if_neg h3]
        simp only [h1, h2, h3, not_false_eq_true, true_and, Except.error.injEq, Exc.valueError.injEq,
          ValueWhy.incompatible.injEq]
        exact eq_comm
  · rw [if_pos h1]; simp [h1]

/-- **C50** The text about a wrong magic number determines the first four bytes of the file. -/
theorem C50_magic_recoverable (s s' : Stream) (enough : s.short = none ∨ 480 ≤ s.rest.length)
    (enough' : s'.short = none ∨ 480 ≤ s'.rest.length) (check check' : Bool)
    (text : PyStr) (h : (getHeader check s).1 = .error (.valueError (.badMagic text)))
    (h' : (getHeader check' s').1 = .error (.valueError (.badMagic text))) :
    u32 (first480 s.rest) 0 = u32 (first480 s'.rest) 0 := by
  obtain ⟨-, n, hn, e⟩ := (C50_wrong_magic s enough check text).mp h
  obtain ⟨-, n', hn', e'⟩ := (C50_wrong_magic s' enough' check' text).mp h'
  rw [e] at e'
  have := List.append_cancel_left e'
  subst this
  rw [← hn.value, ← hn'.value]

/-- An empty file: all four bytes count as zero. -/
example : (getHeader true { data := [] }).1 = .error (.valueError (.badMagic
    py!"File does not contain raw atop output (wrong magic number): 0x0")) :=
  (C50_wrong_magic { data := [] } (.inl rfl) true _).mpr ⟨by decide +kernel, py!"0",
    ⟨by decide, by decide +kernel, by decide, by decide +kernel⟩, rfl⟩

/-- A gzip file read without decompression. -/
example : (getHeader true { data := [0x1f, 0x8b, 0x08, 0xab] }).1 = .error (.valueError (.badMagic
    py!"File does not contain raw atop output (wrong magic number): 0xab088b1f")) :=
  (C50_wrong_magic { data := [0x1f, 0x8b, 0x08, 0xab] } (.inl rfl) true _).mpr ⟨by decide +kernel, py!"ab088b1f",
    ⟨by decide, by decide +kernel, by decide, by decide +kernel⟩, rfl⟩

/-- A 2.12 header whose task length is 769 instead of 968. -/
example : (getHeader true { data := (toyHeader newest).set 32 1 }).1 = .error (.valueError (.incompatible
    py!"File has incompatible Atop format. Struct length evaluations (type, found, expected): [('Header', 480, 480), ('Record', 96, 96), ('SStat', 1064016, 1064016), ('TStat', 769, 968), ('CStat', 432, 432)]")) := by
  refine (C50_incompatible { data := (toyHeader newest).set 32 1 } (.inl rfl) _).mpr
    ⟨by decide +kernel, by decide +kernel, by decide +kernel, ?_⟩
  rw [sizesMessage_iff _ _ (reads_cstat _)]
  decide +kernel

end Atop
