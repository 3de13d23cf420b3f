import Verif.Props.Failing
/-!
# C81 is about every file: every plain and every damaged `.gz` file of the other properties is such a file
-/

namespace Atop
open Spec Prog

theorem read_short {n : Nat} {s s' : Stream} {b : Bytes} (h : Stream.read n s = (.ok b, s')) : b.take n = b := by
  unfold Stream.read at h
  split at h
  · cases h; rw [List.take_take, Nat.min_self]
  · split at h
    · cases h; exact List.take_of_length_le (by omega)
    · cases h

/-- The answers between two numbers of reads. -/
def AnswersFrom (ans : Nat → Except Exc Bytes) (a b : Nat) (answer : Nat → Except Exc Bytes) : Prop := ∀ t, a ≤ t → t < b → answer t = ans t

theorem tried_of_run {α} (p : Prog α) : ∀ (s : Stream) (t : Nat), ∃ ans t', t ≤ t' ∧ ∀ a, AnswersFrom ans t t' a → p.tried a t = ((p.run s).1, t') := by
  induction p with
  | ret a => exact fun s t => ⟨fun _ => .ok [], t, Nat.le_refl _, fun _ _ => rfl⟩
  | raise e => exact fun s t => ⟨fun _ => .ok [], t, Nat.le_refl _, fun _ _ => rfl⟩
  | read n k ih =>
    intro s t
    rw [run_read]
    rcases hr : Stream.read n s with ⟨e | b, s'⟩
    · refine ⟨fun _ => .error e, t + 1, Nat.le_succ _, fun a ha => ?_⟩
      rw [tried_read, ha t (Nat.le_refl _) (Nat.lt_succ_self _)]
    · obtain ⟨ans, t', h1, h2⟩ := ih b s' (t + 1)
      refine ⟨fun i => if i = t then .ok b else ans i, t', by omega, fun a ha => ?_⟩
      rw [tried_read, (ha t (Nat.le_refl _) (by omega)).trans (if_pos rfl)]
      dsimp only
      rw [read_short hr]
      exact h2 a fun i i1 i2 => (ha i (by omega) i2).trans (if_neg (by omega))

theorem tried_of_loop (Z : Zlib) (rot : Bool) (h : Header) (v : Nat × Nat) : ∀ (n : Nat) (s : Stream) (t : Nat), ∃ ans t', t ≤ t' ∧
    ∀ a, AnswersFrom ans t t' a → Failing.runLoop Z rot h v a n t = ((runLoop Z rot h v n s).1, (runLoop Z rot h v n s).2.1, t')
  | 0, s, t => ⟨fun _ => .ok [], t, Nat.le_refl _, fun _ _ => rfl⟩
  | n + 1, s, t => by
    obtain ⟨ans, t', h1, h2⟩ := tried_of_run (readSampleP Z h v) s t
    rw [readSampleP_run] at h2
    rw [runLoop]
    rcases hx : readSample Z h v s with ⟨x | _ | x, s'⟩ <;> rw [hx] at h2 <;> dsimp only at h2 ⊢
    · refine ⟨ans, t', h1, fun a ha => ?_⟩
      rw [Failing.runLoop, h2 a ha]
    · refine ⟨ans, t', h1, fun a ha => ?_⟩
      rw [Failing.runLoop, h2 a ha]
    · obtain ⟨ans', t'', h3, h4⟩ := tried_of_loop Z rot h v n s' t'
      refine ⟨fun i => if i < t' then ans i else ans' i, t'', by omega, fun a ha => ?_⟩
      rw [Failing.runLoop, h2 a fun i i1 i2 => (ha i i1 (by omega)).trans (if_pos i2)]
      dsimp only
      rw [h4 a fun i i1 i2 => (ha i (by omega) i2).trans (if_neg (by omega))]

/-- **C81** Every file of the other properties, whether it is plain or its container breaks off, is a file C81 is about: there are
answers and failures of the reads with which iterating gives the same samples and ends in the same way. -/
theorem C81_covers (Z : Zlib) (header : Option Header) (rot : Bool) (max : Int) (s : Stream) :
    ∃ answer, (Failing.generateStatistics Z header rot max answer).1 = (generateStatistics Z header rot max s).1 ∧
      (Failing.generateStatistics Z header rot max answer).2.1 = (generateStatistics Z header rot max s).2.1 := by
  cases header with
  | some h =>
    unfold Failing.generateStatistics generateStatistics
    dsimp only
    cases parsedVersion h with
    | error e => exact ⟨fun _ => .ok [], rfl, rfl⟩
    | ok v =>
      obtain ⟨ans, t', -, h2⟩ := tried_of_loop Z rot h.latched v max.toNat s 0
      refine ⟨ans, ?_⟩
      dsimp only
      rw [h2 ans fun _ _ _ => rfl]
      exact ⟨rfl, rfl⟩
  | none =>
    obtain ⟨ans, t', h1, h2⟩ := tried_of_run (getHeaderP true) s 0
    rw [getHeaderP_run] at h2
    rw [generate_none]
    unfold Failing.generateStatistics
    rcases hx : getHeader true s with ⟨e | h, s'⟩ <;> rw [hx] at h2 <;> dsimp only at h2 ⊢
    · refine ⟨ans, ?_⟩
      rw [h2 ans fun _ _ _ => rfl]
      exact ⟨rfl, rfl⟩
    · unfold generateStatistics
      dsimp only
      cases hv : parsedVersion h with
      | error e =>
        refine ⟨ans, ?_⟩
        rw [h2 ans fun _ _ _ => rfl]
        dsimp only
        rw [hv]
        exact ⟨rfl, rfl⟩
      | ok v =>
        obtain ⟨ans', t'', -, h4⟩ := tried_of_loop Z rot h.latched v max.toNat s' t'
        refine ⟨fun i => if i < t' then ans i else ans' i, ?_⟩
        rw [h2 _ fun i _ i2 => if_pos i2]
        dsimp only
        rw [hv]
        dsimp only
        rw [h4 _ fun i i1 _ => if_neg (by omega)]
        exact ⟨rfl, rfl⟩

/-- **C81** `C81_covers`: the log of any version in a `.gz` file that breaks off in its middle. -/
example (r : Row) := C81_covers toyZ none false 86400 { data := ((toyFile r).data).take 1000, short := some .eofError }

end Atop
