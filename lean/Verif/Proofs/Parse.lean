import Verif.Proofs.Steps
import Verif.Model.Reader
/-!
# `parse_file`: the interleaved loop computes "convert every yielded sample, then look at the ending"
-/

namespace Atop
open Spec

variable {Z : Zlib}

/-- Entries of every sample in order; the first conversion that raises wins. -/
def sampleRowsAll (o : Opts) (h : Header) : List Sample → Except Exc (List JVal)
  | [] => .ok []
  | x :: xs =>
    match sampleRows o h x with
    | .error e => .error e
    | .ok r =>
      match sampleRowsAll o h xs with
      | .error e => .error e
      | .ok rs => .ok (r ++ rs)

/-- The document for the samples `xs` of an iteration that ended with `e`. -/
def docOf (o : Opts) (h : Header) (xs : List Sample) (e : End) : Except Exc (List JVal) :=
  match sampleRowsAll o h xs with
  | .error e => .error e
  | .ok rows =>
    match e with
    | .returned => .ok rows
    | .raised e => .error e

theorem docOf_cons (o : Opts) (h : Header) (x : Sample) (xs : List Sample) (e : End) :
    docOf o h (x :: xs) e = match sampleRows o h x with
      | .error e => .error e
      | .ok r => match docOf o h xs e with
        | .error e => .error e
        | .ok rs => .ok (r ++ rs) := by
  unfold docOf
  rw [sampleRowsAll]
  cases sampleRows o h x with
  | error e => rfl
  | ok r =>
    dsimp only
    cases sampleRowsAll o h xs with
    | error e => rfl
    | ok rs => cases e <;> rfl

theorem parseLoop_succ (o : Opts) (h : Header) (n : Nat) (g : Gen) (s : Stream) :
    parseLoop Z o h (n + 1) g s = match g.next Z false s with
      | (.stop, _, s') => (.ok [], s')
      | (.raise e, _, s') => (.error e, s')
      | (.yield x, g', s') =>
        match sampleRows o h x with
        | .error e => (.error e, s')
        | .ok r =>
          match (parseLoop Z o h n g' : Stream → _) s' with
          | (.error e, s'') => (.error e, s'')
          | (.ok rs, s'') => (.ok (r ++ rs), s'') := rfl

theorem parseLoop_loop (o : Opts) (h0 h : Header) (v : Nat × Nat) : ∀ (k n : Nat) (s : Stream), k < n →
    (parseLoop Z o h0 n (.loop h v k) s).1 = docOf o h0 (runLoop Z false h v k s).1 (runLoop Z false h v k s).2.1 := by
  intro k
  induction k with
  | zero => intro n s hn; obtain ⟨m, rfl⟩ : ∃ m, n = m + 1 := ⟨n - 1, by omega⟩; rfl
  | succ k ih =>
    intro n s hn
    obtain ⟨m, rfl⟩ : ∃ m, n = m + 1 := ⟨n - 1, by omega⟩
    rw [parseLoop_succ, runLoop, Gen.next, resumeLoop]
    rcases readSample Z h v s with ⟨(e | _ | x), s'⟩
    · dsimp only
      unfold onError endOf
      by_cases he : e = .zlibError
      · simp [he]; rfl
      · simp [he]; rfl
    · rfl
    · dsimp only
      rw [docOf_cons, ← ih m s' (by omega)]
      cases sampleRows o h0 x with
      | error e => rfl
      | ok r =>
        dsimp only
        rcases parseLoop Z o h0 m (.loop h v k) s' with ⟨(e | rs), s''⟩ <;> rfl

theorem parseLoop_start (o : Opts) (h0 h : Header) (max : Int) (n : Nat) (s : Stream) (hn : max.toNat < n) :
    (parseLoop Z o h0 n (.start (some h) max) s).1 =
      docOf o h0 (generateStatistics Z (some h) false max s).1 (generateStatistics Z (some h) false max s).2.1 := by
  obtain ⟨m, rfl⟩ : ∃ m, n = m + 1 := ⟨n - 1, by omega⟩
  have hg : Gen.next Z false (.start (some h) max) s = enterTry Z false h max s := rfl
  rw [parseLoop_succ, hg]
  unfold enterTry generateStatistics
  dsimp only
  cases parsedVersion h with
  | error e =>
    dsimp only
    unfold onError endOf
    by_cases he : e = .zlibError
    · simp [he]; rfl
    · simp [he]; rfl
  | ok v =>
    dsimp only
    have := parseLoop_loop (Z := Z) o h0 h.latched v max.toNat (m + 1) s hn
    rw [parseLoop_succ] at this
    exact this

end Atop
