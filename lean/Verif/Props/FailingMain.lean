import Verif.Props.Failing
/-!
# C81: the program, when a read fails
-/

namespace Atop
open Spec Prog

/-- **C81** The program over several files, one of which cannot be read to its end: what was printed for the files before it stays
printed, nothing is printed for it, no later file is opened (whatever it is), and the exception ends the program. -/
theorem C81_main (Z : Zlib) {o : Opts} (hp : o.parseables = []) (opens : PyStr → Bool → Except Exc (Nat → Except Exc Bytes))
    {pre post : List PyStr} {f : PyStr} {docs : List (List JVal)} (hpre : Failing.runMain Z opens o pre = (docs, none))
    {answer : Nat → Except Exc Bytes} (hf : ∀ gz, (py!".gz" <:+: f ↔ gz = true) → opens f gz = .ok answer)
    {gives : Nat → Bytes} {T : Nat} {e : Exc} {h : Header} (hg : (getHeader true { data := gives 0 }).1 = .ok h)
    (F : FailsAt answer gives (T + 1) e) (hT : T + 1 < (Fed.generateStatistics Z none false 86400 { gives }).2.2.reads)
    (he : e ≠ .zlibError) : Failing.runMain Z opens o (pre ++ f :: post) = (docs, some e) := by
  have hfile := ((C81_printed Z hp f hg F rfl).1 hT).1 he
  have hpath : Failing.parsePath Z opens o f = .error e := by
    unfold Failing.parsePath
    rw [show opens f (usesGzip f) = .ok answer from hf _ (pyContains_iff py!".gz" f).symm]
    exact hfile
  induction pre generalizing docs with
  | nil =>
    cases hpre
    rw [List.nil_append, Failing.runMain, hpath]
  | cons g pre ih =>
    rw [List.cons_append, Failing.runMain]
    rw [Failing.runMain] at hpre
    split at hpre
    · cases hpre
    · rename_i doc hdoc
      dsimp only at hpre ⊢
      have h1 := congrArg Prod.fst hpre
      have h2 := congrArg Prod.snd hpre
      dsimp only at h1 h2
      rw [ih (docs := (Failing.runMain Z opens o pre).1) (Prod.ext rfl h2)]
      exact Prod.ext h1 rfl

/-- A file of version 1.26 without samples. -/
def noSamples (t : Nat) : Except Exc Bytes := .ok (if t = 0 then toyHeader oldest else [])

theorem noSamples_printed : Failing.parseFile oddZ {} py!"y" noSamples = .ok [] := by
  have : (match Failing.parseFile oddZ {} py!"y" noSamples with | .ok [] => true | _ => false) = true := by decide +kernel
  revert this
  cases Failing.parseFile oddZ {} py!"y" noSamples with
  | error e => nofun
  | ok d => cases d with
    | nil => exact fun _ => rfl
    | cons => nofun

/-- The file system of the example: `y` is readable, `a` cannot be opened, the disk of every other file fails. -/
def failingDisk (f : PyStr) (_ : Bool) : Except Exc (Nat → Except Exc Bytes) :=
  if f = py!"y" then .ok noSamples
  else if f = py!"a" then .error .osError else .ok (fun t => if t = 5 then .error .osError else .ok (replaced t))

/-- **C81** `C81_main`: the document of `y`, none for `x`; `a` plays no role. -/
example : Failing.runMain oddZ failingDisk {} [py!"y", py!"x", py!"a"] = ([[]], some .osError) := by
  obtain ⟨h, hg⟩ := replaced_header
  refine C81_main oddZ (o := {}) rfl failingDisk (pre := [py!"y"]) (f := py!"x") ?_ (fun _ _ => rfl) (congrArg Prod.fst hg) replaced_failing
    (by have := replaced_reads; omega) nofun
  have : Failing.parsePath oddZ failingDisk {} py!"y" = .ok [] := noSamples_printed
  rw [Failing.runMain, this]
  rfl

end Atop
