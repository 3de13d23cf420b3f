import Verif.Spec.Document
import Verif.Spec.Cli
import Verif.Spec.Decode
/-!
# The rows of every parseable, as a function of the bytes of a sample
-/

namespace Atop.Spec

/-- A row to be shown: the texts in it as they are stored, and the row they make when decoded. -/
structure Wanted where
  texts : List Bytes
  row : List PyStr → PRow

/-- The texts are all valid UTF-8. -/
def Wanted.Good (w : Wanted) : Prop := ∃ ss, Decoded w.texts ss

/-- How many of the `cap` entries of `w` bytes from `base` on come before the first one without a name. -/
def named (b : Bytes) (base w cap : Nat) : Nat := ((List.range cap).takeWhile fun i => u8 b (base + i * w) ≠ 0).length

/-- The rows of parseable `p` for a sample of a 1.26 log with header `hb`. -/
def wanted (hb rec sst : Bytes) (ts : List Bytes) (p : PyStr) : List Wanted :=
  if p = py!"cpu" then (List.range (min (i64 sst 0).toNat 64)).map fun i => ⟨[], fun _ => cpuSpec hb rec sst i⟩
  else if p = py!"CPL" then [⟨[], fun _ => cplSpec rec sst⟩]
  else if p = py!"CPU" then [⟨[], fun _ => cpuTotalSpec hb rec sst⟩]
  else if p = py!"DSK" then (List.range (named sst 16656 112 256)).map fun i =>
    ⟨[field sst (16656 + i * 112) 32], diskSpec rec sst (16656 + i * 112)⟩
  else if p = py!"MDD" then (List.range (named sst 45328 112 128)).map fun i =>
    ⟨[field sst (45328 + i * 112) 32], diskSpec rec sst (45328 + i * 112)⟩
  else if p = py!"LVM" then (List.range (named sst 59664 112 256)).map fun i =>
    ⟨[field sst (59664 + i * 112) 32], diskSpec rec sst (59664 + i * 112)⟩
  else if p = py!"MEM" then [⟨[], fun _ => memSpec hb rec sst⟩]
  else if p = py!"NETL" then (List.range (named sst 8448 256 32)).map fun i =>
    ⟨[field sst (8448 + i * 256) 16], netlSpec rec sst (8448 + i * 256)⟩
  else if p = py!"NETU" then [⟨[], fun _ => netuSpec rec sst⟩]
  else if p = py!"PAG" then [⟨[], fun _ => pagSpec hb rec sst⟩]
  else if p = py!"PRC" then ts.map fun t => ⟨taskTexts t, prcSpec hb rec t⟩
  else if p = py!"PRG" then ts.map fun t => ⟨taskTexts t ++ [field t 88 151], prgSpec rec t⟩
  else if p = py!"PRM" then ts.map fun t => ⟨taskTexts t, prmSpec hb rec t⟩
  else if p = py!"PRN" then ts.map fun t => ⟨taskTexts t, prnSpec hb rec t⟩
  else if p = py!"SWP" then [⟨[], fun _ => swpSpec hb rec sst⟩]
  else []

/-- Everything that is wanted of a log: sample by sample, within a sample in the order the parseables are named. -/
def wantedLog (hb : Bytes) (names : List PyStr) (fs : List Found) : List (PyStr × Wanted) :=
  fs.flatMap fun f => names.flatMap fun p => (wanted hb f.record f.sstat f.tstats p).map (Prod.mk p)

/-- `v` is row `w` of parseable `p`, as printed. -/
def RowShows (p : PyStr) (w : Wanted) (v : JVal) : Prop := ∃ ss, Decoded w.texts ss ∧ v = labelled p (w.row ss)

end Atop.Spec
