import Verif.Spec.Wanted
import Verif.Spec.Sample
import Verif.Spec.Messages
import Verif.Model.Reader
/-!
# What `parse_file` must do with a file, whatever is in it

`Prescribed Z o file s r`: the call with options `o` on a file that opens as the stream `s` must end with `r`, a list of
entries or an exception.  Only the bytes and the container's error are consulted.
-/

namespace Atop.Spec

/-- Why a header (the first 480 bytes, zeros where the file is shorter) is refused, and the exception that says so. -/
inductive RefusedWith (hb : Bytes) : Exc → Prop
  /-- no magic number -/
  | magic {text} : u32 hb 0 ≠ 0xFEEDBEEF → MagicMessage hb text → RefusedWith hb (.valueError (.badMagic text))
  /-- lengths that are not those of the version -/
  | sizes {text} : u32 hb 0 = 0xFEEDBEEF → ¬ tooOld hb → ¬ lengthsMatch (usedRow hb) (readsCGroups hb) hb → SizesMessage hb text →
      RefusedWith hb (.valueError (.incompatible text))
  /-- an unsupported version that the code takes for one before 2.3 (`tooOld`) -/
  | old : u32 hb 0 = 0xFEEDBEEF → tooOld hb → RefusedWith hb .attributeError

/-- The end of the samples is not an error: there was none, or the block that does not decompress is taken for the end. -/
def EndsQuietly (short : Option Exc) (t : Option Trouble) : Prop := ∀ x, t = some x → troubleExc short x = .zlibError

/-- See the head of the file. -/
inductive Prescribed (Z : Zlib) (o : Opts) (file : PyStr) (s : Stream) : Except Exc (List JVal) → Prop
  /-- the container breaks off inside the header -/
  | noHeader {e} : s.short = some e → s.rest.length < 480 → Prescribed Z o file s (.error e)
  /-- the header is refused -/
  | refused {e} : s.short = none ∨ 480 ≤ s.rest.length → RefusedWith (first480 s.rest) e → Prescribed Z o file s (.error e)
  /-- full output: an entry for every sample -/
  | entries {fs t B docs} : s.short = none ∨ 480 ≤ s.rest.length → Accepts (first480 s.rest) → o.parseables = [] →
      decodeLog Z (usedRow (first480 s.rest)) (readsCGroups (first480 s.rest)) s.short.isNone 86400 (s.rest.drop 480) = (fs, t) →
      EndsQuietly s.short t → layoutOf (usedRow (first480 s.rest)).version = some B →
      AllShow (fun f v => EntryShows B (first480 s.rest) f.written o.showTstats o.showCstats v) fs docs →
      Prescribed Z o file s (.ok docs)
  /-- full output of samples that end in trouble: no output -/
  | trouble {fs t} : s.short = none ∨ 480 ≤ s.rest.length → Accepts (first480 s.rest) → o.parseables = [] →
      decodeLog Z (usedRow (first480 s.rest)) (readsCGroups (first480 s.rest)) s.short.isNone 86400 (s.rest.drop 480) = (fs, some t) →
      troubleExc s.short t ≠ .zlibError → Prescribed Z o file s (.error (troubleExc s.short t))
  /-- parseables of another version than 1.26 -/
  | unsupported : s.short = none ∨ 480 ≤ s.rest.length → Accepts (first480 s.rest) → o.parseables ≠ [] →
      ¬ (major (first480 s.rest) = 1 ∧ minor (first480 s.rest) = 26) → Prescribed Z o file s (.ok [.dict [
        (py!"error", .str (unsupportedMessage (versionText (major (first480 s.rest)) (minor (first480 s.rest))))),
        (py!"file", .str file)]])
  /-- parseables: a row for every wanted row -/
  | rows {fs t docs} : s.short = none ∨ 480 ≤ s.rest.length → Accepts (first480 s.rest) → o.parseables ≠ [] →
      major (first480 s.rest) = 1 ∧ minor (first480 s.rest) = 26 →
      decodeLog Z (usedRow (first480 s.rest)) (readsCGroups (first480 s.rest)) s.short.isNone 86400 (s.rest.drop 480) = (fs, t) →
      EndsQuietly s.short t →
      AllShow (fun q v => RowShows q.1 q.2 v) (wantedLog (first480 s.rest) o.parseables fs) docs →
      Prescribed Z o file s (.ok docs)
  /-- parseables of samples with a text that is not UTF-8: no output -/
  | badText {fs t} : s.short = none ∨ 480 ≤ s.rest.length → Accepts (first480 s.rest) → o.parseables ≠ [] →
      major (first480 s.rest) = 1 ∧ minor (first480 s.rest) = 26 →
      decodeLog Z (usedRow (first480 s.rest)) (readsCGroups (first480 s.rest)) s.short.isNone 86400 (s.rest.drop 480) = (fs, t) →
      (∃ q ∈ wantedLog (first480 s.rest) o.parseables fs, ¬ q.2.Good) → Prescribed Z o file s (.error .unicodeDecodeError)
  /-- parseables of samples that end in trouble: no output -/
  | rowTrouble {fs t} : s.short = none ∨ 480 ≤ s.rest.length → Accepts (first480 s.rest) → o.parseables ≠ [] →
      major (first480 s.rest) = 1 ∧ minor (first480 s.rest) = 26 →
      decodeLog Z (usedRow (first480 s.rest)) (readsCGroups (first480 s.rest)) s.short.isNone 86400 (s.rest.drop 480) = (fs, some t) →
      (∀ q ∈ wantedLog (first480 s.rest) o.parseables fs, q.2.Good) → troubleExc s.short t ≠ .zlibError →
      Prescribed Z o file s (.error (troubleExc s.short t))

end Atop.Spec
