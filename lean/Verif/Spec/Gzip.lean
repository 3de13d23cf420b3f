import Verif.Spec.Zlib
/-!
# The gzip container (RFC 1952)

Not code of the repo: the repo opens such files with `gzip.open` of the standard library.  Written from the RFC and
CPython 3.11's Lib/gzip.py (`_read_gzip_header`, `_GzipReader._read_eof`), and compared with `gzip.decompress` by
tools/gzip_compare.py.
-/

namespace Atop.Gzip
open Deflate

/-- One bit of the table-free CRC: `x^32 + x^26 + ...`, reflected. -/
def crcBit (c : Nat) : Nat := if c % 2 = 1 then (c / 2) ^^^ 0xEDB88320 else c / 2

/-- CRC-32 of the bytes (RFC 1952, section 8). -/
def crc32 (d : Bytes) : Nat :=
  (d.foldl (fun c x => crcBit (crcBit (crcBit (crcBit (crcBit (crcBit (crcBit (crcBit (c ^^^ x.toNat)))))))))
    0xFFFFFFFF) ^^^ 0xFFFFFFFF

/-- A text ended by a zero byte, skipped. -/
def skipText : P Unit := fun s =>
  if 0 ∈ s.bytes then some ((), ⟨s.bits, (s.bytes.dropWhile (· != 0)).drop 1⟩) else none

/-- Skip `p` if `c`. -/
def skipIf (c : Bool) (p : P Unit) : P Unit := if c then p else pure ()

/-- A member: header with optional parts (RFC 1952, 2.3), deflate data, CRC and length of the content. -/
def memberP (fuel : Nat) : P Bytes := do
  let id ← number 16
  let method ← number 8
  let flags ← number 8
  let _ ← takeBytes 6
  if id = 0x8B1F ∧ method = 8 then
    skipIf (flags.testBit 2) (do let n ← number 16; let _ ← takeBytes n)
    skipIf (flags.testBit 3) skipText
    skipIf (flags.testBit 4) skipText
    skipIf (flags.testBit 1) (do let _ ← takeBytes 2)
    let out ← blocks fuel []
    align
    let crc ← number 32
    let size ← number 32
    if crc = crc32 out.reverse ∧ size = out.length % 2 ^ 32 then return out.reverse else fail
  else fail

/-- The member at the beginning of `b`: its content, and the bytes behind it. -/
def member (b : Bytes) : Option (Bytes × Bytes) :=
  match memberP (8 * b.length + 1) ⟨[], b⟩ with
  | some (d, s) => some (d, s.bytes)
  | none => none

/-- At most `n` members, zero bytes allowed behind each: the contents one after the other. -/
def members : (n : Nat) → Bytes → Option Bytes
  | 0, b => if b = [] then some [] else none
  | n + 1, b =>
    if b = [] then some []
    else match member b with
      | none => none
      | some (d, rest) => (members n (rest.dropWhile (· == 0))).map (d ++ ·)

/-- The content of a gzip file; `none`: damaged. -/
def gunzip (b : Bytes) : Option Bytes := members b.length b

/-- What `gzip.open` gives for a file with the bytes `raw`, as far as it is needed: an intact file reads as its content;
from a damaged one the reads end in an exception; and if it is damaged by being cut, what can be read before that is the
beginning of the content, and the exception is `EOFError` or, when even the magic number of a member is cut, `OSError`.
How much of a cut content can be read is left open. -/
structure Opens (raw : Bytes) (s : Stream) : Prop where
  start : s.pos = 0
  intact : ∀ c, gunzip raw = some c → s.data = c ∧ s.short = none
  damaged : gunzip raw = none → s.short ≠ none
  cut : gunzip raw = none → ∀ more c, gunzip (raw ++ more) = some c →
    s.data <+: c ∧ (s.short = some .eofError ∨ s.short = some .osError)

end Atop.Gzip
