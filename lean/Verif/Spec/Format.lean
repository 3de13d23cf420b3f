import Verif.Model.Py
/-!
# The atop raw file format, in literal numbers

Independent of the model: bytes, little-endian fields at literal offsets, and the table of supported
versions with the sizes of their structures.  The sizes are those the project's own test-suite lists for
each version (atoparser/test/test_atoparser.py) and those atop itself writes into its headers.
-/

namespace Atop.Spec

/-- Byte `i`; bytes that are not there count as zero. -/
def u8 (b : Bytes) (i : Nat) : Nat := (b.getD i 0).toNat

/-- Unsigned little-endian 16-bit field at offset `o`. -/
def u16 (b : Bytes) (o : Nat) : Nat := u8 b o + 256 * u8 b (o + 1)

/-- Unsigned little-endian 32-bit field at offset `o`. -/
def u32 (b : Bytes) (o : Nat) : Nat := u16 b o + 65536 * u16 b (o + 2)

/-- Unsigned little-endian 64-bit field at offset `o`. -/
def u64 (b : Bytes) (o : Nat) : Nat := u32 b o + 4294967296 * u32 b (o + 4)

/-- Two's complement reading of `n` as a number of `bits` bits. -/
def signed (bits n : Nat) : Int := if n < 2 ^ (bits - 1) then (n : Int) else (n : Int) - (2 ^ bits : Nat)

/-- Signed little-endian fields. -/
def i16 (b : Bytes) (o : Nat) : Int := signed 16 (u16 b o)
def i32 (b : Bytes) (o : Nat) : Int := signed 32 (u32 b o)
def i64 (b : Bytes) (o : Nat) : Int := signed 64 (u64 b o)

/-- One supported version: its number and the sizes of its structures (`cstat = none`: the format has
no cgroup statistics). -/
structure Row where
  version : PyStr
  major : Nat
  minor : Nat
  record : Nat
  sstat : Nat
  tstat : Nat
  cstat : Option Nat
  deriving DecidableEq

/-- The supported versions. -/
def table : List Row := [
  ⟨py!"1.26",  1, 26, 80,   88368, 616, none⟩,
  ⟨py!"2.3",   2,  3, 96,  711904, 784, none⟩,
  ⟨py!"2.4",   2,  4, 96,  716656, 840, none⟩,
  ⟨py!"2.5",   2,  5, 96,  716656, 840, none⟩,
  ⟨py!"2.6",   2,  6, 96,  716656, 840, none⟩,
  ⟨py!"2.7",   2,  7, 96,  954360, 840, none⟩,
  ⟨py!"2.8",   2,  8, 96, 1021960, 968, none⟩,
  ⟨py!"2.9",   2,  9, 96, 1021960, 968, none⟩,
  ⟨py!"2.10",  2, 10, 96, 1030216, 992, none⟩,
  ⟨py!"2.11",  2, 11, 96, 1064016, 968, some 432⟩,
  ⟨py!"2.12",  2, 12, 96, 1064016, 968, some 432⟩]

/-- Magic number of raw logs. -/
def magic : Nat := 0xFEEDBEEF

/-- Major and minor version of a header: bits 8-14 and 0-7 of the 16-bit word at offset 4. -/
def major (hb : Bytes) : Nat := u8 hb 5 % 128
def minor (hb : Bytes) : Nat := u8 hb 4

/-- The lengths recorded in a header equal the structure sizes of `r`:
header length at 10, record length at 12, system statistics length at 28, task statistics length at 32
and, when cgroups are part of the format, cgroup length at 456. -/
def lengthsMatch (r : Row) (withCGroups : Bool) (hb : Bytes) : Prop :=
  u16 hb 10 = 480 ∧ u16 hb 12 = r.record ∧ u32 hb 28 = r.sstat ∧ u32 hb 32 = r.tstat ∧
  (withCGroups = true → some (u32 hb 456) = r.cstat)

instance (r w hb) : Decidable (lengthsMatch r w hb) := by unfold lengthsMatch; infer_instance

/-- A complete, valid header of version `r`. -/
structure ValidHeader (r : Row) (hb : Bytes) : Prop where
  length : hb.length = 480
  magic : u32 hb 0 = magic
  major : major hb = r.major
  minor : minor hb = r.minor
  lengths : lengthsMatch r r.cstat.isSome hb

/-- The table row of a version number, if that version is supported. -/
def rowFor (M m : Nat) : Option Row := table.find? (fun r => r.major == M && r.minor == m)

/-- Row of the newest version, used for versions that are not in the table. -/
def newest : Row := ⟨py!"2.12", 2, 12, 96, 1064016, 968, some 432⟩

/-- The row whose structures are used for a header. -/
def usedRow (hb : Bytes) : Row := (rowFor (major hb) (minor hb)).getD newest

/-- Are cgroups read after the tasks? -/
def readsCGroups (hb : Bytes) : Bool := decide (2 ≤ major hb ∧ 11 ≤ minor hb)

/-- Is it an unsupported version that predates the tstat layout ("before 2.3" by the code's test)? -/
def tooOld (hb : Bytes) : Prop := rowFor (major hb) (minor hb) = none ∧ ¬ (2 ≤ major hb ∧ 3 ≤ minor hb)

instance (hb) : Decidable (tooOld hb) := by unfold tooOld; infer_instance

/-- The rule deciding whether a header is accepted. -/
def Accepts (hb : Bytes) : Prop :=
  u32 hb 0 = magic ∧ ¬ tooOld hb ∧ lengthsMatch (usedRow hb) (readsCGroups hb) hb

instance (hb) : Decidable (Accepts hb) := by unfold Accepts; infer_instance

/-- The first 480 bytes of a file, missing ones being zero. -/
def first480 (b : Bytes) : Bytes := b.take 480 ++ List.replicate (480 - b.length) 0

/-- Text of a version number, `"major.minor"` in decimal, as code points. -/
def versionText (M m : Nat) : PyStr := s!"{M}.{m}".toList.map Char.toNat

/-! ## Samples as atop writes them -/

/-- `blob` is a compressed form of `content`: decompression gives it back, and no proper prefix of the
blob decompresses. -/
structure Packs (Z : Bytes → Option Bytes) (blob content : Bytes) : Prop where
  inv : Z blob = some content
  cut : ∀ k, k < blob.length → Z (blob.take k) = none
  pos : 0 < blob.length

/-- One cgroup as written: its entry in the cgroup chain (the fixed structure, then the variable part
holding its name), and its process ids, four bytes each. -/
structure WGroup where
  entry : Bytes
  pids : Bytes

/-- One sample as written. -/
structure WSample where
  record : Bytes
  sstat : Bytes
  tstats : List Bytes
  groups : List WGroup
  /-- compressed forms -/
  zsstat : Bytes
  ztstats : Bytes
  zcstats : Bytes
  zpids : Bytes

/-- The bytes of the sample in the file. -/
def WSample.bytes (r : Row) (w : WSample) : Bytes :=
  w.record ++ w.zsstat ++ w.ztstats ++ (if r.cstat.isSome then w.zcstats ++ w.zpids else [])

/-- What the format requires of one sample of version `r`. -/
structure WSample.Valid (Z : Bytes → Option Bytes) (r : Row) (w : WSample) : Prop where
  record_len : w.record.length = r.record
  sstat_len : w.sstat.length = r.sstat
  tstat_len : ∀ t ∈ w.tstats, t.length = r.tstat
  zsstat : Packs Z w.zsstat w.sstat
  ztstats : Packs Z w.ztstats w.tstats.flatten
  scomplen : u32 w.record 16 = w.zsstat.length
  pcomplen : u32 w.record 20 = w.ztstats.length
  ntasks : u32 w.record 28 = w.tstats.length
  noGroups : r.cstat = none → w.groups = []
  zcstats : r.cstat.isSome → Packs Z w.zcstats (w.groups.map WGroup.entry).flatten
  zpids : r.cstat.isSome → Packs Z w.zpids (w.groups.map WGroup.pids).flatten
  ncgroups : r.cstat.isSome → u16 w.record 10 = w.groups.length
  ccomplen : r.cstat.isSome → u32 w.record 72 = w.zcstats.length
  icomplen : r.cstat.isSome → u32 w.record 84 = w.zpids.length
  groups : ∀ g ∈ w.groups, ∀ n, r.cstat = some n →
    n ≤ g.entry.length ∧ i32 g.entry 0 = g.entry.length ∧ 4 * i32 g.entry 16 = g.pids.length

/-- The bytes of a sample are laid out as its record announces; nothing is required of their contents. -/
structure WSample.Framed (r : Row) (w : WSample) : Prop where
  record_len : w.record.length = r.record
  scomplen : u32 w.record 16 = w.zsstat.length
  present : 0 < w.zsstat.length
  pcomplen : u32 w.record 20 = w.ztstats.length
  ccomplen : r.cstat.isSome → u32 w.record 72 = w.zcstats.length
  icomplen : r.cstat.isSome → u32 w.record 84 = w.zpids.length

/-- The samples of a log, one after the other. -/
def body (r : Row) (ws : List WSample) : Bytes := (ws.map (WSample.bytes r)).flatten

/-- The samples of `ws` whose bytes lie completely within the first `k` bytes of the body. -/
def completeWithin (r : Row) : List WSample → Nat → List WSample
  | [], _ => []
  | w :: ws, k =>
    if (w.bytes r).length ≤ k then w :: completeWithin r ws (k - (w.bytes r).length) else []

/-- The bytes, among the first `k` of the body, that follow the complete samples: what is present of the
interrupted sample. -/
def interrupted (r : Row) : List WSample → Nat → Bytes
  | [], _ => []
  | w :: ws, k =>
    if (w.bytes r).length ≤ k then interrupted r ws (k - (w.bytes r).length) else (w.bytes r).take k

end Atop.Spec
