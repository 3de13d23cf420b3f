#!/usr/bin/env python3
"""Write lean/Verif/Props/RealLogs.lean: header and first sample of each sample log in /repo/atoparser/test/files."""
import glob, gzip, os, struct

OUT = os.path.join(os.path.dirname(os.path.dirname(os.path.abspath(__file__))), "lean/Verif/Props/RealLogs.lean")
HEAD = '''import Verif.Props.Damage
/-!
# The sample logs of the repository

Header and first sample of the fourteen files of `/repo/atoparser/test/files`, unpacked, as numbers (base 256, first byte
lowest).  They meet what the specification demands of a log: a valid header of a version of the table, then a sample laid out
as its record announces.  Hence the theorems about logs speak about files that atop itself has written.
Written by `tools/gen_logs.py`.
-/

namespace Atop.RealLogs
open Spec

/-- The `n` lowest bytes of a number. -/
def bytesOf : Nat → Nat → Bytes
  | 0, _ => []
  | n + 1, v => (v % 256).toUInt8 :: bytesOf n (v / 256)

/-- The first sample of a body, cut by the lengths its record announces. -/
def first (r : Row) (b : Bytes) : WSample :=
  let rec_ := b.take r.record
  let b1 := b.drop r.record
  let b2 := b1.drop (u32 rec_ 16)
  let b3 := b2.drop (u32 rec_ 20)
  { record := rec_, sstat := [], tstats := [], groups := [], zsstat := b1.take (u32 rec_ 16), ztstats := b2.take (u32 rec_ 20),
    zcstats := if r.cstat.isSome then b3.take (u32 rec_ 72) else [], zpids := if r.cstat.isSome then (b3.drop (u32 rec_ 72)).take (u32 rec_ 84) else [] }

/-- A log: a valid header of the version, then one sample laid out as its record announces. -/
def IsLog (version : PyStr) (b : Bytes) : Prop :=
  ∃ r ∈ table, r.version = version ∧ ∃ hb w, ValidHeader r hb ∧ w.Framed r ∧ b = hb ++ body r [w]

/-- The same, in a form the kernel can evaluate. -/
def IsLogNow (version : PyStr) (b : Bytes) : Prop :=
  let r := usedRow b
  let hb := b.take 480
  let w := first r (b.drop 480)
  r ∈ table ∧ r.version = version ∧
  (hb.length = 480 ∧ u32 hb 0 = magic ∧ major hb = r.major ∧ minor hb = r.minor ∧ lengthsMatch r r.cstat.isSome hb) ∧
  (w.record.length = r.record ∧ u32 w.record 16 = w.zsstat.length ∧ 0 < w.zsstat.length ∧ u32 w.record 20 = w.ztstats.length ∧
    (r.cstat.isSome → u32 w.record 72 = w.zcstats.length) ∧ (r.cstat.isSome → u32 w.record 84 = w.zpids.length)) ∧
  b = hb ++ body r [w]

instance (version : PyStr) (b : Bytes) : Decidable (IsLogNow version b) := by unfold IsLogNow lengthsMatch; infer_instance

theorem isLog {version : PyStr} {b : Bytes} (h : IsLogNow version b) : IsLog version b := by
  obtain ⟨h1, h2, ⟨a, b, c, d, e⟩, ⟨a', b', c', d', e', f'⟩, h5⟩ := h
  exact ⟨_, h1, h2, _, _, ⟨a, b, c, d, e⟩, ⟨a', b', c', d', e', f'⟩, h5⟩
'''
def main():
    out, shown = [HEAD], []
    for f in sorted(glob.glob("/repo/atoparser/test/files/*.gz")):
        d = gzip.open(f).read()
        M, m = d[5] & 127, d[4]
        p = 480 + (80 if (M, m) == (1, 26) else 96)
        rec = d[480:p]
        end = p + sum(struct.unpack_from("<II", rec, 16))
        if (M, m) >= (2, 11):
            end += struct.unpack_from("<I", rec, 72)[0] + struct.unpack_from("<I", rec, 84)[0]
        nm, v = os.path.basename(f).split(".")[0], f"{M}.{m}"
        b = d[:end]
        out.append(f"/-- Start of `atoparser/test/files/{nm}.log.gz`, unpacked. -/\ndef {nm} : Bytes := bytesOf {len(b)} 0x{int.from_bytes(b, 'little'):x}\n")
        shown.append(f'example : IsLog py!"{v}" {nm} := isLog (by decide +kernel)')
    out += shown
    out.append('''
/-- **C64** on such a file: with any decompressor the sample is yielded, or the iteration ends with one of the exceptions of a
damaged sample. -/
example {version : PyStr} {b : Bytes} (h : IsLog version b) (Z : Zlib) (rot : Bool) :
    (∃ x, (generateStatistics Z none rot 9 { data := b }).1 = [x]) ∨ (generateStatistics Z none rot 9 { data := b }).1 = [] := by
  obtain ⟨r, hr, -, hb, w, H, F, rfl⟩ := h
  obtain ⟨-, h2⟩ := C64_independent (Z := Z) hr H (ws := [w]) (by simpa using F) rot 9 (by simp) (s := { data := hb ++ body r [w] }) (by simp [Stream.rest]) rfl
  rcases h2 with ⟨h2, -⟩ | ⟨v, h2, -⟩
  · exact .inl (List.length_eq_one_iff.mp h2)
  · have := (List.getElem?_eq_some_iff.mp h2).1
    exact .inr (List.length_eq_zero_iff.mp (by simpa using this))

end Atop.RealLogs''')
    open(OUT, "w").write("\n".join(out) + "\n")
main()
