#!/usr/bin/env python3
"""Compare `Gzip.gunzip` of lean/Verif/Spec/Gzip.lean with Python's gzip module (standard library only), and check the
assumptions on `gzip.open` made in `Opens`: data before the failure is a prefix of the content, cut files raise
EOFError or OSError.

usage: gzip_compare.py [N]   (needs a built lean/ tree)
"""
import gzip, io, os, random, struct, subprocess, sys, tempfile, zlib
LEAN = os.path.join(os.path.dirname(os.path.dirname(os.path.abspath(__file__))), "lean")
SCRIPT = '''import Verif.Spec.Gzip
open Atop
def hex (c : Char) : Nat := if c.isDigit then c.toNat - 48 else c.toNat - 87
def dec : List Char -> Bytes
  | a :: b :: r => UInt8.ofNat (16 * hex a + hex b) :: dec r
  | _ => []
def enc (b : Bytes) : String := String.ofList (b.flatMap fun x => [Nat.digitChar (x.toNat / 16), Nat.digitChar (x.toNat % 16)])
def main (args : List String) : IO UInt32 := do
  for l in (<- IO.FS.lines args.head!) do
    match Gzip.gunzip (dec (l.toList.drop 1)) with
    | none => IO.println "E"
    | some d => IO.println ("=" ++ enc d)
  return 0
'''

def member(rng, d):
    c = zlib.compressobj(rng.choice([0, 1, 6, 9]), zlib.DEFLATED, -15, 8, rng.choice([0, 1, 2, 3, 4]))
    body = c.compress(d) + c.flush()
    fl = rng.choice([0, 0, 0, 8, 4, 16, 2, rng.randrange(256)])
    h = b"\x1f\x8b\x08" + bytes([fl]) + bytes(rng.randrange(256) for _ in range(6))
    if fl & 4: n = rng.randrange(6); h += struct.pack("<H", n) + bytes(rng.randrange(256) for _ in range(n))
    for f in (8, 16):
        if fl & f: h += bytes(rng.randrange(1, 256) for _ in range(rng.randrange(6))) + b"\0"
    if fl & 2: h += b"ab"
    return h + body + struct.pack("<II", zlib.crc32(d), len(d) & 0xffffffff)

def text(rng):
    return bytes(rng.randrange(rng.choice([2, 5, 256])) for _ in range(rng.choice([0, 1, 3, 20, 90])))

def read(b):
    """all that can be read byte by byte, and the exception"""
    out = b""
    f = gzip.open(io.BytesIO(b), "rb")
    try:
        while True:
            c = f.read(1)
            if c == b"": return out, None
            out += c
    except Exception as e:
        return out, e

def main():
    rng = random.Random(7)
    n = int(sys.argv[1]) if len(sys.argv) > 1 else 400
    cases = []   # (bytes, content of an intact extension or None)
    for _ in range(n):
        ds = [text(rng) for _ in range(rng.choice([1, 1, 1, 2, 3]))]
        f = b"".join(member(rng, d) + bytes(rng.choice([0, 0, 0, 1, 5])) for d in ds)
        content = b"".join(ds)
        cases.append((f, content))
        for _ in range(6): cases.append((f[:rng.randrange(len(f) + 1)], content))
        for _ in range(4):
            g = bytearray(f); g[rng.randrange(len(g))] ^= 1 << rng.randrange(8); cases.append((bytes(g), None))
        cases.append((f + bytes(rng.randrange(256) for _ in range(rng.randrange(1, 4))), None))
    w = tempfile.mkdtemp()
    open(w + "/s.lean", "w").write(SCRIPT)
    open(w + "/cases", "w").write("".join("=" + c.hex() + "\n" for c, _ in cases))
    out = subprocess.run(["lake", "env", "lean", "--run", w + "/s.lean", w + "/cases"], cwd=LEAN, stdout=subprocess.PIPE, text=True).stdout.split("\n")
    bad = 0; stats = {}
    for (c, content), l in zip(cases, out):
        d, e = read(c)
        want = "E" if e is not None else "=" + d.hex()
        ok = l == want
        if content is not None:   # `Opens` of Props/Gzip.lean
            ok = ok and content.startswith(d) and (e is None or isinstance(e, (EOFError, OSError)) and not isinstance(e, zlib.error))
        stats[type(e).__name__] = stats.get(type(e).__name__, 0) + 1
        if not ok: bad += 1; print("DIFFERENT", c.hex(), want[:80], l[:80], repr(e))
    print(len(cases), "cases,", bad, "different", stats)
    sys.exit(bad != 0)
main()
