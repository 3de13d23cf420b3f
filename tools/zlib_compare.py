#!/usr/bin/env python3
"""Compare the decoder of lean/Verif/Spec/Zlib.lean with Python's zlib.decompress (standard library only).

usage: zlib_compare.py gen CASES     write test streams (hex, one per line, '=' first)
       zlib_compare.py check CASES RESULTS   compare with the decoder's output ('E' or '=' and hex per line)
"""
import random, sys, zlib

def streams(rng):
    texts = [b"", b"a", b"hello world", b"abc" * 50, bytes(300), bytes(range(256))]
    for _ in range(40):
        n = rng.choice([5, 30, 200, 600])
        k = rng.choice([2, 4, 20, 256])
        texts.append(bytes(rng.randrange(k) for _ in range(n)))
    for _ in range(20):
        texts.append(b" ".join(rng.choice([b"cpu", b"disk", b"mem", b"netw", b"process"]) for _ in range(rng.randrange(60))))
    for t in texts:
        for level in (0, 1, 6, 9):
            for strat in (zlib.Z_DEFAULT_STRATEGY, zlib.Z_HUFFMAN_ONLY, zlib.Z_FIXED, zlib.Z_RLE):
                for wbits in (15, 9):
                    c = zlib.compressobj(level, zlib.DEFLATED, wbits, rng.choice([1, 8]), strat)
                    h = len(t) // 2
                    s = c.compress(t[:h])
                    if rng.random() < .3: s += c.flush(rng.choice([zlib.Z_SYNC_FLUSH, zlib.Z_FULL_FLUSH, zlib.Z_PARTIAL_FLUSH]))
                    s += c.compress(t[h:]) + c.flush()
                    yield s

def fixadler(s):
    """keep corrupted deflate data interesting: recompute the checksum from what inflate gives"""
    d = zlib.decompressobj(-15)
    try: o = d.decompress(s[2:])
    except zlib.error: return None
    if not d.eof: return None
    n = len(s) - len(d.unused_data)
    return s[:n] + zlib.adler32(o).to_bytes(4, "big")

class Bits:
    def __init__(self): self.b = []
    def put(self, v, n): self.b += [(v >> i) & 1 for i in range(n)]
    def bytes(self):
        b = self.b + [0] * (-len(self.b) % 8)
        return bytes(sum(b[i + j] << j for j in range(8)) for i in range(0, len(b), 8))

ORDER = [16, 17, 18, 0, 8, 7, 9, 6, 10, 5, 11, 4, 12, 3, 13, 2, 14, 1, 15]

def crafted(rng):
    """dynamic headers with odd code length sets, random payload bits"""
    for _ in range(1500):
        w = Bits(); w.put(1, 1); w.put(2, 2)
        nlit = rng.choice([257, 257, 258, 260, 286, 287]); ndist = rng.choice([1, 1, 2, 3, 30, 31])
        w.put(nlit - 257, 5); w.put(ndist - 1, 5)
        # code length code: symbols 0..3,18 with lengths; complete mostly
        cl = rng.choice([{0: 1, 1: 2, 18: 2}, {0: 2, 1: 2, 2: 2, 18: 2}, {0: 2, 1: 2, 18: 2, 17: 3, 16: 3}, {1: 1}, {1: 1, 0: 1}, {0: 1, 1: 1, 18: 1}])
        w.put(15, 4)
        for k in ORDER: w.put(cl.get(k, 0), 3)
        # canonical codes
        codes = {}; code = 0
        for L in range(1, 8):
            for s in sorted(cl):
                if cl[s] == L: codes[s] = (code, L); code += 1
            code <<= 1
        def emit(s):
            if s not in codes: return False
            c, L = codes[s]
            for i in reversed(range(L)): w.put((c >> i) & 1, 1)
            return True
        lens = [0] * (nlit + ndist)
        if rng.random() < .95: lens[256] = rng.choice([1, 1, 2])
        for _ in range(rng.randrange(4)): lens[rng.randrange(257)] = rng.choice([1, 2])
        for _ in range(rng.randrange(3)): lens[nlit + rng.randrange(ndist)] = rng.choice([1, 1, 2])
        i = 0
        while i < len(lens):
            j = i
            while j < len(lens) and lens[j] == 0: j += 1
            r = min(j - i, 138)
            if r >= 11 and 18 in codes: emit(18); w.put(r - 11, 7); i += r
            else:
                emit(lens[i]); i += 1
        for _ in range(rng.randrange(40)): w.put(rng.randrange(2), 1)
        s = b"\x78\x9c" + w.bytes() + bytes(rng.randrange(256) for _ in range(rng.randrange(6)))
        f = fixadler(s)
        yield f if f is not None else s

def cases():
    rng = random.Random(7)
    for s in streams(rng):
        yield s
        r = rng.random()
        if r < .25: yield s[:rng.randrange(len(s))]
        elif r < .35: yield s + bytes(rng.randrange(256) for _ in range(rng.randrange(5)))
        else:
            b = bytearray(s)
            for _ in range(rng.choice([1, 1, 2])): b[rng.randrange(len(b))] ^= 1 << rng.randrange(8)
            yield bytes(b)
            f = fixadler(bytes(b))
            if f is not None: yield f
    for a in range(256):
        for b in (0, 1, 0x9c, 0x5e, 0xda, 0x20, 0x3f): yield bytes([a, b]) + zlib.compress(b"xyz")[2:]
        f = (a * 256) % 31
        yield bytes([a, (31 - f) % 31]) + zlib.compress(b"xyz")[2:]
        yield bytes([a, (31 - f) % 31 + 31]) + zlib.compress(b"xyz")[2:]
    yield from crafted(rng)

if sys.argv[1] == "gen":
    with open(sys.argv[2], "w") as f:
        for c in cases(): f.write("=" + c.hex() + "\n")
else:
    n = ok = good = 0
    for c, r in zip(open(sys.argv[2]), open(sys.argv[3])):
        n += 1
        try: want = "=" + zlib.decompress(bytes.fromhex(c[1:].strip())).hex()
        except zlib.error: want = "E"
        good += want != "E"
        if want == r.strip(): ok += 1
        else: print("DIFFERENT", c.strip()[:120], want[:60], r.strip()[:60])
    print(n, "streams,", good, "valid,", ok, "agree")
