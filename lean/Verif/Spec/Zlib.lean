import Verif.Model.Py
/-!
# The zlib format (RFC 1950) and its deflate data (RFC 1951)

Not code of the repo: the repo calls `zlib.decompress` of the standard library, and the model takes its behaviour as a
parameter `Z`.  This file writes down, from the two RFCs, what a zlib stream is, as a decoder of bytes, so that the
facts the theorems ask of `Z` (no proper prefix of a stream is a stream, bytes behind a stream do not matter, ...) can
be proved instead of assumed.  The rules on invalid streams are those of zlib's `inflate`; the decoder was compared
with Python's `zlib.decompress` on valid, cut and corrupted streams (tools/zlib_compare.py).
-/

namespace Atop.Deflate

/-- What is still to be read: the bits left of the current byte, next one first, and the bytes behind it. -/
structure St where
  bits : List Bool
  bytes : Bytes

/-- A decoder: `none` is an error (invalid or ended too early). -/
def P (α : Type) := St → Option (α × St)

instance : Monad P where
  pure a := fun s => some (a, s)
  bind p f := fun s =>
    match p s with
    | none => none
    | some (a, s') => f a s'

/-- An error. -/
def fail {α : Type} : P α := fun _ => none

/-- A table entry that must exist. -/
def need {α : Type} : Option α → P α
  | some a => pure a
  | none => fail

/-- The next bit: least significant bit of a byte first (RFC 1951, 3.1.1). -/
def bit : P Bool := fun s =>
  match s.bits, s.bytes with
  | b :: r, l => some (b, ⟨r, l⟩)
  | [], x :: l => some (x.toNat.testBit 0, ⟨[x.toNat.testBit 1, x.toNat.testBit 2, x.toNat.testBit 3,
      x.toNat.testBit 4, x.toNat.testBit 5, x.toNat.testBit 6, x.toNat.testBit 7], l⟩)
  | [], [] => none

/-- A number of `n` bits, least significant bit first. -/
def number : Nat → P Nat
  | 0 => pure 0
  | n + 1 => do
    let b ← bit
    let r ← number n
    return b.toNat + 2 * r

/-- Skip to the next byte boundary. -/
def align : P Unit := fun s => some ((), ⟨[], s.bytes⟩)

/-- The next `n` whole bytes. -/
def takeBytes (n : Nat) : P Bytes := fun s =>
  if n ≤ s.bytes.length then some (s.bytes.take n, ⟨s.bits, s.bytes.drop n⟩) else none

/-! ## Huffman codes (RFC 1951, 3.2.2) -/

/-- A canonical code: how many codes there are of length 1, 2, ..., 15, and the symbols in the order of their codes. -/
structure Code where
  counts : List Nat
  symbols : List Nat

/-- The code given by the code length of every symbol (0: not used). -/
def mkCode (lens : List Nat) : Code where
  counts := (List.range 15).map fun i => lens.countP (· == i + 1)
  symbols := (List.range 15).flatMap fun i => (List.range lens.length).filter fun k => lens.getD k 0 == i + 1

/-- Codes left over when codes of these lengths are given out; `none` when there are more than fit. -/
def codesLeft : List Nat → Nat → Option Nat
  | [], left => some left
  | n :: r, left => if 2 * left < n then none else codesLeft r (2 * left - n)

/-- Every bit sequence begins with a code word. -/
def complete (lens : List Nat) : Bool := codesLeft (mkCode lens).counts 1 == some 0

/-- zlib accepts complete codes, and incomplete ones without any code longer than one bit. -/
def usable (lens : List Nat) : Bool := complete lens || ((codesLeft (mkCode lens).counts 1).isSome && lens.all (· ≤ 1))

/-- Read a code word bit by bit: `code` the word so far doubled, `first` the smallest word of the current length,
`index` the number of shorter words. -/
def symbolFrom (symbols : List Nat) : List Nat → (code first index : Nat) → P Nat
  | [], _, _, _ => fail
  | n :: r, code, first, index => do
    let b ← bit
    let code := code + b.toNat
    if code < first + n then need symbols[index + (code - first)]?
    else symbolFrom symbols r (2 * code) (2 * (first + n)) (index + n)

/-- The next symbol. -/
def symbol (c : Code) : P Nat := symbolFrom c.symbols c.counts 0 0 0

/-! ## Blocks -/

/-- Smallest length and number of extra bits of the symbols 257, 258, ... (RFC 1951, 3.2.5). -/
def lengthTable : List (Nat × Nat) := [
  (3, 0), (4, 0), (5, 0), (6, 0), (7, 0), (8, 0), (9, 0), (10, 0), (11, 1), (13, 1), (15, 1), (17, 1),
  (19, 2), (23, 2), (27, 2), (31, 2), (35, 3), (43, 3), (51, 3), (59, 3), (67, 4), (83, 4), (99, 4), (115, 4),
  (131, 5), (163, 5), (195, 5), (227, 5), (258, 0)]

/-- Smallest distance and number of extra bits of the distance symbols 0, 1, .... -/
def distanceTable : List (Nat × Nat) := [
  (1, 0), (2, 0), (3, 0), (4, 0), (5, 1), (7, 1), (9, 2), (13, 2), (17, 3), (25, 3), (33, 4), (49, 4), (65, 5), (97, 5),
  (129, 6), (193, 6), (257, 7), (385, 7), (513, 8), (769, 8), (1025, 9), (1537, 9), (2049, 10), (3073, 10),
  (4097, 11), (6145, 11), (8193, 12), (12289, 12), (16385, 13), (24577, 13)]

/-- Append `n` bytes, each the one written `dist` places before it (`out` is the output, last byte first). -/
def copyBack (dist : Nat) : Nat → Bytes → Bytes
  | 0, out => out
  | n + 1, out => copyBack dist n (out.getD (dist - 1) 0 :: out)

/-- Literals and copies up to the end-of-block symbol 256; at most `fuel` symbols. -/
def symbols (lit dist : Code) : (fuel : Nat) → Bytes → P Bytes
  | 0, _ => fail
  | n + 1, out => do
    let s ← symbol lit
    if s < 256 then symbols lit dist n (UInt8.ofNat s :: out)
    else if s = 256 then return out
    else
      let (base, extra) ← need lengthTable[s - 257]?
      let more ← number extra
      let d ← symbol dist
      let (dbase, dextra) ← need distanceTable[d]?
      let dmore ← number dextra
      if out.length < dbase + dmore then fail
      else symbols lit dist n (copyBack (dbase + dmore) (base + more) out)

/-- A stored block (RFC 1951, 3.2.4): length, its complement, the bytes. -/
def storedBlock (out : Bytes) : P Bytes := do
  align
  let len ← number 16
  let nlen ← number 16
  if len + nlen = 65535 then return (← takeBytes len).reverse ++ out
  else fail

/-- The fixed codes (RFC 1951, 3.2.6). -/
def fixedLit : Code := mkCode (List.replicate 144 8 ++ List.replicate 112 9 ++ List.replicate 24 7 ++ List.replicate 8 8)
def fixedDist : Code := mkCode (List.replicate 30 5)

/-- The order in which the lengths of the code length code are stored (RFC 1951, 3.2.7). -/
def lengthOrder : List Nat := [16, 17, 18, 0, 8, 7, 9, 6, 10, 5, 11, 4, 12, 3, 13, 2, 14, 1, 15]

/-- `n` numbers of three bits. -/
def threes : Nat → P (List Nat)
  | 0 => pure []
  | n + 1 => do
    let x ← number 3
    return x :: (← threes n)

/-- The code lengths, run-length coded, until there are `total` of them; `acc` the ones so far, last one first. -/
def lengths (c : Code) (total : Nat) : (fuel : Nat) → List Nat → P (List Nat)
  | 0, acc => if acc.length = total then return acc.reverse else fail
  | n + 1, acc =>
    if acc.length = total then return acc.reverse
    else do
      let s ← symbol c
      if s < 16 then lengths c total n (s :: acc)
      else
        let v ← need (if s = 16 then acc.head? else some 0)
        let k ← number (if s = 16 then 2 else if s = 17 then 3 else 7)
        let k := k + (if s = 18 then 11 else 3)
        if total < acc.length + k then fail
        else lengths c total n (List.replicate k v ++ acc)

/-- The two codes of a dynamic block (RFC 1951, 3.2.7). -/
def dynamicCodes : P (Code × Code) := do
  let nlit ← number 5
  let ndist ← number 5
  let nlen ← number 4
  if 286 < nlit + 257 ∨ 30 < ndist + 1 then fail
  else
    let given ← threes (nlen + 4)
    let cl := (List.range 19).map fun k => given.getD (lengthOrder.idxOf k) 0
    if complete cl then
      let lens ← lengths (mkCode cl) (nlit + 257 + (ndist + 1)) (nlit + 257 + (ndist + 1)) []
      let lit := lens.take (nlit + 257)
      let dist := lens.drop (nlit + 257)
      if lit.getD 256 0 ≠ 0 ∧ usable lit ∧ usable dist then return (mkCode lit, mkCode dist)
      else fail
    else fail

/-- The content of a block of the given kind. -/
def block (kind fuel : Nat) (out : Bytes) : P Bytes :=
  if kind = 0 then storedBlock out
  else if kind = 1 then symbols fixedLit fixedDist fuel out
  else if kind = 2 then do
    let c ← dynamicCodes
    symbols c.1 c.2 fuel out
  else fail

/-- Blocks up to the one marked as the last; at most `fuel` of them. -/
def blocks : (fuel : Nat) → Bytes → P Bytes
  | 0, _ => fail
  | n + 1, out => do
    let final ← bit
    let kind ← number 2
    let out ← block kind n out
    if final then return out else blocks n out

/-! ## The zlib wrapper (RFC 1950) -/

/-- Adler-32 checksum. -/
def adler32 (d : Bytes) : Nat :=
  let r := d.foldl (fun (ab : Nat × Nat) x => ((ab.1 + x.toNat) % 65521, (ab.2 + (ab.1 + x.toNat)) % 65521)) (1, 0)
  r.2 * 65536 + r.1

/-- A whole zlib stream; `fuel` bounds the symbols and blocks. -/
def stream (fuel : Nat) : P Bytes := do
  let cmf ← number 8
  let flg ← number 8
  -- method deflate, window at most 32 KiB, check bits, no preset dictionary
  if cmf % 16 = 8 ∧ cmf / 16 ≤ 7 ∧ (256 * cmf + flg) % 31 = 0 ∧ flg / 32 % 2 = 0 then
    let out ← blocks fuel []
    align
    let a ← number 8
    let b ← number 8
    let c ← number 8
    let d ← number 8
    if 16777216 * a + 65536 * b + 256 * c + d = adler32 out.reverse then return out.reverse else fail
  else fail

/-- The zlib stream at the beginning of `b`: its content, and the bytes behind the stream. -/
def unpack (b : Bytes) : Option (Bytes × Bytes) :=
  match stream (8 * b.length + 1) ⟨[], b⟩ with
  | some (d, s) => some (d, s.bytes)
  | none => none

/-- `zlib.decompress`: the content of the stream the argument begins with; `none` is `zlib.error`. -/
def decompress (b : Bytes) : Option Bytes := (unpack b).map Prod.fst

end Atop.Deflate
