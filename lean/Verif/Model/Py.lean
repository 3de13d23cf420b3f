import Lean
/-!
# Python runtime fragments used by the model

Small, total functions standing for the pieces of the Python 3 language and standard library that
`atoparser` leans on: strings as sequences of code points, exceptions as values, slice semantics,
and a binary stream (`io.BytesIO` / an opened file).  Nothing here is specific to Atop.
-/

namespace Atop

/-- A Python `bytes` value. -/
abbrev Bytes := List UInt8

/-- A Python `str`: the sequence of its code points. -/
abbrev PyStr := List Nat

open Lean in
/-- `py!"abc"` is the code point list of the literal, written out at elaboration time. -/
macro:max "py!" noWs s:str : term => do
  let cs := s.getString.toList.map fun c => Syntax.mkNumLit (toString c.toNat)
  `(([$(cs.toArray),*] : PyStr))

/-- Why a `ValueError` was raised (the Python messages differ, so the cause is observable).  The two causes raised by
the library itself carry their text, `str(e)`. -/
inductive ValueWhy
  /-- atoparser/utils.py:150-152 "wrong magic number" -/
  | badMagic (text : PyStr)
  /-- atoparser/structs/shared.py:58-61 "incompatible Atop format" -/
  | incompatible (text : PyStr)
  /-- ctypes `from_buffer`/`from_buffer_copy`: "Buffer size too small" -/
  | bufferTooSmall
  /-- ctypes `T * n` with `n < 0`: "Array length must be >= 0" -/
  | negativeLength
  /-- `int(text)` on a non-numeric text -/
  | badInt
  deriving DecidableEq, Repr

/-- Python exceptions that can leave the modelled code, as values. -/
inductive Exc
  | valueError (why : ValueWhy)
  | attributeError
  | typeError
  | keyError
  /-- `zlib.error` -/
  | zlibError
  /-- `EOFError`, raised by `gzip` when a `.gz` container ends early -/
  | eofError
  /-- `UnicodeDecodeError` (a subclass of `ValueError`, raised by strict `bytes.decode()`) -/
  | unicodeDecodeError
  /-- `OSError` and subclasses: `FileNotFoundError`, `gzip.BadGzipFile`, ... -/
  | osError
  deriving DecidableEq, Repr

instance decExcept {α : Type} [DecidableEq α] : DecidableEq (Except Exc α) := fun a b =>
  match a, b with
  | .ok x, .ok y => if h : x = y then isTrue (by rw [h]) else isFalse (by intro e; cases e; exact h rfl)
  | .error x, .error y =>
    if h : x = y then isTrue (by rw [h]) else isFalse (by intro e; cases e; exact h rfl)
  | .ok _, .error _ => isFalse (by intro e; cases e)
  | .error _, .ok _ => isFalse (by intro e; cases e)

/-- Python's clamping of one slice bound against a sequence of length `len`
(`PySlice_AdjustIndices` with step 1). -/
def sliceBound (len : Nat) (i : Int) : Nat :=
  if i < 0 then (i + len).toNat else min i.toNat len

/-- `xs[a:b]` with possibly negative integer bounds. -/
def pySlice {α : Type} (xs : List α) (a b : Int) : List α :=
  (xs.take (sliceBound xs.length b)).drop (sliceBound xs.length a)

/-- `xs[:b]`. -/
def pySliceTo {α : Type} (xs : List α) (b : Int) : List α :=
  xs.take (sliceBound xs.length b)

/-- `needle in haystack` for Python strings. -/
def pyContains (needle : PyStr) : PyStr → Bool
  | [] => needle.isEmpty
  | c :: cs => needle.isPrefixOf (c :: cs) || pyContains needle cs

/-! ## Binary streams -/

/-- An open binary file: its whole content, the read position, and what happens when a read asks for
more than is left.  `short = none` is a plain file or `io.BytesIO`: the read is silently short.
`short = some e` is a damaged `.gz` opened with `gzip.open`: `data` is what can still be
decompressed, and a read reaching past it raises `e` (`EOFError` when the container was cut,
`zlib.error`/`OSError` when it is corrupt). -/
structure Stream where
  data : Bytes
  pos : Nat := 0
  short : Option Exc := none
  deriving DecidableEq

/-- The unread bytes. -/
def Stream.rest (s : Stream) : Bytes := s.data.drop s.pos

/-- A computation that reads the stream and may raise.  The position is kept when it raises. -/
def Rd (α : Type) := Stream → Except Exc α × Stream

namespace Rd
def pure {α} (a : α) : Rd α := fun s => (.ok a, s)
def bind {α β} (m : Rd α) (f : α → Rd β) : Rd β := fun s =>
  match m s with
  | (.ok a, s') => f a s'
  | (.error e, s') => (.error e, s')
instance : Monad Rd where
  pure := Rd.pure
  bind := Rd.bind
/-- A step that does not touch the stream. -/
def lift {α} (x : Except Exc α) : Rd α := fun s => (x, s)
/-- `raise` -/
def raise {α} (e : Exc) : Rd α := fun s => (.error e, s)
end Rd

/-- `raw_file.read(n)` for `n ≥ 0` (all lengths passed by the code are unsigned C fields). -/
def Stream.read (n : Nat) : Rd Bytes := fun s =>
  if n ≤ s.rest.length then
    (.ok (s.rest.take n), { s with pos := s.pos + n })
  else
    match s.short with
    | none => (.ok s.rest, { s with pos := s.pos + s.rest.length })
    | some e => (.error e, { s with pos := s.pos + s.rest.length })

/-- `raw_file.readinto(obj)` on a freshly created (all zero) ctypes object of `size` bytes: a short
read leaves the tail of the object zero. -/
def Stream.readinto (size : Nat) : Rd Bytes := do
  let got ← Stream.read size
  return got ++ List.replicate (size - got.length) 0

end Atop
