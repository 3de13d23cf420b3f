import Verif.Model.Py
/-!
# `ctypes` structures: C layout, instances, attribute access

`ctypes.Structure` with `_fields_` and no `_pack_` follows the platform C ABI.  The model fixes the
ABI atop log files are written with: LP64, little endian, natural alignment (x86-64/aarch64 Linux).
-/

namespace Atop

mutual
/-- A ctypes type as used in /repo/atoparser/structs/*.py. -/
inductive CType
  /-- fixed-width integer of `size` bytes -/
  | int (size : Nat) (signed : Bool)
  /-- `ctypes.c_float` -/
  | float
  /-- `ctypes.c_char` -/
  | char
  /-- `elem * len` -/
  | array (elem : CType) (len : Nat)
  /-- a `ctypes.Structure` subclass: class identity, `_fields_`, `fields_limiters` -/
  | struct (cls : PyStr) (fields : Fields) (limiters : List (PyStr × PyStr))
/-- The `_fields_` list. -/
inductive Fields
  | nil
  | cons (name : PyStr) (ty : CType) (rest : Fields)
end

/-- `_fields_` written as a Python list of pairs. -/
def Fields.ofList : List (PyStr × CType) → Fields
  | [] => .nil
  | (n, t) :: r => .cons n t (ofList r)

/-- The Python list of pairs back. -/
def Fields.toList : Fields → List (PyStr × CType)
  | .nil => []
  | .cons n t r => (n, t) :: r.toList

/-! Primitive types: `ctypes` names used by the struct modules (LP64 widths). -/
abbrev c_char : CType := .char
abbrev c_float : CType := .float
abbrev c_uint8 : CType := .int 1 false
abbrev c_short : CType := .int 2 true
abbrev c_ushort : CType := .int 2 false
abbrev c_int : CType := .int 4 true
abbrev c_int32 : CType := .int 4 true
abbrev c_uint : CType := .int 4 false
abbrev c_long : CType := .int 8 true
abbrev c_ulong : CType := .int 8 false
abbrev c_longlong : CType := .int 8 true
/-- atoparser/structs/shared.py:17 -/
abbrev time_t : CType := c_long
/-- atoparser/structs/shared.py:20 -/
abbrev count_t : CType := c_longlong
/-- atoparser/structs/shared.py:23 -/
abbrev off_t : CType := c_long
/-- atoparser/structs/shared.py:24 -/
abbrev pid_t : CType := c_int

/-- Smallest multiple of `a` that is at least `n`. -/
def roundUp (n a : Nat) : Nat := (n + a - 1) / a * a

mutual
/-- `ctypes.alignment` under the C ABI. -/
def CType.align : CType → Nat
  | .int n _ => n
  | .float => 4
  | .char => 1
  | .array e _ => e.align
  | .struct _ fs _ => fs.align
/-- Alignment of a structure: the largest field alignment. -/
def Fields.align : Fields → Nat
  | .nil => 1
  | .cons _ t r => max t.align r.align
end

mutual
/-- `ctypes.sizeof`. -/
def CType.size : CType → Nat
  | .int n _ => n
  | .float => 4
  | .char => 1
  | .array e n => n * e.size
  | .struct _ fs _ => roundUp (fs.endOff 0) fs.align
/-- First byte after the last field, when the first field may start at `off`. -/
def Fields.endOff : Fields → Nat → Nat
  | .nil, off => off
  | .cons _ t r, off => r.endOff (roundUp off t.align + t.size)
end

/-- Offset and type of the field called `name`, the layout starting at `off`.
(Names are unique in every structure of the repo, so "first match" and Python's "last definition
wins" agree; proved in Verif/Props/Schema.lean.) -/
def Fields.lookup (name : PyStr) : Fields → Nat → Option (Nat × CType)
  | .nil, _ => none
  | .cons n t r, off =>
    if n = name then some (roundUp off t.align, t)
    else r.lookup name (roundUp off t.align + t.size)

/-! ## Reading memory -/

/-- Little-endian unsigned value of a byte string. -/
def leNat : Bytes → Nat
  | [] => 0
  | b :: r => b.toNat + 256 * leNat r

/-- Value of a fixed-width little-endian integer; two's complement when signed. -/
def leInt (signed : Bool) (bs : Bytes) : Int :=
  if signed && decide (2 ^ (8 * bs.length - 1) ≤ leNat bs) then
    (leNat bs : Int) - (2 ^ (8 * bs.length) : Nat)
  else (leNat bs : Int)

/-- Bytes before the first NUL (what ctypes returns for a `c_char * n` field). -/
def cstr (bs : Bytes) : Bytes := bs.takeWhile (· != 0)

/-- A Python object obtained from a ctypes instance.  Structures and arrays stay views over memory;
a float is carried by its IEEE-754 binary32 bit pattern. -/
inductive PyObj
  | int (i : Int)
  | float (bits : Nat)
  | bytes (b : Bytes)
  | struct (cls : PyStr) (fields : Fields) (limiters : List (PyStr × PyStr)) (buf : Bytes)
  | array (elem : CType) (len : Nat) (buf : Bytes)

/-- Object produced by indexing/iterating a ctypes array (or reading a nested object) of type `t`. -/
def pyItem (t : CType) (buf : Bytes) : PyObj :=
  match t with
  | .int _ s => .int (leInt s buf)
  | .float => .float (leNat buf)
  | .char => .bytes buf
  | .array e n => .array e n buf
  | .struct c fs l => .struct c fs l buf

/-- Object produced by `getattr(struct, field)` for a field of type `t` occupying `buf`: as
`pyItem`, except that ctypes turns a `c_char * n` field into `bytes` cut at the first NUL. -/
def pyField (t : CType) (buf : Bytes) : PyObj :=
  match t with
  | .array .char _ => .bytes (cstr buf)
  | t => pyItem t buf

/-- The `i`-th chunk of `w` bytes. -/
def chunk (buf : Bytes) (w i : Nat) : Bytes := (buf.drop (i * w)).take w

/-- Memory of each element of an array of `n` elements of `w` bytes. -/
def chunks (buf : Bytes) (w n : Nat) : List Bytes := (List.range n).map (chunk buf w)

/-- A ctypes instance: its type and its memory. -/
structure Inst where
  ty : CType
  buf : Bytes

/-- `getattr` on the memory of a structure. -/
def Fields.getattr (fs : Fields) (buf : Bytes) (name : PyStr) : Except Exc PyObj :=
  match fs.lookup name 0 with
  | none => .error .attributeError
  | some (off, t) => .ok (pyField t ((buf.drop off).take t.size))

/-- `obj.name` on any object: only structures have the fields. -/
def PyObj.attr (o : PyObj) (name : PyStr) : Except Exc PyObj :=
  match o with
  | .struct _ fs _ buf => fs.getattr buf name
  | _ => .error .attributeError

/-- An instance as a Python object. -/
def Inst.obj (x : Inst) : PyObj := pyItem x.ty x.buf

/-- `x.name` -/
def Inst.attr (x : Inst) (name : PyStr) : Except Exc PyObj := x.obj.attr name

/-- Use of an object where Python needs an `int` (comparison, slicing, `range`). -/
def PyObj.asInt : PyObj → Except Exc Int
  | .int i => .ok i
  | _ => .error .typeError

/-- `x.name` used as an integer. -/
def Inst.intAttr (x : Inst) (name : PyStr) : Except Exc Int := do
  (← x.attr name).asInt

/-- `T.from_buffer_copy(data)` -/
def fromBufferCopy (t : CType) (data : Bytes) : Except Exc Inst :=
  if data.length < t.size then .error (.valueError .bufferTooSmall)
  else .ok { ty := t, buf := data.take t.size }

/-- The class attributes of a `Header` class (e.g. atoparser/structs/atop_2_11.py:671-705).
`CStat`/`CGChainer` are both `None` before 2.11. -/
structure HeaderClass where
  supportedVersion : PyStr
  fields : Fields
  Record : CType
  SStat : CType
  TStat : CType
  CStat : Option CType

end Atop
