import Verif.Model.CTypes
import Verif.Model.Utf8
/-!
# `struct_to_dict`  (atoparser/utils.py:296-329)
-/

namespace Atop

/-- The Python values that can appear in the produced dictionaries.  `int`, `float`, `str`, `list`
and `dict` are JSON serialisable; `bytes` and `other` (a raw ctypes array) are not. -/
inductive JVal
  | int (i : Int)
  | float (bits : Nat)
  | str (s : PyStr)
  | bytes (b : Bytes)
  | list (vs : List JVal)
  | dict (kvs : List (PyStr × JVal))
  | other

/-- `"future"` -/
def futureWord : PyStr := py!"future"

/-- atoparser/utils.py:313 `"future" not in field_name` (negated). -/
def isFuture (name : PyStr) : Bool := pyContains futureWord name

/-- atoparser/utils.py:316-319: the element list after applying the structure's limiter, if any.
`all`/`full` are the fields and memory of the enclosing structure. -/
def limitElems {α : Type} (all : Fields) (full : Bytes) (lims : List (PyStr × PyStr)) (name : PyStr)
    (elems : List α) : Except Exc (List α) :=
  match lims.lookup name with
  | none => .ok elems
  | some lim =>
    if lim.isEmpty then .ok elems               -- `if limiter:` is false for the empty string
    else do
      let n ← (← all.getattr full lim).asInt
      return pySliceTo elems n

mutual
/-- atoparser/utils.py:320-324: one element `sub_data` of an array field. -/
def CType.toDictElem : CType → Bytes → Except Exc JVal
  | .struct _ fs lims, buf => do return .dict (← fs.toDictFrom fs lims buf 0)
  | .int _ s, buf => .ok (.int (leInt s buf))
  | .float, buf => .ok (.float (leNat buf))
  | .char, buf => .ok (.bytes buf)
  | .array _ _, _ => .ok .other
/-- atoparser/utils.py:307-329: the loop over `struct._fields_`.  The first argument is the part of
`_fields_` still to visit, `all` the whole list, `full` the memory of the structure and `off` the
end of the previous field.  `getattr(struct, field_name)` is inlined as a case split on the field
type (`pyField`); the tests are made in the order of the Python code. -/
def Fields.toDictFrom : Fields → (all : Fields) → (lims : List (PyStr × PyStr)) → (full : Bytes) →
    (off : Nat) → Except Exc (List (PyStr × JVal))
  | .nil, _, _, _, _ => .ok []
  | .cons name t rest, all, lims, full, off =>
    let o := roundUp off t.align
    let data := (full.drop o).take t.size
    match t with
    | .struct _ fs l => do                                    -- utils.py:311-312
      let d ← fs.toDictFrom fs l data 0
      return (name, .dict d) :: (← rest.toDictFrom all lims full (o + t.size))
    | .array .char _ =>                                       -- utils.py:313,325-326
      if isFuture name then rest.toDictFrom all lims full (o + t.size)
      else do
        return (name, .str (decodeIgnore (cstr data))) :: (← rest.toDictFrom all lims full (o + t.size))
    | .array e k =>                                           -- utils.py:313-324
      if isFuture name then rest.toDictFrom all lims full (o + t.size)
      else do
        let elems ← limitElems all full lims name (chunks data e.size k)
        let vs ← elems.mapM (fun b => e.toDictElem b)
        return (name, .list vs) :: (← rest.toDictFrom all lims full (o + t.size))
    | .char =>                                                -- utils.py:313,325-326
      if isFuture name then rest.toDictFrom all lims full (o + t.size)
      else do
        return (name, .str (decodeIgnore data)) :: (← rest.toDictFrom all lims full (o + t.size))
    | .int _ s =>                                             -- utils.py:313,327-328
      if isFuture name then rest.toDictFrom all lims full (o + t.size)
      else do
        return (name, .int (leInt s data)) :: (← rest.toDictFrom all lims full (o + t.size))
    | .float =>
      if isFuture name then rest.toDictFrom all lims full (o + t.size)
      else do
        return (name, .float (leNat data)) :: (← rest.toDictFrom all lims full (o + t.size))
end

/-- `struct_to_dict(x)` for a ctypes structure instance (atoparser/utils.py:296-329).  Anything
without `_fields_` is an `AttributeError`. -/
def structToDict (x : Inst) : Except Exc JVal :=
  match x.ty with
  | .struct _ fs lims => do return .dict (← fs.toDictFrom fs lims x.buf 0)
  | _ => .error .attributeError

end Atop
