import Verif.Model.Structs.All
import Verif.Model.Dict
/-!
# `HeaderMixin` (atoparser/structs/shared.py:27-90) and the version table (atoparser/utils.py:47-79)
-/

namespace Atop

/-- A header object: its class, its memory and the instance attributes `_major_version`,
`_minor_version` (`_semantic_version` is set together with them; shared.py:84-89). -/
structure Header where
  cls : HeaderClass
  buf : Bytes
  cache : Option (Nat × Nat) := none

/-- The header's fields as a ctypes instance (for attribute access and `struct_to_dict`). -/
def Header.inst (h : Header) : Inst :=
  { ty := .struct (py!"Header:" ++ h.cls.supportedVersion) h.cls.fields [], buf := h.buf }

/-- `ctypes.sizeof` of a header class. -/
def HeaderClass.size (c : HeaderClass) : Nat := (CType.struct [] c.fields []).size

/-- shared.py:86-87: `(aversion >> 8) & 0x7F`, `aversion & 0xFF`. -/
def splitVersion (aversion : Nat) : Nat × Nat := ((aversion >>> 8) &&& 0x7F, aversion &&& 0xFF)

/-- shared.py:75-89: `_major_version`, `_minor_version` after evaluating `semantic_version`.  The
cached pair wins when present (its string `"a.b"` is never empty, hence truthy). -/
def Header.version (h : Header) : Except Exc (Nat × Nat) :=
  match h.cache with
  | some v => .ok v
  | none => do
    let a ← h.inst.intAttr py!"aversion"
    return splitVersion a.toNat

/-- The header object after `semantic_version` has been evaluated. -/
def Header.latched (h : Header) : Header :=
  match h.version with
  | .ok v => { h with cache := some v }
  | .error _ => h

/-- Decimal digits of a natural number, `str(n)`. -/
def pyStrNat (n : Nat) : PyStr := (Nat.toDigits 10 n).map Char.toNat

/-- `int.__repr__`. -/
def intRepr (i : Int) : PyStr := (if i < 0 then py!"-" else []) ++ pyStrNat i.natAbs

/-- `hex(n)` for `n ≥ 0`: `0x` and lower case digits. -/
def pyHex (n : Nat) : PyStr := py!"0x" ++ (Nat.toDigits 16 n).map Char.toNat

/-- shared.py:88: `f"{major}.{minor}"` -/
def versionString (v : Nat × Nat) : PyStr := pyStrNat v.1 ++ py!"." ++ pyStrNat v.2

/-- shared.py:75-89: the property `semantic_version`. -/
def Header.semanticVersion (h : Header) : Except Exc PyStr := do
  return versionString (← h.version)

/-- The list `sizes` of shared.py:47-57: (name, found in the file, size of our struct), in order.
`self.tstatlen`, `self.pstatlen`, `self.cstatlen` may be missing on the header class. -/
def Header.sizeChecks (h : Header) : Except Exc (List (PyStr × Int × Int)) := do
  let base := [
    (py!"Header", ← h.inst.intAttr py!"rawheadlen", (h.cls.size : Int)),
    (py!"Record", ← h.inst.intAttr py!"rawreclen", (h.cls.Record.size : Int)),
    (py!"SStat", ← h.inst.intAttr py!"sstatlen", (h.cls.SStat.size : Int))]
  let v ← h.version
  let t ←
    if v.1 ≥ 2 ∧ v.2 ≥ 3 then do
      pure [(py!"TStat", ← h.inst.intAttr py!"tstatlen", (h.cls.TStat.size : Int))]
    else do
      pure [(py!"PStat", ← h.inst.intAttr py!"pstatlen", (h.cls.TStat.size : Int))]
  let c ←
    if v.1 ≥ 2 ∧ v.2 ≥ 11 then do
      let n ← h.inst.intAttr py!"cstatlen"
      match h.cls.CStat with
      | some cs => pure [(py!"CStat", n, (cs.size : Int))]
      | none => .error .typeError                 -- ctypes.sizeof(None)
    else pure []
  return base ++ t ++ c

/-- `tuple.__repr__` of one entry of `sizes` (the names need no escaping). -/
def sizeRepr (t : PyStr × Int × Int) : PyStr :=
  py!"('" ++ t.1 ++ py!"', " ++ intRepr t.2.1 ++ py!", " ++ intRepr t.2.2 ++ py!")"

/-- `", ".join(texts)`, as `list.__repr__` joins its items. -/
def commaJoin : List PyStr → PyStr
  | [] => []
  | [x] => x
  | x :: y :: r => x ++ py!", " ++ commaJoin (y :: r)

/-- shared.py:59-61: the message, an f-string ending in `list.__repr__` of `sizes`. -/
def incompatibleText (sizes : List (PyStr × Int × Int)) : PyStr :=
  py!"File has incompatible Atop format. Struct length evaluations (type, found, expected): " ++
    py!"[" ++ commaJoin (sizes.map sizeRepr) ++ py!"]"

/-- shared.py:41-61: `check_compatibility`. -/
def Header.checkCompatibility (h : Header) : Except Exc Unit := do
  let sizes ← h.sizeChecks
  if sizes.any (fun p => p.2.1 != p.2.2) then .error (.valueError (.incompatible (incompatibleText sizes)))
  else return ()

/-- atoparser/utils.py:47-59 `_VERSIONS` (each module's `Header`). -/
def versions : List HeaderClass := [
  V1_26.Header, V2_3.Header, V2_4.Header, V2_5.Header, V2_6.Header, V2_7.Header, V2_8.Header,
  V2_9.Header, V2_10.Header, V2_11.Header, V2_12.Header]

/-- atoparser/utils.py:62,147 `_HEADER_BY_VERSION[_DEFAULT_VERSION]`: `_VERSIONS[-1]`. -/
def defaultHeader : HeaderClass := V2_12.Header

/-- atoparser/utils.py:63 `_HEADER_BY_VERSION.get(v)`. -/
def headerByVersion (v : PyStr) : Option HeaderClass :=
  versions.find? (fun c => c.supportedVersion == v)

/-- atoparser/utils.py:79 -/
def MAGIC : Nat := 0xFEEDBEEF

/-- atoparser/utils.py:76 -/
def MAX_SAMPLES_PER_FILE : Nat := 86400

end Atop
