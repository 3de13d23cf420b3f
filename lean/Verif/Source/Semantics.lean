import Verif.Source.Syntax
import Verif.Model.Json
import Verif.Source.Argparse
import Verif.Source.Floats
/-!
# What the source text means

An interpreter for `Verif/Source/Syntax.lean`: Python's rules for names, attributes, calls, control flow, exceptions and
generators, and the built-in functions and ctypes operations the code calls.  It knows nothing about what the functions
of atoparser are for.

Simplifications.
* Lists, dictionaries and argument parsers are values.  `x.append(e)`, `x[k] = e` and `x.add_argument(...)` store the changed container back where it was read
  from.  This is what Python does as long as no container is changed after it has become reachable in two ways, which
  never happens in the code: `samples`, `sizes`, `tstats`, `cgroups`, `converted`, `struct_dict` and `parser` are each reachable
  through one local name while they grow, and `sample` (the dictionary a parser has just yielded) is not looked at again
  by the parser that made it.  ctypes objects and header objects, which the caller does share, are references.
* Generator expressions and iterated ctypes arrays are listed before the loop starts.
* One file is open at a time; closing it is not recorded.
* What Python would report as an error of the program itself (an unbound name, a wrong number of arguments, unpacking the
  wrong number of values) and everything outside this fragment ends in `PExc.stuck`.  The theorems say that the code
  never gets there.
-/

namespace Atop.Src

/-! ## Values -/

/-- Built-in functions, classes and functions of the standard library. -/
inductive Builtin
  | range | enumerate | isinstance | getattr | hex | int | any | print | open | bytes
  | valueError
  | gzipOpen | jsonDumps
  | zlibDecompress | zlibError
  | sizeof | structure | array
  | argumentParser
  /-- `parse_args` of a parser -/
  | parseArgs (ds : List Argparse.ArgDecl)

/-- Methods of built-in objects. -/
inductive Method
  | read | readinto | decode | split | get | fromBuffer | fromBufferCopy | fromBytes

/-- Python values. -/
inductive Val
  | none
  | bool (b : Bool)
  | int (i : Int)
  /-- a `float` read from a binary32 field: its bits -/
  | float (bits : Nat)
  /-- a computed `float` -/
  | dbl (x : Dbl)
  | bytes (b : Bytes)
  | str (s : PyStr)
  | list (vs : List Val)
  | tuple (vs : List Val)
  | dict (kvs : List (PyStr × Val))
  /-- a ctypes structure or array: its type and the place of its memory -/
  | view (t : CType) (blk off : Nat)
  /-- a header object -/
  | hdr (i : Nat)
  /-- an instance of a plain class, with its attributes -/
  | inst (cls : PyStr) (attrs : List (PyStr × Val))
  /-- a ctypes class -/
  | ctype (t : CType)
  /-- a header class -/
  | hcls (c : HeaderClass)
  /-- a plain class -/
  | icls (cls : PyStr)
  /-- an open file -/
  | file
  | mod (m : PyStr)
  /-- a function: the module it belongs to, its code and the values of its defaults -/
  | fn (m : PyStr) (f : FnDef) (defaults : List Val)
  | prop (m : PyStr) (f : FnDef)
  /-- a method of a header object -/
  | bound (self : Val) (m : PyStr) (f : FnDef)
  /-- a generator that has not been started: where it runs, its code and its arguments -/
  | gen (m : PyStr) (body : Block) (args : List (String × Val))
  | builtin (b : Builtin)
  | method (self : Val) (m : Method)
  /-- `ValueError(text)` -/
  | valueErr (text : PyStr)
  /-- an argument parser: what has been declared -/
  | parser (ds : List Argparse.ArgDecl)

/-- Local variables. -/
abbrev Env := String → Option Val

/-- Binding a local variable. -/
def Env.set (env : Env) (x : String) (v : Val) : Env := fun y => if y = x then some v else env y

/-- Exceptions: one raised by the interpreter or a library, a `ValueError` raised by the code, the `SystemExit` of
`argparse`, any other exception (named by its class), or a step outside the fragment. -/
inductive PExc
  | sys (e : Exc)
  | value (text : PyStr)
  | exit (e : Exit)
  | other (cls : PyStr)
  | stuck

/-- A header object: its class, its memory block and its instance attributes. -/
structure PHdr where
  cls : HeaderClass
  blk : Nat
  attrs : List (PyStr × Val)

/-- The state: memory blocks, header objects, the open file and what has been printed. -/
structure W where
  heap : List Bytes
  headers : List PHdr
  file : Stream
  out : PyStr

/-- Evaluating an expression. -/
def E (α : Type) := W → Except PExc α × W

namespace E
def pure {α} (a : α) : E α := fun w => (.ok a, w)
def bind {α β} (m : E α) (f : α → E β) : E β := fun w =>
  match m w with
  | (.ok a, w') => f a w'
  | (.error e, w') => (.error e, w')
instance : Monad E where
  pure := E.pure
  bind := E.bind
def raise {α} (e : PExc) : E α := fun w => (.error e, w)
/-- An exception of the interpreter or a library. -/
def sys {α} (e : Exc) : E α := E.raise (.sys e)
def stuck {α} : E α := E.raise .stuck
/-- A step that does not touch the state. -/
def lift {α} (x : Except Exc α) : E α := fun w =>
  match x with
  | .ok a => (.ok a, w)
  | .error e => (.error (.sys e), w)
end E

/-- How a statement ends. -/
inductive Ctl
  | next
  | brk
  | ret (v : Val)
  | exc (e : PExc)

/-- Executing statements: finished, or suspended at a `yield`, from where it can go on or have an exception raised. -/
inductive Co (α : Type)
  | ret (a : α) (w : W)
  | yield (v : Val) (w : W) (k : Option PExc → W → Co α)

/-- Going on after the end. -/
def Co.bind {α β : Type} : Co α → (α → W → Co β) → Co β
  | .ret a w, f => f a w
  | .yield v w k, f => .yield v w (fun x w' => (k x w').bind f)

/-- The command line: `sys.argv[1:]`, and the code points that the regular expression `\d` of `argparse` matches. -/
structure CommandLine where
  U : Nat → Bool
  argv : List PyStr

/-- Everything an evaluation refers to besides its local variables: the libraries (`zlib.decompress`, the file system,
the command line), the modules, and how to run the body of a function. -/
structure Rt where
  Z : Zlib
  fs : FileSystem
  args : CommandLine
  /-- the value of a name of a module -/
  globals : PyStr → PyStr → Option Val
  /-- run the body of a function of a module -/
  run : PyStr → Block → Env → W → Co (Ctl × Env)

/-! ## ctypes -/

/-- `n` bytes of memory. -/
def mem (w : W) (blk off n : Nat) : Bytes := ((w.heap.getD blk []).drop off).take n

/-- The object at a place in memory: numbers and characters are read, structures and arrays are views. -/
def itemAt (w : W) (t : CType) (blk off : Nat) : Val :=
  match t with
  | .int n s => .int (leInt s (mem w blk off n))
  | .float => .float (leNat (mem w blk off 4))
  | .char => .bytes (mem w blk off 1)
  | .array e n => .view (.array e n) blk off
  | .struct c fs l => .view (.struct c fs l) blk off

/-- The value of a field: as `itemAt`, but a character array is read as `bytes` up to the first NUL. -/
def fieldAt (w : W) (t : CType) (blk off : Nat) : Val :=
  match t with
  | .array .char n => .bytes (cstr (mem w blk off n))
  | t => itemAt w t blk off

/-- The items of an array. -/
def arrayItems (w : W) (e : CType) (n blk off : Nat) : List Val :=
  (List.range n).map fun k => itemAt w e blk (off + k * e.size)

/-- `cls._fields_` -/
def fieldsVal (fs : Fields) : Val := .list (fs.toList.map fun p => .tuple [.str p.1, .ctype p.2])

/-- A new memory block. -/
def allocE (b : Bytes) : E Nat := fun w => (.ok w.heap.length, { w with heap := w.heap ++ [b] })

/-- `T()` -/
def newObject (t : CType) : E Val := do
  let blk ← allocE (List.replicate t.size 0)
  return .view t blk 0

/-- `T.from_buffer_copy(data)` -/
def copyObject (t : CType) (data : Bytes) : E Val := do
  let x ← E.lift (fromBufferCopy t data)
  let blk ← allocE x.buf
  return .view t blk 0

/-- A new header object over a block. -/
def newHdr (c : HeaderClass) (blk : Nat) : E Val := fun w =>
  (.ok (.hdr w.headers.length), { w with headers := w.headers ++ [{ cls := c, blk, attrs := [] }] })

/-- `file.read(n)` -/
def fileRead (n : Nat) : E Bytes := fun w =>
  match Stream.read n w.file with
  | (.ok b, s) => (.ok b, { w with file := s })
  | (.error e, s) => (.error (.sys e), { w with file := s })

/-- `file.readinto(obj)`, the object being all of a memory block. -/
def fileReadinto (blk : Nat) : E Val := fun w =>
  let old := w.heap.getD blk []
  match fileRead old.length w with
  | (.ok b, w') => (.ok (.int b.length), { w' with heap := w'.heap.set blk (b ++ old.drop b.length) })
  | (.error e, w') => (.error e, w')

/-! ## Operations on values -/

/-- `bool(v)` -/
def truth : Val → Bool
  | .none => false
  | .bool b => b
  | .int i => i != 0
  | .float b => b % 2 ^ 31 != 0
  | .dbl x => x.mag != 0
  | .bytes b => !b.isEmpty
  | .str s => !s.isEmpty
  | .list vs => !vs.isEmpty
  | .tuple vs => !vs.isEmpty
  | .dict kvs => !kvs.isEmpty
  | .view (.array _ n) _ _ => n != 0
  | _ => true

/-- Setting a key of a dictionary (its place is kept when it exists). -/
def dictSet (k : PyStr) (v : Val) : List (PyStr × Val) → List (PyStr × Val)
  | [] => [(k, v)]
  | (k', v') :: r => if k' = k then (k, v) :: r else (k', v') :: dictSet k v r

/-- Texts that `repr` puts between quotes as they are. -/
def plainText (s : PyStr) : Bool := s.all fun c => decide (32 ≤ c) && decide (c ≤ 126) && c != 39 && c != 92

mutual
/-- `repr(v)` -/
def repr : Val → Option PyStr
  | .int i => some (intRepr i)
  | .str s => if plainText s then some (py!"'" ++ s ++ py!"'") else none
  | .tuple vs =>
    if vs.length < 2 then none
    else match reprs vs with
      | some l => some (py!"(" ++ commaJoin l ++ py!")")
      | none => none
  | .list vs =>
    match reprs vs with
    | some l => some (py!"[" ++ commaJoin l ++ py!"]")
    | none => none
  | _ => none
/-- `repr` of every item. -/
def reprs : List Val → Option (List PyStr)
  | [] => some []
  | v :: vs =>
    match repr v, reprs vs with
    | some x, some l => some (x :: l)
    | _, _ => none
end

/-- `str(v)` -/
def toStr : Val → E PyStr
  | .str s => E.pure s
  | v => match repr v with
    | some s => E.pure s
    | none => E.stuck

/-- `format(v, spec)` -/
def formatVal (v : Val) (spec : PyStr) : E PyStr :=
  match v with
  | .dbl x =>
    if spec = py!".02%" then match x.percent with
      | some s => E.pure s
      | none => E.stuck
    else E.stuck
  | _ => E.stuck

/-- A computed `float`; one that is too large is outside this fragment. -/
def dblVal : Option Dbl → E Val
  | some x => E.pure (.dbl x)
  | none => E.stuck

/-- `a op b` -/
def binop : BinOp → Val → Val → E Val
  | .add, .int a, .int b => E.pure (.int (a + b))
  | .mul, .int a, .int b => E.pure (.int (a * b))
  | .mul, .ctype t, .int n =>
    if n < 0 then E.sys (.valueError .negativeLength) else E.pure (.ctype (.array t n.toNat))
  | .bitAnd, .int a, .int b => if 0 ≤ b then E.pure (.int (pyAnd a b.toNat)) else E.stuck
  | .sub, .int a, .int b => E.pure (.int (a - b))
  | .sub, .int a, .dbl x => dblVal (Dbl.intSub a x)
  | .div, .int a, .int b => if b = 0 then E.raise (.other py!"ZeroDivisionError") else dblVal (Dbl.div a b)
  | .rshift, .int a, .int b => if 0 ≤ b then E.pure (.int (a / (2 ^ b.toNat : Nat))) else E.stuck
  | _, _, _ => E.stuck

/-- Comparison of integers. -/
def cmpInt : CmpOp → Int → Int → Option Bool
  | .eq, a, b => some (decide (a = b))
  | .notEq, a, b => some (decide (a ≠ b))
  | .lt, a, b => some (decide (a < b))
  | .ltE, a, b => some (decide (a ≤ b))
  | .gt, a, b => some (decide (a > b))
  | .gtE, a, b => some (decide (a ≥ b))
  | _, _, _ => none

/-- `v is None` -/
def isNone : Val → Bool
  | .none => true
  | _ => false

/-- `a op b` -/
def cmpop : CmpOp → Val → Val → E Val
  | .is, v, .none => E.pure (.bool (isNone v))
  | .isNot, v, .none => E.pure (.bool (!isNone v))
  | .isIn, .str s, .str t => E.pure (.bool (pyContains s t))
  | .notIn, .str s, .str t => E.pure (.bool (!pyContains s t))
  | .isIn, .str s, .dict kvs => E.pure (.bool (kvs.lookup s).isSome)
  | .notIn, .str s, .dict kvs => E.pure (.bool (kvs.lookup s).isNone)
  | .eq, .str s, .str t => E.pure (.bool (decide (s = t)))
  | .notEq, .str s, .str t => E.pure (.bool (decide (s ≠ t)))
  | op, .int a, .int b =>
    match cmpInt op a b with
    | some r => E.pure (.bool r)
    | none => E.stuck
  | _, _, _ => E.stuck

/-- `vs[i]`: a negative index counts from the end. -/
def listItem (vs : List Val) (i : Int) : Option Val :=
  if 0 ≤ i then vs[i.toNat]? else if 0 ≤ i + vs.length then vs[(i + vs.length).toNat]? else none

/-- `c[k]` -/
def getItem : Val → Val → E Val
  | .list vs, .int i => match listItem vs i with
    | some v => E.pure v
    | none => E.stuck
  | .tuple vs, .int i => match listItem vs i with
    | some v => E.pure v
    | none => E.stuck
  | .dict kvs, .str k => match kvs.lookup k with
    | some v => E.pure v
    | none => E.sys .keyError
  | .builtin .array, .ctype _ => E.pure (.builtin .array)
  | .view (.array e n) blk off, .int i => fun w => match listItem (arrayItems w e n blk off) i with
    | some v => (.ok v, w)
    | none => (.error (.other py!"IndexError"), w)
  | _, _ => E.stuck

/-- `xs[lo:hi]` -/
def sliceList {α : Type} (xs : List α) (lo hi : Option Int) : List α :=
  (xs.take (match hi with | some h => sliceBound xs.length h | none => xs.length)).drop
    (match lo with | some l => sliceBound xs.length l | none => 0)

/-- A bound of a slice. -/
def bound : Val → Option (Option Int)
  | .none => some none
  | .int i => some (some i)
  | _ => none

/-- `v[lo:hi]` -/
def getSlice (v lo hi : Val) : E Val := fun w =>
  match bound lo, bound hi with
  | some lo, some hi =>
    match v with
    | .list vs => (.ok (.list (sliceList vs lo hi)), w)
    | .bytes b => (.ok (.bytes (sliceList b lo hi)), w)
    | .view (.array .char _) _ _ => (.error .stuck, w)
    | .view (.array e n) blk off => (.ok (.list (sliceList (arrayItems w e n blk off) lo hi)), w)
    | _ => (.error .stuck, w)
  | _, _ => (.error .stuck, w)

/-- The items an iteration over `v` goes through. -/
def items (v : Val) : E (List Val) := fun w =>
  match v with
  | .list vs => (.ok vs, w)
  | .tuple vs => (.ok vs, w)
  | .view (.array e n) blk off => (.ok (arrayItems w e n blk off), w)
  | _ => (.error (.sys .typeError), w)

/-- `c[k] = v` as a function. -/
def setItem (c k v : Val) : E Val :=
  match c, k with
  | .dict kvs, .str s => E.pure (.dict (dictSet s v kvs))
  | _, _ => E.stuck

mutual
/-- A value as `json.dumps` sees it. -/
def toJ : Val → JVal
  | .int i => .int i
  | .float b => .float b
  | .str s => .str s
  | .bytes b => .bytes b
  | .list vs => .list (toJs vs)
  | .dict kvs => .dict (toJkvs kvs)
  | _ => .other
def toJs : List Val → List JVal
  | [] => []
  | v :: vs => toJ v :: toJs vs
def toJkvs : List (PyStr × Val) → List (PyStr × JVal)
  | [] => []
  | (k, v) :: kvs => (k, toJ v) :: toJkvs kvs
end

/-! ## Calls -/

mutual
/-- A function whose body contains `yield` is a generator function. -/
def Stmt.yields : Stmt → Bool
  | .yield _ => true
  | .ifte _ b c => b.yields || c.yields
  | .for _ _ b => b.yields
  | .try b _ h => b.yields || h.yields
  | .with _ _ b => b.yields
  | _ => false
def Block.yields : Block → Bool
  | .nil => false
  | .cons s r => s.yields || r.yields
end

/-- Parameters with their defaults, if any. -/
def withDefaults (params : List String) (defaults : List Val) : List (String × Option Val) :=
  params.zip (List.replicate (params.length - defaults.length) none ++ defaults.map some)

/-- Binding arguments to parameters. -/
def bindArgs : List (String × Option Val) → List Val → List (String × Val) → Option (List (String × Val))
  | [], [], _ => some []
  | [], _ :: _, _ => none
  | (p, _) :: ps, a :: as, kws => (bindArgs ps as kws).map ((p, a) :: ·)
  | (p, d) :: ps, [], kws =>
    match kws.lookup p, d with
    | some v, _ => (bindArgs ps [] kws).map ((p, v) :: ·)
    | none, some v => (bindArgs ps [] kws).map ((p, v) :: ·)
    | none, none => none

/-- The local variables at the start of a call. -/
def envOf (l : List (String × Val)) : Env := fun x => l.lookup x

/-- Running the body of a function that is not a generator. -/
def callBody (R : Rt) (m : PyStr) (body : Block) (env : Env) : E Val := fun w =>
  match R.run m body env w with
  | .ret (.next, _) w' => (.ok .none, w')
  | .ret (.ret v, _) w' => (.ok v, w')
  | .ret (.exc e, _) w' => (.error e, w')
  | .ret (.brk, _) w' => (.error .stuck, w')
  | .yield _ w' _ => (.error .stuck, w')

/-- Calling a function of the source. -/
def callFn (R : Rt) (m : PyStr) (f : FnDef) (defaults : List Val) (args : List Val) (kws : List (String × Val)) : E Val :=
  match bindArgs (withDefaults f.params defaults) args kws with
  | none => E.stuck
  | some l => if f.body.yields then E.pure (.gen m f.body l) else callBody R m f.body (envOf l)

/-- Running a constructor: the object is what `self` is bound to at the end. -/
def construct (R : Rt) (cls m : PyStr) (f : FnDef) (args : List Val) : E Val := fun w =>
  match bindArgs (withDefaults f.params []) (.inst cls [] :: args) [] with
  | none => (.error .stuck, w)
  | some l =>
    match R.run m f.body (envOf l) w with
    | .ret (.next, env) w' =>
      match env "self" with
      | some v => (.ok v, w')
      | none => (.error .stuck, w')
    | .ret (.exc e, _) w' => (.error e, w')
    | .ret _ w' => (.error .stuck, w')
    | .yield _ w' _ => (.error .stuck, w')

/-- Attributes of a header class. -/
def hclsAttr (c : HeaderClass) (a : PyStr) : Option Val :=
  if a = py!"supported_version" then some (.str c.supportedVersion)
  else if a = py!"Record" then some (.ctype c.Record)
  else if a = py!"SStat" then some (.ctype c.SStat)
  else if a = py!"TStat" then some (.ctype c.TStat)
  else if a = py!"CStat" then some (match c.CStat with | some t => .ctype t | none => .none)
  else if a = py!"CGChainer" then some (match c.CStat with | some _ => .icls py!"CGChainer" | none => .none)
  else if a = py!"_fields_" then some (fieldsVal c.fields)
  else if a = py!"from_buffer" then some (.method (.hcls c) .fromBuffer)
  else none

/-- `self.a` for a header: fields and properties come before instance attributes, methods and class attributes after. -/
def hdrAttr (R : Rt) (i : Nat) (a : PyStr) : E Val := fun w =>
  match w.headers[i]? with
  | none => (.error .stuck, w)
  | some o =>
    match o.cls.fields.lookup a 0 with
    | some (off, t) => (.ok (fieldAt w t o.blk off), w)
    | none =>
      match R.globals py!"HeaderMixin" a with
      | some (.prop m f) => callFn R m f [] [.hdr i] [] w
      | some (.fn m f _) =>
        match o.attrs.lookup a with
        | some v => (.ok v, w)
        | none => (.ok (.bound (.hdr i) m f), w)
      | _ =>
        match o.attrs.lookup a with
        | some v => (.ok v, w)
        | none =>
          if a = py!"__class__" then (.ok (.hcls o.cls), w)
          else match hclsAttr o.cls a with
            | some v => (.ok v, w)
            | none => (.error (.sys .attributeError), w)

/-- `self.a = v` for a header: only new instance attributes. -/
def hdrSetAttr (R : Rt) (i : Nat) (a : PyStr) (v : Val) : E Unit := fun w =>
  match w.headers[i]? with
  | none => (.error .stuck, w)
  | some o =>
    if (o.cls.fields.lookup a 0).isSome || (R.globals py!"HeaderMixin" a).isSome then (.error .stuck, w)
    else (.ok (), { w with headers := w.headers.set i { o with attrs := dictSet a v o.attrs } })

/-- Attributes of a ctypes structure or array. -/
def viewAttr (t : CType) (blk off : Nat) (a : PyStr) : E Val := fun w =>
  match t with
  | .struct _ fs lims =>
    match fs.lookup a 0 with
    | some (o, t') => (.ok (fieldAt w t' blk (off + o)), w)
    | none =>
      if a = py!"_fields_" then (.ok (fieldsVal fs), w)
      else if a = py!"fields_limiters" ∧ lims ≠ [] then (.ok (.dict (lims.map fun p => (p.1, .str p.2))), w)
      else (.error (.sys .attributeError), w)
  | _ => (.error (.sys .attributeError), w)

/-- The types of the `ctypes` library, on a 64-bit Unix (LP64). -/
def ctypesPrim (a : PyStr) : Option CType :=
  if a = py!"c_char" then some .char
  else if a = py!"c_float" then some .float
  else if a = py!"c_uint8" then some (.int 1 false)
  else if a = py!"c_short" then some (.int 2 true)
  else if a = py!"c_ushort" then some (.int 2 false)
  else if a = py!"c_int" then some (.int 4 true)
  else if a = py!"c_int32" then some (.int 4 true)
  else if a = py!"c_uint" then some (.int 4 false)
  else if a = py!"c_long" then some (.int 8 true)
  else if a = py!"c_ulong" then some (.int 8 false)
  else if a = py!"c_longlong" then some (.int 8 true)
  else none

/-- Attributes of a module. -/
def modAttr (R : Rt) (m a : PyStr) : E Val :=
  match R.globals m a with
  | some v => E.pure v
  | none =>
    if m = py!"zlib" ∧ a = py!"decompress" then E.pure (.builtin .zlibDecompress)
    else if m = py!"zlib" ∧ a = py!"error" then E.pure (.builtin .zlibError)
    else if m = py!"ctypes" ∧ a = py!"sizeof" then E.pure (.builtin .sizeof)
    else if m = py!"ctypes" ∧ a = py!"Structure" then E.pure (.builtin .structure)
    else if m = py!"ctypes" ∧ a = py!"Array" then E.pure (.builtin .array)
    else if m = py!"gzip" ∧ a = py!"open" then E.pure (.builtin .gzipOpen)
    else if m = py!"json" ∧ a = py!"dumps" then E.pure (.builtin .jsonDumps)
    else if m = py!"argparse" ∧ a = py!"ArgumentParser" then E.pure (.builtin .argumentParser)
    else if m = py!"ctypes" then match ctypesPrim a with
      | some t => E.pure (.ctype t)
      | none => E.stuck
    else E.stuck

/-- `v.a` -/
def attrOf (R : Rt) (v : Val) (a : PyStr) : E Val :=
  match v with
  | .view t blk off => viewAttr t blk off a
  | .hdr i => hdrAttr R i a
  | .mod m => modAttr R m a
  | .hcls c => match hclsAttr c a with
    | some v => E.pure v
    | none => E.sys .attributeError
  | .ctype t => if a = py!"from_buffer_copy" then E.pure (.method (.ctype t) .fromBufferCopy) else E.sys .attributeError
  | .inst cls attrs => match attrs.lookup a with
    | some v => E.pure v
    | none => match R.globals cls a with
      | some v => E.pure v
      | none => E.sys .attributeError
  | .file =>
    if a = py!"read" then E.pure (.method .file .read)
    else if a = py!"readinto" then E.pure (.method .file .readinto)
    else E.sys .attributeError
  | .bytes b => if a = py!"decode" then E.pure (.method (.bytes b) .decode) else E.sys .attributeError
  | .str s => if a = py!"split" then E.pure (.method (.str s) .split) else E.sys .attributeError
  | .dict kvs => if a = py!"get" then E.pure (.method (.dict kvs) .get) else E.sys .attributeError
  | .builtin .int => if a = py!"from_bytes" then E.pure (.method (.builtin .int) .fromBytes) else E.sys .attributeError
  | .parser ds => if a = py!"parse_args" then E.pure (.builtin (.parseArgs ds)) else E.sys .attributeError
  | .none => E.sys .attributeError
  | .int _ => E.sys .attributeError
  | .float _ => E.sys .attributeError
  | _ => E.stuck

/-- `isinstance(v, cls)` -/
def isInstance : Val → Val → Option Bool
  | .view (.struct ..) _ _, .builtin .structure => some true
  | .hdr _, .builtin .structure => some true
  | _, .builtin .structure => some false
  | .view (.array ..) _ _, .builtin .array => some true
  | _, .builtin .array => some false
  | .bytes _, .builtin .bytes => some true
  | _, .builtin .bytes => some false
  | .view (.struct c _ _) _ _, .ctype (.struct c' _ _) => some (c == c')
  | _, .ctype (.struct ..) => some false
  | _, _ => none

/-- An attribute of the result of `parse_args()`. -/
def argVal : Argparse.AVal → Val
  | .none => .none
  | .bool b => .bool b
  | .strs l => .list (l.map .str)

/-- The built-in functions. -/
def callBuiltin (R : Rt) (b : Builtin) (args : List Val) (kws : List (String × Val)) : E Val :=
  match b, args, kws with
  | .range, [.int n], [] => E.pure (.list ((List.range n.toNat).map fun (i : Nat) => .int i))
  | .enumerate, [v], [] => do
    let vs ← items v
    return .list (vs.zipIdx.map fun p => .tuple [.int p.2, p.1])
  | .isinstance, [v, c], [] =>
    match isInstance v c with
    | some r => E.pure (.bool r)
    | none => E.stuck
  | .getattr, [v, .str a], [] => attrOf R v a
  | .getattr, [v, .str a, d], [] => fun w =>
    match attrOf R v a w with
    | (.error (.sys .attributeError), w') => (.ok d, w')
    | r => r
  | .hex, [.int i], [] => if i < 0 then E.stuck else E.pure (.str (pyHex i.toNat))
  | .int, [.str s], [] => do return .int (← E.lift (pyParseNat s))
  | .any, [v], [] => do return .bool ((← items v).any truth)
  | .print, [.str s], [] => fun w => (.ok .none, { w with out := w.out ++ s ++ py!"\n" })
  | .open, [.str path, .str mode], [] => fun w =>
    if mode = py!"rb" then
      match R.fs path false with
      | .ok s => (.ok .file, { w with file := s })
      | .error e => (.error (.sys e), w)
    else (.error .stuck, w)
  | .gzipOpen, [.str path, .str mode], [] => fun w =>
    if mode = py!"rb" then
      match R.fs path true with
      | .ok s => (.ok .file, { w with file := s })
      | .error e => (.error (.sys e), w)
    else (.error .stuck, w)
  | .jsonDumps, [v], [("indent", .int 2)] => do return .str (← E.lift (dumps true (toJ v)))
  | .jsonDumps, [v], [("indent", .none)] => do return .str (← E.lift (dumps false (toJ v)))
  | .zlibDecompress, [.bytes b], [] => do return .bytes (← E.lift (zdecompress R.Z b))
  | .sizeof, [.ctype t], [] => E.pure (.int t.size)
  | .sizeof, [.hcls c], [] => E.pure (.int c.size)
  | .sizeof, [_], [] => E.sys .typeError
  | .valueError, [.str s], [] => E.pure (.valueErr s)
  | .argumentParser, [.str _], [] => E.pure (.parser [])
  | .parseArgs ds, [], [] =>
    match Argparse.parse R.args.U ds R.args.argv with
    | some (.ok l) => E.pure (.inst py!"Namespace" (l.map fun p => (p.1, argVal p.2)))
    | some (.error e) => E.raise (.exit e)
    | none => E.stuck
  | _, _, _ => E.stuck

/-- The methods of built-in objects. -/
def callMethod (self : Val) (m : Method) (args : List Val) (kws : List (String × Val)) : E Val :=
  match self, m, args, kws with
  | .file, .read, [.int n], [] => if n < 0 then E.stuck else do return .bytes (← fileRead n.toNat)
  | .file, .readinto, [.view _ blk 0], [] => fileReadinto blk
  | .file, .readinto, [.hdr i], [] => fun w =>
    match w.headers[i]? with
    | some o => fileReadinto o.blk w
    | none => (.error .stuck, w)
  | .bytes b, .decode, [], [] => do return .str (← E.lift (decodeStrict b))
  | .bytes b, .decode, [], [("errors", .str e)] =>
    if e = py!"ignore" then E.pure (.str (decodeIgnore b)) else E.stuck
  | .str s, .split, [.str sep], [] =>
    if sep = py!"." then E.pure (.list ((splitDot s).map .str)) else E.stuck
  | .dict kvs, .get, [.str k], [] => E.pure ((kvs.lookup k).getD .none)
  | .dict kvs, .get, [.str k, d], [] => E.pure ((kvs.lookup k).getD d)
  | .ctype t, .fromBufferCopy, [.bytes b], [] => copyObject t b
  | .hcls c, .fromBuffer, [.hdr i], [] => fun w =>
    match w.headers[i]? with
    | some o =>
      if (w.heap.getD o.blk []).length < c.size then (.error (.sys (.valueError .bufferTooSmall)), w)
      else newHdr c o.blk w
    | none => (.error .stuck, w)
  | .builtin .int, .fromBytes, [.bytes b], [("byteorder", .str o)] =>
    if o = py!"big" then E.pure (.int (beNat b)) else E.stuck
  | _, _, _, _ => E.stuck

/-- `f(args, k=v, ...)` -/
def callVal (R : Rt) (f : Val) (args : List Val) (kws : List (String × Val)) : E Val :=
  match f with
  | .fn m f defaults => callFn R m f defaults args kws
  | .bound self m f => callFn R m f [] (self :: args) kws
  | .builtin b => callBuiltin R b args kws
  | .method self m => callMethod self m args kws
  | .ctype t => if args.isEmpty then newObject t else E.stuck
  | .hcls c => if args.isEmpty then do newHdr c (← allocE (List.replicate c.size 0)) else E.stuck
  | .icls cls =>
    match R.globals cls py!"__init__" with
    | some (.fn m f _) => construct R cls m f args
    | _ => E.stuck
  | .none => E.sys .typeError
  | _ => E.stuck

/-- Built-in names. -/
def builtinNamed (x : PyStr) : Option Builtin :=
  if x = py!"range" then some .range
  else if x = py!"enumerate" then some .enumerate
  else if x = py!"isinstance" then some .isinstance
  else if x = py!"getattr" then some .getattr
  else if x = py!"hex" then some .hex
  else if x = py!"int" then some .int
  else if x = py!"any" then some .any
  else if x = py!"print" then some .print
  else if x = py!"open" then some .open
  else if x = py!"bytes" then some .bytes
  else if x = py!"ValueError" then some .valueError
  else none

/-- A global or built-in name. -/
def globOf (G : PyStr → Option Val) (x : PyStr) : E Val :=
  match G x with
  | some v => E.pure v
  | none => match builtinNamed x with
    | some b => E.pure (.builtin b)
    | none => E.stuck

/-! ## Expressions -/

/-- The items of a comprehension. -/
def mapE {α β : Type} (f : α → E β) : List α → E (List β)
  | [] => E.pure []
  | v :: vs => do
    let x ← f v
    let xs ← mapE f vs
    return x :: xs

def constVal : Const → Val
  | .none => .none
  | .bool b => .bool b
  | .int i => .int i
  | .str s => .str s

/-- A dictionary key. -/
def asKey : Val → E PyStr
  | .str s => E.pure s
  | _ => E.stuck

section
variable (R : Rt) (G : PyStr → Option Val)

mutual
/-- The value of an expression. -/
def eval : Expr → Env → E Val
  | .const c, _ => E.pure (constVal c)
  | .name x, env => match env x with
    | some v => E.pure v
    | none => E.stuck
  | .glob x, _ => globOf G x
  | .attr e a, env => do attrOf R (← eval e env) a
  | .call f args kws, env => do
    let f ← eval f env
    let args ← evals args env
    let kws ← evalKws kws env
    callVal R f args kws
  | .bin op a b, env => do
    let a ← eval a env
    let b ← eval b env
    binop op a b
  | .cmp op a b, env => do
    let a ← eval a env
    let b ← eval b env
    cmpop op a b
  | .and a b, env => do
    let a ← eval a env
    if truth a then eval b env else E.pure a
  | .not a, env => do return .bool (!truth (← eval a env))
  | .ifExp t a b, env => do
    let t ← eval t env
    if truth t then eval a env else eval b env
  | .sub e i, env => do
    let e ← eval e env
    let i ← eval i env
    getItem e i
  | .slice e lo hi, env => do
    let e ← eval e env
    let lo ← eval lo env
    let hi ← eval hi env
    getSlice e lo hi
  | .list es, env => do return .list (← evals es env)
  | .tuple es, env => do return .tuple (← evals es env)
  | .dict kvs, env => do return .dict (← evalItems kvs [] env)
  | .fstr parts, env => do return .str (← evalParts parts env)
  | .fmt e, env => do return .str (← toStr (← eval e env))
  | .fmtSpec e spec, env => do return .str (← formatVal (← eval e env) spec)
  | .listComp elt x it, env => do
    let vs ← items (← eval it env)
    return .list (← mapE (fun v => eval elt (env.set x v)) vs)
  | .genExp elt x it, env => do
    let vs ← items (← eval it env)
    return .list (← mapE (fun v => eval elt (env.set x v)) vs)
  | .dictComp k e x it, env => do
    let vs ← items (← eval it env)
    let kvs ← mapE (fun v => do
      let key ← asKey (← eval k (env.set x v))
      return (key, ← eval e (env.set x v))) vs
    return .dict (kvs.foldl (fun d p => dictSet p.1 p.2 d) [])
/-- Arguments, left to right. -/
def evals : Exprs → Env → E (List Val)
  | .nil, _ => E.pure []
  | .cons e r, env => do
    let v ← eval e env
    let vs ← evals r env
    return v :: vs
/-- Keyword arguments, left to right. -/
def evalKws : Kws → Env → E (List (String × Val))
  | .nil, _ => E.pure []
  | .cons k e r, env => do
    let v ← eval e env
    let vs ← evalKws r env
    return (k, v) :: vs
/-- The entries of a dictionary display, left to right. -/
def evalItems : Items → List (PyStr × Val) → Env → E (List (PyStr × Val))
  | .nil, d, _ => E.pure d
  | .cons k e r, d, env => do
    let key ← asKey (← eval k env)
    let v ← eval e env
    evalItems r (dictSet key v d) env
/-- The parts of an f-string, joined. -/
def evalParts : Exprs → Env → E PyStr
  | .nil, _ => E.pure []
  | .cons e r, env => do
    let s ← asKey (← eval e env)
    let t ← evalParts r env
    return s ++ t
end

/-! ## Statements -/

/-- Storing a value at a name, an attribute or a subscription. -/
def store : Expr → Val → Env → E Env
  | .name x, v, env => E.pure (env.set x v)
  | .sub e i, v, env => do
    let c ← eval R G e env
    let k ← eval R G i env
    store e (← setItem c k v) env
  | .attr e a, v, env => do
    match ← eval R G e env with
    | .hdr i => do
      hdrSetAttr R i a v
      return env
    | .inst cls attrs => store e (.inst cls (dictSet a v attrs)) env
    | _ => E.stuck
  | _, _, _ => E.stuck

/-- `x, y, ... = v`; one name takes the value itself. -/
def assignNames (xs : List String) (v : Val) (env : Env) : Option Env :=
  match xs with
  | [x] => some (env.set x v)
  | xs =>
    let go (vs : List Val) : Option Env :=
      if vs.length = xs.length then some ((xs.zip vs).foldl (fun env p => env.set p.1 p.2) env) else none
    match v with
    | .list vs => go vs
    | .tuple vs => go vs
    | _ => none

/-- A call that changes the object it is a method of. -/
inductive Change
  | append (tgt a : Expr)
  | declare (tgt : Expr) (args : Exprs) (kws : Kws)

/-- `target.append(arg)` and `target.add_argument(...)` -/
def changeCall : Expr → Option Change
  | .call (.attr tgt m) args kws =>
    if m = py!"append" then match args, kws with
      | .cons a .nil, .nil => some (.append tgt a)
      | _, _ => none
    else if m = py!"add_argument" then some (.declare tgt args kws)
    else none
  | _ => none

/-- A list of texts. -/
def strings : List Val → Option (List PyStr)
  | [] => some []
  | .str s :: r => (strings r).map (s :: ·)
  | _ => none

/-- A keyword argument that is a text, if it is given. -/
def textKw (k : String) (kws : List (String × Val)) : Option (Option PyStr) :=
  match kws.lookup k with
  | none => some none
  | some (.str s) => some (some s)
  | some _ => none

/-- `choices=` -/
def choicesKw (kws : List (String × Val)) : Option (Option (List PyStr)) :=
  match kws.lookup "choices" with
  | none => some none
  | some (.list vs) => (strings vs).map some
  | some _ => none

/-- `parser.add_argument(*args, **kws)` as a function, for a parser with declarations `ds`.  `metavar` and `help` only
change the text of the help.  An option string that is already declared is an error. -/
def declare (ds : List Argparse.ArgDecl) (args : List Val) (kws : List (String × Val)) : Option (List Argparse.ArgDecl) :=
  if kws.all (fun p => p.1 ∈ ["nargs", "action", "dest", "choices", "metavar", "help"]) then
    match strings args, textKw "nargs" kws, textKw "action" kws, textKw "dest" kws, choicesKw kws with
    | some names, some nargs, some action, some dest, some choices =>
      match Argparse.addArgument names nargs action dest choices with
      | some d => if d.strings.any (fun s => ((Argparse.optionTable ds).lookup s).isSome) then none else some (ds ++ [d])
      | none => none
    | _, _, _, _, _ => none
  else none

/-- Going on with the value of an expression. -/
def withE {α : Type} (m : E α) (env : Env) (f : α → W → Co (Ctl × Env)) : W → Co (Ctl × Env) := fun w =>
  match m w with
  | (.ok a, w') => f a w'
  | (.error e, w') => .ret (.exc e, env) w'

/-- After the body of a loop. -/
def loopNext (again : Env → W → Co (Ctl × Env)) (r : Ctl × Env) (w : W) : Co (Ctl × Env) :=
  match r with
  | (.next, env) => again env w
  | (.brk, env) => .ret (.next, env) w
  | (c, env) => .ret (c, env) w

/-- `for xs in <items>: body` -/
def forList (xs : List String) (body : Env → W → Co (Ctl × Env)) : List Val → Env → W → Co (Ctl × Env)
  | [], env, w => .ret (.next, env) w
  | v :: vs, env, w =>
    match assignNames xs v env with
    | none => .ret (.exc .stuck, env) w
    | some env' => (body env' w).bind (loopNext (forList xs body vs))

/-- `for xs in <generator>: body`: the generator runs up to its next `yield` each time a value is wanted. -/
def forGen (xs : List String) (body : Env → W → Co (Ctl × Env)) : Co (Ctl × Env) → Env → Co (Ctl × Env)
  | .ret (.exc e, _) w, env => .ret (.exc e, env) w
  | .ret _ w, env => .ret (.next, env) w
  | .yield v w k, env =>
    match assignNames xs v env with
    | none => .ret (.exc .stuck, env) w
    | some env' => (body env' w).bind (loopNext (fun env'' w' => forGen xs body (k none w') env''))

/-- `except cls` catches `e`. -/
def catches : Val → PExc → Bool
  | .builtin .zlibError, .sys .zlibError => true
  | _, _ => false

/-- `raise v` -/
def raised : Val → PExc
  | .valueErr text => .value text
  | _ => .stuck

mutual
/-- Executing a statement; `cur` is the exception being handled. -/
def exec (cur : Option PExc) : Stmt → Env → W → Co (Ctl × Env)
  | .assign t e, env => withE (do store R G t (← eval R G e env) env) env fun env' w => .ret (.next, env') w
  | .unpack xs e, env => withE (eval R G e env) env fun v w =>
    match assignNames xs v env with
    | some env' => .ret (.next, env') w
    | none => .ret (.exc .stuck, env) w
  | .aug x op e, env => withE (do
      let a ← eval R G (.name x) env
      let b ← eval R G e env
      binop op a b) env fun v w => .ret (.next, env.set x v) w
  | .expr e, env =>
    match changeCall e with
    | some (.append tgt a) => withE (do
        match ← eval R G tgt env with
        | .list vs => do
          let v ← eval R G a env
          store R G tgt (.list (vs ++ [v])) env
        | _ => E.stuck) env fun env' w => .ret (.next, env') w
    | some (.declare tgt args kws) => withE (do
        match ← eval R G tgt env with
        | .parser ds => do
          let args ← evals R G args env
          let kws ← evalKws R G kws env
          match declare ds args kws with
          | some ds => store R G tgt (.parser ds) env
          | none => E.stuck
        | _ => E.stuck) env fun env' w => .ret (.next, env') w
    | none => withE (eval R G e env) env fun _ w => .ret (.next, env) w
  | .yield e, env => withE (eval R G e env) env fun v w => .yield v w fun x w' =>
    match x with
    | none => .ret (.next, env) w'
    | some e => .ret (.exc e, env) w'
  | .ifte t a b, env => withE (eval R G t env) env fun v w =>
    if truth v then execBlock cur a env w else execBlock cur b env w
  | .for xs it b, env => withE (eval R G it env) env fun v w =>
    match v with
    | .gen m body args => forGen xs (execBlock cur b) (R.run m body (envOf args) w) env
    | v => withE (items v) env (fun vs => forList xs (execBlock cur b) vs env) w
  | .try b exc h, env => fun w => (execBlock cur b env w).bind fun r w' =>
    match r with
    | (.exc e, env') => withE (eval R G exc env') env' (fun c w'' =>
        if catches c e then execBlock (some e) h env' w'' else .ret (.exc e, env') w'') w'
    | r => .ret r w'
  | .raise e, env => withE (eval R G e env) env fun v w => .ret (.exc (raised v), env) w
  | .reraise, env => fun w => .ret (.exc (cur.getD .stuck), env) w
  | .ret e, env => withE (eval R G e env) env fun v w => .ret (.ret v, env) w
  | .brk, env => fun w => .ret (.brk, env) w
  | .with e x b, env => withE (eval R G e env) env fun v w => execBlock cur b (env.set x v) w
/-- Executing statements in order. -/
def execBlock (cur : Option PExc) : Block → Env → W → Co (Ctl × Env)
  | .nil, env => fun w => .ret (.next, env) w
  | .cons s r, env => fun w => (exec cur s env w).bind fun q w' =>
    match q with
    | (.next, env') => execBlock cur r env' w'
    | q => .ret q w'
end
end

/-! ## Programs -/

/-- Running function bodies with calls nested at most `n` deep (CPython has such a limit too). -/
def runAt (R : Rt) : Nat → PyStr → Block → Env → W → Co (Ctl × Env)
  | 0, _, _, env, w => .ret (.exc .stuck, env) w
  | n + 1, m, body, env, w =>
    execBlock { R with run := runAt R n } (R.globals m) none body env w

/-- The environment in which calls may nest `n` deep. -/
def Rt.at (R : Rt) (n : Nat) : Rt := { R with run := runAt R n }

/-- Global names. -/
abbrev Globals := PyStr → Option Val

def Globals.set (g : Globals) (x : PyStr) (v : Val) : Globals := fun y => if y = x then some v else g y

/-- A state in which nothing has been read or made. -/
def W.empty : W := { heap := [], headers := [], file := { data := [] }, out := [] }

/-- Executing the statements of module (or class) `m`.  A name whose value is an error is left unbound. -/
def execDecl (R : Rt) (m : PyStr) (g : Globals) : Decl → Globals
  | .import n => g.set n (.mod n)
  | .fromImport n x => g.set x ((R.globals n x).getD (.mod (n ++ py!"." ++ x)))
  | .assign x e => match (eval R g e (fun _ => none) W.empty).1 with
    | .ok v => g.set x v
    | .error _ => g
  | .def f => match (mapE (fun e => eval R g e (fun _ => none)) f.defaults W.empty).1 with
    | .ok vs => g.set f.name (.fn m f vs)
    | .error _ => g
  | .property f => g.set f.name (.prop m f)

/-- The names of a module after executing its statements. -/
def execDecls (R : Rt) (m : PyStr) (ds : List Decl) (g : Globals) : Globals := ds.foldl (execDecl R m) g

end Atop.Src
