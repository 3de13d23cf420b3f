import Verif.Model.Protocol
/-!
# Objects and memory

In the other models a structure is a value.  In Python it is an object with memory: the caller of `generate_statistics`
holds the header it passed and every structure it was given, may write to any of them between two steps, and several
generators may share one header.  Here the functions of atoparser/utils.py are restated with memory: every ctypes
object refers to a block, `header.Record()` and `from_buffer_copy` allocate a new one, `from_buffer` shares one, and
every attribute is read from the memory as it is at that moment.
-/

namespace Atop

/-- A header object: its class, its memory block and its instance attributes (shared.py:84-89). -/
structure HObj where
  cls : HeaderClass
  blk : Nat
  cache : Option (Nat × Nat)

/-- Memory blocks (a block is named by its index), header objects (named by their index) and the open file. -/
structure World where
  heap : List Bytes := []
  headers : List HObj := []
  file : Stream

/-- Any other ctypes object: its type and its memory block. -/
structure Ref where
  ty : CType
  blk : Nat

/-- A computation on the world that may raise. -/
def M (α : Type) := World → Except Exc α × World

namespace M
def pure {α} (a : α) : M α := fun w => (.ok a, w)
def bind {α β} (m : M α) (f : α → M β) : M β := fun w =>
  match m w with
  | (.ok a, w') => f a w'
  | (.error e, w') => (.error e, w')
instance : Monad M where
  pure := M.pure
  bind := M.bind
/-- A step that does not touch the world. -/
def lift {α} (x : Except Exc α) : M α := fun w => (x, w)
/-- A step that only reads the file. -/
def file {α} (r : Rd α) : M α := fun w => ((r w.file).1, { w with file := (r w.file).2 })
/-- A new memory block. -/
def alloc (b : Bytes) : M Nat := fun w => (.ok w.heap.length, { w with heap := w.heap ++ [b] })
/-- The memory of a block. -/
def load (blk : Nat) : M Bytes := fun w => (.ok (w.heap.getD blk []), w)
/-- Overwriting a block. -/
def store (blk : Nat) (b : Bytes) : M Unit := fun w => (.ok (), { w with heap := w.heap.set blk b })
end M

/-- The current value of a header object: its class, the memory it views and its attributes.  (`none`: no such object.) -/
def World.header (w : World) (i : Nat) : Option Header :=
  match w.headers[i]? with
  | some o => some { cls := o.cls, buf := (w.heap.getD o.blk []).take o.cls.size, cache := o.cache }
  | none => none

/-- Looking at a header object.  (The functions below only use objects that exist.) -/
def M.header (i : Nat) : M Header := fun w =>
  match w.header i with
  | some h => (.ok h, w)
  | none => (.error .attributeError, w)

/-- A new header object over a block. -/
def M.newHeader (o : HObj) : M Nat := fun w => (.ok w.headers.length, { w with headers := w.headers ++ [o] })

/-- Evaluating `header.semantic_version` stores its parts on the object (shared.py:84-89). -/
def M.latch (i : Nat) : M Unit := fun w =>
  match w.headers[i]?, w.header i with
  | some o, some h => (.ok (), { w with headers := w.headers.set i { o with cache := h.latched.cache } })
  | _, _ => (.ok (), w)

/-- Looking at an object. -/
def Ref.inst (x : Ref) : M Inst := do return { ty := x.ty, buf := ← M.load x.blk }

/-- `raw_file.readinto(obj)`: the bytes that are there overwrite the beginning of the object's memory. -/
def M.readinto (blk : Nat) : M Unit := do
  let old ← M.load blk
  let got ← M.file (Stream.read old.length)
  M.store blk (got ++ old.drop got.length)

/-- `T()` (a new object, all zero) followed by `readinto`. -/
def M.readNew (size : Nat) : M Nat := do
  let blk ← M.alloc (List.replicate size 0)
  M.readinto blk
  return blk

/-- `Header()` (a new header object, all zero) followed by `readinto`. -/
def M.readHeader (c : HeaderClass) : M (Nat × Nat) := do
  let blk ← M.alloc (List.replicate c.size 0)
  let i ← M.newHeader { cls := c, blk, cache := none }
  M.readinto blk
  return (blk, i)

/-- `T.from_buffer_copy(data)`: a new object with its own memory. -/
def M.copy (t : CType) (data : Bytes) : M Ref := do
  let x ← M.lift (fromBufferCopy t data)
  let blk ← M.alloc x.buf
  return { ty := t, blk }

namespace Obj

/-- atoparser/utils.py:132-163 `get_header`; the result names the header object.  Line 157 (`from_buffer`) makes a second
object over the same memory.  The check evaluates the version (shared.py:51) before it can fail. -/
def getHeader (check : Bool := true) : M Nat := do
  let (blk, i) ← M.readHeader defaultHeader
  let h0 ← M.header i
  let magic ← M.lift (h0.inst.intAttr py!"magic")
  if magic ≠ (MAGIC : Int) then M.lift (.error (.valueError (.badMagic (magicText magic.toNat))))
  else
    let v ← M.lift h0.semanticVersion
    M.latch i
    let j ←
      if v ≠ defaultHeader.supportedVersion then
        match headerByVersion v with
        | some c =>
          if h0.buf.length < c.size then M.lift (.error (.valueError .bufferTooSmall))
          else M.newHeader { cls := c, blk, cache := none }
        | none => pure i
      else pure i
    if check then
      let h ← M.header j
      M.latch j
      M.lift h.checkCompatibility
      pure j
    else pure j

/-- atoparser/utils.py:166-184 `get_record`. -/
def getRecord (i : Nat) : M Ref := do
  let h ← M.header i
  let blk ← M.readNew h.cls.Record.size
  return { ty := h.cls.Record, blk }

/-- atoparser/utils.py:187-210 `get_sstat`. -/
def getSStat (Z : Zlib) (i : Nat) (record : Ref) : M Ref := do
  let r ← record.inst
  let n ← M.lift (r.intAttr py!"scomplen")
  let buffer ← M.file (Stream.read n.toNat)
  let d ← M.lift (zdecompress Z buffer)
  let h ← M.header i
  M.copy h.cls.SStat d

/-- atoparser/utils.py:239-244: the loop of `get_tstat`. -/
def tstatLoop (t : CType) (d : Bytes) (tstatlen : Int) : (k i : Nat) → M (List Ref)
  | 0, _ => pure []
  | k + 1, i => do
    let x ← M.copy t (pySlice d ((i : Int) * tstatlen) (tstatlen * ((i : Int) + 1)))
    let xs ← tstatLoop t d tstatlen k (i + 1)
    return x :: xs

/-- atoparser/utils.py:213-245 `get_tstat`. -/
def getTStat (Z : Zlib) (i : Nat) (record : Ref) : M (List Ref) := do
  let r ← record.inst
  let n ← M.lift (r.intAttr py!"pcomplen")
  let buffer ← M.file (Stream.read n.toNat)
  let d ← M.lift (zdecompress Z buffer)
  let r ← record.inst
  let count ← M.lift (if r.isRecord126 then r.intAttr py!"nlist" else r.intAttr py!"ndeviat")
  let h ← M.header i
  let v ← M.lift h.version
  M.latch i
  let h ← M.header i
  let tstatlen ← M.lift (
    if v.1 ≥ 2 ∧ v.2 ≥ 3 then h.inst.intAttr py!"tstatlen" else h.inst.intAttr py!"pstatlen")
  tstatLoop h.cls.TStat d tstatlen count.toNat 0

/-- A `CGChainer` object (atoparser/structs/atop_2_11.py:645-668). -/
structure Group where
  cstat : Ref
  proclist : Ref

/-- `pid_t * n` followed by `from_buffer_copy` (atoparser/utils.py:287-289). -/
def pidArray (n : Int) (pids : Bytes) (start : Int) : M Ref :=
  if n < 0 then M.lift (.error (.valueError .negativeLength))
  else
    let t : CType := .array pid_t n.toNat
    M.copy t (pySlice pids start (start + t.size))

/-- atoparser/utils.py:277-292: the loop of `get_cstat`. -/
def cstatLoop (t : CType) (d pids : Bytes) (cstatlen : Int) : (k : Nat) → (cs ps : Int) → M (List Group)
  | 0, _, _ => pure []
  | k + 1, cs, ps => do
    let x ← M.copy t (pySlice d cs (cs + cstatlen))
    let y ← x.inst
    let structlen ← M.lift (y.genInt py!"structlen")
    let nprocs ← M.lift (y.genInt py!"nprocs")
    let p ← pidArray nprocs pids ps
    let gs ← cstatLoop t d pids cstatlen k (cs + structlen) (ps + (CType.array pid_t nprocs.toNat).size)
    return { cstat := x, proclist := p } :: gs

/-- atoparser/utils.py:248-293 `get_cstat`. -/
def getCStat (Z : Zlib) (i : Nat) (record : Ref) : M (List Group) := do
  let r ← record.inst
  let n ← M.lift (r.intAttr py!"ccomplen")
  let bufC ← M.file (Stream.read n.toNat)
  let d ← M.lift (zdecompress Z bufC)
  let r ← record.inst
  let m ← M.lift (r.intAttr py!"icomplen")
  let bufP ← M.file (Stream.read m.toNat)
  let pids ← M.lift (zdecompress Z bufP)
  let h ← M.header i
  let cstatlen ← M.lift (h.inst.intAttr py!"cstatlen")
  let r ← record.inst
  let count ← M.lift (r.intAttr py!"ncgroups")
  match h.cls.CStat with
  | some t => cstatLoop t d pids cstatlen count.toNat 0 0
  | none => if count ≤ 0 then pure [] else M.lift (.error .attributeError)

/-- One yielded tuple of objects. -/
structure Tuple where
  record : Ref
  sstat : Ref
  tstats : List Ref
  cgroups : List Group

/-- atoparser/utils.py:114-124: one iteration of the loop; `none` is the `break`. -/
def readSample (Z : Zlib) (i : Nat) (v : Nat × Nat) : M (Option Tuple) := do
  let record ← getRecord i
  let r ← record.inst
  let n ← M.lift (r.intAttr py!"scomplen")
  if n ≤ 0 then return none
  else
    let sstat ← getSStat Z i record
    let tstats ← getTStat Z i record
    let cgroups ← if v.1 ≥ 2 ∧ v.2 ≥ 11 then getCStat Z i record else pure []
    return some { record, sstat, tstats, cgroups }

/-- Suspended state of a generator; the header is an object. -/
inductive Gen
  | start (header : Option Nat) (max : Int)
  | loop (header : Nat) (v : Nat × Nat) (left : Nat)
  | done

/-- What one `next()` does. -/
inductive Out
  | yield (x : Tuple)
  | stop
  | raise (e : Exc)

/-- atoparser/utils.py:125-129. -/
def onError (raiseOnTruncation : Bool) (e : Exc) : Out :=
  if e = .zlibError then (if raiseOnTruncation then .raise e else .stop) else .raise e

/-- The `for` loop, resumed (atoparser/utils.py:107-124). -/
def resumeLoop (Z : Zlib) (rot : Bool) (i : Nat) (v : Nat × Nat) (left : Nat) (w : World) : Out × Gen × World :=
  match left with
  | 0 => (.stop, .done, w)
  | k + 1 =>
    match readSample Z i v w with
    | (.ok (some x), w') => (.yield x, .loop i v k, w')
    | (.ok none, w') => (.stop, .done, w')
    | (.error e, w') => (onError rot e, .done, w')

/-- atoparser/utils.py:104-106: the version, evaluated on the object and parsed back from its text. -/
def parsedVersion (i : Nat) : M (Nat × Nat) := do
  let h ← M.header i
  let v ← M.lift (Atop.parsedVersion h)
  M.latch i
  return v

/-- atoparser/utils.py:103-107: entering the `try` block with a header. -/
def enterTry (Z : Zlib) (rot : Bool) (i : Nat) (max : Int) (w : World) : Out × Gen × World :=
  match parsedVersion i w with
  | (.error e, w') => (onError rot e, .done, w')
  | (.ok v, w') => resumeLoop Z rot i v max.toNat w'

/-- `next(generator)` (atoparser/utils.py:82-129). -/
def Gen.next (Z : Zlib) (rot : Bool) (g : Gen) (w : World) : Out × Gen × World :=
  match g with
  | .done => (.stop, .done, w)
  | .loop i v left => resumeLoop Z rot i v left w
  | .start (some i) max => enterTry Z rot i max w
  | .start none max =>
    match getHeader true w with
    | (.error e, w') => (.raise e, .done, w')
    | (.ok i, w') => enterTry Z rot i max w'

/-- `generator.throw(e)`: as in Model/Protocol.lean, the exception appears before the first statement, or at the `yield` of
atoparser/utils.py:124, inside the `try` block (lines 125-129 apply), or comes out of a finished generator. -/
def Gen.throw (rot : Bool) (g : Gen) (e : Exc) : Out × Gen :=
  match g with
  | .start _ _ => (.raise e, .done)
  | .loop _ _ _ => (onError rot e, .done)
  | .done => (.raise e, .done)

/-- `next()`, `throw()` or `close()`; `close()` returning is written `.stop`. -/
def Gen.use (Z : Zlib) (rot : Bool) (op : Atop.Op) (g : Gen) (w : World) : Out × Gen × World :=
  match op with
  | .next => g.next Z rot w
  | .throw e => ((g.throw rot e).1, (g.throw rot e).2, w)
  | .close => (.stop, .done, w)

/-- What the caller can do: call `next()`, `throw()` or `close()` of one of its generators, or write bytes into the memory
of an object (assigning a field, `ctypes.memmove`, ...). -/
inductive Op
  | use (gen : Nat) (op : Atop.Op)
  | write (blk off : Nat) (bytes : Bytes)

/-- `next()` of generator `i`. -/
abbrev Op.next (i : Nat) : Op := .use i .next

/-- Writing `bytes` at offset `off` of a block; memory outside the object cannot be written. -/
def poke (w : World) (blk off : Nat) (bytes : Bytes) : World :=
  match w.heap[blk]? with
  | some b =>
    if off + bytes.length ≤ b.length then
      { w with heap := w.heap.set blk (b.take off ++ bytes ++ b.drop (off + bytes.length)) }
    else w
  | none => w

/-- A history: generators (each with its `raise_on_truncation`) over one file, operations and writes in any order.  For every
operation: the generator, what it gave, and the world right after it. -/
def history (Z : Zlib) : List Op → List (Bool × Gen) → World → List (Nat × Out × World) × List (Bool × Gen) × World
  | [], gs, w => ([], gs, w)
  | .write blk off bytes :: ops, gs, w => history Z ops gs (poke w blk off bytes)
  | .use i op :: ops, gs, w =>
    match gs[i]? with
    | none => history Z ops gs w
    | some (rot, g) =>
      let r := g.use Z rot op w
      let r' := history Z ops (gs.set i (rot, r.2.1)) r.2.2
      ((i, r.1, r.2.2) :: r'.1, r'.2)

end Obj

end Atop
