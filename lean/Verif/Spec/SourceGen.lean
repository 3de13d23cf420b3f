import Verif.Spec.Source
import Verif.Model.Objects
/-!
# Driving generators of the source text

`next()`, `throw()` and `close()` for a generator of the interpreter, and histories of a caller that holds several of them
over one file, operating on them in any order and writing to the memory of any object in between.
-/

namespace Atop.Src

/-- A generator object: suspended, or finished. -/
inductive PGen
  | live (resume : Option PExc → W → Co (Ctl × Env))
  | done

/-- What `next()` does: hand out a value, raise `StopIteration`, or raise. -/
inductive POut
  | yield (v : Val)
  | stop
  | raise (e : PExc)

/-- `next(generator)` -/
def PGen.next (g : PGen) (w : W) : POut × PGen × W :=
  match g with
  | .done => (.stop, .done, w)
  | .live k => match k none w with
    | .yield v w' k' => (.yield v, .live k', w')
    | .ret (.exc e, _) w' => (.raise e, .done, w')
    | .ret _ w' => (.stop, .done, w')

/-- `generator.throw(e)`: the exception is raised where the generator is suspended; what follows is seen as after
`next()`. -/
def PGen.throw (g : PGen) (e : PExc) (w : W) : POut × PGen × W :=
  match g with
  | .done => (.raise e, .done, w)
  | .live k => match k (some e) w with
    | .yield v w' k' => (.yield v, .live k', w')
    | .ret (.exc e, _) w' => (.raise e, .done, w')
    | .ret _ w' => (.stop, .done, w')

/-- `GeneratorExit` -/
def generatorExit : PExc := .other py!"GeneratorExit"

/-- `generator.close()`: `GeneratorExit` is raised where the generator is suspended.  It returns if the generator ends or
lets that exception out; another exception comes out, and a generator that yields again is an error (`RuntimeError`). -/
def PGen.close (g : PGen) (w : W) : Option PExc × PGen × W :=
  match g with
  | .done => (none, .done, w)
  | .live k => match k (some generatorExit) w with
    | .yield _ w' k' => (some (.other py!"RuntimeError"), .live k', w')
    | .ret (.exc (.other c), _) w' => (if c = py!"GeneratorExit" then none else some (.other c), .done, w')
    | .ret (.exc e, _) w' => (some e, .done, w')
    | .ret _ w' => (none, .done, w')

/-- Exceptions: those the code raises itself carry their text. -/
def embExc : Exc → PExc
  | .valueError (.badMagic t) => .value t
  | .valueError (.incompatible t) => .value t
  | e => .sys e

/-- `next()`, `throw(e)` or `close()`; `close()` returning is written `.stop` (the caller knows which it called). -/
def PGen.use (op : Atop.Op) (g : PGen) (w : W) : POut × PGen × W :=
  match op with
  | .next => g.next w
  | .throw e => g.throw (embExc e) w
  | .close => match g.close w with
    | (none, g', w') => (.stop, g', w')
    | (some e, g', w') => (.raise e, g', w')

/-- A generator object that has not been stepped yet: it is suspended before its first statement. -/
def Rt.gen (R : Rt) (g : Val) : PGen := .live fun x w =>
  match x with
  | none => R.start g w
  | some e => .ret (.exc e, fun _ => none) w

/-- Writing `bytes` at offset `off` of a block; memory outside the object cannot be written. -/
def pokeW (w : W) (blk off : Nat) (bytes : Bytes) : W :=
  match w.heap[blk]? with
  | some b =>
    if off + bytes.length ≤ b.length then
      { w with heap := w.heap.set blk (b.take off ++ bytes ++ b.drop (off + bytes.length)) }
    else w
  | none => w

/-- A history: operations on the generators and writes, in any order.  For every operation: the generator, what it gave, and
the state right after it. -/
def driven : List Obj.Op → List PGen → W → List (Nat × POut × W)
  | [], _, _ => []
  | .write blk off bytes :: ops, gs, w => driven ops gs (pokeW w blk off bytes)
  | .use i op :: ops, gs, w =>
    match gs[i]? with
    | none => driven ops gs w
    | some g => (i, (g.use op w).1, (g.use op w).2.2) :: driven ops (gs.set i (g.use op w).2.1) (g.use op w).2.2

/-! ## The world of Model/Objects.lean in the interpreter -/

/-- The instance attributes a header has once its version has been evaluated. -/
def attrsOf : Option (Nat × Nat) → List (PyStr × Val)
  | none => []
  | some v => [(py!"_major_version", .int v.1), (py!"_minor_version", .int v.2), (py!"_semantic_version", .str (versionString v))]

def embH (o : HObj) : PHdr := { cls := o.cls, blk := o.blk, attrs := attrsOf o.cache }

def emb (out : PyStr) (w : World) : W := { heap := w.heap, headers := w.headers.map embH, file := w.file, out }

/-- The result of a computation. -/
def embR {α : Type} (out : PyStr) (f : α → Val) (r : Except Exc α × World) : Except PExc Val × W :=
  match r with
  | (.ok a, w) => (.ok (f a), emb out w)
  | (.error e, w) => (.error (embExc e), emb out w)

/-- The error of an open file is not one of those the code itself raises. -/
def LibFile (s : Stream) : Prop := ∀ e, s.short = some e → embExc e = .sys e

/-- An object of the model in the interpreter. -/
def refVal (r : Ref) : Val := .view r.ty r.blk 0

/-- A cgroup of the model in the interpreter. -/
def groupVal (g : Obj.Group) : Val := .inst py!"CGChainer" [(py!"cstat", refVal g.cstat), (py!"proclist", refVal g.proclist)]

/-- One yielded tuple in the interpreter. -/
def tupleVal (x : Obj.Tuple) : Val :=
  .tuple [refVal x.record, refVal x.sstat, .list (x.tstats.map refVal), .list (x.cgroups.map groupVal)]

/-- An outcome in the interpreter. -/
def outVal : Obj.Out → POut
  | .yield x => .yield (tupleVal x)
  | .stop => .stop
  | .raise e => .raise (embExc e)

/-- Calling the function `m.f`. -/
def Rt.call (R : Rt) (m f : PyStr) (args : List Val) (kws : List (String × Val)) : E Val :=
  match R.globals m f with
  | some v => callVal R v args kws
  | none => E.stuck

/-- The header as an argument. -/
def headerArg : Option Nat → Val
  | some i => .hdr i
  | none => .none

end Atop.Src
