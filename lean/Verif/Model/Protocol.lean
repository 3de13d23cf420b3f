import Verif.Model.Utils
/-!
# The generator object returned by `generate_statistics`

Besides `next()`, a Python generator has `throw()` and `close()`, and several generators may share one open file.
The semantics of the three operations is that of the Python language (PEP 342): an exception thrown into a suspended
generator appears at its `yield`, which here lies inside the `try` block of atoparser/utils.py:103-129.
-/

namespace Atop

/-- What a caller can do with a generator. -/
inductive Op
  | next
  | throw (e : Exc)
  | close

/-- What the caller sees. -/
inductive Seen
  | yield (x : Sample)
  /-- `StopIteration` -/
  | stop
  | raise (e : Exc)
  /-- `close()` returned -/
  | closed

/-- The result of `next()` as seen by the caller. -/
def Out.seen : Out → Seen
  | .yield x => .yield x
  | .stop => .stop
  | .raise e => .raise e

/-- `generator.throw(e)`.  Not started: `e` is raised before the first statement.  Suspended at the `yield` of
atoparser/utils.py:124: `e` is raised there, inside the `try`, so lines 125-129 apply.  Finished: `e` is raised. -/
def Gen.throw (rot : Bool) (g : Gen) (e : Exc) : Out × Gen :=
  match g with
  | .start _ _ => (.raise e, .done)
  | .loop _ _ _ => (onError rot e, .done)
  | .done => (.raise e, .done)

/-- `generator.close()`: `GeneratorExit` at the `yield`, which `except zlib.error` does not catch; no effect when not
started or finished. -/
def Gen.close (_ : Gen) : Gen := .done

/-- One operation. -/
def Gen.step (Z : Zlib) (rot : Bool) (op : Op) (g : Gen) (s : Stream) : Seen × Gen × Stream :=
  match op with
  | .next => let r := g.next Z rot s; (r.1.seen, r.2)
  | .throw e => let r := g.throw rot e; (r.1.seen, r.2, s)
  | .close => (.closed, g.close, s)

/-- A history of operations on one generator. -/
def Gen.history (Z : Zlib) (rot : Bool) : List Op → Gen → Stream → List Seen × Gen × Stream
  | [], g, s => ([], g, s)
  | op :: ops, g, s =>
    let r := g.step Z rot op s
    let r' := Gen.history Z rot ops r.2.1 r.2.2
    (r.1 :: r'.1, r'.2)

/-- One operation, as a step: `close()` returning is written `.stop` too (the caller knows which operation it was). -/
def Gen.use (Z : Zlib) (rot : Bool) (op : Op) (g : Gen) (s : Stream) : Out × Gen × Stream :=
  match op with
  | .next => g.next Z rot s
  | .throw e => ((g.throw rot e).1, (g.throw rot e).2, s)
  | .close => (.stop, g.close, s)

/-- Several generators over one open file, operated on in any order: what every operation gave, the generators and the
file afterwards. -/
def used (Z : Zlib) : List (Nat × Op) → List (Bool × Gen) → Stream → List (Nat × Out) × List (Bool × Gen) × Stream
  | [], gs, s => ([], gs, s)
  | (i, op) :: ops, gs, s =>
    match gs[i]? with
    | none => used Z ops gs s
    | some (rot, g) =>
      let r := g.use Z rot op s
      let r' := used Z ops (gs.set i (rot, r.2.1)) r.2.2
      ((i, r.1) :: r'.1, r'.2)

/-- Several generators (each with its `raise_on_truncation`) over one open file, stepped with `next()` in the order of
the schedule: what every step gave, the generators and the file afterwards. -/
def interleave (Z : Zlib) : List Nat → List (Bool × Gen) → Stream → List (Nat × Out) × List (Bool × Gen) × Stream
  | [], gs, s => ([], gs, s)
  | i :: is, gs, s =>
    match gs[i]? with
    | none => interleave Z is gs s
    | some (rot, g) =>
      let r := g.next Z rot s
      let r' := interleave Z is (gs.set i (rot, r.2.1)) r.2.2
      ((i, r.1) :: r'.1, r'.2)

end Atop
