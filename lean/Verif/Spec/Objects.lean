import Verif.Model.Objects
/-!
# What the caller sees of the objects

Small vocabulary for the claims about memory: what an object shows in a given state of the memory, which blocks a
yielded tuple occupies, and which writes leave the two recorded lengths of a header alone.
-/

namespace Atop

/-- What an object shows in the world `w`. -/
def World.inst (w : World) (x : Ref) : Inst := ⟨x.ty, w.heap.getD x.blk []⟩

/-- What a cgroup object shows in the world `w`. -/
def World.group (w : World) (x : Obj.Group) : CGroup := ⟨w.inst x.cstat, w.inst x.proclist⟩

/-- The memory blocks of a cgroup object. -/
def Obj.Group.blocks (x : Obj.Group) : List Nat := [x.cstat.blk, x.proclist.blk]

/-- What a tuple of objects shows in the world `w`. -/
def World.tuple (w : World) (x : Obj.Tuple) : Sample :=
  ⟨w.inst x.record, w.inst x.sstat, x.tstats.map w.inst, x.cgroups.map w.group⟩

/-- The memory blocks of a tuple. -/
def Obj.Tuple.blocks (x : Obj.Tuple) : List Nat :=
  x.record.blk :: x.sstat.blk :: (x.tstats.map Ref.blk ++ x.cgroups.flatMap Obj.Group.blocks)

/-- What a step shows in the world `w`. -/
def World.out (w : World) : Obj.Out → Out
  | .yield x => .yield (w.tuple x)
  | .stop => .stop
  | .raise e => .raise e

/-- The memory blocks of what a step gave. -/
def Obj.Out.blocks : Obj.Out → List Nat
  | .yield x => x.blocks
  | _ => []

/-- A write of `len` bytes at `off` leaves alone the two recorded lengths that every reading step uses: bytes 32 to 35
(`tstatlen`, in 1.26 `pstatlen`) and bytes 456 to 459 (`cstatlen`). -/
def Spares (off len : Nat) : Prop := (off + len ≤ 32 ∨ 36 ≤ off) ∧ (off + len ≤ 456 ∨ 460 ≤ off)

/-- A write of `len` bytes at `off` leaves alone the version number of a header: bytes 4 and 5. -/
def SparesVersion (off len : Nat) : Prop := off + len ≤ 4 ∨ 6 ≤ off

/-- Header objects are over memory that exists. -/
def World.WF (w : World) : Prop := ∀ o ∈ w.headers, o.blk < w.heap.length

/-- The memory of everything the steps of a history gave, in order. -/
def givenBlocks (l : List (Nat × Obj.Out × World)) : List Nat := l.flatMap fun p => p.2.1.blocks

/-- The operations of a history without the writes. -/
def stepsOf (ops : List Obj.Op) : List (Nat × Op) := ops.filterMap fun
  | .use i op => some (i, op)
  | .write .. => none

/-- The caller's generators, not yet started: `raise_on_truncation`, the header object (or `None`), `max_samples`. -/
abbrev Calls := List (Bool × Option Nat × Int)

/-- The generators, in the world of objects. -/
def Calls.objects (c : Calls) : List (Bool × Obj.Gen) := c.map fun p => (p.1, .start p.2.1 p.2.2)

/-- The same generators on values: each header as it is in `w`. -/
def Calls.values (w : World) (c : Calls) : List (Bool × Gen) := c.map fun p => (p.1, .start (p.2.1.bind w.header) p.2.2)

/-- Every header object the caller passes shows what `get_header` returned for some file. -/
def Calls.Held (w : World) (c : Calls) : Prop :=
  ∀ p ∈ c, ∀ i, p.2.1 = some i → ∃ h s0 s1, w.header i = some h ∧ getHeader true s0 = (.ok h, s1)

/-- Every header object the caller passes shows what `get_header` returned for some file, with the check or without it. -/
def Calls.Returned (w : World) (c : Calls) : Prop :=
  ∀ p ∈ c, ∀ i, p.2.1 = some i → ∃ h check s0 s1, w.header i = some h ∧ getHeader check s0 = (.ok h, s1)

/-- Every write of the history, at the moment it happens, spares the recorded lengths of the headers over the memory it
touches, and the version number of those among them whose version has not been evaluated yet. -/
def Mild (Z : Zlib) (ops : List Obj.Op) (gs : List (Bool × Obj.Gen)) (w : World) : Prop :=
  ∀ before blk off bytes after, ops = before ++ .write blk off bytes :: after →
    ∀ o ∈ (Obj.history Z before gs w).2.2.headers, o.blk = blk →
      Spares off bytes.length ∧ (o.cache = none → SparesVersion off bytes.length)

end Atop
