import Verif.Spec.SourceGen
import Verif.Spec.SourceAttr
/-!
# Reading samples by hand

`get_record`, `get_sstat`, `get_tstat` and `get_cstat` are public: instead of iterating, a caller may read the samples
itself.  Below is the caller's program, not a part of atoparser; what it calls is executed from its source text.
-/

namespace Atop.Src

/-- The caller uses a value as an integer. -/
def E.int (m : E Val) : E Int := do
  match ← m with
  | .int k => return k
  | _ => E.stuck

/-- The caller reads one sample with the header `i` it holds:

```
record = atoparser.get_record(raw_file, header)
if record.scomplen <= 0: None
else: (record, atoparser.get_sstat(raw_file, header, record), atoparser.get_tstat(raw_file, header, record),
       atoparser.get_cstat(raw_file, header, record) if header.major_version >= 2 and header.minor_version >= 11 else [])
``` -/
def byHand (R : Rt) (i : Nat) : E Val := do
  let record ← R.call py!"atoparser" py!"get_record" [.file, .hdr i] []
  let n ← E.int (attrOf R record py!"scomplen")
  if n ≤ 0 then return .none
  let sstat ← R.call py!"atoparser" py!"get_sstat" [.file, .hdr i, record] []
  let tstats ← R.call py!"atoparser" py!"get_tstat" [.file, .hdr i, record] []
  let major ← E.int (attrOf R (.hdr i) py!"major_version")
  let minor ← E.int (attrOf R (.hdr i) py!"minor_version")
  let cgroups ←
    if major ≥ 2 ∧ minor ≥ 11 then R.call py!"atoparser" py!"get_cstat" [.file, .hdr i, record] []
    else pure (.list [])
  return .tuple [record, sstat, tstats, cgroups]

/-- What reading by hand gave, written as what `next()` would have given: a sample, no sample (`None`), or an exception. -/
def handOut : Except PExc Val → POut
  | .ok .none => .stop
  | .ok v => .yield v
  | .error e => .raise e

/-- What the caller does next: read a sample by hand, use one of its iterators, or write to memory. -/
inductive Turn
  | hand
  | use (gen : Nat) (op : Atop.Op)
  | write (blk off : Nat) (bytes : Bytes)

/-- A caller with the header `i` and some iterators, doing these things in any order.  For every sample read by hand and
every use of an iterator: what it gave, and the state right after it. -/
def turns (R : Rt) (i : Nat) : List Turn → List PGen → W → List (POut × W)
  | [], _, _ => []
  | .hand :: ts, gs, w => (handOut (byHand R i w).1, (byHand R i w).2) :: turns R i ts gs (byHand R i w).2
  | .use j op :: ts, gs, w =>
    match gs[j]? with
    | none => turns R i ts gs w
    | some g => ((g.use op w).1, (g.use op w).2.2) :: turns R i ts (gs.set j (g.use op w).2.1) (g.use op w).2.2
  | .write blk off bytes :: ts, gs, w => turns R i ts gs (pokeW w blk off bytes)

/-- The turns of a caller as operations on iterators: the samples read by hand are taken from iterators of their own, the
first of which has the number `k`. -/
def plan : Nat → List Turn → List Obj.Op
  | _, [] => []
  | k, .hand :: ts => .next k :: plan (k + 1) ts
  | k, .use j op :: ts => .use j op :: plan k ts
  | k, .write blk off bytes :: ts => .write blk off bytes :: plan k ts

/-- How many samples are read by hand. -/
def hands : List Turn → Nat
  | [] => 0
  | .hand :: ts => hands ts + 1
  | _ :: ts => hands ts

/-- The samples among what was given. -/
def POut.isSample : POut → Bool
  | .yield _ => true
  | _ => false

/-- The turn is a `next()` of iterator `j`. -/
def Turn.isNext (j : Nat) : Turn → Bool
  | .use j' .next => j' == j
  | _ => false

/-- Only reading by hand and `next()` of one of the first `b` iterators. -/
def OnlyReads (b : Nat) (ts : List Turn) : Prop := ∀ t ∈ ts, t = .hand ∨ ∃ j < b, t = .use j .next

/-- How many samples were given. -/
def samplesIn (l : List (POut × W)) : Nat := (l.filter fun p => p.1.isSample).length

/-- How many samples iterator `j` gave, for turns and what they gave side by side. -/
def samplesFrom (j : Nat) (l : List (Turn × POut × W)) : Nat := (l.filter fun p => p.1.isNext j && p.2.1.isSample).length

end Atop.Src
