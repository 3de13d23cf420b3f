import Verif.Spec.Decode
/-!
# The reference decoder when the lengths of a header were not checked

As `Spec/Decode.lean`, but the lengths recorded in the header (task length at 32, cgroup length at 456) may differ from the
sizes of the version's structures: tasks are spaced by the recorded length, and of each entry the structure's size is used.
-/

namespace Atop.Spec

/-- `n` tasks, `slot` bytes apart, the first `L` bytes of each. -/
def decodeTasksIn (slot L n : Nat) (d : Bytes) : Except Trouble (List Bytes) :=
  if n ≠ 0 ∧ (slot < L ∨ d.length < (n - 1) * slot + L) then .error .short
  else .ok ((List.range n).map fun i => (d.drop (i * slot)).take L)

/-- `k` cgroups: of each, the first `L` bytes of the `slot` bytes at its start. -/
def decodeChainIn (slot : Int) (L : Nat) (d : Bytes) : (k : Nat) → (S : Int) → (p : Bytes) → Except Trouble (List WGroup)
  | 0, _, _ => .ok []
  | k + 1, S, p =>
    let e := pySlice d S (S + slot)
    let c := e.take L
    if e.length < L then .error .short
    else if i32 c 16 < 0 then .error .negative
    else if p.length < 4 * (i32 c 16).toNat then .error .short
    else match decodeChainIn slot L d k (S + i32 c 0) (p.drop (4 * (i32 c 16).toNat)) with
      | .error t => .error t
      | .ok gs => .ok (⟨c, p.take (4 * (i32 c 16).toNat)⟩ :: gs)

/-- The cgroup blocks of a sample. -/
def decodeGroupsIn (Z : Bytes → Option Bytes) (slot : Int) (L : Nat) (whole : Bool) (head b : Bytes) :
    Except Trouble (List WGroup × Bytes) :=
  match unpack Z whole (u32 head 72) b with
  | .error t => .error t
  | .ok (d, b) =>
    match unpack Z whole (u32 head 84) b with
    | .error t => .error t
    | .ok (p, b) =>
      match decodeChainIn slot L d (u16 head 10) 0 p with
      | .error t => .error t
      | .ok gs => .ok (gs, b)

/-- The blocks behind the record `head`. -/
def decodeBlocksIn (Z : Bytes → Option Bytes) (r : Row) (slotT : Nat) (slotC : Int) (cg whole : Bool) (head b : Bytes) :
    Except Trouble (Option (Found × Bytes)) :=
  if u32 head 16 = 0 then .ok none
  else match unpack Z whole (u32 head 16) b with
    | .error t => .error t
    | .ok (d, b) =>
      if d.length < r.sstat then .error .short
      else match unpack Z whole (u32 head 20) b with
        | .error t => .error t
        | .ok (e, b) =>
          match decodeTasksIn slotT r.tstat (u32 head 28) e with
          | .error t => .error t
          | .ok ts =>
            if cg = false then .ok (some (⟨head, d.take r.sstat, ts, []⟩, b))
            else match decodeGroupsIn Z slotC (r.cstat.getD 0) whole head b with
              | .error t => .error t
              | .ok (gs, b) => .ok (some (⟨head, d.take r.sstat, ts, gs⟩, b))

/-- The next sample. -/
def decodeSampleIn (Z : Bytes → Option Bytes) (r : Row) (slotT : Nat) (slotC : Int) (cg whole : Bool) (b : Bytes) :
    Except Trouble (Option (Found × Bytes)) :=
  match takeBytes whole r.record b with
  | .error t => .error t
  | .ok (got, b) => decodeBlocksIn Z r slotT slotC cg whole (got ++ List.replicate (r.record - got.length) 0) b

/-- The samples, at most `n`, and what stopped decoding if anything did. -/
def decodeLogIn (Z : Bytes → Option Bytes) (r : Row) (slotT : Nat) (slotC : Int) (cg whole : Bool) :
    (n : Nat) → Bytes → List Found × Option Trouble
  | 0, _ => ([], none)
  | n + 1, b =>
    match decodeSampleIn Z r slotT slotC cg whole b with
    | .error t => ([], some t)
    | .ok none => ([], none)
    | .ok (some (f, b)) =>
      (f :: (decodeLogIn Z r slotT slotC cg whole n b).1, (decodeLogIn Z r slotT slotC cg whole n b).2)

/-- Is there a sample, as far as its tasks?  (All that can be read of a version too old to say how long its tasks are.) -/
def decodeUntilTasks (Z : Bytes → Option Bytes) (r : Row) (whole : Bool) (b : Bytes) : Except Trouble Bool :=
  match takeBytes whole r.record b with
  | .error t => .error t
  | .ok (got, b) =>
    let head := got ++ List.replicate (r.record - got.length) 0
    if u32 head 16 = 0 then .ok false
    else match unpack Z whole (u32 head 16) b with
      | .error t => .error t
      | .ok (d, b) =>
        if d.length < r.sstat then .error .short
        else match unpack Z whole (u32 head 20) b with
          | .error t => .error t
          | .ok _ => .ok true

end Atop.Spec
