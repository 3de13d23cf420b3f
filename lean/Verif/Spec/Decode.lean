import Verif.Spec.Format
/-!
# A reference decoder for arbitrary bytes

What a reader must find in the bytes after an accepted header, whatever they are: valid samples, garbage, a file cut
anywhere.  Written with literal offsets only; the decompressor `Z` is a parameter, as in the model.
-/

namespace Atop.Spec

/-- Why decoding stopped before the end of the samples. -/
inductive Trouble
  /-- a block that does not decompress -/
  | zlib
  /-- decompressed data shorter than what it must hold -/
  | short
  /-- a cgroup announcing a negative number of processes -/
  | negative
  /-- the container of the file (gzip) broke off inside a read -/
  | container
  deriving DecidableEq

/-- One sample found. -/
structure Found where
  record : Bytes
  sstat : Bytes
  tstats : List Bytes
  groups : List WGroup

/-- A sample found, as a written sample (its compressed forms play no role in what is shown of it). -/
def Found.written (f : Found) : WSample := ⟨f.record, f.sstat, f.tstats, f.groups, [], [], [], []⟩

/-- The next `n` bytes and the rest.  At the end of a `whole` file there may be fewer; a broken container fails. -/
def takeBytes (whole : Bool) (n : Nat) (b : Bytes) : Except Trouble (Bytes × Bytes) :=
  if b.length < n ∧ whole = false then .error .container else .ok (b.take n, b.drop n)

/-- The decompressed form of the next `n` bytes, and the rest. -/
def unpack (Z : Bytes → Option Bytes) (whole : Bool) (n : Nat) (b : Bytes) : Except Trouble (Bytes × Bytes) :=
  match takeBytes whole n b with
  | .error t => .error t
  | .ok (c, rest) =>
    match Z c with
    | none => .error .zlib
    | some d => .ok (d, rest)

/-- `n` tasks of `L` bytes each, one after the other; more data than that is ignored. -/
def decodeTasks (L n : Nat) (d : Bytes) : Except Trouble (List Bytes) :=
  if d.length < n * L then .error .short else .ok ((List.range n).map fun i => (d.drop (i * L)).take L)

/-- `k` cgroups: the first structure (of `L` bytes) starts at `S` in the chain `d`; the 4-byte number at 0 of a
structure says how far behind it the next one starts, the one at 16 how many of the 4-byte process ids `p` are its. -/
def decodeChain (L : Nat) (d : Bytes) : (k : Nat) → (S : Int) → (p : Bytes) → Except Trouble (List WGroup)
  | 0, _, _ => .ok []
  | k + 1, S, p =>
    let c := pySlice d S (S + L)
    if c.length < L then .error .short
    else if i32 c 16 < 0 then .error .negative
    else if p.length < 4 * (i32 c 16).toNat then .error .short
    else match decodeChain L d k (S + i32 c 0) (p.drop (4 * (i32 c 16).toNat)) with
      | .error t => .error t
      | .ok gs => .ok (⟨c, p.take (4 * (i32 c 16).toNat)⟩ :: gs)

/-- The cgroup blocks of a sample whose record is `rec`: chain (compressed length at 72) and process ids (at 84);
number of cgroups at 10. -/
def decodeGroups (Z : Bytes → Option Bytes) (L : Nat) (whole : Bool) (rec b : Bytes) : Except Trouble (List WGroup × Bytes) :=
  match unpack Z whole (u32 rec 72) b with
  | .error t => .error t
  | .ok (d, b) =>
    match unpack Z whole (u32 rec 84) b with
    | .error t => .error t
    | .ok (p, b) =>
      match decodeChain L d (u16 rec 10) 0 p with
      | .error t => .error t
      | .ok gs => .ok (gs, b)

/-- The blocks behind the record `head`: none when the compressed length of the system statistics (at 16) is zero, which
ends the log; then the system statistics, the tasks (compressed length at 20, number at 28) and, when `cg`, the cgroups. -/
def decodeBlocks (Z : Bytes → Option Bytes) (r : Row) (cg whole : Bool) (head b : Bytes) : Except Trouble (Option (Found × Bytes)) :=
  if u32 head 16 = 0 then .ok none
  else match unpack Z whole (u32 head 16) b with
    | .error t => .error t
    | .ok (d, b) =>
      if d.length < r.sstat then .error .short
      else match unpack Z whole (u32 head 20) b with
        | .error t => .error t
        | .ok (e, b) =>
          match decodeTasks r.tstat (u32 head 28) e with
          | .error t => .error t
          | .ok ts =>
            if cg = false then .ok (some (⟨head, d.take r.sstat, ts, []⟩, b))
            else match decodeGroups Z (r.cstat.getD 0) whole head b with
              | .error t => .error t
              | .ok (gs, b) => .ok (some (⟨head, d.take r.sstat, ts, gs⟩, b))

/-- The next sample of a log of version row `r` (`cg`: cgroups follow the tasks), and the bytes behind it; `none`: no more
samples.  The record is padded with zeros at the end of the file. -/
def decodeSample (Z : Bytes → Option Bytes) (r : Row) (cg whole : Bool) (b : Bytes) : Except Trouble (Option (Found × Bytes)) :=
  match takeBytes whole r.record b with
  | .error t => .error t
  | .ok (got, b) => decodeBlocks Z r cg whole (got ++ List.replicate (r.record - got.length) 0) b

/-- The samples of a log, at most `n`, and what stopped decoding if anything did. -/
def decodeLog (Z : Bytes → Option Bytes) (r : Row) (cg whole : Bool) : (n : Nat) → Bytes → List Found × Option Trouble
  | 0, _ => ([], none)
  | n + 1, b =>
    match decodeSample Z r cg whole b with
    | .error t => ([], some t)
    | .ok none => ([], none)
    | .ok (some (f, b)) => (f :: (decodeLog Z r cg whole n b).1, (decodeLog Z r cg whole n b).2)

end Atop.Spec

namespace Atop
open Spec

/-- The exception a trouble is: `zlib.error`, `ValueError`, or the container's own error `e`. -/
def troubleExc (e : Option Exc) : Trouble → Exc
  | .zlib => .zlibError
  | .short => .valueError .bufferTooSmall
  | .negative => .valueError .negativeLength
  | .container => e.getD .zlibError

end Atop
