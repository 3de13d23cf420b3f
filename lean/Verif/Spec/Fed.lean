import Verif.Spec.Decode
/-!
# The reference decoder on the answers of reads

As `Spec/Decode.lean`, but what is decoded is not one string of bytes: every structure and every block is what one read of its
length gave.  `gives t` is what is there for the `t`-th read; a read of `n` bytes gives its first `n` bytes.
-/

namespace Atop.Spec

/-- The decompressed form of what a read of `n` bytes gave. -/
def unpackFrom (Z : Bytes → Option Bytes) (n : Nat) (a : Bytes) : Except Trouble Bytes :=
  match Z (a.take n) with
  | none => .error .zlib
  | some d => .ok d

/-- The sample of the reads from the `t`-th on, and the number of the next read; `none`: no more samples. -/
def decodeSampleFrom (Z : Bytes → Option Bytes) (r : Row) (cg : Bool) (gives : Nat → Bytes) (t : Nat) : Except Trouble (Option (Found × Nat)) :=
  let head := (gives t).take r.record ++ List.replicate (r.record - (gives t).length) 0
  if u32 head 16 = 0 then .ok none
  else match unpackFrom Z (u32 head 16) (gives (t + 1)) with
    | .error t => .error t
    | .ok d =>
      if d.length < r.sstat then .error .short
      else match unpackFrom Z (u32 head 20) (gives (t + 2)) with
        | .error t => .error t
        | .ok e =>
          match decodeTasks r.tstat (u32 head 28) e with
          | .error t => .error t
          | .ok ts =>
            if cg = false then .ok (some (⟨head, d.take r.sstat, ts, []⟩, t + 3))
            else match unpackFrom Z (u32 head 72) (gives (t + 3)) with
              | .error t => .error t
              | .ok c =>
                match unpackFrom Z (u32 head 84) (gives (t + 4)) with
                | .error t => .error t
                | .ok p =>
                  match decodeChain (r.cstat.getD 0) c (u16 head 10) 0 p with
                  | .error t => .error t
                  | .ok gs => .ok (some (⟨head, d.take r.sstat, ts, gs⟩, t + 5))

/-- The samples of the reads from the `t`-th on, at most `n`, and what stopped decoding if anything did. -/
def decodeLogFrom (Z : Bytes → Option Bytes) (r : Row) (cg : Bool) (gives : Nat → Bytes) : (n t : Nat) → List Found × Option Trouble
  | 0, _ => ([], none)
  | n + 1, t =>
    match decodeSampleFrom Z r cg gives t with
    | .error e => ([], some e)
    | .ok none => ([], none)
    | .ok (some (f, t)) => (f :: (decodeLogFrom Z r cg gives n t).1, (decodeLogFrom Z r cg gives n t).2)

end Atop.Spec
