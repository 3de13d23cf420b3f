import Verif.Spec.SourceResult
import Verif.Spec.Decode
/-!
# Specification of C79: calling one of the functions by itself

`get_record`, `get_sstat`, `get_tstat` and `get_cstat` are public; a caller may use any of them alone, on a record whose
memory it has changed, or in an order of its own.  What each finds in the bytes `b` in front of the position in the file, for a
record whose memory is `mem`, is taken from the reference decoder (Spec/Decode.lean): an error, or the contents and the
bytes behind them.
-/

namespace Atop.Src
open Spec

/-- A record: the next bytes; behind the end of a whole file there are zeros. -/
def recordAt (r : Row) (whole : Bool) (b : Bytes) : Except Trouble (Bytes × Bytes) :=
  match takeBytes whole r.record b with
  | .error t => .error t
  | .ok (got, b) => .ok (got ++ List.replicate (r.record - got.length) 0, b)

/-- System statistics: the compressed length is the 4-byte number at 16 of the record. -/
def sstatAt (Z : Bytes → Option Bytes) (r : Row) (whole : Bool) (mem b : Bytes) : Except Trouble (Bytes × Bytes) :=
  match unpack Z whole (u32 mem 16) b with
  | .error t => .error t
  | .ok (d, b) => if d.length < r.sstat then .error .short else .ok (d.take r.sstat, b)

/-- Tasks: the compressed length is the 4-byte number at 20 of the record, their number the one at 28. -/
def tstatAt (Z : Bytes → Option Bytes) (r : Row) (whole : Bool) (mem b : Bytes) : Except Trouble (List Bytes × Bytes) :=
  match unpack Z whole (u32 mem 20) b with
  | .error t => .error t
  | .ok (d, b) =>
    match decodeTasks r.tstat (u32 mem 28) d with
    | .error t => .error t
    | .ok ts => .ok (ts, b)

/-- Cgroups: compressed lengths at 72 and 84, number at 10. -/
def cstatAt (Z : Bytes → Option Bytes) (r : Row) (whole : Bool) (mem b : Bytes) : Except Trouble (List WGroup × Bytes) :=
  decodeGroups Z (r.cstat.getD 0) whole mem b

/-- A call that found `found` (in a file that breaks off with the exception `short`, if at all), its result `res`, the state it
was made in `w` and the one it leaves `w'`.  It raises the exception of the trouble, or returns what `shows` the contents and
has read exactly up to the bytes behind them.  In any case it has changed no memory of any object there was and no header
object there was, and printed nothing. -/
structure Answers {α : Type} (w : W) (found : Except Trouble (α × Bytes)) (shows : W → α → Val → Prop)
    (res : Except PExc Val) (w' : W) : Prop where
  fails : ∀ t, found = .error t → res = .error (embExc (troubleExc w.file.short t))
  gives : ∀ a b, found = .ok (a, b) → (∃ v, res = .ok v ∧ shows w' a v) ∧ w'.file.rest = b
  container : w'.file.short = w.file.short
  memory : w.heap <+: w'.heap
  headers : w.headers <+: w'.headers
  out : w'.out = w.out

end Atop.Src
