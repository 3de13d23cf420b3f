import Verif.Model.Header
/-!
# `atoparser/utils.py`: reading headers, records and statistics

`zlib.decompress` is the parameter `Z : Bytes → Option Bytes` (`none` = `zlib.error`): the repo calls
the C library, it does not implement it.
-/

namespace Atop

/-- The behaviour of `zlib.decompress`: `none` stands for raising `zlib.error`. -/
abbrev Zlib := Bytes → Option Bytes

/-- `zlib.decompress(buffer)` -/
def zdecompress (Z : Zlib) (b : Bytes) : Except Exc Bytes :=
  match Z b with
  | some d => .ok d
  | none => .error .zlibError

/-- atoparser/utils.py:155-157: the header re-viewed under the class of version text `v`.  `from_buffer`
views the same memory (a new object, so nothing cached on it yet); it needs at least `sizeof` bytes. -/
def reviewHeader (h0 : Header) (v : PyStr) : Except Exc Header :=
  if v ≠ defaultHeader.supportedVersion then
    match headerByVersion v with
    | some c =>
      if h0.buf.length < c.size then .error (.valueError .bufferTooSmall)
      else .ok { cls := c, buf := h0.buf.take c.size }
    | none => .ok h0
  else .ok h0

/-- atoparser/utils.py:151: the message about a wrong magic number (an unsigned field, so never negative). -/
def magicText (found : Nat) : PyStr :=
  py!"File does not contain raw atop output (wrong magic number): " ++ pyHex found

/-- atoparser/utils.py:132-163 `get_header`. -/
def getHeader (check : Bool := true) : Rd Header := do
  -- 147-148: default header, filled from the file (short read: zero tail)
  let buf ← Stream.readinto defaultHeader.size
  let h0 : Header := { cls := defaultHeader, buf := buf }
  -- 150-152
  let magic ← Rd.lift (h0.inst.intAttr py!"magic")
  if magic ≠ (MAGIC : Int) then Rd.raise (.valueError (.badMagic (magicText magic.toNat)))
  else
    -- 154
    let v ← Rd.lift h0.semanticVersion
    let h0 := h0.latched
    let h ← Rd.lift (reviewHeader h0 v)
    -- 159-161
    if check then
      Rd.lift h.checkCompatibility
      pure h.latched
    else pure h

/-- atoparser/utils.py:166-184 `get_record`. -/
def getRecord (h : Header) : Rd Inst := do
  let buf ← Stream.readinto h.cls.Record.size
  return { ty := h.cls.Record, buf := buf }

/-- atoparser/utils.py:187-210 `get_sstat`. -/
def getSStat (Z : Zlib) (h : Header) (record : Inst) : Rd Inst := do
  let n ← Rd.lift (record.intAttr py!"scomplen")
  let buffer ← Stream.read n.toNat
  let d ← Rd.lift (zdecompress Z buffer)
  Rd.lift (fromBufferCopy h.cls.SStat d)

/-- Class identity used by `isinstance(record, atop_1_26.Record)` (atoparser/utils.py:236). -/
def Inst.isRecord126 (x : Inst) : Bool :=
  match x.ty with
  | .struct cls _ _ => cls == py!"atop_1_26.Record"
  | _ => false

/-- atoparser/utils.py:239-244: the loop of `get_tstat` over `range(record_count)`; `i` is the index
of the next iteration, `k` the number left. -/
def tstatLoop (t : CType) (d : Bytes) (tstatlen : Int) : (k i : Nat) → Except Exc (List Inst)
  | 0, _ => .ok []
  | k + 1, i => do
    let x ← fromBufferCopy t (pySlice d ((i : Int) * tstatlen) (tstatlen * ((i : Int) + 1)))
    return x :: (← tstatLoop t d tstatlen k (i + 1))

/-- atoparser/utils.py:213-245 `get_tstat`. -/
def getTStat (Z : Zlib) (h : Header) (record : Inst) : Rd (List Inst) := do
  let n ← Rd.lift (record.intAttr py!"pcomplen")
  let buffer ← Stream.read n.toNat
  let d ← Rd.lift (zdecompress Z buffer)
  let count ← Rd.lift (if record.isRecord126 then record.intAttr py!"nlist" else record.intAttr py!"ndeviat")
  let v ← Rd.lift h.version
  let tstatlen ← Rd.lift (
    if v.1 ≥ 2 ∧ v.2 ≥ 3 then h.inst.intAttr py!"tstatlen" else h.inst.intAttr py!"pstatlen")
  Rd.lift (tstatLoop h.cls.TStat d tstatlen count.toNat 0)

/-- A `CGChainer` (atoparser/structs/atop_2_11.py:645-668): a cstat and its pid array. -/
structure CGroup where
  cstat : Inst
  proclist : Inst

/-- `x.gen.name` as an integer (atoparser/utils.py:285,287). -/
def Inst.genInt (x : Inst) (name : PyStr) : Except Exc Int := do
  (← (← x.attr py!"gen").attr name).asInt

/-- `pid_t * n` followed by `from_buffer_copy` (atoparser/utils.py:287-289). -/
def pidArray (n : Int) (pids : Bytes) (start : Int) : Except Exc Inst :=
  if n < 0 then .error (.valueError .negativeLength)
  else
    let t : CType := .array pid_t n.toNat
    fromBufferCopy t (pySlice pids start (start + t.size))

/-- atoparser/utils.py:277-292: the loop of `get_cstat`; `cs`/`ps` are `cstat_start`/`pidlist_start`. -/
def cstatLoop (t : CType) (d pids : Bytes) (cstatlen : Int) : (k : Nat) → (cs ps : Int) →
    Except Exc (List CGroup)
  | 0, _, _ => .ok []
  | k + 1, cs, ps => do
    let x ← fromBufferCopy t (pySlice d cs (cs + cstatlen))
    let structlen ← x.genInt py!"structlen"
    let nprocs ← x.genInt py!"nprocs"
    let p ← pidArray nprocs pids ps
    return { cstat := x, proclist := p } ::
      (← cstatLoop t d pids cstatlen k (cs + structlen) (ps + (CType.array pid_t nprocs.toNat).size))

/-- atoparser/utils.py:248-293 `get_cstat`. -/
def getCStat (Z : Zlib) (h : Header) (record : Inst) : Rd (List CGroup) := do
  let n ← Rd.lift (record.intAttr py!"ccomplen")
  let bufC ← Stream.read n.toNat
  let d ← Rd.lift (zdecompress Z bufC)
  let m ← Rd.lift (record.intAttr py!"icomplen")
  let bufP ← Stream.read m.toNat
  let pids ← Rd.lift (zdecompress Z bufP)
  let cstatlen ← Rd.lift (h.inst.intAttr py!"cstatlen")
  let count ← Rd.lift (record.intAttr py!"ncgroups")
  match h.cls.CStat with
  | some t => Rd.lift (cstatLoop t d pids cstatlen count.toNat 0 0)
  | none => if count ≤ 0 then pure [] else Rd.raise .attributeError  -- `None.from_buffer_copy`

/-- One yielded tuple (atoparser/utils.py:124). -/
structure Sample where
  record : Inst
  sstat : Inst
  tstats : List Inst
  cgroups : List CGroup

/-- `text.split(".")` -/
def splitDot : PyStr → List PyStr
  | [] => [[]]
  | c :: cs =>
    if c = 46 then [] :: splitDot cs
    else match splitDot cs with
      | [] => [[c]]                -- unreachable: `split` never returns an empty list
      | w :: ws => (c :: w) :: ws

/-- `int(text)` for unsigned decimal text. -/
def pyParseNat (s : PyStr) : Except Exc Nat :=
  if s.isEmpty || s.any (fun c => c < 48 || 57 < c) then .error (.valueError .badInt)
  else .ok (s.foldl (fun acc c => acc * 10 + (c - 48)) 0)

/-- atoparser/utils.py:104-106: `major, minor` parsed back from the version string. -/
def parsedVersion (h : Header) : Except Exc (Nat × Nat) := do
  let s ← h.semanticVersion
  match (splitDot s).take 2 with
  | [a, b] => do return (← pyParseNat a, ← pyParseNat b)
  | _ => .error (.valueError .badInt)              -- unpacking error

/-- atoparser/utils.py:114-124: one iteration of the loop; `none` is the `break`. -/
def readSample (Z : Zlib) (h : Header) (v : Nat × Nat) : Rd (Option Sample) := do
  let record ← getRecord h
  let n ← Rd.lift (record.intAttr py!"scomplen")
  if n ≤ 0 then return none
  else
    let sstat ← getSStat Z h record
    let tstats ← getTStat Z h record
    let cgroups ← if v.1 ≥ 2 ∧ v.2 ≥ 11 then getCStat Z h record else pure []
    return some { record := record, sstat := sstat, tstats := tstats, cgroups := cgroups }

/-! ## The generator -/

/-- Suspended state of a `generate_statistics` generator. -/
inductive Gen
  /-- created, body not entered yet (`header` as given, `max_samples`) -/
  | start (header : Option Header) (max : Int)
  /-- suspended at the `yield` (or about to test the `for`), `left` iterations to go -/
  | loop (header : Header) (v : Nat × Nat) (left : Nat)
  /-- returned or raised -/
  | done

/-- What one `next()` does. -/
inductive Out
  | yield (x : Sample)
  /-- `StopIteration` -/
  | stop
  | raise (e : Exc)

/-- atoparser/utils.py:125-129: leaving the `try` block with exception `e`. -/
def onError (raiseOnTruncation : Bool) (e : Exc) : Out :=
  if e = .zlibError then (if raiseOnTruncation then .raise e else .stop) else .raise e

/-- The `for` loop, resumed (atoparser/utils.py:107-124). -/
def resumeLoop (Z : Zlib) (rot : Bool) (h : Header) (v : Nat × Nat) (left : Nat) (s : Stream) :
    Out × Gen × Stream :=
  match left with
  | 0 => (.stop, .done, s)
  | k + 1 =>
    match readSample Z h v s with
    | (.ok (some x), s') => (.yield x, .loop h v k, s')
    | (.ok none, s') => (.stop, .done, s')
    | (.error e, s') => (onError rot e, .done, s')

/-- atoparser/utils.py:103-107: entering the `try` block with a header. -/
def enterTry (Z : Zlib) (rot : Bool) (h : Header) (max : Int) (s : Stream) : Out × Gen × Stream :=
  match parsedVersion h with
  | .error e => (onError rot e, .done, s)
  | .ok v => resumeLoop Z rot h.latched v max.toNat s

/-- `next(generator)` (atoparser/utils.py:82-129). -/
def Gen.next (Z : Zlib) (rot : Bool) (g : Gen) (s : Stream) : Out × Gen × Stream :=
  match g with
  | .done => (.stop, .done, s)
  | .loop h v left => resumeLoop Z rot h v left s
  | .start (some h) max => enterTry Z rot h max s
  | .start none max =>
    match getHeader true s with                     -- 99-101, outside the `try`
    | (.error e, s') => (.raise e, .done, s')
    | (.ok h, s') => enterTry Z rot h max s'

/-- How an iteration over the generator ended. -/
inductive End
  | returned
  | raised (e : Exc)
  deriving DecidableEq

/-- Calling `next` until it stops, at most `fuel` times: the yielded samples and, when the generator
finished within the budget, how. -/
def Gen.collect (Z : Zlib) (rot : Bool) : (fuel : Nat) → Gen → Stream →
    List Sample × Option End × Gen × Stream
  | 0, g, s => ([], none, g, s)
  | n + 1, g, s =>
    match g.next Z rot s with
    | (.yield x, g', s') =>
      let r := Gen.collect Z rot n g' s'
      (x :: r.1, r.2)
    | (.stop, g', s') => ([], some .returned, g', s')
    | (.raise e, g', s') => ([], some (.raised e), g', s')

/-- atoparser/utils.py:125-129: how the whole iteration ends when the `try` block raises `e`. -/
def endOf (raiseOnTruncation : Bool) (e : Exc) : End :=
  if e = .zlibError then (if raiseOnTruncation then .raised e else .returned) else .raised e

/-- The loop run to completion: samples, how it ended, final stream. -/
def runLoop (Z : Zlib) (rot : Bool) (h : Header) (v : Nat × Nat) : Nat → Stream →
    List Sample × End × Stream
  | 0, s => ([], .returned, s)
  | k + 1, s =>
    match readSample Z h v s with
    | (.ok (some x), s') => let r := runLoop Z rot h v k s'; (x :: r.1, r.2)
    | (.ok none, s') => ([], .returned, s')
    | (.error e, s') => ([], endOf rot e, s')

/-- `for ... in generate_statistics(raw_file, header, raise_on_truncation, max_samples)` run to
completion (atoparser/utils.py:82-129).  Agreement with stepping `Gen.next` is proved in
Verif/Proofs/Gen.lean. -/
def generateStatistics (Z : Zlib) (header : Option Header) (rot : Bool) (max : Int) (s : Stream) :
    List Sample × End × Stream :=
  let body (h : Header) (s : Stream) : List Sample × End × Stream :=
    match parsedVersion h with
    | .error e => ([], endOf rot e, s)
    | .ok v => runLoop Z rot h.latched v max.toNat s
  match header with
  | some h => body h s
  | none =>
    match getHeader true s with
    | (.error e, s') => ([], .raised e, s')
    | (.ok h, s') => body h s'

/-- `struct_to_dict` on a `CGChainer`: it has `_fields_` but is not a `ctypes.Structure`
(atoparser/structs/atop_2_11.py:655-658; atoparser/utils.py:307-329). -/
def CGroup.toDict (g : CGroup) : Except Exc JVal := do
  let c ← structToDict g.cstat
  let p ← match g.proclist.ty with
    | .array e n => (chunks g.proclist.buf e.size n).mapM (fun b => e.toDictElem b)
    | _ => .error .typeError
  return .dict [(py!"cstat", c), (py!"proclist", .list p)]

end Atop
