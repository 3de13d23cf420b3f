import Verif.Model.Reader
/-!
# Reading a file that another process is still writing

The readers of `atoparser/utils.py` again, as programs whose only contact with the file is a sequence of reads.  A
program can be run on a file that does not change (this gives back the functions of Verif/Model/Utils.lean, proved in
Verif/Proofs/Live.lean) or on a file that grows between the reads.
-/

namespace Atop

/-- A program that reads a file: it returns, raises, or reads up to `n` bytes and continues with what it got. -/
inductive Prog (α : Type) where
  | ret (a : α)
  | raise (e : Exc)
  | read (n : Nat) (k : Bytes → Prog α)

namespace Prog

def bind {α β} : Prog α → (α → Prog β) → Prog β
  | ret a, f => f a
  | raise e, _ => raise e
  | read n k, f => read n fun b => (k b).bind f

instance : Monad Prog where
  pure := ret
  bind := bind

/-- A step that does not touch the file. -/
def lift {α} : Except Exc α → Prog α
  | .ok a => ret a
  | .error e => raise e

/-- `raw_file.read(n)` -/
def get (n : Nat) : Prog Bytes := read n ret

/-- `raw_file.readinto(obj)` on a fresh object of `size` bytes. -/
def getInto (size : Nat) : Prog Bytes := do
  let got ← get size
  return got ++ List.replicate (size - got.length) 0

/-- Running the program on a file that does not change. -/
def run {α} : Prog α → Rd α
  | ret a, s => (.ok a, s)
  | raise e, s => (.error e, s)
  | read n k, s =>
    match Stream.read n s with
    | (.ok b, s') => (k b).run s'
    | (.error e, s') => (.error e, s')

end Prog

/-- An open plain file that another process appends to.  `final` is what the file will have become in the end; at the
`t`-th read of this process its first `visible t` bytes are there.  (A read of Python's buffered reader that can be
served from its buffer gives bytes that were there at an earlier time; as the file only grows, these are also there at
the time of the read.  A read that comes back short has asked the operating system and was told that the file ends.) -/
structure Live where
  final : Bytes
  visible : Nat → Nat
  pos : Nat
  /-- how many reads have been made -/
  reads : Nat

/-- The file as it is at a given moment. -/
def Live.snapshot (l : Live) (t : Nat) : Stream := { data := l.final.take (l.visible t), pos := l.pos }

/-- Running the program on a growing file: each read meets the file as it then is. -/
def Prog.live {α} : Prog α → Live → Except Exc α × Live
  | ret a, l => (.ok a, l)
  | raise e, l => (.error e, l)
  | read n k, l =>
    match Stream.read n (l.snapshot l.reads) with
    | (.ok b, s') => (k b).live { l with pos := s'.pos, reads := l.reads + 1 }
    | (.error e, s') => (.error e, { l with pos := s'.pos, reads := l.reads + 1 })

/-- atoparser/utils.py:132-163 `get_header`. -/
def getHeaderP (check : Bool := true) : Prog Header := do
  let buf ← Prog.getInto defaultHeader.size
  let h0 : Header := { cls := defaultHeader, buf := buf }
  let magic ← Prog.lift (h0.inst.intAttr py!"magic")
  if magic ≠ (MAGIC : Int) then Prog.raise (.valueError (.badMagic (magicText magic.toNat)))
  else
    let v ← Prog.lift h0.semanticVersion
    let h0 := h0.latched
    let h ← Prog.lift (reviewHeader h0 v)
    if check then
      Prog.lift h.checkCompatibility
      pure h.latched
    else pure h

/-- atoparser/utils.py:166-184 `get_record`. -/
def getRecordP (h : Header) : Prog Inst := do
  let buf ← Prog.getInto h.cls.Record.size
  return { ty := h.cls.Record, buf := buf }

/-- atoparser/utils.py:187-210 `get_sstat`. -/
def getSStatP (Z : Zlib) (h : Header) (record : Inst) : Prog Inst := do
  let n ← Prog.lift (record.intAttr py!"scomplen")
  let buffer ← Prog.get n.toNat
  let d ← Prog.lift (zdecompress Z buffer)
  Prog.lift (fromBufferCopy h.cls.SStat d)

/-- atoparser/utils.py:213-245 `get_tstat`. -/
def getTStatP (Z : Zlib) (h : Header) (record : Inst) : Prog (List Inst) := do
  let n ← Prog.lift (record.intAttr py!"pcomplen")
  let buffer ← Prog.get n.toNat
  let d ← Prog.lift (zdecompress Z buffer)
  let count ← Prog.lift (if record.isRecord126 then record.intAttr py!"nlist" else record.intAttr py!"ndeviat")
  let v ← Prog.lift h.version
  let tstatlen ← Prog.lift (
    if v.1 ≥ 2 ∧ v.2 ≥ 3 then h.inst.intAttr py!"tstatlen" else h.inst.intAttr py!"pstatlen")
  Prog.lift (tstatLoop h.cls.TStat d tstatlen count.toNat 0)

/-- atoparser/utils.py:248-293 `get_cstat`. -/
def getCStatP (Z : Zlib) (h : Header) (record : Inst) : Prog (List CGroup) := do
  let n ← Prog.lift (record.intAttr py!"ccomplen")
  let bufC ← Prog.get n.toNat
  let d ← Prog.lift (zdecompress Z bufC)
  let m ← Prog.lift (record.intAttr py!"icomplen")
  let bufP ← Prog.get m.toNat
  let pids ← Prog.lift (zdecompress Z bufP)
  let cstatlen ← Prog.lift (h.inst.intAttr py!"cstatlen")
  let count ← Prog.lift (record.intAttr py!"ncgroups")
  match h.cls.CStat with
  | some t => Prog.lift (cstatLoop t d pids cstatlen count.toNat 0 0)
  | none => if count ≤ 0 then pure [] else Prog.raise .attributeError

/-- atoparser/utils.py:114-124: one iteration of the loop; `none` is the `break`. -/
def readSampleP (Z : Zlib) (h : Header) (v : Nat × Nat) : Prog (Option Sample) := do
  let record ← getRecordP h
  let n ← Prog.lift (record.intAttr py!"scomplen")
  if n ≤ 0 then return none
  else
    let sstat ← getSStatP Z h record
    let tstats ← getTStatP Z h record
    let cgroups ← if v.1 ≥ 2 ∧ v.2 ≥ 11 then getCStatP Z h record else pure []
    return some { record := record, sstat := sstat, tstats := tstats, cgroups := cgroups }

/-- atoparser/utils.py:107-129 on a growing file: samples, how it ended, final state. -/
def Live.runLoop (Z : Zlib) (rot : Bool) (h : Header) (v : Nat × Nat) : Nat → Live → List Sample × End × Live
  | 0, l => ([], .returned, l)
  | k + 1, l =>
    match (readSampleP Z h v).live l with
    | (.ok (some x), l') => let r := Live.runLoop Z rot h v k l'; (x :: r.1, r.2)
    | (.ok none, l') => ([], .returned, l')
    | (.error e, l') => ([], endOf rot e, l')

/-- `for ... in generate_statistics(raw_file, header, raise_on_truncation, max_samples)` on a growing file
(atoparser/utils.py:82-129). -/
def Live.generateStatistics (Z : Zlib) (header : Option Header) (rot : Bool) (max : Int) (l : Live) :
    List Sample × End × Live :=
  let body (h : Header) (l : Live) : List Sample × End × Live :=
    match parsedVersion h with
    | .error e => ([], endOf rot e, l)
    | .ok v => Live.runLoop Z rot h.latched v max.toNat l
  match header with
  | some h => body h l
  | none =>
    match (getHeaderP true).live l with
    | (.error e, l') => ([], .raised e, l')
    | (.ok h, l') => body h l'

/-- atoparser/utils.py:125-129 with `raise_on_truncation=False`: what the exception `e` makes of the caller's loop. -/
def afterError (e : Exc) : Except Exc (List JVal) :=
  match endOf false e with
  | .returned => .ok []
  | .raised e => .error e

/-- atoparser/reader.py:91-111 over atoparser/utils.py:107-129 on a growing file: every sample is converted before the
next one is read.  `h0` is the header given to the parsers, `h` the one the generator uses (the same object). -/
def Live.parseLoop (Z : Zlib) (o : Opts) (h0 h : Header) (v : Nat × Nat) : Nat → Live → Except Exc (List JVal)
  | 0, _ => .ok []
  | k + 1, l =>
    match (readSampleP Z h v).live l with
    | (.ok none, _) => .ok []
    | (.error e, _) => afterError e
    | (.ok (some x), l') =>
      match sampleRows o h0 x with
      | .error e => .error e
      | .ok r =>
        match Live.parseLoop Z o h0 h v k l' with
        | .error e => .error e
        | .ok rs => .ok (r ++ rs)

/-- atoparser/reader.py:78-112 `parse_file` on an opened plain file that grows: what is printed, or the exception. -/
def Live.parseFile (Z : Zlib) (o : Opts) (file : PyStr) (l : Live) : Except Exc (List JVal) :=
  match (getHeaderP true).live l with
  | (.error e, _) => .error e
  | (.ok h, l') =>
    match h.semanticVersion with
    | .error e => .error e
    | .ok v =>
      if !o.parseables.isEmpty && !parseableVersions.contains v then
        .ok [.dict [(py!"error", .str (unsupportedText v)), (py!"file", .str file)]]
      else
        match parsedVersion h.latched with
        | .error e => afterError e
        | .ok v => Live.parseLoop Z o h.latched h.latched.latched v MAX_SAMPLES_PER_FILE l'

end Atop
