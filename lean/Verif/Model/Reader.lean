import Verif.Model.Parsers
/-!
# `atoparser/reader.py`: the command line program
-/

namespace Atop

/-- atoparser/reader.py:12-15 `PARSEABLES` and `PARSEABLE_MAP["1.26"]`, in the order of the list. -/
def parseableMap : List (PyStr × (PArgs → Rows)) := [
  (py!"cpu", parse_cpu), (py!"CPL", parse_CPL), (py!"CPU", parse_CPU), (py!"DSK", parse_DSK),
  (py!"LVM", parse_LVM), (py!"MDD", parse_MDD), (py!"MEM", parse_MEM), (py!"NETL", parse_NETL),
  (py!"NETU", parse_NETU), (py!"PAG", parse_PAG), (py!"PRC", parse_PRC), (py!"PRG", parse_PRG),
  (py!"PRM", parse_PRM), (py!"PRN", parse_PRN), (py!"SWP", parse_SWP)]

/-- Keys of `PARSEABLE_MAP` (atoparser/reader.py:13-15). -/
def parseableVersions : List PyStr := [py!"1.26"]

/-- atoparser/reader.py:79: `gzip.open` iff `".gz"` occurs anywhere in the path. -/
def usesGzip (file : PyStr) : Bool := pyContains py!".gz" file

/-- Command line options that reach `parse_file` (atoparser/reader.py:62-68). -/
structure Opts where
  parseables : List PyStr := []
  showTstats : Bool := false
  showCstats : Bool := false

/-- atoparser/reader.py:97-100: rows of every requested parseable for one sample. -/
def parseableRows (a : PArgs) : List PyStr → Except Exc (List JVal)
  | [] => .ok []
  | p :: ps =>
    match parseableMap.lookup p with
    | none => .error .keyError
    | some f =>
      match (f a).err with
      | some e => .error e
      | none => do
        return (f a).rows.map (fun r => .dict (r ++ [(py!"parseable", .str p)])) ++ (← parseableRows a ps)

/-- atoparser/reader.py:102-111: the full conversion of one sample. -/
def fullRow (o : Opts) (h : Header) (x : Sample) : Except Exc JVal := do
  let hd ← structToDict h.inst
  let rd ← structToDict x.record
  let sd ← structToDict x.sstat
  let td ← if o.showTstats then do
      pure [(py!"tstat", JVal.list (← x.tstats.mapM structToDict))] else pure []
  let cd ← if o.showCstats then do
      pure [(py!"cgroup", JVal.list (← x.cgroups.mapM CGroup.toDict))] else pure []
  return .dict ([(py!"header", hd), (py!"record", rd), (py!"sstat", sd)] ++ td ++ cd)

/-- The entries appended to `samples` for one yielded tuple (atoparser/reader.py:96-111). -/
def sampleRows (o : Opts) (h : Header) (x : Sample) : Except Exc (List JVal) :=
  if o.parseables.isEmpty then do return [← fullRow o h x]
  else parseableRows
    { header := h.inst.obj, record := x.record.obj, sstat := x.sstat.obj,
      tstats := x.tstats.map Inst.obj } o.parseables

/-- `f"Atop version {v} does not support parseables, only full raw output."` -/
def unsupportedText (v : PyStr) : PyStr :=
  py!"Atop version " ++ v ++ py!" does not support parseables, only full raw output."

/-- atoparser/reader.py:91-111: the `for` loop of `parse_file` over the generator.  Each `next()` is
followed by the conversion of the yielded sample; an exception in either leaves the loop.  `fuel` bounds the
number of `next()` calls; `parseFile` supplies more than the generator can ever use (proved in
Verif/Proofs/Parse.lean), so the first equation is never reached from there. -/
def parseLoop (Z : Zlib) (o : Opts) (h : Header) : (fuel : Nat) → Gen → Rd (List JVal)
  | 0, _ => fun s => (.ok [], s)
  | n + 1, g => fun s =>
    match g.next Z false s with
    | (.stop, _, s') => (.ok [], s')
    | (.raise e, _, s') => (.error e, s')
    | (.yield x, g', s') =>
      match sampleRows o h x with
      | .error e => (.error e, s')
      | .ok r =>
        match parseLoop Z o h n g' s' with
        | (.error e, s'') => (.error e, s'')
        | (.ok rs, s'') => (.ok (r ++ rs), s'')

/-- atoparser/reader.py:78-112 `parse_file` on an opened stream: the list that is printed with
`json.dumps`, or the exception that leaves the function (then nothing is printed). -/
def parseFile (Z : Zlib) (o : Opts) (file : PyStr) : Rd (List JVal) := do
  let h ← getHeader true
  let v ← Rd.lift h.semanticVersion
  if !o.parseables.isEmpty && !parseableVersions.contains v then
    return [.dict [(py!"error", .str (unsupportedText v)), (py!"file", .str file)]]
  else
    parseLoop Z o h.latched (MAX_SAMPLES_PER_FILE + 1) (.start (some h.latched) MAX_SAMPLES_PER_FILE)

/-- atoparser/reader.py:79-80: opening a path; the file system and gzip container are a parameter. -/
abbrev FileSystem := (path : PyStr) → (gz : Bool) → Except Exc Stream

/-- `parse_file(file, ...)`: what it prints, or the exception it raises. -/
def parsePath (Z : Zlib) (fs : FileSystem) (o : Opts) (file : PyStr) : Except Exc (List JVal) := do
  let s ← fs file (usesGzip file)
  (parseFile Z o file s).1

/-- atoparser/reader.py:115-126 `main` after argument parsing: the documents printed, in order, and
the exception that ended the run, if any. -/
def runMain (Z : Zlib) (fs : FileSystem) (o : Opts) : List PyStr → List (List JVal) × Option Exc
  | [] => ([], none)
  | f :: rest =>
    match parsePath Z fs o f with
    | .error e => ([], some e)
    | .ok doc => let r := runMain Z fs o rest; (doc :: r.1, r.2)

end Atop
