import Verif.Model.Live
/-!
# Reading a file about which nothing is known

The readers as programs (Verif/Model/Live.lean), run on a file that other processes may change in any way at any time:
overwrite, truncate, replace the contents of, extend.  All that reaches this process is what each of its reads gives.
-/

namespace Atop

/-- An open file, plain or not (a `.gz` file decompressed by `gzip.open`), or any other file object: the `t`-th read, of `n` bytes, gives the first `n` bytes of `gives t`. -/
structure Fed where
  gives : Nat → Bytes
  /-- how many reads have been made -/
  reads : Nat := 0
  /-- the bytes given so far, one read after the other -/
  got : Bytes := []
  /-- a read has come back short -/
  short : Bool := false
  /-- and another one was made after it -/
  gap : Bool := false

/-- After a read of `n` bytes. -/
def Fed.after (f : Fed) (n : Nat) : Fed :=
  { f with
    reads := f.reads + 1
    got := f.got ++ (f.gives f.reads).take n
    short := f.short || decide ((f.gives f.reads).length < n)
    gap := f.gap || f.short }

/-- Running a program on such a file. -/
def Prog.fed {α} : Prog α → Fed → Except Exc α × Fed
  | ret a, f => (.ok a, f)
  | raise e, f => (.error e, f)
  | read n k, f => (k ((f.gives f.reads).take n)).fed (f.after n)

/-- atoparser/utils.py:107-129: samples, how it ended, final state. -/
def Fed.runLoop (Z : Zlib) (rot : Bool) (h : Header) (v : Nat × Nat) : Nat → Fed → List Sample × End × Fed
  | 0, f => ([], .returned, f)
  | k + 1, f =>
    match (readSampleP Z h v).fed f with
    | (.ok (some x), f') => let r := Fed.runLoop Z rot h v k f'; (x :: r.1, r.2)
    | (.ok none, f') => ([], .returned, f')
    | (.error e, f') => ([], endOf rot e, f')

/-- `for ... in generate_statistics(raw_file, header, raise_on_truncation, max_samples)` (atoparser/utils.py:82-129). -/
def Fed.generateStatistics (Z : Zlib) (header : Option Header) (rot : Bool) (max : Int) (f : Fed) : List Sample × End × Fed :=
  let body (h : Header) (f : Fed) : List Sample × End × Fed :=
    match parsedVersion h with
    | .error e => ([], endOf rot e, f)
    | .ok v => Fed.runLoop Z rot h.latched v max.toNat f
  match header with
  | some h => body h f
  | none =>
    match (getHeaderP true).fed f with
    | (.error e, f') => ([], .raised e, f')
    | (.ok h, f') => body h f'

/-- atoparser/reader.py:91-111 over atoparser/utils.py:107-129: every sample is converted before the next one is read.  An
exception of a conversion ends the reading. -/
def Fed.parseLoop (Z : Zlib) (o : Opts) (h0 h : Header) (v : Nat × Nat) : Nat → Fed → Except Exc (List JVal) × Fed
  | 0, f => (.ok [], f)
  | k + 1, f =>
    match (readSampleP Z h v).fed f with
    | (.ok none, f') => (.ok [], f')
    | (.error e, f') => (afterError e, f')
    | (.ok (some x), f') =>
      match sampleRows o h0 x with
      | .error e => (.error e, f')
      | .ok r =>
        match Fed.parseLoop Z o h0 h v k f' with
        | (.error e, f'') => (.error e, f'')
        | (.ok rs, f'') => (.ok (r ++ rs), f'')

/-- atoparser/reader.py:78-112 `parse_file` on an opened plain file: what is printed, or the exception. -/
def Fed.parseFile (Z : Zlib) (o : Opts) (file : PyStr) (f : Fed) : Except Exc (List JVal) × Fed :=
  match (getHeaderP true).fed f with
  | (.error e, f') => (.error e, f')
  | (.ok h, f') =>
    match h.semanticVersion with
    | .error e => (.error e, f')
    | .ok v =>
      if !o.parseables.isEmpty && !parseableVersions.contains v then
        (.ok [.dict [(py!"error", .str (unsupportedText v)), (py!"file", .str file)]], f')
      else
        match parsedVersion h.latched with
        | .error e => (afterError e, f')
        | .ok v => Fed.parseLoop Z o h.latched h.latched.latched v MAX_SAMPLES_PER_FILE f'

end Atop
