import Verif.Model.Fed
/-!
# Reads that fail

The readers as programs (Verif/Model/Live.lean), run on a file any read of which may raise an exception: an I/O error of the
operating system, a network file system that is gone, a damaged `.gz` member, a file object of the caller that was closed.
-/

namespace Atop

/-- Running a program on a file whose `t`-th read raises, or gives the first bytes of `answer t`.  The number counts the reads. -/
def Prog.tried {α} : Prog α → (Nat → Except Exc Bytes) → Nat → Except Exc α × Nat
  | ret a, _, t => (.ok a, t)
  | raise e, _, t => (.error e, t)
  | read n k, answer, t =>
    match answer t with
    | .error e => (.error e, t + 1)
    | .ok b => (k (b.take n)).tried answer (t + 1)

/-- atoparser/utils.py:107-129: samples, how it ended, number of reads made. -/
def Failing.runLoop (Z : Zlib) (rot : Bool) (h : Header) (v : Nat × Nat) (answer : Nat → Except Exc Bytes) : Nat → Nat → List Sample × End × Nat
  | 0, t => ([], .returned, t)
  | k + 1, t =>
    match (readSampleP Z h v).tried answer t with
    | (.ok (some x), t') => let r := Failing.runLoop Z rot h v answer k t'; (x :: r.1, r.2)
    | (.ok none, t') => ([], .returned, t')
    | (.error e, t') => ([], endOf rot e, t')

/-- `for ... in generate_statistics(raw_file, header, raise_on_truncation, max_samples)` (atoparser/utils.py:82-129). -/
def Failing.generateStatistics (Z : Zlib) (header : Option Header) (rot : Bool) (max : Int) (answer : Nat → Except Exc Bytes) :
    List Sample × End × Nat :=
  let body (h : Header) (t : Nat) : List Sample × End × Nat :=
    match parsedVersion h with
    | .error e => ([], endOf rot e, t)
    | .ok v => Failing.runLoop Z rot h.latched v answer max.toNat t
  match header with
  | some h => body h 0
  | none =>
    match (getHeaderP true).tried answer 0 with
    | (.error e, t) => ([], .raised e, t)
    | (.ok h, t) => body h t

/-- atoparser/reader.py:91-111 over atoparser/utils.py:107-129: every sample is converted before the next one is read. -/
def Failing.parseLoop (Z : Zlib) (o : Opts) (h0 h : Header) (v : Nat × Nat) (answer : Nat → Except Exc Bytes) : Nat → Nat → Except Exc (List JVal)
  | 0, _ => .ok []
  | k + 1, t =>
    match (readSampleP Z h v).tried answer t with
    | (.ok none, _) => .ok []
    | (.error e, _) => afterError e
    | (.ok (some x), t') =>
      match sampleRows o h0 x with
      | .error e => .error e
      | .ok r =>
        match Failing.parseLoop Z o h0 h v answer k t' with
        | .error e => .error e
        | .ok rs => .ok (r ++ rs)

/-- atoparser/reader.py:78-112 `parse_file` on an opened file: what is printed, or the exception. -/
def Failing.parseFile (Z : Zlib) (o : Opts) (file : PyStr) (answer : Nat → Except Exc Bytes) : Except Exc (List JVal) :=
  match (getHeaderP true).tried answer 0 with
  | (.error e, _) => .error e
  | (.ok h, t) =>
    match h.semanticVersion with
    | .error e => .error e
    | .ok v =>
      if !o.parseables.isEmpty && !parseableVersions.contains v then
        .ok [.dict [(py!"error", .str (unsupportedText v)), (py!"file", .str file)]]
      else
        match parsedVersion h.latched with
        | .error e => afterError e
        | .ok v => Failing.parseLoop Z o h.latched h.latched.latched v answer MAX_SAMPLES_PER_FILE t

/-- atoparser/reader.py:79-112 `parse_file(file, ...)`: `opens file gz` is what `gzip.open` / `open` gives. -/
def Failing.parsePath (Z : Zlib) (opens : PyStr → Bool → Except Exc (Nat → Except Exc Bytes)) (o : Opts) (f : PyStr) : Except Exc (List JVal) :=
  match opens f (usesGzip f) with
  | .error e => .error e
  | .ok answer => Failing.parseFile Z o f answer

/-- atoparser/reader.py:115-126 `main` after argument parsing, over files any read of which may raise: the documents printed, and
the exception that ended the program if any did. -/
def Failing.runMain (Z : Zlib) (opens : PyStr → Bool → Except Exc (Nat → Except Exc Bytes)) (o : Opts) : List PyStr → List (List JVal) × Option Exc
  | [] => ([], none)
  | f :: rest =>
    match Failing.parsePath Z opens o f with
    | .error e => ([], some e)
    | .ok doc => let r := Failing.runMain Z opens o rest; (doc :: r.1, r.2)

end Atop
