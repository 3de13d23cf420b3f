# Formal model of pyranha-labs/atoparser in Lean 4

`/repo` is read as text only; nothing in it was built, imported or run.

## 1. Layout

| Path | Content |
|---|---|
| `lean/Verif/Model/` | the model: executable, total Lean functions, each citing the file and lines it models |
| `lean/Verif/Model/Structs/` | the 123 `ctypes.Structure` classes and 11 header classes, produced from the text of `atoparser/structs/*.py` by `tools/gen_structs.py` (an AST reader, it never imports the code) |
| `lean/Verif/Spec/` | small specifications, written with literal byte offsets and independent of the model's helpers; `Spec/Layouts/` are literal position tables, one per version, written by `tools/gen_layouts.py` |
| `lean/Verif/Proofs/` | lemmas |
| `lean/Verif/Props/` | one file per property group: the property theorems, with concrete non-trivial cases beside them; `Witness*.lean` add, theorem by theorem, a concrete case that meets the hypotheses where none stands beside the theorem; `RealLogs.lean` (written by `tools/gen_logs.py`) shows that the headers and first samples of the repository's fourteen sample logs are logs in the sense of the specification |
| `properties.jsonl`, `MANIFEST.json` | the properties and which theorems settle them |
| `seeded/LOG.jsonl` | wrong-program experiments: an edit of the model, the theorems that then fail |

## 2. Trusted base

* Lean 4.33.0's kernel; the axioms `propext`, `Classical.choice`, `Quot.sound` (nothing else; no axiom of
  ours, no compiled evaluation).  `decide +kernel` is used only over complete finite tables (the structure
  classes, the 65536 version words), evaluated by the kernel.
* The reading of the Python code into `Verif/Model`, and `tools/gen_structs.py` for the field tables (since C71 the
  kernel checks these tables against the text of the structure modules).  (The literal
  tables of `Spec/Layouts/`, used by C49, come from a second, independent reader, `tools/gen_layouts.py`, which
  computes offsets itself; the kernel checks that the two agree.)
  As a check of that reading, `tools/conformance.py` compiles the model (with the zlib decoder of `Spec/Zlib.lean`) and
  runs it on the fourteen sample logs in `/repo/atoparser/test/files`; all 63 comparisons with the values the repo's own
  tests expect (headers, records, system, task, cgroup statistics, parseables, printed lines; tests read as text) agree.
  For C66 on, the reading is not by hand: the syntax trees of the code are written out by `tools/gen_source.py` (Python's
  own `ast` module, one constructor per node), and the hand-written model is proved to agree with them under the
  interpreter of `Source/Semantics.lean`, whose simplifications are listed at its head; there the interpreter is trusted
  instead of the reading.
* The following runtime behaviour, assumed as modelled (checked by hand against CPython's documentation and
  by stand-alone experiments with the standard library, never with the repo's code):
  * `ctypes`: LP64, little-endian, natural alignment; `from_buffer_copy` takes the first `sizeof` bytes and
    raises `ValueError` when there are fewer; `T * n` raises `ValueError` for `n < 0`; a `c_char * n`
    attribute reads as the bytes before the first NUL; a single `c_char` reads as one byte (NUL included);
    array elements and nested structures are views of the same memory.
  * `zlib.decompress` is a parameter `Z : Bytes → Option Bytes` (`none` = `zlib.error`) of every theorem.
    Theorems that need facts about it take them as explicit hypotheses (`Z` inverts the writer's compressor;
    `Z` rejects strict prefixes of a compressed block; `Z` rejects the empty string; `Z` ignores bytes after
    a complete stream).  A toy codec satisfying all of them is constructed, so they are jointly satisfiable; and C57
    proves all of them of the zlib format itself (`Spec/Zlib.lean`), where they are then no longer assumptions.
  * binary files: a read returns all bytes asked for unless the end is reached; at the end a plain file or
    `io.BytesIO` reads short, a damaged `.gz` raises (`EOFError`, ...).
  * CPython's UTF-8 decoder (`errors="strict"` and `"ignore"`), modelled byte by byte.
  * generator objects: `next`, `throw`, `close` as in PEP 342 (an exception thrown into a suspended generator
    appears at its `yield`).
  * floats are carried by their IEEE-754 binary32 bit pattern; no arithmetic is done on them by the code (the first
    example of the README divides integers; its binary64 arithmetic is `Source/Floats.lean`, C75).
  * `json.dumps(v, indent=2 | None)`, `int.__repr__` and `float.__repr__` of CPython (Lib/json/encoder.py;
    Python/pystrtod.c, "shortest decimal that reads back" with 'r' format), modelled in `Model/Json.lean` and
    `Model/FloatRepr.lean`.  The models were compared with CPython's standard library on some 2500 floats and 120
    random documents in both modes (never with the repo's code).  `print` appends one line break.
  * `argparse` as of CPython 3.11 (Lib/argparse.py), for the features `parse_args` uses, modelled in `Model/Cli.lean`
    function by function and compared with the standard library's `argparse` (given the same declarations) on 1734
    command lines.  `Source/Argparse.lean` models the same functions for any declarations of these kinds (C72) and was
    compared with the standard library on 2100 command lines of three parsers.  Later Python versions treat some corner cases (`--` between options, `-p=x`) differently.  Which
    characters `\d` matches in argparse's negative-number test is a parameter `U` of the theorems.
* Mathlib is used for rational arithmetic in the float part (`Spec/JsonText.lean`, `Spec/Printed.lean`,
  `Proofs/FloatRepr.lean`, `Proofs/Says.lean`, and for C75 `Source/Floats.lean`, `Spec/Readme.lean`, `Proofs/Floats.lean`,
  `Proofs/Usage.lean`) only.

## 3. What is modelled

* `atoparser/utils.py`: all of it (`generate_statistics` both as a generator stepped by `next()` and run to
  completion, `get_header`, `get_record`, `get_sstat`, `get_tstat`, `get_cstat`, `struct_to_dict`, the
  version table, `MAGIC`, `MAX_SAMPLES_PER_FILE`).
* `atoparser/structs/shared.py` and all eleven `atop_*.py` structure modules.
* `atoparser/parsers/atop_1_26.py`: all parser functions.
* `atoparser/reader.py`: all of it: `PARSEABLES`, `PARSEABLE_MAP`, `parse_args` (with the part of `argparse` it uses),
  `parse_file`, `main`, down to the characters written to the standard output.  `parse_file` interleaves the generator's steps with the conversions as the code does, so
  which exception wins is modelled too.
* the two Python examples and the command of `README.md` (C75).

Not modelled: the texts of `argparse` (help, usage errors), the messages of exceptions other than the two the library
composes itself (C50), exceptions raised by the operating system other than as values (opening a file: C31; a read: C81),
memory exhaustion, performance, what exactly a gzip stream gives after another process changed the *compressed* bytes of the open
file (whatever it gives is C80, and whatever it raises C81; plain files: C63 for appending, C76 for truncating and writing the
same again, C80 for anything at all), a caller
replacing attributes of the classes or of the objects (writing to their memory is modelled, C65), the caller resizing or
re-casting ctypes objects, `max_samples` or files given as objects of the wrong type, and Python's type-annotation-only names (`Header = Union[...]`).

## 4. Where the code deviates from its documentation (each one is proved about the model with a witness)

1. `get_header` raises `AttributeError`, not the documented `ValueError`, for unsupported versions below
   "major ≥ 2 and minor ≥ 3" (0.x, 1.x except 1.26, 2.0-2.2, 3.0-3.2 ...), because the fallback 2.12 header
   class has no `pstatlen`.
2. `get_header` accepts a file that ends inside the header (after the length fields); the docstring promises
   `ValueError` when there are not enough bytes.
3. `get_record` never raises on missing bytes (docstring: `ValueError`); consequently a log cut inside the
   first 16 bytes of a record ends silently even with `raise_on_truncation=True`.
4. With `raise_on_truncation=False`, `ValueError` (short decompressed data, negative process count) and
   `EOFError` (cut `.gz`) still leave the iteration; `parse_file` then prints nothing for that file.
5. Negative counts: `struct_to_dict` slices from the end, the `cpu` parseable shows no rows.
6. `parse_PRD` exists but is not among `PARSEABLES`; asking `parse_file` for it is a `KeyError`.
7. The parseables decode text strictly and raise on bytes that `struct_to_dict` silently drops.
8. `.gz` is looked for anywhere in the path.  Floats may be NaN/Infinity, for which `json.dumps` prints
   tokens that are not JSON.
9. `-P` takes all words up to the next option, so `atoparser -P CPU file` is refused (`file` is not a parseable).

## 5. Plan per property

| Property | Modelled by | Proof |
|---|---|---|
| C01 round trip | `generateStatistics`, all readers; spec: a writer with literal offsets (`Spec/Format.lean`) | induction over samples; per-sample lemma composes record/sstat/tstat/cstat readers; chain lemma by induction on cgroups |
| C02, C03 crash points | same; cut = `take k` of the written bytes | case split on which piece of the interrupted sample is cut, induction over samples |
| C04 | `onError`/`endOf` | induction over the loop, relating the two runs |
| C05 | `runLoop` | induction on the bound |
| C06 | `Gen.next`, `Stream.pos` | bounds on each reader; exact positions from the C01 lemma |
| C07 | `Gen.collect` vs `runLoop` | induction |
| C08, C09, C11, C12 | `getHeader`; spec: a table of literal numbers | evaluate layouts in the kernel, case split on version |
| C10 | `splitVersion`, `versionString`, `parsedVersion` | arithmetic; digits round trip for every number |
| C13 | `getTStat` | induction on the count |
| C14 | `getCStat` | induction on the count |
| C15 | `readSample` | case split |
| C16, C17, C21 | `structToDict` for any schema | mutual induction on schemas, table checked in the kernel |
| C18, C19, C41 | `leInt`, `decodeIgnore` | arithmetic on digits base 256; UTF-8 encoder spec and round trip |
| C20 | `structToDict` | induction with a decidable schema predicate, kernel-evaluated on all classes |
| C22-C26 | `parse_*` | path resolution to literal offsets, list induction |
| C27-C31 | `parseFile`, `runMain` | unfold, induction over samples / files |
| C32 | `Stream.short` | simulation between the damaged and the intact stream |
| C33 | `Header.cache` | case split |
| C34-C38 | readers; C38's attribute chains: spec `Leads`/`Reaches` in `Props/Attributes.lean` | direct / induction, simulation between streams; induction over the chain |
| C39, C40 | layout functions, generated tables | general induction plus complete kernel evaluation of the tables |
| C42 | `parseFile`, `structToDict`, `parse_*` | induction; every parseable's rows from C22-C25 |
| C43 | `dumps`, `floatRepr`, `parseFileText`; spec: RFC 8259 grammar as an inductive relation between texts and syntax trees (`Spec/JsonText.lean`), `Says` between values and trees, `ReadsAs` = correct rounding to binary64 (`Spec/Printed.lean`) | induction over values; float search always succeeds within 17 digits and lands in the rounding interval; grammar proved unambiguous by induction on length |
| C44 | same, `mainText` | induction over values / files |
| C45 | same, grammar without Python's words | both directions by induction |
| C46 | same | `Says` is injective: rounding determines the binary64 number, binary32 values are determined by sign and magnitude, UTF-16 is injective without high surrogates; prefix-freeness of the grammar for `main` |
| C47 | `Gen.step`, `Gen.history` (`Model/Protocol.lean`) | induction over the history |
| C48 | `interleave` | induction over the schedule, generalized over the states of all iterators |
| C49 | `structToDict`, `parseFileText`; spec: `Spec/Node.lean` and the literal tables `Spec/Layouts/*.lean`, written by `tools/gen_layouts.py` (an AST reader of the structure modules with its own layout computation, independent of `gen_structs.py` and of the Lean layout functions) | mutual induction over classes for the general part; equality of the tables with the computed layouts in the kernel; composition with C29 and C43 |
| C50 | `getHeader`, `Header.sizeChecks`, `incompatibleText`, `magicText`; spec: numerals by value and form (`Spec/Messages.lean`) | closed form of the size list, existence and uniqueness of numerals by strong induction |
| C51 | `parseArgs` (`Model/Cli.lean`); spec: a grammar of command lines as inductive relations on words (`Spec/Cli.lean`), not mentioning the parser | soundness and completeness of the grammar: inversion of single option words, then strong induction on the classified arguments, once before and once after the files |
| C52 | `program` | C51 and C30 |
| C53 | `generateStatistics` and the readers; spec: an executable reference decoder in literal offsets (`Spec/Decode.lean`) | a simulation of each reader by the decoder's step (`Does`), induction over the cgroup chain and over the samples; the decoder itself is validated by C53_written |
| C54 | `parseFile`, `program`; spec: the decoder, `Spec/Sample.lean` and the literal layouts | C53, C29, C49's entry lemma, C43 and C51 |
| C55 | `getHeader false`, `generateStatistics`; spec: `Spec/Unchecked.lean`, the reference decoder with the recorded lengths as parameters | C53's simulation generalised to headers whose lengths need not match (`Usable`); C53 is recovered as the case of matching lengths; `C55_source`, `C55_source_too_old` (Props/SourceUnchecked.lean) from the source text: worlds that differ only in evaluated versions of headers (`Lat`) give the same history |
| C56 | `parseFile`, `program` with parseables; spec: the reference decoder and `Spec/Wanted.lean`, the rows of every parseable as a function of the bytes in literal offsets | C22-C25 per parseable, combined by an append lemma over parseables and samples, C53 for the samples, C43 and C51 for the program |
| C57 | `generateStatistics`; spec: a decoder for zlib streams from RFC 1950/1951 (`Spec/Zlib.lean`, not repo code; compared with Python's `zlib.decompress` on 9004 valid, cut, extended, corrupted and hand-crafted streams by `tools/zlib_compare.py`, all agreeing) | a decoder's successful run depends only on the bytes it read (`Local`, closed under sequencing), the step budget never matters (`Enough`); hence prefix-freeness; then C01-C03, C36, C37 with `Z := decompress`; a stored-block writer gives every content a stream |
| C58 | `parseFile` under two option settings; spec: removal of two members, selection by the "parseable" label | C20 (every conversion succeeds), C28's output theorem, C42 (keys are distinct, so the label is the one added) |
| C59 | `parseFile` on a file and on the same file with bytes appended | growth lemmas for the reference decoder (a read that is satisfied stays the same, an unsatisfied one leaves nothing), then C53; `C57` discharges the assumptions for zlib; `C59_source` (Props/Regrown): the same two calls executed from the source text, and the second printed text starts with the first up to its closing bracket |
| C60 | `parsePath`, `parseFile`, `generateStatistics`; spec: gzip files from RFC 1952 (`Spec/Gzip.lean`, not repo code; compared with CPython's `gzip` on 18000 intact, cut, corrupted and extended files by `tools/gzip_compare.py`, which also checks the assumption `Opens` on what `gzip.open` delivers before it raises) | C57's locality of decoders for members, induction over members; then C01, C32 and C09 |
| C61 | `parseFile`, `parsePath`, `program`; spec: `Spec/Result.lean`, the outcome of a file as an inductive relation over its bytes, built from the reference decoder, the literal layouts, `Spec/Wanted.lean` and the messages | each prescribed outcome forces the result (C54, C56, C27, C50, C09), some outcome is always prescribed, entries and rows are determined by what they show (C49, C56); the program by C52, C43 |
| C62 | `dumps` of floats (`Model/FloatRepr.lean`, CPython's algorithm restated in exact integers); spec: `Spec/Repr.lean` (shortest, closest, even; the shape of the literal), independent of the search | what reads back lies between the midpoints to the neighbouring binary64 numbers; the level where the search stops is the least number of digits; literals of the prescribed shape are determined by sign and value. `Says` (C43) now demands this literal |
| C63 | `Model/Live.lean`: the readers, `generate_statistics` and `parse_file` as programs of reads, run on a plain file of which more is visible at every read; on a file that does not change they are proved equal to the functions of the other properties (for every file) | one iteration either meets the whole sample or is, at the first read that comes back short, what it would be on the file as it then is; induction over the samples. The condition on records is proved necessary by a witness |
| C64 | `generateStatistics`, `parseFile` on logs whose samples are `Framed` only; the log of one sample alone is the comparison | the reference decoder (C53) on `sample ++ rest` splits into the sample's own blocks and the rest; induction over the samples |
| C65 | `Model/Objects.lean`: `get_header`, `get_record`, `get_sstat`, `get_tstat`, `get_cstat`, `generate_statistics` restated over objects with memory (`from_buffer_copy` and `T()` allocate, `from_buffer` shares, attributes are read when the code reads them); histories of steps of several generators and writes of the caller; vocabulary in `Spec/Objects.lean`. Headers may come from `get_header` with the check or without it (version not evaluated yet: `C65_unchecked_*`) | each function simulates its counterpart on values and allocates only; a step is the step on values with the header as it is at that moment; writes that spare the two recorded lengths do not change what a step reads (version cached, C33); a header whose version is not evaluated yet behaves in every step like the same object with its version evaluated at that moment (`Proofs/Latent.lean`: two worlds that differ only in evaluated versions go through every function alike); induction over the history |
| C66 | the source text itself: `tools/gen_source.py` writes the syntax trees of /repo's functions to `Source/Text.lean`; `Source/Semantics.lean` is an interpreter for that fragment of Python (names, attributes, calls, loops, exceptions, generators, ctypes views), `Source/Program.lean` the imported modules; `Spec/Source.lean` lists what a generator hands out | each dictionary display is matched entry by entry with the row of the model (path lookups over good types), loops by induction over the array or list |
| C67 | the same interpreter, on `HeaderMixin` and `get_header`; `Spec/SourceGen.lean` shows a world of Model/Objects.lean as a state of the interpreter (`emb`) | each statement is evaluated symbolically; results are equations `text = embR (model)` for every world whose file's own error is not one of the two `ValueError`s the code raises |
| C68 | the same, on the four readers and on the generator: `PGen.next`, `throw` and `close` resume the interpreter's coroutine (with an exception raised at the `yield`), `driven` runs a history of operations and writes | loops by induction; a suspended generator of the text is related to a suspended generator of Model/Objects.lean (`Suspended`), one step keeps them related, histories by induction; C65 then gives the step on values |
| C69 | the same interpreter, on `struct_to_dict` (recursive calls, `fields_limiters`, slices, `append` through a subscription) | one field by cases on its value (`Adds`), items of an array and fields of a structure by induction, nested structures by induction over the depth of calls; the result is matched with `Fields.vals` |
| C70 | the same interpreter, on `parse_file` and `main`: files, generators in a `for`, dictionaries, `json.dumps`, `print`, `try` | the loop over samples by induction with the suspended generator of C68 as its invariant, the conversion by C69, the parseables by C66, the loop over files by induction; then C52 is carried over to the text |
| C71 | `Source/Structs/*.lean`: the syntax trees of the twelve structure modules; `Source/Classes.lean`: what a `class` statement makes, import of modules; `Source/Tables.lean`: the names each module ends with (written by `tools/gen_tables.py`, checked) | complete kernel evaluation, module by module (`Eq.refl`, compared by the kernel only); composed with the literal tables of C49; `textProgram = program` by extensionality |
| C72 | the same interpreter, on `parse_args`: `ArgumentParser`, `add_argument`, `parse_args` as library operations (`Source/Argparse.lean`) | simulation of the general library on the declarations of the text by the specialised model of C51, function by function, the loops by strong induction on the words left; then C51's grammar is carried over to the text |
| C73 | the same interpreter and histories as C68, for one generator | C68 gives the history on objects, C65 the one on values, C47 what it is; quietness and finality by induction over the history of the object model |
| C74 | the interpreter of C66-C73 on the one side; the literal layouts, the reader of Spec/Decode.lean and the prescriptions of Spec/Result.lean on the other; Spec/SourceResult.lean says when a value converts to what | C67-C70 and C73 turn the execution into the object model, C65 into values, C02/C03/C08/C53/C61 into the specifications; memory is only appended to, so conversions stay the same later |
| C75 | `Source/Readme.lean`: the syntax trees of the README's Python blocks, written by `tools/gen_source.py --readme`; `Source/Floats.lean`: binary64 division, `int - float` and `format(x, '.02%')` as CPython computes them on finite numbers (magnitude a rational, round half to even; compared with CPython on 279 cases; results too large for binary64 are outside the fragment, and the theorem shows they do not occur) | C65/C67/C68 for the calls, a generic lemma on a caller's `for` loop over the generator, the literal positions by the kernel for all versions, error bounds of the three roundings (`Proofs/Floats.lean`, `Proofs/Usage.lean`) |
| C76 | `Model/Live.lean` again, now with any function `visible`: how far each read reaches may go up and down | one iteration meets the whole sample or ends at the first read that comes back short, whatever was or will be visible; induction over the samples; the program by comparison with C01 on the first samples |
| C77 | `json.dumps` and `print` as for C43; the target is a separate function that reads the text without white space once, left to right (`Spec/Minimal.lean`) | strings, numbers and words pass the scanner unchanged; induction over the value, with the depth and the rest of the text; the text without white space is unique |
| C78 | the caller's program is written in the interpreter's monad (`Spec/ByHand.lean`), everything it calls is executed from the source text | reading by hand is `readSample` of Model/Objects.lean, hence the first step of an iterator; a mixture is a history with one more iterator per hand; then C48, C53, C65 and C68 |
| C79 | the four functions executed from the source text; what they must find is the reference decoder, block by block (`Spec/OneReader.lean`; with unchecked or overwritten headers the one of `Spec/Unchecked.lean`, in `Props/OneReaderUnchecked.lean`) | C68 (text to model with memory), the simulation of Proofs/Objects.lean (memory to values), the block lemmas of Proofs/Decode.lean (values to reference decoder), C74's reading of attributes |
| C80 | the readers as programs (Model/Live.lean) run on a file of which only the answers of the reads are known (`Model/Fed.lean`); what must be found is the reference decoder applied to the answers (`Spec/Fed.lean`) | induction over the programs: a run with whole reads is the run on the file of the bytes given (`fed_still`), then over the samples; sample by sample against the decoder with the block lemmas of Proofs/Decode.lean (`Props/Fed.lean`); then the conversions as for C28 and C54 (`Props/FedOutput.lean`); that the growing files of C63 and unchanging files are among these files is proved too (`Props/FedCovers.lean`) |
| C81 | the readers as programs (Model/Live.lean) run on a file any read of which may raise (`Model/Failing.lean`) | against C80's run on the same answers: induction over the programs (`tried_fed`), then over the samples, each of which takes a fixed number of reads (`Props/Failing.lean`), then over the files of the program (`Props/FailingMain.lean`); the plain and the broken-off `.gz` files of the other properties are such files (`Props/FailingCovers.lean`) |
