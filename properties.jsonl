{"id": "C01", "title": "Whole-log round trip", "statement": "Write a log the way atop does: a 480-byte header of a supported version, then for every sample the raw record followed by the zlib-compressed system statistics, the zlib-compressed concatenated task statistics and, from 2.11 on, the zlib-compressed cgroup chain and the zlib-compressed pid list, with the record carrying the compressed lengths and the counts. Iterating generate_statistics over that file yields exactly those samples, in that order, each with byte-identical record, system, task, cgroup and pid memory, and then ends without an exception.", "quantifier": "every supported version, every number of samples (0 included) up to max_samples, every record/statistics content, every number of tasks, cgroups and pids, every compressor that zlib.decompress inverts, both settings of raise_on_truncation", "why_tests_cant": "Fixture files are a handful of recorded logs; the claim is about all contents, all counts and all numbers of samples.", "anchors": ["atoparser/utils.py::generate_statistics", "atoparser/utils.py::get_header", "atoparser/utils.py::get_record", "atoparser/utils.py::get_sstat", "atoparser/utils.py::get_tstat", "atoparser/utils.py::get_cstat"]}
{"id": "C02", "title": "Crash-point safety: a cut log yields exactly its complete samples", "statement": "Cut a well-formed log at any byte after the header. Iterating it yields exactly the samples whose bytes are completely present, in order and unchanged: no sample is lost, invented or partially filled.", "quantifier": "every well-formed log and every cut position from the end of the header to the end of the file, every version, both settings of raise_on_truncation", "why_tests_cant": "There are as many crash points as bytes; tests cut a file at a few.", "anchors": ["atoparser/utils.py::generate_statistics", "atoparser/utils.py::get_record", "atoparser/utils.py::get_sstat", "atoparser/utils.py::get_tstat", "atoparser/utils.py::get_cstat"]}
{"id": "C03", "title": "Exactly when truncation is reported", "statement": "With raise_on_truncation=True a log cut at any byte after the header ends with zlib.error precisely when the bytes present of the interrupted sample already contain a non-zero byte of the compressed-length field (bytes 16-19 of the record); otherwise (cut on a sample boundary, or before any such byte) iteration ends silently. With raise_on_truncation=False it never raises.", "quantifier": "every well-formed log, every cut position after the header, both flag values", "why_tests_cant": "The boundary between the silent and the reported case lies at specific bytes of every sample; a test picks one.", "anchors": ["atoparser/utils.py::generate_statistics"]}
{"id": "C04", "title": "raise_on_truncation=False suppresses zlib.error and nothing else", "statement": "With raise_on_truncation=False no zlib.error ever leaves the iteration, whatever the bytes; every other exception (too little decompressed data, negative counts, a damaged gzip container) is raised identically under both settings, and the samples yielded before the end are the same under both settings.", "quantifier": "every byte content, every starting position, every decompressor behaviour, every max_samples", "why_tests_cant": "It is a statement about every malformed file, and relates two runs.", "anchors": ["atoparser/utils.py::generate_statistics"]}
{"id": "C05", "title": "max_samples bounds the iteration", "statement": "At most max_samples samples are yielded (none when max_samples <= 0); what is yielded is the first max_samples of what a larger bound would yield, and when the bound is what stops the iteration nothing is raised and the file is left exactly after the last yielded sample.", "quantifier": "every byte content, every pair of bounds, negative ones included", "why_tests_cant": "Universally quantified over files and bounds and relates two runs.", "anchors": ["atoparser/utils.py::generate_statistics", "atoparser/utils.py::MAX_SAMPLES_PER_FILE"]}
{"id": "C06", "title": "Laziness: one step reads one sample", "statement": "Creating the iterator reads nothing. Each step reads exactly one sample and leaves the file positioned right after it, so on a well-formed log the file position after k steps is the end of the k-th sample. A step never reads past the lengths its record announces, and after the iterator has ended (exhausted or raised) further steps read nothing and yield nothing.", "quantifier": "every well-formed log and every step number; for the no-overread part every byte content", "why_tests_cant": "Quantifies over every step of every iteration.", "anchors": ["atoparser/utils.py::generate_statistics", "atoparser/utils.py::get_sstat", "atoparser/utils.py::get_tstat", "atoparser/utils.py::get_cstat"]}
{"id": "C07", "title": "Iteration can be resumed", "statement": "Reading n samples with one iterator and then m more with a second one, on the same open file and header, gives exactly what a single iterator bounded by n+m gives (when the first did not stop early). Stepping an iterator one next() at a time gives the same samples and the same ending as a for loop. Reading the header first and passing it gives the same result as letting the iterator read it.", "quantifier": "every byte content, every n and m", "why_tests_cant": "Relates different schedules of the same reading for all inputs.", "anchors": ["atoparser/utils.py::generate_statistics", "atoparser/utils.py::get_header"]}
{"id": "C08", "title": "Header acceptance is exactly the published rule", "statement": "get_header (default check) on a plain file succeeds if and only if the version is one of the supported ones or has major >= 2 and minor >= 3 (other versions are refused, see C09) and the first 480 bytes (missing ones read as zero) carry the magic 0xFEEDBEEF and the recorded structure lengths equal the sizes of the structures that will be used for that version: header 480, record 80 (1.26) or 96, and the per-version system/task/cgroup sizes. It then returns a header of the class of the recorded version with the file's bytes unchanged and the file positioned after 480 bytes.", "quantifier": "every byte content and length", "why_tests_cant": "All 2^3840 headers; tests try a few.", "anchors": ["atoparser/utils.py::get_header", "atoparser/structs/shared.py::HeaderMixin.check_compatibility"]}
{"id": "C09", "title": "Header rejection has the documented kind", "statement": "When get_header fails on a plain file it raises ValueError when the magic is wrong (whatever the rest) and ValueError when the version is known and a length differs. The only other outcome is AttributeError, and it occurs exactly for magic-valid headers of versions that are not supported and whose major is below 2 or minor below 3 (a deviation from the docstring).", "quantifier": "every byte content and length", "why_tests_cant": "Error classification over all inputs.", "anchors": ["atoparser/utils.py::get_header", "atoparser/structs/shared.py::HeaderMixin.check_compatibility"]}
{"id": "C10", "title": "Version decoding", "statement": "semantic_version of a header with version word a is 'M.m' with M = bits 8-14 and m = bits 0-7 of a; the top bit is ignored; major_version and minor_version are those numbers; two version words give the same string exactly when they agree on both numbers; and splitting the string on '.' and reading the numbers gives them back.", "quantifier": "all 65536 version words", "why_tests_cant": "Injectivity and parse-back quantify over pairs of words.", "anchors": ["atoparser/structs/shared.py::HeaderMixin.semantic_version", "atoparser/structs/shared.py::HeaderMixin.major_version", "atoparser/structs/shared.py::HeaderMixin.minor_version", "atoparser/utils.py::generate_statistics"]}
{"id": "C11", "title": "Version dispatch", "statement": "For every supported version get_header returns that version's header class, and records, system, task and cgroup statistics are then read with that version's structures; for any other version the 2.12 structures are used. Every supported header class occupies 480 bytes, so re-viewing the bytes under another class loses nothing.", "quantifier": "all version words, all header contents", "why_tests_cant": "The fallback covers all unsupported version words.", "anchors": ["atoparser/utils.py::get_header", "atoparser/utils.py::_VERSIONS", "atoparser/utils.py::_HEADER_BY_VERSION", "atoparser/utils.py::_DEFAULT_VERSION"]}
{"id": "C12", "title": "Compatibility check guarantees slice width equals structure size", "statement": "Whenever get_header (with its default check) returns a header, the task length it carries equals the size of the task structure and, for versions whose cgroups are read, the cgroup length equals the size of the cgroup structure; so each task is decoded from its own adjacent, non-overlapping slice.", "quantifier": "every accepted header", "why_tests_cant": "Quantifies over all accepted headers.", "anchors": ["atoparser/structs/shared.py::HeaderMixin.check_compatibility", "atoparser/utils.py::get_header", "atoparser/utils.py::get_tstat"]}
{"id": "C13", "title": "Task statistics: count, order, all or nothing", "statement": "get_tstat returns exactly as many task structures as the record announces (nlist for 1.26, ndeviat afterwards; none when that is <= 0); the i-th is byte-identical to bytes [i*L,(i+1)*L) of the decompressed data. It raises ValueError exactly when the decompressed data is shorter than count*L, never returning a partial list; surplus data is ignored.", "quantifier": "every accepted header, record, count and decompressed content", "why_tests_cant": "Unbounded counts and contents.", "anchors": ["atoparser/utils.py::get_tstat"]}
{"id": "C14", "title": "Cgroup statistics: chain walk and pid partition", "statement": "get_cstat returns exactly the announced number of cgroups; the k-th starts where the (k-1)-th plus its own recorded length ends, and the pid lists partition the pid data consecutively: the k-th list has nprocs_k entries starting at entry nprocs_0+...+nprocs_(k-1).", "quantifier": "every accepted 2.11+ header, every record and decompressed content", "why_tests_cant": "Chains of unbounded length with per-link sizes.", "anchors": ["atoparser/utils.py::get_cstat", "atoparser/structs/atop_2_11.py::CGChainer"]}
{"id": "C15", "title": "No cgroups before 2.11", "statement": "For versions below 2.11 every yielded cgroup list is empty and no cgroup bytes are consumed from the file, so the next record starts right after the task statistics.", "quantifier": "every file content, every version below 2.11", "why_tests_cant": "All file contents.", "anchors": ["atoparser/utils.py::generate_statistics"]}
{"id": "C16", "title": "struct_to_dict keys", "statement": "The keys of struct_to_dict are exactly the declared field names, in declaration order and without duplicates, minus the non-structure fields whose name contains 'future'; recursively for nested structures and lists of structures.", "quantifier": "every structure class of every version, every memory content", "why_tests_cant": "123 structure classes times all contents.", "anchors": ["atoparser/utils.py::struct_to_dict"]}
{"id": "C17", "title": "struct_to_dict list lengths follow the count fields", "statement": "A list field that has a limiter is as long as the count field says when that lies between 0 and the declared capacity, has full capacity length above it, and for a negative count -k loses its last k entries (empty when k exceeds capacity); entries kept are the leading ones in order. Every list shown has such a limiter.", "quantifier": "every structure class with array fields, every count value", "why_tests_cant": "All count values including negative and oversized ones.", "anchors": ["atoparser/utils.py::struct_to_dict"]}
{"id": "C18", "title": "struct_to_dict integers are exact", "statement": "Every integer field appears with exactly the value stored little-endian in its C field (two's complement when signed), whatever the other bytes are; the value lies in the C type's range; every value of the range is produced by its own encoding and distinct encodings give distinct values.", "quantifier": "every integer field of every structure, every content", "why_tests_cant": "All 2^64 values of a field.", "anchors": ["atoparser/utils.py::struct_to_dict"]}
{"id": "C19", "title": "struct_to_dict strings", "statement": "Every character-array field appears as the text before its first NUL byte (the full capacity when there is none), decoded as UTF-8 with undecodable bytes dropped; conversion never raises; plain ASCII text up to the capacity comes back unchanged, and so does any valid UTF-8 encoding of text without NUL. A single-character field appears as its character when it is ASCII (NUL included) and as the empty text otherwise.", "quantifier": "every text field, every byte content", "why_tests_cant": "All byte strings, all Unicode texts.", "anchors": ["atoparser/utils.py::struct_to_dict"]}
{"id": "C20", "title": "struct_to_dict output is JSON-compatible", "statement": "For every structure class of every version (headers, records, system, task and cgroup statistics with their pid lists) and every memory content, struct_to_dict succeeds and its result is built only from int, float (32-bit values), str (without lone surrogates), list and dict (with distinct string keys).", "quantifier": "every structure class, every memory content", "why_tests_cant": "A single field of an unsupported type in one of 123 classes breaks it for some input.", "anchors": ["atoparser/utils.py::struct_to_dict", "README.md::Convert the C structs into JSON compatible objects"]}
{"id": "C21", "title": "struct_to_dict ignores what it does not show", "statement": "Changing padding bytes, 'future' placeholders, list entries beyond a (non-negative) count, or bytes after the terminating NUL of a text field does not change the result of struct_to_dict.", "quantifier": "every structure class, every pair of memory contents that differ only there", "why_tests_cant": "A two-run property over all contents.", "anchors": ["atoparser/utils.py::struct_to_dict"]}
{"id": "C22", "title": "Parseable 'cpu': one row per core", "statement": "For a 1.26 sample the 'cpu' parseable yields min(nrcpu, 64) rows (none when nrcpu <= 0), the i-th numbered i and carrying the times of the i-th core record, with the record's time stamp and interval and the header's clock rate.", "quantifier": "every 1.26 header, record and system statistics content", "why_tests_cant": "All counts and contents.", "anchors": ["atoparser/parsers/atop_1_26.py::parse_cpu"]}
{"id": "C23", "title": "Parseables DSK, LVM, MDD, NETL: rows up to the first empty name", "statement": "Each of these yields one row per leading entry with a non-empty name, in order, and stops at the first empty name (or after the declared capacity); entries behind it never appear. Each row carries that entry's counters.", "quantifier": "every 1.26 sample content with decodable names", "why_tests_cant": "All contents.", "anchors": ["atoparser/parsers/atop_1_26.py::parse_DSK", "atoparser/parsers/atop_1_26.py::parse_LVM", "atoparser/parsers/atop_1_26.py::parse_MDD", "atoparser/parsers/atop_1_26.py::parse_NETL"]}
{"id": "C24", "title": "Process parseables: one row per task", "statement": "PRC, PRD, PRG, PRM and PRN yield exactly one row per task statistic, in order, with that task's pid, name and counters; PRM reports memory sizes as 1024 times the stored KiB value, PRD/PRN report 'y' exactly when the corresponding support bit of the header is set. (PRD has a parse function but no entry in PARSEABLES, so it is reached by calling parse_PRD only.)", "quantifier": "every 1.26 header and record, every list of task statistics with decodable text", "why_tests_cant": "Unbounded task lists, all contents.", "anchors": ["atoparser/parsers/atop_1_26.py::parse_PRC", "atoparser/parsers/atop_1_26.py::parse_PRD", "atoparser/parsers/atop_1_26.py::parse_PRG", "atoparser/parsers/atop_1_26.py::parse_PRM", "atoparser/parsers/atop_1_26.py::parse_PRN"]}
{"id": "C25", "title": "System parseables carry the fields they name", "statement": "CPL, CPU, MEM, PAG, SWP and NETU always yield exactly one row whose entries equal the named counters of the sample's system statistics (NETU: exact integer sums of the v4 and v6 counters, never wrapped).", "quantifier": "every 1.26 header, record and system statistics content", "why_tests_cant": "All contents, including values whose sums exceed 64 bits.", "anchors": ["atoparser/parsers/atop_1_26.py::parse_CPL", "atoparser/parsers/atop_1_26.py::parse_CPU", "atoparser/parsers/atop_1_26.py::parse_MEM", "atoparser/parsers/atop_1_26.py::parse_PAG", "atoparser/parsers/atop_1_26.py::parse_SWP", "atoparser/parsers/atop_1_26.py::parse_NETU"]}
{"id": "C26", "title": "Parseables raise only on undecodable text, after the good rows", "statement": "On a 1.26 sample a parseable raises if and only if a text it must show is not valid UTF-8, the exception is UnicodeDecodeError, and all rows before the offending one have been yielded; on the same data struct_to_dict does not raise.", "quantifier": "every 1.26 sample content", "why_tests_cant": "All byte strings in text fields.", "anchors": ["atoparser/parsers/atop_1_26.py::parse_DSK", "atoparser/parsers/atop_1_26.py::parse_PRC", "atoparser/parsers/atop_1_26.py::parse_PRG"]}
{"id": "C27", "title": "Unsupported parseables give one error entry", "statement": "Asking for parseables on a log whose version is not 1.26 prints exactly one entry naming the version and the file, and reads nothing after the header, whatever follows (even a damaged log).", "quantifier": "every accepted non-1.26 header, every following content, every non-empty parseable list", "why_tests_cant": "All contents after the header.", "anchors": ["atoparser/reader.py::parse_file"]}
{"id": "C28", "title": "Parseable output order and labels", "statement": "For a 1.26 log the printed list is, sample by sample and within a sample in the order the parseables were requested, the rows of that parseable, each with its own name added under 'parseable'; nothing is dropped, duplicated or mixed across samples. The first failure in that order decides the exception (KeyError for a name that is not one of the fifteen, otherwise the parseable's own exception) and nothing is printed; a log without samples prints an empty list whatever is requested.", "quantifier": "every 1.26 log, every list of requested parseables", "why_tests_cant": "All logs and request lists.", "anchors": ["atoparser/reader.py::parse_file", "atoparser/reader.py::PARSEABLE_MAP"]}
{"id": "C29", "title": "Full output shape", "statement": "Without parseables the printed list has exactly one entry per sample, in order, each with header, record and sstat, plus tstat exactly when requested (one element per task) and cgroup exactly when requested (one element per cgroup).", "quantifier": "every log of every version, every combination of options", "why_tests_cant": "All logs.", "anchors": ["atoparser/reader.py::parse_file"]}
{"id": "C30", "title": "Command line: files are independent and ordered", "statement": "main prints one JSON document per file in argument order, with the options given; each document depends only on its own file; the standard output is exactly the concatenation of those texts; the first failing file ends the run with its exception, the documents of the files before it having been printed and nothing of the failing or later ones.", "quantifier": "every list of files, every file system content", "why_tests_cant": "All lists of files.", "anchors": ["atoparser/reader.py::main", "atoparser/reader.py::parse_file"]}
{"id": "C31", "title": "Opener selection", "statement": "A path is opened as gzip exactly when '.gz' occurs anywhere in it (not only as suffix); otherwise the bytes are read as they are.", "quantifier": "every path", "why_tests_cant": "All strings.", "anchors": ["atoparser/reader.py::parse_file"]}
{"id": "C32", "title": "A truncated gzip container is always reported", "statement": "If the gzip container of a log was cut, iteration yields only complete samples that a complete container would also yield (a prefix of them), and never ends as if the log were complete: it raises the container's error unless a record whose length field is zero, or max_samples, or a compressed block that does not decompress (as with any file) stopped it first; raise_on_truncation=False does not hide the container's error.", "quantifier": "every log content, every cut of the container, both flag values", "why_tests_cant": "Every cut position.", "anchors": ["atoparser/reader.py::parse_file", "atoparser/utils.py::generate_statistics"]}
{"id": "C33", "title": "Version is latched", "statement": "Once a header's version has been evaluated, later changes to the version word of the same header object do not change semantic_version, major_version or minor_version; and evaluating them any number of times gives the same answers.", "quantifier": "every header, every later change", "why_tests_cant": "Histories of mutations and evaluations.", "anchors": ["atoparser/structs/shared.py::HeaderMixin.semantic_version"]}
{"id": "C34", "title": "get_record never fails and zero-fills", "statement": "get_record on a plain file always succeeds, consumes min(available, record size) bytes and returns a record whose present bytes are the file's and whose missing bytes are zero; at end of file it is all zero, which is what ends the iteration.", "quantifier": "every content, every position", "why_tests_cant": "All contents and positions.", "anchors": ["atoparser/utils.py::get_record"]}
{"id": "C35", "title": "Bytes after the end marker are irrelevant", "statement": "Iteration stops at the first record whose compressed length is zero; nothing behind that record influences the result and nothing of it is read.", "quantifier": "every log followed by an end marker and any bytes", "why_tests_cant": "All trailing contents.", "anchors": ["atoparser/utils.py::generate_statistics"]}
{"id": "C36", "title": "A growing log never changes its past", "statement": "Appending bytes to a file never changes, removes or reorders the samples a reader gets from it: what the shorter file yields is a prefix of what the longer one yields.", "quantifier": "every file content (well-formed or not) and every appended content, for any decompressor that rejects empty input and ignores trailing bytes as zlib.decompress does", "why_tests_cant": "Two-run property over all files, including corrupt ones.", "anchors": ["atoparser/utils.py::generate_statistics"]}
{"id": "C37", "title": "Iteration over a finite file terminates on its own", "statement": "The number of samples yielded from a file is at most its remaining size divided by (record size + 2), whatever max_samples is; hence the iteration always ends.", "quantifier": "every content, every max_samples, any decompressor that rejects empty input", "why_tests_cant": "All contents: corrupt lengths might loop.", "anchors": ["atoparser/utils.py::generate_statistics", "atoparser/utils.py::MAX_SAMPLES_PER_FILE"]}
{"id": "C38", "title": "Yielded structures are completely filled", "statement": "Every record, system, task, cgroup structure and pid list yielded occupies exactly the size of its C type; no structure is yielded from too few bytes. Every chain of declared attribute names and of indices inside the lists, starting at any yielded record, system, task or cgroup structure, therefore gives a value without error, read from bytes that all lie inside the structure, at the place the C layout gives it.", "quantifier": "every content, every version, every chain of attributes and indices", "why_tests_cant": "All contents.", "anchors": ["atoparser/utils.py::generate_statistics", "atoparser/utils.py::get_sstat", "atoparser/utils.py::get_tstat", "atoparser/utils.py::get_cstat"]}
{"id": "C39", "title": "Structure layout is the C layout", "statement": "In every structure class fields lie in declaration order without overlap, each at the smallest sufficiently aligned offset after its predecessor, inside the structure; the structure size is a multiple of its alignment; field names are unique; and arrays place element i at i times the element size.", "quantifier": "every structure class of every version", "why_tests_cant": "Finite but large table; the general part is for any field list.", "anchors": ["atoparser/structs/*.py::_fields_"]}
{"id": "C40", "title": "Limiters and record fields are well-formed in every version", "statement": "Every limiter of every structure names an existing array field and an existing integer field of the same structure; in every version the record exposes the compressed lengths and counts as integer fields at the positions the file format fixes (system length at 16, task length at 20, interval at 24, task count at 28; from 2.11 cgroup count at 10).", "quantifier": "every structure class and version", "why_tests_cant": "A finite table over 123 classes checked completely, which the test-suite does not.", "anchors": ["atoparser/structs/*.py::fields_limiters", "atoparser/structs/*.py::Record"]}
{"id": "C41", "title": "Converted output determines the data", "statement": "When two structures of the same class convert to the same dictionary with struct_to_dict, they agree on every byte of every number that is shown: integers and floats, at any nesting depth, in the shown entries of lists. So nothing shown is rounded, truncated or merged with anything else.", "quantifier": "every structure class, every pair of contents", "why_tests_cant": "Two-run property over all contents.", "anchors": ["atoparser/utils.py::struct_to_dict"]}
{"id": "C42", "title": "Whatever is printed is serialisable", "statement": "If parse_file gets as far as printing, then the list it passes to json.dumps consists only of integers, floats (values of a C float), strings, lists and dictionaries with string keys, keys being distinct in every dictionary; all strings and keys consist of Unicode scalar values (no lone surrogates), save possibly the file name in the error entry; for every file content, version and combination of options.", "quantifier": "every file content, version, option combination and list of parseables", "why_tests_cant": "All file contents.", "anchors": ["atoparser/reader.py::parse_file", "atoparser/utils.py::struct_to_dict", "atoparser/parsers/atop_1_26.py"]}
{"id": "C43", "title": "The printed text says exactly what was computed", "statement": "Whenever parse_file has computed its list of entries it prints it (json.dumps never fails on it). The printed text is a JSON text (RFC 8259 grammar, extended by Python's words NaN, Infinity and -Infinity) that can be read in only one way, and read that way it has exactly the computed entries: the same keys in the same order, texts with the same UTF-16 code units, integers as integer literals denoting them, floats as literals with a point or exponent whose nearest binary64 number is the stored binary32 number, with its sign. Indented and compact output denote the same. When reading the file fails, parse_file raises that error and prints nothing.", "quantifier": "every file content, version, option combination, list of parseables, indentation", "why_tests_cant": "All file contents, all 2^32 float values, all Unicode texts, all nestings.", "anchors": ["atoparser/reader.py::parse_file"]}
{"id": "C44", "title": "Output is ASCII; compact output is one line per file", "statement": "Everything parse_file prints consists of printable ASCII characters and line breaks and ends in a line break. Without --pretty-print it is exactly one line; the standard output of main then has exactly one line per printed file and every line is a complete JSON text.", "quantifier": "every list of files, file content, version, option combination", "why_tests_cant": "All texts in all files (control characters, line breaks, quotes, non-ASCII in names and command lines).", "anchors": ["atoparser/reader.py::parse_file", "atoparser/reader.py::main"]}
{"id": "C45", "title": "When the output is standard JSON", "statement": "The text parse_file prints is JSON in the sense of RFC 8259 if and only if no float among the printed values is an infinity or a NaN.", "quantifier": "every file content, version, option combination", "why_tests_cant": "All file contents.", "anchors": ["atoparser/reader.py::parse_file"]}
{"id": "C46", "title": "Different documents are printed differently", "statement": "Two runs of parse_file that print the same text have computed the same list of entries, up to the payload of NaNs, whatever the files, options and indentation were. The standard output of main over any number of files splits into documents in only one way: two runs of main with the same standard output have printed the same number of documents, pairwise equal in that sense.", "quantifier": "every pair of runs (file systems, contents, options, lists of files without high surrogates in their names)", "why_tests_cant": "Two-run property over all contents.", "anchors": ["atoparser/reader.py::parse_file", "atoparser/reader.py::main"]}
{"id": "C47", "title": "An iterator under any use", "statement": "Whatever a caller does with an iterator of generate_statistics - any sequence of next(), throw() and close() - the samples obtained are the first samples of the uninterrupted iteration, one per next() before the first other operation, as far as there are any. throw() and close() read nothing from the file. Once an operation has given anything but a sample the iterator is finished: next() stops, close() is silent, throw(e) raises e, nothing more is read. An exception thrown into a suspended iterator comes out unchanged, except that zlib.error ends it quietly with raise_on_truncation=False (the yield lies inside the try block); thrown into an unstarted iterator it always comes out.", "quantifier": "every history of operations, file content, header argument, setting and bound", "why_tests_cant": "All histories and all file contents.", "anchors": ["atoparser/utils.py::generate_statistics"]}
{"id": "C48", "title": "Several iterators over one file", "statement": "Any number of iterators with the same header over one open well-formed log, with any bounds and settings, stepped in any order: together they give the samples of the log one after the other, none lost, repeated or mixed up, the file always standing right after the last sample given. No step raises; an iterator never exceeds its bound and stops only at its bound or at the end of the log. For any file content, as long as no step ends an iterator, they give together what a single iterator gives.", "quantifier": "every schedule, every number of iterators and bounds, every well-formed log (second part: every file content)", "why_tests_cant": "All interleavings.", "anchors": ["atoparser/utils.py::generate_statistics"]}
{"id": "C49", "title": "Everything printed, by literal byte positions", "statement": "For every supported version there is a literal table giving, for the header, the record, the system statistics, a task and a cgroup, every number, text and list with its byte position, width, signedness, list stride, capacity and the position of its count. struct_to_dict of each block has exactly the entries of the table, in its order, each showing the bytes at the listed position, and the table leaves no freedom (two values that show the same bytes are equal). Consequently parse_file on a complete log prints a JSON text with one entry per written sample in which every number, text and list shows the written bytes at the listed position (the process ids of a cgroup being consecutive signed 4-byte integers), and nothing else.", "quantifier": "every version, every block content, every complete log", "why_tests_cant": "About 4900 leaf positions in 11 versions, each for all contents; tests sample a few fields of a few logs.", "anchors": ["atoparser/structs/*.py", "atoparser/utils.py::struct_to_dict", "atoparser/reader.py::parse_file"]}
{"id": "C50", "title": "What the refusals of get_header say", "statement": "The text of the ValueError for a wrong magic number quotes the first four bytes of the file (missing bytes count as zero) as a lower-case hexadecimal number without leading zeros, and so determines them. The text of the ValueError for incompatible lengths lists, in this order and in Python list notation, Header, Record, SStat, PStat (version 1.26) or TStat, and from 2.11 on CStat, each with the length announced by the file (in decimal, the cgroup length signed) and the length of that structure in the version used to read it. Each text appears exactly in its case.", "quantifier": "every file content", "why_tests_cant": "All 2^32 magic numbers and all combinations of versions and lengths.", "anchors": ["atoparser/utils.py::get_header", "atoparser/structs/shared.py::HeaderMixin.check_compatibility"]}
{"id": "C51", "title": "The accepted command lines and what they mean", "statement": "The program accepts exactly the command lines of this grammar: a nonempty group of files standing together, preceded and followed by options; options are -p (repeatable in one word), --pretty-print, --tstats, --cstats, -P NAME... , -PNAME, -P=NAME, -pPNAME, --parseables NAME..., --parseables=NAME, long options possibly shortened unambiguously, every NAME one of the fifteen parseables; -P with separate names must not directly precede the files; after -- every word is a file. The resulting settings are: the files in order, the names of the last -P (none if absent), and each flag set exactly if it occurs. No word is dropped or invented: every word not starting with - is a file or the name of a parseable, and every requested parseable is known. A word after -P that is not a known name, and an unknown option, are refused.", "quantifier": "every list of argument words (any characters)", "why_tests_cant": "Unboundedly many command lines, spellings, abbreviations and orders.", "anchors": ["atoparser/reader.py::parse_args"]}
{"id": "C52", "title": "The program as a whole", "statement": "For every command line and file system: if the line is one of the grammar, the standard output is the concatenation of the texts of the named files under the requested settings, in order, up to the first file that fails, and the program ends normally if none fails and with that file's exception otherwise; if the line is not one of the grammar, no file is processed, nothing is printed by the program and it exits with a usage error or the help.", "quantifier": "every command line, every file system content, every decompressor", "why_tests_cant": "Arbitrary command lines and file contents combined.", "anchors": ["atoparser/reader.py::parse_args", "atoparser/reader.py::main", "atoparser/reader.py::parse_file"]}
{"id": "C53", "title": "Iteration over arbitrary bytes", "statement": "For every byte sequence behind an accepted header, whatever it is (valid samples, garbage, a file cut or corrupted anywhere), iterating yields exactly the samples a reference decoder finds in it, in order and byte for byte, and ends exactly as the decoder does: normally when a record announces no system statistics or max_samples is reached, with zlib.error (swallowed unless raise_on_truncation is set) when a block does not decompress, with ValueError when decompressed data is shorter than what it must hold or a cgroup announces a negative number of processes, and with the container's own error when the container breaks off. The decoder is stated in literal byte offsets only and reads back every log of a conforming writer.", "quantifier": "every accepted header, every stream content (including damaged containers), every decompressor, every max_samples and raise_on_truncation", "why_tests_cant": "All byte sequences; corrupted files have no canonical samples.", "anchors": ["atoparser/utils.py::generate_statistics", "atoparser/utils.py::get_record", "atoparser/utils.py::get_sstat", "atoparser/utils.py::get_tstat", "atoparser/utils.py::get_cstat"]}
{"id": "C54", "title": "The program on any file at all", "statement": "For every plain file content whatsoever, parse_file without parseables (and `atoparser [-p] [--tstats] [--cstats] FILE`) does one of two things, decided by the file's bytes alone: it prints one JSON text with exactly one reading, an array with one entry per sample the reference decoder finds, each entry showing the sample's bytes at the literal positions of the version's layout; or it prints nothing and raises ValueError (or AttributeError, exactly for the right magic number with an unsupported version older than 2.3). The first happens exactly when the first 480 bytes are an accepted header and decoding stops at the end of the samples or at a block that does not decompress. A container (.gz) that breaks off changes this in two places only: its own error is raised when it breaks off inside the header, or when decoding needs bytes that cannot be had (zlib.error excepted, which ends the samples quietly).", "quantifier": "every file content, plain or damaged container, every decompressor, every choice of pretty printing, tasks and cgroups", "why_tests_cant": "All file contents, not only logs.", "anchors": ["atoparser/reader.py::parse_file", "atoparser/reader.py::main", "atoparser/utils.py::get_header", "atoparser/utils.py::generate_statistics"]}
{"id": "C55", "title": "Iteration with an unchecked header", "statement": "A header obtained with get_header(check_compatibility=False), whose recorded lengths may be anything, can still be used to iterate: over arbitrary bytes exactly the samples are yielded that a reference decoder finds when it spaces tasks by the recorded task length and bounds each cgroup entry by the recorded (signed) cgroup length, taking of each the size of the version's structure; a recorded length smaller than the structure, or data too short, ends in ValueError, and otherwise the iteration ends as for checked headers. For an accepted header, skipping the check changes nothing. With an unsupported version older than 2.3 nothing is ever yielded: AttributeError is raised where the first sample's tasks would be. All this also when get_header and generate_statistics are executed from their source text: the objects in the tuples handed out show, converted or attribute by attribute and after any later call too, the bytes of the samples the decoder finds, and the header object keeps showing the bytes of the header.", "quantifier": "every header with the right magic number, all recorded lengths, every stream content, every decompressor, every max_samples and raise_on_truncation", "why_tests_cant": "All recorded lengths times all contents; test logs only have matching lengths.", "anchors": ["atoparser/utils.py::get_header", "atoparser/utils.py::generate_statistics", "atoparser/utils.py::get_tstat", "atoparser/utils.py::get_cstat"]}
{"id": "C56", "title": "Parseables of any file at all", "statement": "For every plain file whose first 480 bytes are an accepted header, parse_file with parseables (names the program knows; also `atoparser [-p] FILE -P NAME...`): for another version than 1.26 it prints the one entry naming version and file; for 1.26 the file's bytes determine, through the reference decoder and a literal table of byte positions, the list of rows wanted: sample by sample and in the order of the request. If any text in any of those rows is not valid UTF-8 the call raises UnicodeDecodeError and prints nothing, even when the file is damaged later; otherwise, if a decompressed block is too short, it raises ValueError; otherwise it prints exactly those rows, in order, each labelled with its parseable, as one JSON text with exactly one reading. A container (.gz) that breaks off adds only its own error, when it breaks off inside the header or decoding needs bytes that cannot be had, and no text before that is invalid.", "quantifier": "every file content with an accepted header, plain or damaged container, every nonempty list of known parseable names (repetitions included), every decompressor, all other options", "why_tests_cant": "All file contents times all requests; which of two faults is reported depends on their order in the file.", "anchors": ["atoparser/reader.py::parse_file", "atoparser/reader.py::PARSEABLE_MAP", "atoparser/parsers/atop_1_26.py", "atoparser/utils.py::generate_statistics"]}
{"id": "C57", "title": "Crash safety with the real compression format", "statement": "With blocks in the zlib format (RFC 1950/1951) nothing need be assumed about compression: a block cut at any byte, or empty, is always noticed by decompression, and bytes behind a complete stream never matter; every content has such a block. Hence a log whose blocks are zlib streams reads back exactly (C01), cut at any byte after its header it gives exactly its complete samples and reports the cut exactly as C03 says, a file that grows, whatever its content, never changes its past (C36), and no file keeps the iteration going beyond a number of samples bounded by its size (C37).", "quantifier": "every byte sequence as block, every cut, every supported version, every list of samples of any content, every max_samples above their number and setting of raise_on_truncation; for growth and termination every file content", "why_tests_cant": "Prefix-freeness of zlib streams and the absence of assumptions concern all streams and all cuts.", "anchors": ["atoparser/utils.py::generate_statistics", "atoparser/utils.py::get_sstat", "atoparser/utils.py::get_tstat", "atoparser/utils.py::get_cstat"]}
{"id": "C58", "title": "Options add or select, they never change what is shown", "statement": "Without parseables, --tstats and --cstats only add members: under every setting the same exception is raised or none, and the printed entries differ only in the members \"tstat\" and \"cgroup\"; with parseables the two options have no effect. On a 1.26 file, when a request for several parseables is printed, so is every non-empty request made of some of its names, and it shows exactly the entries labelled with those names, in the same order. A request is printed exactly when each of its names on its own is.", "quantifier": "every file content, container state and decompression function, every request and every selection from it, both settings of both options", "why_tests_cant": "It relates pairs of runs on every file, including corrupt ones, and every request.", "anchors": ["atoparser/reader.py::parse_file", "atoparser/reader.py::parse_args", "atoparser/reader.py::main"]}
{"id": "C59", "title": "Reading a file again after it has grown", "statement": "Call parse_file with the same options on a file, let bytes be appended, and call it again: if the first call failed, the second fails with the same exception; if it printed, the second call fails or prints the same entries in the same order followed by further ones, its text beginning with the first text up to the closing bracket. For the zlib format this needs no assumption.", "quantifier": "every content with a complete header, every appended bytes, every option setting (with and without parseables)", "why_tests_cant": "It relates runs on every file with runs on all its extensions.", "anchors": ["atoparser/reader.py::parse_file", "atoparser/utils.py::generate_statistics"]}
{"id": "C60", "title": "Logs in gzip files", "statement": "With containers in the gzip format (RFC 1952, any number of members): an intact .gz file is read exactly as its content would be from a plain file (same samples, same entries, same exception), for every content; a log in a .gz file reads back exactly. A .gz file of one member cut at any byte (but not before the first) is always noticed: complete samples from the beginning of the log are yielded, then EOFError or OSError is raised whatever raise_on_truncation says, and parse_file prints nothing. For any content and number of members, what a cut file yields is a beginning of what the intact one yields. Nothing left at all is refused with ValueError.", "quantifier": "every file content, every log of every supported version, every gzip file holding it, every cut position, both settings of raise_on_truncation, every option setting", "why_tests_cant": "All contents, all gzip encodings and all cut positions.", "anchors": ["atoparser/reader.py::parse_file", "atoparser/utils.py::generate_statistics", "atoparser/utils.py::get_header"]}
{"id": "C61", "title": "Everything the program does is determined by the command line and the bytes", "statement": "For every file (any bytes; plain, or a .gz container damaged anywhere) and every option setting, parse_file ends in exactly the way a specification over the bytes prescribes: which refusal with which text; which entries or rows with which values; or which exception and no output. Exactly one outcome is prescribed for every file. From the command line: the output is one JSON text with one reading per named file, saying the entries prescribed for that file, in order, up to the first file for which an exception (of opening or of parse_file) is prescribed; that exception ends the program. On a line outside the grammar the program itself prints nothing (argparse's usage and help texts are not modelled).", "quantifier": "every command line, every file system content, every option setting, every decompressor", "why_tests_cant": "All files, all damaged containers, all combinations of files and options; both directions (it does what is prescribed, and nothing else is prescribed).", "anchors": ["atoparser/reader.py::main", "atoparser/reader.py::parse_file", "atoparser/utils.py::generate_statistics", "atoparser/utils.py::get_header"]}
{"id": "C62", "title": "Floats are printed as Python prints them", "statement": "Every finite float parse_file prints is one determined text: the sign of the stored float (also for zero), then 0.0 for zero and otherwise the decimal with the fewest significant digits that reads back as the stored number, the closest of those to the stored number, and of two equally close ones the one whose last digit is even. It is written positionally, with digits on both sides of the point and no needless trailing zeros, when it is 0 or at least 0.0001 and below 10^16 in magnitude; otherwise with one nonzero digit before the point, no point when there are no further digits, no trailing zeros, and an exponent with sign and at least two digits. Infinities and NaNs are printed as Infinity, -Infinity and NaN.", "quantifier": "all 2^32 bit patterns of a stored float, indented and compact output; every competing decimal of any length and exponent", "why_tests_cant": "Minimality and closeness compare the printed text with all decimals; ties occur for few values and only for some significands.", "anchors": ["atoparser/reader.py: parse_file (json.dumps)", "atoparser/structs/atop_2_7.py: c_float fields (frag, lavg1, lavg5, lavg15)"]}
{"id": "C63", "title": "Reading a log while it is being written", "statement": "Iterating over (or parse_file on) a plain log file to which another process appends samples gives what it would have given on the file as it was at one single moment during the reading: the same samples and the same ending. So the samples given are the first ones of the log, in order and as written, they include every sample that was complete when the reading began, and no exception other than a requested report of truncation occurs. This needs the header to be complete at the start and records to become visible in one piece (less than their first 17 bytes may be visible alone); without the latter it can fail.", "quantifier": "all logs of all supported versions, all growing schedules of visible lengths (the file may grow by any amount between any two reads), all option settings and sample limits", "why_tests_cant": "The interleavings of reads and appends are unbounded and cannot be forced from a test.", "anchors": ["atoparser/utils.py: generate_statistics", "atoparser/utils.py: get_header", "atoparser/utils.py: get_record", "atoparser/utils.py: get_sstat", "atoparser/utils.py: get_tstat", "atoparser/utils.py: get_cstat", "atoparser/reader.py: parse_file"]}
{"id": "C64", "title": "Samples are read independently; damage stays where it is", "statement": "In a log whose samples are laid out as their records announce (whatever their blocks contain), every sample obtained is the one obtained from a log consisting of the header and that sample alone, and the iteration ends normally behind the last one or at the first one that cannot be read alone either, in the same way; what parse_file prints is the documents of the samples alone, one after the other. Hence if one sample of a well-formed log is overwritten (blocks, counts, other fields, its layout remaining consistent), the samples before it are unaffected; either the iteration stops there with zlib.error or ValueError, and then a block or a count was damaged, or every other sample is given as written and of the damaged one every part whose block and count are intact.", "quantifier": "every supported version, every list of samples, every content of their blocks, every position and content of the damage, every decompressor, both settings of raise_on_truncation, every option setting", "why_tests_cant": "Damage can be any bytes at any position of a log of any length; a test tries a few.", "anchors": ["atoparser/utils.py:generate_statistics", "atoparser/utils.py:get_sstat", "atoparser/utils.py:get_tstat", "atoparser/utils.py:get_cstat", "atoparser/reader.py:parse_file"]}
{"id": "C65", "title": "What the caller does with the objects it was given", "statement": "Any number of iterators over one file may share a header object, be stepped, thrown into and closed in any order, and the caller may write between steps into the memory of the header and of any structure it was given. Every yielded structure has memory of its own: no two share any, none shares memory with a header or with anything that existed before, and no later step and no write to another object changes it. The iterators never write to memory the caller already had. A step uses the header as it is at that moment, except its version, which stays as first evaluated; so as long as the two recorded lengths in the header (bytes 32-35 and 456-459) are left alone - and, in a header read without the compatibility check, its version number (bytes 4-5) until an iterator has been started with it -, whatever else is overwritten, every step shows what it would show had nobody written anything, and the file is left at the same place.", "quantifier": "every file, every decompressor, any number of iterators with any options sharing header objects or reading their own, every history of next(), throw(), close() and writes (any block, any offset, any bytes)", "why_tests_cant": "Aliasing bugs show only for particular interleavings of steps and writes; histories are unbounded.", "anchors": ["atoparser/utils.py:generate_statistics", "atoparser/utils.py:get_header", "atoparser/utils.py:get_record", "atoparser/utils.py:get_sstat", "atoparser/utils.py:get_tstat", "atoparser/utils.py:get_cstat", "atoparser/structs/shared.py:HeaderMixin"]}
{"id": "C66", "title": "The parsers do what is written in their source", "statement": "Each of the sixteen parse_* functions, executed statement by statement as its source text is written, by Python's rules for names, attributes, calls, loops and generators, hands out exactly the rows documented in the properties about parseables, in the same order with the same keys and values, ends normally or with the same exception, and changes nothing: not the header, the record, the statistics, the file or what has been printed. The function PARSEABLE_MAP holds for a name of PARSEABLES is the one of that name.", "quantifier": "every state of memory, every 1.26 header, record, system statistics and list of process statistics, every parseable", "why_tests_cant": "The rows depend on every byte of the four arguments; a misspelt attribute or a swapped pair of fields shows only for inputs in which the two differ.", "anchors": ["atoparser/parsers/atop_1_26.py", "atoparser/reader.py:PARSEABLE_MAP", "atoparser/reader.py:PARSEABLES"]}
{"id": "C67", "title": "The header does what is written in its source", "statement": "semantic_version, major_version, minor_version, check_compatibility and get_header, executed statement by statement as their source text is written, on memory and files as they are at that moment, give the same values, raise the same exceptions with the same text, and leave memory, header objects and file as the properties about headers say: the version of an object is computed once and kept on that object; get_header reads one header, makes a second object over the same memory when the version needs another class, and returns an object of a supported class. The argument of get_header may be given by position, by name or left out.", "quantifier": "every state of memory, every header object of a supported class with any bytes, every open file including files whose reads fail", "why_tests_cant": "The version word, the recorded sizes and the cached attributes range over all bytes; which of two objects over one memory caches the version only matters for some orders of reads and writes.", "anchors": ["atoparser/structs/shared.py:HeaderMixin", "atoparser/utils.py:get_header"]}
{"id": "C68", "title": "The readers and generate_statistics do what is written in their source", "statement": "get_record, get_sstat, get_tstat, get_cstat and generate_statistics, executed statement by statement as their source text is written, with Python's rules for generators, exceptions and slices, read the same bytes, make the same objects, return the same values and raise the same exceptions as the properties about reading say. Any number of generate_statistics generators over one file, with or without a header, with any raise_on_truncation and max_samples, stepped, thrown into and closed in any order, with writes by the caller to any memory in between, give at each operation exactly what they say.", "quantifier": "every file content and decompressor, every supported version, every history of next(), throw() and close() on several generators and of writes to any memory", "why_tests_cant": "Histories of interleaved steps and writes are unbounded, and truncation or damage can occur at any byte of any block.", "anchors": ["atoparser/utils.py:generate_statistics", "atoparser/utils.py:get_record", "atoparser/utils.py:get_sstat", "atoparser/utils.py:get_tstat", "atoparser/utils.py:get_cstat"]}
{"id": "C69", "title": "struct_to_dict does what is written in its source", "statement": "struct_to_dict, executed statement by statement as its source text is written (the loop over _fields_, the isinstance tests, the 'future' test, fields_limiters, slicing, nested calls), ends for every object of every structure class, lying anywhere in memory and holding any bytes, for every header object and every cgroup object; it changes nothing and returns exactly the dictionary the properties about conversion describe.", "quantifier": "every structure class of every version, every memory content and place, header objects before and after their version was asked for, cgroups with any number of processes", "why_tests_cant": "The values, list limits and texts depend on every byte of the structure; tests show a few structures from sample files.", "anchors": ["atoparser/utils.py:struct_to_dict", "atoparser/structs/atop_2_11.py:CGChainer"]}
{"id": "C70", "title": "The command line program does what is written in its source", "statement": "parse_file and main of the reader (main with its own parse_args, see C72), executed statement by statement as their source text is written together with everything they call (opening, get_header, generate_statistics, the PARSEABLES lookup, struct_to_dict, json.dumps, print, the try/except around each file), print exactly the text and end in exactly the exception the properties about the program describe. In particular, run on a complete log of any supported version they print one JSON array with exactly one reading, whose entries show the written bytes.", "quantifier": "every file system (every path, contents, read failures), every command line and every combination of parseables, pretty printing and tstats/cstats, whatever was printed or made before", "why_tests_cant": "Tests run main on a few sample files; the claim is for all file contents, all failures at every read and all argument lists.", "anchors": ["atoparser/reader.py:parse_file", "atoparser/reader.py:main", "atoparser/reader.py:parse_args"]}
{"id": "C71", "title": "The structure classes are what is written in their source", "statement": "Importing the twelve modules of atoparser/structs, executed statement by statement as their text is written (constants, aliases of classes of other versions, class statements with _fields_, fields_limiters and class attributes, inheritance between headers), never raises, and gives for every version a header class of that version whose sizes are the published ones and whose record, system, task and cgroup structures put every value at the literal byte position listed for the version. The program that runs on the classes imported from the text is the one the properties C66 to C70 are about.", "quantifier": "every module, every name in it, every structure class and every field of every version", "why_tests_cant": "Tests compare a few values of a few sample logs; a field displaced in a structure (or an alias to the wrong version) that no sample fills is invisible to them.", "anchors": ["atoparser/structs/shared.py", "atoparser/structs/atop_1_26.py", "atoparser/structs/atop_2_11.py:CGChainer", "atoparser/structs/atop_2_12.py:Header"]}
{"id": "C72", "title": "The command line is read as parse_args is written", "statement": "parse_args, executed statement by statement as its source text is written (the parser, each add_argument with its option strings, nargs, choices, dest and action, the call of parse_args), returns a namespace exactly on the command lines of the documented grammar, with the attributes files, parseables, pretty_print, show_tstats and show_cstats holding what the line asks for (defaults None and False); on every other line it exits without changing anything, and then main opens and prints nothing.", "quantifier": "every command line (every list of words of any characters), every state before the call", "why_tests_cant": "Tests call the program with a few command lines; abbreviations, clusters, '--', negative numbers and words that look like options make the set of accepted lines infinite.", "anchors": ["atoparser/reader.py:parse_args", "atoparser/reader.py:main", "atoparser/reader.py:PARSEABLES"]}
{"id": "C73", "title": "An iterator, executed from its text, under any use", "statement": "For the iterator of a call of generate_statistics, executed as its source text is written with Python's rules for generators: under any sequence of next(), throw() and close() there is one answer per operation, and the samples handed out, as the objects show them at that moment, are the first samples of the uninterrupted iteration, one per next() before the first other operation. throw() and close() read nothing and change nothing; close() always returns. An exception thrown in comes out unchanged, except that zlib.error thrown into a suspended iterator ends it quietly with raise_on_truncation=False (the yield lies inside the try block). Once an operation has given anything but a sample, next() stops, throw(e) raises e, close() returns and the state no longer changes.", "quantifier": "every history of operations, file content, decompressor, header argument (or none), setting and bound", "why_tests_cant": "All histories and all file contents; where the yield lies relative to the try block decides what a thrown exception does.", "anchors": ["atoparser/utils.py:generate_statistics"]}
{"id": "C74", "title": "From the source text to the bytes of the file", "statement": "For the functions executed as their source text is written, without any intermediate model: get_header(file) raises the error of the container if it breaks off inside the first 480 bytes, raises the prescribed exception with its text if the header is refused, and otherwise returns an object whose struct_to_dict conversion has the fields, order and literal positions of the header of the version in use, with the values stored in those 480 bytes, and whose semantic_version is the text of the version bytes. next() on generate_statistics(file, header or None, raise_on_truncation, max_samples) gives, one for one and in order, a tuple for every sample a straightforward reading of the bytes finds, then the prescribed end, then nothing more; every tuple, converted with struct_to_dict or read attribute by attribute and index by index (negative indices count from the end, an index outside a list is an IndexError), right then or after any number of further next() calls, shows the bytes of its record, system, task and cgroup blocks at the literal positions, and the header object keeps showing the header. For a log cut anywhere after its header these are exactly its complete samples, and zlib.error ends it exactly when asked for and a non-zero length byte of the interrupted sample is left. parse_file and main print (argparse's own usage texts aside), for every file, JSON with exactly one reading, which says the prescribed entries, or raise the prescribed exception.", "quantifier": "every file content (plain or container, sound or broken), version, decompressor, setting, bound, number of next() calls, command line and set of files", "why_tests_cant": "All byte contents, cut points and command lines; the claim goes from the program text to the byte positions, so no component test covers it.", "anchors": ["atoparser/utils.py:get_header", "atoparser/utils.py:generate_statistics", "atoparser/utils.py:struct_to_dict", "atoparser/reader.py:parse_file", "atoparser/reader.py:main"]}
{"id": "C75", "title": "The examples and the command of the README do what the README says", "statement": "The two Python examples of the README, executed as they are written with any path for `file`. If the file cannot be opened, its container breaks off inside the first 480 bytes or its header is refused, the example ends with that exception and prints nothing. Otherwise the first example prints one line 'CPU usage was N.NN%' per sample found in the file, in order: N.NN differs from 100 * (1 - idle ticks / (interval * processors * ticks per second)), computed exactly from the literal positions of the stored numbers, by no more than half a hundredth and a relative rounding error of 2^-43, is never negative or above 100 when 0 <= idle <= total, and the example ends as the iteration ends (normally, or with the exception of the trouble met behind the last sample), or with ZeroDivisionError at the first sample whose total is zero. For a sound log of samples of non-zero length it prints exactly one line per sample and ends normally. The second example prints JSON with exactly one reading, which says every field of the header with the value stored at its literal position. The README's command `atoparser FILE -P CPU --pretty` prints, for every file name not starting with '-', JSON with exactly one reading that says the rows prescribed for CPU and that file, or raises the prescribed exception and prints nothing.", "quantifier": "every file system and path, file content, version, decompressor; all values of the stored numbers (negative ones and zero included)", "why_tests_cant": "All stored numbers, with the rounding of binary floating point division, subtraction and formatting; all file contents and places where a file breaks.", "anchors": ["README.md:How Tos", "atoparser/utils.py:get_header", "atoparser/utils.py:generate_statistics", "atoparser/utils.py:struct_to_dict"]}
{"id": "C76", "title": "Reads that come back short at any time", "statement": "Let the reads of an iteration over a well-formed log (or of parse_file on it) come back short at any time and in any way: the file is truncated while it is read, truncated and written again, or is a pipe, a socket or an unbuffered file. As long as the header is read whole and no record is given in part (less than its first 17 bytes may be), the samples obtained are the first ones of the log, in order and byte for byte, whatever the other reads give; the iteration ends normally, or with zlib.error if truncation is to be reported, and it ends before the last sample or max_samples only because a read came back short. What parse_file prints is what it prints for the log that consists of exactly those first samples.", "quantifier": "every supported version, header, list of samples, every function saying how far each read reaches, raise_on_truncation, max_samples, options", "why_tests_cant": "The ways in which reads can come back short, read by read, are unbounded in number.", "anchors": ["atoparser/utils.py: generate_statistics, get_record, get_sstat, get_tstat, get_cstat", "atoparser/reader.py: parse_file"]}
{"id": "C77", "title": "The printed text, character for character", "statement": "For computed entries, what parse_file writes to the standard output is determined to the last character: the entries have exactly one text without white space (strings between quotes with the seven short escapes, printable ASCII as it is and everything else as \\u with four lower case hexadecimal digits per UTF-16 code unit; integers as plain decimals, floats as Python's literal of C62, infinities and NaN as Python's words; members in order), and the output is that text with white space put in by one rule, followed by one line break. Indented: a line break and two spaces per open array or object after every opening bracket, after every comma and before every closing bracket, one space after every colon, empty arrays and objects kept together. Compact: one space after every comma and colon. The same holds for the standard output of the whole program, file after file, and for the functions executed from their source text.", "quantifier": "every file, file system, parseables, stats options and indentation; every accepted command line", "why_tests_cant": "The rule must hold for every value of every field, every text and every depth and length of the containers.", "anchors": ["atoparser/reader.py: parse_file, main"]}
{"id": "C78", "title": "Reading by hand", "statement": "get_record, get_sstat, get_tstat and get_cstat called by the caller itself, with a header get_header returned, are as good as the iterator: in every state, reading one sample that way (nothing when the record announces no compressed data; cgroups from version 2.11 on) gives what the first next() of generate_statistics(raw_file, header) gives there - the same objects, None for the end, or the same exception - and leaves memory, header objects and the file the same. A caller may mix reading by hand, iterators (next(), throw(), close()) and writes to memory in any order: reading by hand then is stepping an iterator of its own that may give one sample. On any file whose header is accepted, reading by hand again and again gives the samples the reference decoder finds, one after the other, and then None or the exception of the trouble found there. On a well-formed log, reading by hand and stepping any number of iterators with any bounds, in any order, together give the samples of the log one after the other, none lost, repeated or mixed up; nothing raises, reading by hand gives None only when the log is exhausted, and an iterator ends only then or at its bound. The objects, converted or read attribute by attribute, show the bytes that were written, then and after everything done later.", "quantifier": "every file, version, state of memory, header object, mixture of readers and iterators, bounds and number of steps", "why_tests_cant": "The order in which the caller mixes readers and iterators, the content of the file and what was written to memory in between are unbounded.", "anchors": ["atoparser/utils.py: get_record, get_sstat, get_tstat, get_cstat, generate_statistics", "atoparser/__init__.py: exports"]}
{"id": "C79", "title": "Each reader by itself", "statement": "get_record, get_sstat, get_tstat and get_cstat, each called by itself with a header get_header returned, in any state and at any position of the file. get_record shows the next bytes of the file as a record of the version, zeros behind the end of a file that is whole, in memory of its own that the other functions take. get_sstat, get_tstat and get_cstat (the last for versions with cgroups) take any record object of the version of the header, whatever its memory holds - also when the caller changed it, or it belongs to another place of the file: they read the blocks of the compressed lengths given there, decompress them and return the system statistics, as many tasks, as many cgroups with their process ids as the record announces, each object showing its bytes by the literal layout of the version, converted or read attribute by attribute; the file is then exactly behind the blocks. When something is wrong it is the exception of what is wrong first: the error of a container that breaks off, zlib.error, ValueError for data shorter than announced or for a negative number of processes. get_cstat with a header and record of a version without cgroups makes up nothing: it raises - AttributeError, with nothing read, except that records of 2.8 and 2.9 have (unused) lengths of such blocks, which are then read first. The same holds with a header read with check_compatibility=False, also when the caller has since written to its memory: tasks are then spaced by the task length, and each cgroup entry bounded by the cgroup length, that the header records at that moment, a ValueError ending what does not fit; get_tstat may make such a header remember its version, and with an unsupported version before 2.3 it raises (AttributeError, once the block was read and decompressed) instead of making up tasks. In every case no memory of any object there was changes, no header object there was changes otherwise, and nothing is printed.", "quantifier": "every version, file, position, state of memory, header object (checked or not, overwritten or not) and content of the record", "why_tests_cant": "The content of the record and of the file, the position and the state of memory are unbounded.", "anchors": ["atoparser/utils.py: get_record, get_sstat, get_tstat, get_cstat", "atoparser/__init__.py: exports"]}
{"id": "C80", "title": "A file that is changed in any way while it is read", "statement": "generate_statistics (with a header read before, or reading it) and parse_file on a file that other processes overwrite, truncate, replace or extend in any way at any time (plain or .gz), or any other file object, so that any read may give any bytes up to the number asked for (a read that raises: C81). (1) What is yielded is exactly what the reference decoder finds in the answers of the reads, one answer for each structure and each block: at most max_samples samples, each of them complete, with structures of exactly the sizes of the version and as many process ids as its cgroups announce; nothing is made up from, or shared between, other answers. The iteration ends as the decoder does: normally where a record without system statistics was read or at the bound, with zlib.error (swallowed unless raise_on_truncation) or ValueError. parse_file prints exactly these samples by the literal layout of the version (or, with parseables and version 1.26, the rows each parseable gives for them), also when a block that does not decompress stopped the decoder, and raises ValueError without a document otherwise. The header is that of the first answer, or the file is refused for what the first answer is. (2) As long as nothing is read any more once a read came back short, the samples, the ending and everything parse_file prints are those of the unchanging file that consists of exactly the bytes that were given, in that order (with anything behind them, if no read came back short). (3) What is done to the file later changes no sample already yielded.", "quantifier": "every version, header, sequence of answers of the reads, decompressor, bound, options of parse_file", "why_tests_cant": "The other processes' schedules and contents are unbounded; a test fixes one.", "anchors": ["atoparser/utils.py: generate_statistics, get_header, get_record, get_sstat, get_tstat, get_cstat", "atoparser/reader.py: parse_file"]}
{"id": "C81", "title": "A read that fails", "statement": "Any read of the file may raise an exception (an I/O error, a network file system that is gone, a damaged .gz member), whatever the reads before it gave. If generate_statistics never makes that read it is as if nothing had happened. Otherwise it stops there: the samples that were complete before (five reads each, three for versions without cgroups) have been yielded, the same as otherwise, and nothing of the one in progress; no further read is made; and that exception itself is what the caller gets - except zlib.error, which raise_on_truncation=False swallows, but not when it was raised while the header was read. parse_file then has no document and passes the exception on, except for zlib.error behind the header, where it prints the samples that were complete. The program over several files keeps the documents of the files before it and opens no file after it.", "quantifier": "every version, header, sequence of answers, read that fails, exception, decompressor, bound", "why_tests_cant": "The read that fails, the exception and everything read before are unbounded.", "anchors": ["atoparser/utils.py: generate_statistics, get_header, get_record, get_sstat, get_tstat, get_cstat", "atoparser/reader.py: parse_file, main"]}
