import Verif.Model.FloatRepr
import Verif.Model.Reader
/-!
# What the command line program writes: `print(json.dumps(samples, indent=2 if pretty_print else None))`

`json.dumps` is CPython's (Lib/json/encoder.py), with `ensure_ascii=True`, `allow_nan=True`, no key sorting; the
separators are `", "` and `": "` without indentation, `","` and `": "` with.
-/

namespace Atop

/-- One lower case hexadecimal digit. -/
def hexDigit (n : Nat) : Nat := if n < 10 then 48 + n else 87 + n

/-- `'\\u{0:04x}'.format(n)` for `n < 0x10000` (CPython Lib/json/encoder.py:61). -/
def uEscape (n : Nat) : PyStr :=
  py!"\\u" ++ [hexDigit (n / 4096 % 16), hexDigit (n / 256 % 16), hexDigit (n / 16 % 16), hexDigit (n % 16)]

/-- CPython Lib/json/encoder.py:18-32,54-69: the replacement of one character by `py_encode_basestring_ascii`. -/
def escapeChar (c : Nat) : PyStr :=
  if c = 34 then py!"\\\""
  else if c = 92 then py!"\\\\"
  else if c = 10 then py!"\\n"
  else if c = 13 then py!"\\r"
  else if c = 9 then py!"\\t"
  else if c = 12 then py!"\\f"
  else if c = 8 then py!"\\b"
  else if 32 ≤ c ∧ c ≤ 126 then [c]
  else if c < 0x10000 then uEscape c
  else uEscape (0xD800 + (c - 0x10000) / 1024 % 1024) ++ uEscape (0xDC00 + (c - 0x10000) % 1024)

/-- CPython Lib/json/encoder.py:49-70 `py_encode_basestring_ascii`. -/
def encodeStr (s : PyStr) : PyStr := py!"\"" ++ s.flatMap escapeChar ++ py!"\""

/-- `'\n' + '  ' * level` when indenting, nothing otherwise (CPython Lib/json/encoder.py:285-289). -/
def newline (pretty : Bool) (level : Nat) : PyStr :=
  if pretty then 10 :: List.replicate (2 * level) 32 else []

/-- The item separator (`", "`, or `","` followed by the line break when indenting). -/
def itemSep (pretty : Bool) (level : Nat) : PyStr :=
  if pretty then py!"," ++ newline pretty level else py!", "

mutual
/-- CPython Lib/json/encoder.py:262-441 `_iterencode` at an indentation level. -/
def dumpsAt (pretty : Bool) (level : Nat) : JVal → Except Exc PyStr
  | .int i => .ok (intRepr i)
  | .float b => .ok (floatStr b)
  | .str s => .ok (encodeStr s)
  | .bytes _ => .error .typeError               -- "Object of type bytes is not JSON serializable"
  | .other => .error .typeError
  | .list [] => .ok py!"[]"
  | .list (v :: vs) => do
    return py!"[" ++ newline pretty (level + 1) ++ (← dumpsAt pretty (level + 1) v) ++
      (← dumpsItems pretty (level + 1) vs) ++ newline pretty level ++ py!"]"
  | .dict [] => .ok py!"{}"
  | .dict ((k, v) :: kvs) => do
    return py!"{" ++ newline pretty (level + 1) ++ encodeStr k ++ py!": " ++ (← dumpsAt pretty (level + 1) v) ++
      (← dumpsMembers pretty (level + 1) kvs) ++ newline pretty level ++ py!"}"
/-- The later items of a list, each after a separator. -/
def dumpsItems (pretty : Bool) (level : Nat) : List JVal → Except Exc PyStr
  | [] => .ok []
  | v :: vs => do return itemSep pretty level ++ (← dumpsAt pretty level v) ++ (← dumpsItems pretty level vs)
/-- The later members of a dictionary, each after a separator. -/
def dumpsMembers (pretty : Bool) (level : Nat) : List (PyStr × JVal) → Except Exc PyStr
  | [] => .ok []
  | (k, v) :: kvs => do
    return itemSep pretty level ++ encodeStr k ++ py!": " ++ (← dumpsAt pretty level v) ++
      (← dumpsMembers pretty level kvs)
end

/-- `json.dumps(v, indent=2 if pretty else None)` -/
def dumps (pretty : Bool) (v : JVal) : Except Exc PyStr := dumpsAt pretty 0 v

/-- atoparser/reader.py:62-112 `parse_file(file, parseables, pretty_print, show_tstats, show_cstats)`: the text it
writes to the standard output, or the exception that leaves it (then it has written nothing). -/
def parseFileText (Z : Zlib) (fs : FileSystem) (file : PyStr) (parseables : Option (List PyStr) := none)
    (prettyPrint : Bool := true) (showTstats : Bool := false) (showCstats : Bool := false) : Except Exc PyStr := do
  let samples ← parsePath Z fs { parseables := parseables.getD [], showTstats, showCstats } file
  return (← dumps prettyPrint (.list samples)) ++ py!"\n"

/-- atoparser/reader.py:18-59: the result of `parse_args`. -/
structure Namespace where
  files : List PyStr
  parseables : Option (List PyStr) := none
  prettyPrint : Bool := false
  showTstats : Bool := false
  showCstats : Bool := false

/-- The loop of `main` (atoparser/reader.py:119-126): what has been written, and the exception that ended it. -/
def mainLoop (Z : Zlib) (fs : FileSystem) (args : Namespace) : List PyStr → PyStr × Option Exc
  | [] => ([], none)
  | file :: rest =>
    match parseFileText Z fs file args.parseables args.prettyPrint args.showTstats args.showCstats with
    | .error e => ([], some e)
    | .ok t => let r := mainLoop Z fs args rest; (t ++ r.1, r.2)

/-- atoparser/reader.py:115-126 `main` with the parsed arguments: the standard output and the exception. -/
def mainText (Z : Zlib) (fs : FileSystem) (args : Namespace) : PyStr × Option Exc := mainLoop Z fs args args.files

end Atop
