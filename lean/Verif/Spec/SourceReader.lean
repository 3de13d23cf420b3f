import Verif.Spec.SourceGen
/-!
# Running the reader's text

The values `parse_file` takes, and file systems.
-/

namespace Atop.Src

/-- A list of names, or `None`, as a Python value. -/
def namesVal : Option (List PyStr) → Val
  | some l => .list (l.map .str)
  | none => .none

/-- The errors of the file system, in opening and in reading, are not those the code itself raises. -/
def LibFiles (fs : FileSystem) : Prop := ∀ path gz, match fs path gz with
  | .ok s => LibFile s
  | .error e => embExc e = .sys e

end Atop.Src
