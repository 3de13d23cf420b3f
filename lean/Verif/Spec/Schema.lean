import Verif.Model.Header
/-!
# What "the C layout" and "well-formed schema" mean
-/

namespace Atop.Spec

/-- The declared fields of a structure class, in order. -/
def fieldsOf : CType → List (PyStr × CType)
  | .struct _ fs _ => fs.toList
  | _ => []

/-- The declared limiters (list field, count field) of a structure class. -/
def limitersOf : CType → List (PyStr × PyStr)
  | .struct _ _ lims => lims
  | _ => []

/-- Offset and type with which attribute `n` of an instance is read. -/
def place (t : CType) (n : PyStr) : Option (Nat × CType) :=
  match t with
  | .struct _ fs _ => fs.lookup n 0
  | _ => none

/-- `offs` are the offsets a C compiler gives the fields `F` in a structure of `size` bytes and alignment
`al`: each field at the least multiple of its alignment that is not before the end of the previous field
(the first at 0), the structure ending at the least multiple of its own alignment after the last field. -/
structure CLayout (F : List (PyStr × CType)) (offs : List Nat) (size al : Nat) : Prop where
  count : offs.length = F.length
  first : ∀ o, offs[0]? = some o → o = 0
  aligned : ∀ (i o : Nat) n t, offs[i]? = some o → F[i]? = some (n, t) → o % t.align = 0
  next : ∀ (i o o' : Nat) n t n' t', offs[i]? = some o → F[i]? = some (n, t) → offs[i + 1]? = some o' →
    F[i + 1]? = some (n', t') → o + t.size ≤ o' ∧ o' < o + t.size + t'.align
  inside : ∀ (i o : Nat) n t, offs[i]? = some o → F[i]? = some (n, t) → o + t.size ≤ size
  tight : ∀ (i o : Nat) n t, offs[i]? = some o → F[i]? = some (n, t) → i + 1 = F.length → size < o + t.size + al
  whole : size % al = 0

/-- `al` is the alignment of a structure with fields `F`: the largest field alignment, and a multiple of
every field alignment. -/
def CAlign (F : List (PyStr × CType)) (al : Nat) : Prop :=
  (∀ p ∈ F, p.2.align ∣ al) ∧ ∃ p ∈ F, p.2.align = al

/-- Every structure class of the library: the declared structures and the headers of every version. -/
def classes : List CType :=
  allStructs ++ versions.map fun c => .struct (py!"Header:" ++ c.supportedVersion) c.fields []

end Atop.Spec
