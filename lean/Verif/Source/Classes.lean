import Verif.Source.Program
import Verif.Source.Structs.Shared
import Verif.Source.Structs.V1_26
import Verif.Source.Structs.V2_3
import Verif.Source.Structs.V2_4
import Verif.Source.Structs.V2_5
import Verif.Source.Structs.V2_6
import Verif.Source.Structs.V2_7
import Verif.Source.Structs.V2_8
import Verif.Source.Structs.V2_9
import Verif.Source.Structs.V2_10
import Verif.Source.Structs.V2_11
import Verif.Source.Structs.V2_12
/-!
# Importing the modules of atoparser/structs

What a `class` statement makes, and the import of the twelve modules from their text (Verif/Source/Structs/, written out
mechanically from /repo).  An import that raises has no result.
-/

namespace Atop.Src

/-- Names and their values, the newest first. -/
abbrev Names := List (PyStr × Val)

/-- The name a statement binds and its value, by the rules of `execDecl`; nothing when it raises. -/
def declBinds (R : Rt) (m : PyStr) (g : Globals) : Decl → Option (PyStr × Val)
  | .import n => some (n, .mod n)
  | .fromImport n x => some (x, (R.globals n x).getD (.mod (n ++ py!"." ++ x)))
  | .assign x e => match (eval R g e (fun _ => none) W.empty).1 with
    | .ok v => some (x, v)
    | .error _ => none
  | .def f => match (mapE (fun e => eval R g e (fun _ => none)) f.defaults W.empty).1 with
    | .ok vs => some (f.name, .fn m f vs)
    | .error _ => none
  | .property f => some (f.name, .prop m f)

/-- The body of a class: its statements see the names of the class, then those of the module. -/
def classBody (R : Rt) (m : PyStr) (g : Globals) : List Decl → Names → Option Names
  | [], ns => some ns
  | d :: ds, ns =>
    match declBinds R m (fun x => match ns.lookup x with | some v => some v | none => g x) d with
    | some p => classBody R m g ds (p :: ns)
    | none => none

/-- The `_fields_` list of a structure: pairs of a name and a ctypes class. -/
def asFields : List Val → Option Fields
  | [] => some .nil
  | .tuple [.str n, .ctype t] :: r => match asFields r with
    | some fs => some (.cons n t fs)
    | none => none
  | _ => none

/-- The `fields_limiters` dictionary: texts for texts. -/
def asLimiters : List (PyStr × Val) → Option (List (PyStr × PyStr))
  | [] => some []
  | (k, .str v) :: r => match asLimiters r with
    | some l => some ((k, v) :: l)
    | none => none
  | _ => none

/-- `class _(ctypes.Structure)`, with the names its body bound. -/
def structClass (ident : PyStr) (ns : Names) : Option Val :=
  match ns.lookup py!"_fields_" with
  | some (.list l) =>
    match asFields l with
    | some fs =>
      match ns.lookup py!"fields_limiters" with
      | none => some (.ctype (.struct ident fs []))
      | some (.dict kvs) => match asLimiters kvs with
        | some lims => some (.ctype (.struct ident fs lims))
        | none => none
      | some _ => none
    | none => none
  | _ => none

/-- A header class, from the names of its body and the `_fields_` it has or inherits.  The class attributes the code
reads are kept; `CStat` and `CGChainer` are given together or are `None` together. -/
def headerClass (fs : Fields) (ns : Names) : Option Val :=
  match ns.lookup py!"supported_version", ns.lookup py!"Record", ns.lookup py!"SStat", ns.lookup py!"TStat",
      ns.lookup py!"CStat", ns.lookup py!"CGChainer" with
  | some (.str v), some (.ctype r), some (.ctype s), some (.ctype t), some .none, some .none =>
    some (.hcls { supportedVersion := v, fields := fs, Record := r, SStat := s, TStat := t, CStat := none })
  | some (.str v), some (.ctype r), some (.ctype s), some (.ctype t), some (.ctype c), some (.icls g) =>
    if g = py!"CGChainer" then
      some (.hcls { supportedVersion := v, fields := fs, Record := r, SStat := s, TStat := t, CStat := some c })
    else none
  | _, _, _, _, _, _ => none

/-- `class name(bases)` in module `m`, with the names its body bound.  A structure class is known by the module (without
the name of the package) and its name.  A header that inherits from another has the fields of that one. -/
def makeClass (m name : PyStr) (bases : List Val) (ns : Names) : Option Val :=
  match bases with
  | [] => some (.icls name)
  | [.builtin .structure] => structClass (m.drop 18 ++ py!"." ++ name) ns
  | [.builtin .structure, .icls x] =>
    if x = py!"HeaderMixin" then
      match ns.lookup py!"_fields_" with
      | some (.list l) => match asFields l with
        | some fs => headerClass fs ns
        | none => none
      | _ => none
    else none
  | [.hcls c] => if (ns.lookup py!"_fields_").isSome then none else headerClass c.fields ns
  | _ => none

/-- The values of the bases. -/
def evalBases (R : Rt) (g : Globals) : List Expr → Option (List Val)
  | [] => some []
  | e :: es =>
    match (eval R g e (fun _ => none) W.empty).1, evalBases R g es with
    | .ok v, some vs => some (v :: vs)
    | _, _ => none

/-- What a statement of a module binds. -/
def topBinds (R : Rt) (m : PyStr) (g : Globals) : TopDecl → Option (PyStr × Val)
  | .plain d => declBinds R m g d
  | .class name bases body =>
    match evalBases R g bases, classBody R m g body [] with
    | some bs, some ns => match makeClass m name bs ns with
      | some v => some (name, v)
      | none => none
    | _, _ => none

/-- Executing the statements of a module. -/
def importModule (R : Rt) (m : PyStr) : List TopDecl → Names → Option Names
  | [], g => some g
  | d :: ds, g =>
    match topBinds R m (fun x => g.lookup x) d with
    | some p => importModule R m ds (p :: g)
    | none => none

/-- The names of the modules imported so far. -/
def namesOf (done : List (PyStr × Names)) (m x : PyStr) : Option Val :=
  match done.lookup m with
  | some ns => ns.lookup x
  | none => none

/-- Importing modules one after the other; each sees the names of the earlier ones. -/
def importAll (R : Rt) : List (PyStr × List TopDecl) → List (PyStr × Names) → Option (List (PyStr × Names))
  | [], done => some done
  | (m, ds) :: r, done =>
    match importModule { R with globals := namesOf done } m ds [] with
    | some ns => importAll R r ((m, ns) :: done)
    | none => none

/-- The modules of atoparser/structs, each after the ones it imports. -/
def structModules : List (PyStr × List TopDecl) := [
  (py!"atoparser.structs.shared", Text.Shared.decls),
  (py!"atoparser.structs.atop_1_26", Text.V1_26.decls),
  (py!"atoparser.structs.atop_2_3", Text.V2_3.decls),
  (py!"atoparser.structs.atop_2_4", Text.V2_4.decls),
  (py!"atoparser.structs.atop_2_5", Text.V2_5.decls),
  (py!"atoparser.structs.atop_2_6", Text.V2_6.decls),
  (py!"atoparser.structs.atop_2_7", Text.V2_7.decls),
  (py!"atoparser.structs.atop_2_8", Text.V2_8.decls),
  (py!"atoparser.structs.atop_2_9", Text.V2_9.decls),
  (py!"atoparser.structs.atop_2_10", Text.V2_10.decls),
  (py!"atoparser.structs.atop_2_11", Text.V2_11.decls),
  (py!"atoparser.structs.atop_2_12", Text.V2_12.decls)]

/-- The names of these modules that are taken over into the program: the ones the functions of atoparser look up. -/
def usedNames : List (PyStr × PyStr) := [
  (py!"atoparser.structs.shared", py!"ctypes"),
  (py!"atoparser.structs.shared", py!"pid_t"),
  (py!"atoparser.structs.atop_1_26", py!"PATCHSTAT"),
  (py!"atoparser.structs.atop_1_26", py!"IOSTAT"),
  (py!"atoparser.structs.atop_2_11", py!"ctypes"),
  (py!"atoparser.structs.atop_2_11", py!"pid_t"),
  (py!"atoparser.structs.atop_2_11", py!"CStat"),
  (py!"atoparser.structs.atop_1_26", py!"Header"),
  (py!"atoparser.structs.atop_1_26", py!"Record"),
  (py!"atoparser.structs.atop_2_3", py!"Header"),
  (py!"atoparser.structs.atop_2_3", py!"Record"),
  (py!"atoparser.structs.atop_2_4", py!"Header"),
  (py!"atoparser.structs.atop_2_4", py!"Record"),
  (py!"atoparser.structs.atop_2_5", py!"Header"),
  (py!"atoparser.structs.atop_2_5", py!"Record"),
  (py!"atoparser.structs.atop_2_6", py!"Header"),
  (py!"atoparser.structs.atop_2_6", py!"Record"),
  (py!"atoparser.structs.atop_2_7", py!"Header"),
  (py!"atoparser.structs.atop_2_7", py!"Record"),
  (py!"atoparser.structs.atop_2_8", py!"Header"),
  (py!"atoparser.structs.atop_2_8", py!"Record"),
  (py!"atoparser.structs.atop_2_9", py!"Header"),
  (py!"atoparser.structs.atop_2_9", py!"Record"),
  (py!"atoparser.structs.atop_2_10", py!"Header"),
  (py!"atoparser.structs.atop_2_10", py!"Record"),
  (py!"atoparser.structs.atop_2_11", py!"Header"),
  (py!"atoparser.structs.atop_2_11", py!"Record"),
  (py!"atoparser.structs.atop_2_12", py!"Header"),
  (py!"atoparser.structs.atop_2_12", py!"Record")]

/-- The libraries and the modules of atoparser/structs, imported from their text. -/
def textBase (Z : Zlib) (fs : FileSystem) (args : CommandLine) : Rt :=
  { base Z fs args with
    globals := fun m x =>
      match importAll (base Z fs args) structModules [] with
      | some done => if (m, x) ∈ usedNames then namesOf done m x else none
      | none => none }

/-- The program, with the modules of atoparser/structs imported from their text as well. -/
def textProgram (Z : Zlib) (fs : FileSystem) (args : CommandLine) : Rt :=
  (textBase Z fs args)
    |>.load py!"HeaderMixin" py!"atoparser.structs.shared" Text.HeaderMixin.decls
    |>.loadClass py!"CGChainer" py!"atoparser.structs.atop_2_11" Text.CGChainer.decls
    |>.load py!"atoparser.utils" py!"atoparser.utils" Text.Utils.decls
    |>.load py!"atoparser" py!"atoparser" Text.Package.decls
    |>.load py!"atoparser.parsers.atop_1_26" py!"atoparser.parsers.atop_1_26" Text.Parsers.decls
    |>.load py!"atoparser.reader" py!"atoparser.reader" Text.Reader.decls

end Atop.Src
