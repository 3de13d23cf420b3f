import Verif.Source.Semantics
import Verif.Source.Text
/-!
# The program: the modules of atoparser after they have been imported
-/

namespace Atop.Src

/-- The names the code uses of the modules in atoparser/structs.  Their classes are translated on their own, by
tools/gen_structs.py (Verif/Model/Structs/*.lean). -/
def structGlobals (m x : PyStr) : Option Val :=
  if m = py!"atoparser.structs.shared" then
    if x = py!"ctypes" then some (.mod py!"ctypes")
    else if x = py!"pid_t" then some (.ctype pid_t)
    else none
  else
    let header (c : HeaderClass) : Option Val :=
      if x = py!"Header" then some (.hcls c) else if x = py!"Record" then some (.ctype c.Record) else none
    if m = py!"atoparser.structs.atop_1_26" then
      if x = py!"PATCHSTAT" then some (.int V1_26.PATCHSTAT)
      else if x = py!"IOSTAT" then some (.int V1_26.IOSTAT)
      else header V1_26.Header
    else if m = py!"atoparser.structs.atop_2_3" then header V2_3.Header
    else if m = py!"atoparser.structs.atop_2_4" then header V2_4.Header
    else if m = py!"atoparser.structs.atop_2_5" then header V2_5.Header
    else if m = py!"atoparser.structs.atop_2_6" then header V2_6.Header
    else if m = py!"atoparser.structs.atop_2_7" then header V2_7.Header
    else if m = py!"atoparser.structs.atop_2_8" then header V2_8.Header
    else if m = py!"atoparser.structs.atop_2_9" then header V2_9.Header
    else if m = py!"atoparser.structs.atop_2_10" then header V2_10.Header
    else if m = py!"atoparser.structs.atop_2_11" then
      if x = py!"ctypes" then some (.mod py!"ctypes")
      else if x = py!"pid_t" then some (.ctype pid_t)
      else if x = py!"CStat" then some (.ctype V2_11.CStat)
      else header V2_11.Header
    else if m = py!"atoparser.structs.atop_2_12" then header V2_12.Header
    else none

/-- The libraries, and nothing imported but the structures. -/
def base (Z : Zlib) (fs : FileSystem) (args : CommandLine) : Rt where
  Z
  fs
  args
  globals := structGlobals
  run := fun _ _ env w => .ret (.exc .stuck, env) w

/-- Importing one more module (or making one more class) `m` out of its statements; its functions belong to module
`owner`, its names start as those in `start`. -/
def Rt.load (R : Rt) (m owner : PyStr) (ds : List Decl) (start : Globals := fun _ => none) : Rt :=
  { R with globals := fun n => if n = m then execDecls R owner ds start else R.globals n }

/-- Names of a class: its body sees the names of its module. -/
def Rt.loadClass (R : Rt) (cls owner : PyStr) (ds : List Decl) : Rt :=
  { R with globals := fun n =>
      if n = cls then execDecls R owner ds (R.globals owner) else R.globals n }

/-- The program with all modules imported, in the order of the imports. -/
def program (Z : Zlib) (fs : FileSystem) (args : CommandLine) : Rt :=
  (base Z fs args)
    |>.load py!"HeaderMixin" py!"atoparser.structs.shared" Text.HeaderMixin.decls
    |>.loadClass py!"CGChainer" py!"atoparser.structs.atop_2_11" Text.CGChainer.decls
    |>.load py!"atoparser.utils" py!"atoparser.utils" Text.Utils.decls
    |>.load py!"atoparser" py!"atoparser" Text.Package.decls
    |>.load py!"atoparser.parsers.atop_1_26" py!"atoparser.parsers.atop_1_26" Text.Parsers.decls
    |>.load py!"atoparser.reader" py!"atoparser.reader" Text.Reader.decls

end Atop.Src
