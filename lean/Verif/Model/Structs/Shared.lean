-- GENERATED by tools/gen_structs.py from /repo/atoparser/structs/shared.py (read as text). Do not edit.
import Verif.Model.CTypes

namespace Atop

/-- atoparser/structs/shared.py:92-107 -/
def Shared.UTSName : CType := .struct py!"shared.UTSName" (.ofList [
    (py!"sysname", (.array c_char 65)),
    (py!"nodename", (.array c_char 65)),
    (py!"release", (.array c_char 65)),
    (py!"version", (.array c_char 65)),
    (py!"machine", (.array c_char 65)),
    (py!"domain", (.array c_char 65))]) []

end Atop
