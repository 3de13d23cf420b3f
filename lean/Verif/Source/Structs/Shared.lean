import Verif.Source.Text
/-!
# The source text of atoparser/structs/shared.py, as syntax trees

Generated by tools/gen_source.py --structs; do not edit.
-/

set_option maxRecDepth 4000

namespace Atop.Src.Text.Shared

/-- atoparser/structs/shared.py:27-89 -/
def HeaderMixin : TopDecl := .class py!"HeaderMixin" [] Text.HeaderMixin.decls

/-- atoparser/structs/shared.py:92-107 -/
def UTSName : TopDecl := .class py!"UTSName" [(.attr (.glob py!"ctypes") py!"Structure")] [
  .assign py!"_fields_" (.list exprs![
    (.tuple exprs![(.const (.str py!"sysname")), (.bin .mul (.attr (.glob py!"ctypes") py!"c_char") (.const (.int 65)))]),
    (.tuple exprs![(.const (.str py!"nodename")), (.bin .mul (.attr (.glob py!"ctypes") py!"c_char") (.const (.int 65)))]),
    (.tuple exprs![(.const (.str py!"release")), (.bin .mul (.attr (.glob py!"ctypes") py!"c_char") (.const (.int 65)))]),
    (.tuple exprs![(.const (.str py!"version")), (.bin .mul (.attr (.glob py!"ctypes") py!"c_char") (.const (.int 65)))]),
    (.tuple exprs![(.const (.str py!"machine")), (.bin .mul (.attr (.glob py!"ctypes") py!"c_char") (.const (.int 65)))]),
    (.tuple exprs![(.const (.str py!"domain")), (.bin .mul (.attr (.glob py!"ctypes") py!"c_char") (.const (.int 65)))])])]

/-- atoparser/structs/shared.py: the statements of the module, in order. -/
def decls : List TopDecl := [
  .plain (.import py!"ctypes"),
  .plain (.assign py!"time_t" (.attr (.glob py!"ctypes") py!"c_long")),
  .plain (.assign py!"count_t" (.attr (.glob py!"ctypes") py!"c_longlong")),
  .plain (.assign py!"off_t" (.attr (.glob py!"ctypes") py!"c_long")),
  .plain (.assign py!"pid_t" (.attr (.glob py!"ctypes") py!"c_int")),
  HeaderMixin,
  UTSName]

end Atop.Src.Text.Shared
