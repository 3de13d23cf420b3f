import Verif.Source.Syntax
/-!
# The Python examples of README.md, as syntax trees

Generated by tools/gen_source.py --readme from /repo; do not edit.  Each example is written as a function of the path `file`, which it leaves to
the reader.
-/

set_option maxRecDepth 4000

namespace Atop.Src.Text.Readme

/-- README.md:83-90 -/
def imports1 : List Decl := [.import py!"atoparser"]

/-- README.md:83-90 -/
def example1 : FnDef := {
  name := py!"example1"
  params := ["file"]
  defaults := []
  body := block![
    .with (.call (.glob py!"open") exprs![(.name "file"), (.const (.str py!"rb"))] .nil) "raw_file" block![
      .assign (.name "header") (.call (.attr (.glob py!"atoparser") py!"get_header") exprs![(.name "raw_file")] .nil),
      .for ["record", "sstat", "tstats", "cgroups"] (.call (.attr (.glob py!"atoparser") py!"generate_statistics") exprs![(.name "raw_file"), (.name "header")] .nil) block![
        .assign (.name "total_cycles") (.bin .mul (.bin .mul (.attr (.name "record") py!"interval") (.attr (.attr (.name "sstat") py!"cpu") py!"nrcpu")) (.attr (.name "header") py!"hertz")),
        .assign (.name "usage") (.bin .sub (.const (.int 1)) (.bin .div (.attr (.attr (.attr (.name "sstat") py!"cpu") py!"all") py!"itime") (.name "total_cycles"))),
        .expr (.call (.glob py!"print") exprs![(.fstr exprs![(.const (.str py!"CPU usage was ")), (.fmtSpec (.name "usage") py!".02%")])] .nil)]]] }

/-- README.md:95-100 -/
def imports2 : List Decl := [.import py!"json", .import py!"atoparser"]

/-- README.md:95-100 -/
def example2 : FnDef := {
  name := py!"example2"
  params := ["file"]
  defaults := []
  body := block![
    .with (.call (.glob py!"open") exprs![(.name "file"), (.const (.str py!"rb"))] .nil) "raw_file" block![
      .assign (.name "header") (.call (.attr (.glob py!"atoparser") py!"get_header") exprs![(.name "raw_file")] .nil),
      .expr (.call (.glob py!"print") exprs![(.call (.attr (.glob py!"json") py!"dumps") exprs![(.call (.attr (.glob py!"atoparser") py!"struct_to_dict") exprs![(.name "header")] .nil)] (.cons "indent" (.const (.int 2)) <| .nil))] .nil)]] }

end Atop.Src.Text.Readme
