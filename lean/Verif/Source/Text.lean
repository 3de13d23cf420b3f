import Verif.Source.Syntax
/-!
# The source text of atoparser, as syntax trees

Generated by tools/gen_source.py from /repo; do not edit.

Left out besides docstrings and the annotations of parameters:

* atoparser/structs/shared.py:34: annotation supported_version: str
* atoparser/structs/shared.py:35: annotation Record: ctypes.Structure
* atoparser/structs/shared.py:36: annotation SStat: ctypes.Structure
* atoparser/structs/shared.py:37: annotation TStat: ctypes.Structure
* atoparser/structs/shared.py:38: annotation CStat: ctypes.Structure
* atoparser/structs/shared.py:39: annotation CGChainer: ctypes.Structure
* atoparser/utils.py:32: from typing import Union
* atoparser/utils.py:65: Header = Union[tuple((header for header in _HEADER_BY_VERSION.values(
* atoparser/utils.py:66: Record = Union[tuple((header.Record for header in _HEADER_BY_VERSION.
* atoparser/utils.py:67: SStat = Union[tuple((header.SStat for header in _HEADER_BY_VERSION.v
* atoparser/utils.py:68: TStat = Union[tuple((header.TStat for header in _HEADER_BY_VERSION.v
* atoparser/utils.py:69: CStat = Union[tuple((header.CStat for header in _HEADER_BY_VERSION.v
* atoparser/utils.py:70: CGChainer = Union[tuple((header.CGChainer for header in _HEADER_BY_VERSI
* atoparser/__init__.py:17: __version__ = '3.3.1'
* atoparser/reader.py:129-130: __name__ == '__main__'
-/

set_option maxRecDepth 4000

namespace Atop.Src.Text

/-- atoparser/structs/shared.py:41-61 -/
def HeaderMixin.check_compatibility : FnDef := {
  name := py!"check_compatibility"
  params := ["self"]
  defaults := []
  body := block![
    .assign (.name "sizes") (.list exprs![(.tuple exprs![(.const (.str py!"Header")), (.attr (.name "self") py!"rawheadlen"), (.call (.attr (.glob py!"ctypes") py!"sizeof") exprs![(.attr (.name "self") py!"__class__")] .nil)]), (.tuple exprs![(.const (.str py!"Record")), (.attr (.name "self") py!"rawreclen"), (.call (.attr (.glob py!"ctypes") py!"sizeof") exprs![(.attr (.name "self") py!"Record")] .nil)]), (.tuple exprs![(.const (.str py!"SStat")), (.attr (.name "self") py!"sstatlen"), (.call (.attr (.glob py!"ctypes") py!"sizeof") exprs![(.attr (.name "self") py!"SStat")] .nil)])]),
    .ifte (.and (.cmp .gtE (.attr (.name "self") py!"major_version") (.const (.int 2))) (.cmp .gtE (.attr (.name "self") py!"minor_version") (.const (.int 3)))) block![
      .expr (.call (.attr (.name "sizes") py!"append") exprs![(.tuple exprs![(.const (.str py!"TStat")), (.attr (.name "self") py!"tstatlen"), (.call (.attr (.glob py!"ctypes") py!"sizeof") exprs![(.attr (.name "self") py!"TStat")] .nil)])] .nil)] block![
      .expr (.call (.attr (.name "sizes") py!"append") exprs![(.tuple exprs![(.const (.str py!"PStat")), (.attr (.name "self") py!"pstatlen"), (.call (.attr (.glob py!"ctypes") py!"sizeof") exprs![(.attr (.name "self") py!"TStat")] .nil)])] .nil)],
    .ifte (.and (.cmp .gtE (.attr (.name "self") py!"major_version") (.const (.int 2))) (.cmp .gtE (.attr (.name "self") py!"minor_version") (.const (.int 11)))) block![
      .expr (.call (.attr (.name "sizes") py!"append") exprs![(.tuple exprs![(.const (.str py!"CStat")), (.attr (.name "self") py!"cstatlen"), (.call (.attr (.glob py!"ctypes") py!"sizeof") exprs![(.attr (.name "self") py!"CStat")] .nil)])] .nil)] block![],
    .ifte (.call (.glob py!"any") exprs![(.genExp (.cmp .notEq (.sub (.name "size") (.const (.int 1))) (.sub (.name "size") (.const (.int 2)))) "size" (.name "sizes"))] .nil) block![
      .raise (.call (.glob py!"ValueError") exprs![(.fstr exprs![(.const (.str py!"File has incompatible Atop format. Struct length evaluations (type, found, expected): ")), (.fmt (.name "sizes"))])] .nil)] block![]] }

/-- atoparser/structs/shared.py:64-67 -/
def HeaderMixin.major_version : FnDef := {
  name := py!"major_version"
  params := ["self"]
  defaults := []
  body := block![
    .expr (.attr (.name "self") py!"semantic_version"),
    .ret (.attr (.name "self") py!"_major_version")] }

/-- atoparser/structs/shared.py:70-73 -/
def HeaderMixin.minor_version : FnDef := {
  name := py!"minor_version"
  params := ["self"]
  defaults := []
  body := block![
    .expr (.attr (.name "self") py!"semantic_version"),
    .ret (.attr (.name "self") py!"_minor_version")] }

/-- atoparser/structs/shared.py:76-89 -/
def HeaderMixin.semantic_version : FnDef := {
  name := py!"semantic_version"
  params := ["self"]
  defaults := []
  body := block![
    .ifte (.not (.call (.glob py!"getattr") exprs![(.name "self"), (.const (.str py!"_semantic_version")), (.const .none)] .nil)) block![
      .assign (.attr (.name "self") py!"_major_version") (.bin .bitAnd (.bin .rshift (.attr (.name "self") py!"aversion") (.const (.int 8))) (.const (.int 127))),
      .assign (.attr (.name "self") py!"_minor_version") (.bin .bitAnd (.attr (.name "self") py!"aversion") (.const (.int 255))),
      .assign (.attr (.name "self") py!"_semantic_version") (.fstr exprs![(.fmt (.attr (.name "self") py!"_major_version")), (.const (.str py!".")), (.fmt (.attr (.name "self") py!"_minor_version"))])] block![],
    .ret (.attr (.name "self") py!"_semantic_version")] }

/-- atoparser/structs/shared.py: the statements of the class, in order. -/
def HeaderMixin.decls : List Decl := [
  .def HeaderMixin.check_compatibility,
  .property HeaderMixin.major_version,
  .property HeaderMixin.minor_version,
  .property HeaderMixin.semantic_version]

/-- atoparser/structs/atop_2_11.py:660-668 -/
def CGChainer.init : FnDef := {
  name := py!"__init__"
  params := ["self", "cstat", "proclist"]
  defaults := []
  body := block![
    .assign (.attr (.name "self") py!"cstat") (.name "cstat"),
    .assign (.attr (.name "self") py!"proclist") (.name "proclist")] }

/-- atoparser/structs/atop_2_11.py: the statements of the class, in order. -/
def CGChainer.decls : List Decl := [
  .assign py!"_fields_" (.list exprs![(.tuple exprs![(.const (.str py!"cstat")), (.glob py!"CStat")]), (.tuple exprs![(.const (.str py!"proclist")), (.sub (.attr (.glob py!"ctypes") py!"Array") (.glob py!"pid_t"))])]),
  .def CGChainer.init]

/-- atoparser/utils.py:82-129 -/
def Utils.generate_statistics : FnDef := {
  name := py!"generate_statistics"
  params := ["raw_file", "header", "raise_on_truncation", "max_samples"]
  defaults := [(.const .none), (.const (.bool true)), (.glob py!"MAX_SAMPLES_PER_FILE")]
  body := block![
    .ifte (.cmp .is (.name "header") (.const .none)) block![
      .assign (.name "header") (.call (.glob py!"get_header") exprs![(.name "raw_file")] .nil)] block![],
    .try block![
      .assign (.name "header_version") (.attr (.name "header") py!"semantic_version"),
      .unpack ["major", "minor"] (.slice (.call (.attr (.name "header_version") py!"split") exprs![(.const (.str py!"."))] .nil) (.const .none) (.const (.int 2))),
      .unpack ["major", "minor"] (.tuple exprs![(.call (.glob py!"int") exprs![(.name "major")] .nil), (.call (.glob py!"int") exprs![(.name "minor")] .nil)]),
      .for ["_"] (.call (.glob py!"range") exprs![(.name "max_samples")] .nil) block![
        .assign (.name "record") (.call (.glob py!"get_record") exprs![(.name "raw_file"), (.name "header")] .nil),
        .ifte (.cmp .ltE (.attr (.name "record") py!"scomplen") (.const (.int 0))) block![
          .brk] block![],
        .assign (.name "sstat") (.call (.glob py!"get_sstat") exprs![(.name "raw_file"), (.name "header"), (.name "record")] .nil),
        .assign (.name "tstats") (.call (.glob py!"get_tstat") exprs![(.name "raw_file"), (.name "header"), (.name "record")] .nil),
        .ifte (.and (.cmp .gtE (.name "major") (.const (.int 2))) (.cmp .gtE (.name "minor") (.const (.int 11)))) block![
          .assign (.name "cgroups") (.call (.glob py!"get_cstat") exprs![(.name "raw_file"), (.name "header"), (.name "record")] .nil)] block![
          .assign (.name "cgroups") (.list exprs![])],
        .yield (.tuple exprs![(.name "record"), (.name "sstat"), (.name "tstats"), (.name "cgroups")])]] (.attr (.glob py!"zlib") py!"error") block![
      .ifte (.name "raise_on_truncation") block![
        .reraise] block![]]] }

/-- atoparser/utils.py:132-163 -/
def Utils.get_header : FnDef := {
  name := py!"get_header"
  params := ["raw_file", "check_compatibility"]
  defaults := [(.const (.bool true))]
  body := block![
    .assign (.name "header") (.call (.sub (.glob py!"_HEADER_BY_VERSION") (.glob py!"_DEFAULT_VERSION")) exprs![] .nil),
    .expr (.call (.attr (.name "raw_file") py!"readinto") exprs![(.name "header")] .nil),
    .ifte (.cmp .notEq (.attr (.name "header") py!"magic") (.glob py!"MAGIC")) block![
      .assign (.name "msg") (.fstr exprs![(.const (.str py!"File does not contain raw atop output (wrong magic number): ")), (.fmt (.call (.glob py!"hex") exprs![(.attr (.name "header") py!"magic")] .nil))]),
      .raise (.call (.glob py!"ValueError") exprs![(.name "msg")] .nil)] block![],
    .assign (.name "header_version") (.attr (.name "header") py!"semantic_version"),
    .ifte (.and (.cmp .notEq (.name "header_version") (.glob py!"_DEFAULT_VERSION")) (.cmp .isIn (.name "header_version") (.glob py!"_HEADER_BY_VERSION"))) block![
      .assign (.name "header") (.call (.attr (.sub (.glob py!"_HEADER_BY_VERSION") (.name "header_version")) py!"from_buffer") exprs![(.name "header")] .nil)] block![],
    .ifte (.name "check_compatibility") block![
      .expr (.call (.attr (.name "header") py!"check_compatibility") exprs![] .nil)] block![],
    .ret (.name "header")] }

/-- atoparser/utils.py:166-184 -/
def Utils.get_record : FnDef := {
  name := py!"get_record"
  params := ["raw_file", "header"]
  defaults := []
  body := block![
    .assign (.name "record") (.call (.attr (.name "header") py!"Record") exprs![] .nil),
    .expr (.call (.attr (.name "raw_file") py!"readinto") exprs![(.name "record")] .nil),
    .ret (.name "record")] }

/-- atoparser/utils.py:187-210 -/
def Utils.get_sstat : FnDef := {
  name := py!"get_sstat"
  params := ["raw_file", "header", "record"]
  defaults := []
  body := block![
    .assign (.name "buffer") (.call (.attr (.name "raw_file") py!"read") exprs![(.attr (.name "record") py!"scomplen")] .nil),
    .assign (.name "decompressed") (.call (.attr (.glob py!"zlib") py!"decompress") exprs![(.name "buffer")] .nil),
    .assign (.name "sstat") (.call (.attr (.attr (.name "header") py!"SStat") py!"from_buffer_copy") exprs![(.name "decompressed")] .nil),
    .ret (.name "sstat")] }

/-- atoparser/utils.py:213-245 -/
def Utils.get_tstat : FnDef := {
  name := py!"get_tstat"
  params := ["raw_file", "header", "record"]
  defaults := []
  body := block![
    .assign (.name "buffer") (.call (.attr (.name "raw_file") py!"read") exprs![(.attr (.name "record") py!"pcomplen")] .nil),
    .assign (.name "decompressed") (.call (.attr (.glob py!"zlib") py!"decompress") exprs![(.name "buffer")] .nil),
    .assign (.name "record_count") (.ifExp (.call (.glob py!"isinstance") exprs![(.name "record"), (.attr (.glob py!"atop_1_26") py!"Record")] .nil) (.attr (.name "record") py!"nlist") (.attr (.name "record") py!"ndeviat")),
    .assign (.name "tstatlen") (.ifExp (.and (.cmp .gtE (.attr (.name "header") py!"major_version") (.const (.int 2))) (.cmp .gtE (.attr (.name "header") py!"minor_version") (.const (.int 3)))) (.attr (.name "header") py!"tstatlen") (.attr (.name "header") py!"pstatlen")),
    .assign (.name "tstats") (.list exprs![]),
    .for ["index"] (.call (.glob py!"range") exprs![(.name "record_count")] .nil) block![
      .assign (.name "tstat") (.call (.attr (.attr (.name "header") py!"TStat") py!"from_buffer_copy") exprs![(.slice (.name "decompressed") (.bin .mul (.name "index") (.name "tstatlen")) (.bin .mul (.name "tstatlen") (.bin .add (.name "index") (.const (.int 1)))))] .nil),
      .expr (.call (.attr (.name "tstats") py!"append") exprs![(.name "tstat")] .nil)],
    .ret (.name "tstats")] }

/-- atoparser/utils.py:248-293 -/
def Utils.get_cstat : FnDef := {
  name := py!"get_cstat"
  params := ["raw_file", "header", "record"]
  defaults := []
  body := block![
    .assign (.name "buffer_cstats") (.call (.attr (.name "raw_file") py!"read") exprs![(.attr (.name "record") py!"ccomplen")] .nil),
    .assign (.name "decompressed_cstats") (.call (.attr (.glob py!"zlib") py!"decompress") exprs![(.name "buffer_cstats")] .nil),
    .assign (.name "buffer_pidlist") (.call (.attr (.name "raw_file") py!"read") exprs![(.attr (.name "record") py!"icomplen")] .nil),
    .assign (.name "decompressed_pidlist") (.call (.attr (.glob py!"zlib") py!"decompress") exprs![(.name "buffer_pidlist")] .nil),
    .assign (.name "cgroups") (.list exprs![]),
    .assign (.name "cstat_start") (.const (.int 0)),
    .assign (.name "cstatlen") (.attr (.name "header") py!"cstatlen"),
    .assign (.name "pidlist_start") (.const (.int 0)),
    .for ["_"] (.call (.glob py!"range") exprs![(.attr (.name "record") py!"ncgroups")] .nil) block![
      .assign (.name "cstat") (.call (.attr (.attr (.name "header") py!"CStat") py!"from_buffer_copy") exprs![(.slice (.name "decompressed_cstats") (.name "cstat_start") (.bin .add (.name "cstat_start") (.name "cstatlen")))] .nil),
      .aug "cstat_start" .add (.attr (.attr (.name "cstat") py!"gen") py!"structlen"),
      .assign (.name "pid_array") (.bin .mul (.glob py!"pid_t") (.attr (.attr (.name "cstat") py!"gen") py!"nprocs")),
      .assign (.name "pid_array_size") (.call (.attr (.glob py!"ctypes") py!"sizeof") exprs![(.name "pid_array")] .nil),
      .assign (.name "pidlist") (.call (.attr (.name "pid_array") py!"from_buffer_copy") exprs![(.slice (.name "decompressed_pidlist") (.name "pidlist_start") (.bin .add (.name "pidlist_start") (.name "pid_array_size")))] .nil),
      .aug "pidlist_start" .add (.name "pid_array_size"),
      .expr (.call (.attr (.name "cgroups") py!"append") exprs![(.call (.attr (.name "header") py!"CGChainer") exprs![(.name "cstat"), (.name "pidlist")] .nil)] .nil)],
    .ret (.name "cgroups")] }

/-- atoparser/utils.py:296-329 -/
def Utils.struct_to_dict : FnDef := {
  name := py!"struct_to_dict"
  params := ["struct"]
  defaults := []
  body := block![
    .assign (.name "struct_dict") (.dict .nil),
    .for ["field"] (.attr (.name "struct") py!"_fields_") block![
      .assign (.name "field_name") (.sub (.name "field") (.const (.int 0))),
      .assign (.name "field_data") (.call (.glob py!"getattr") exprs![(.name "struct"), (.name "field_name")] .nil),
      .ifte (.call (.glob py!"isinstance") exprs![(.name "field_data"), (.attr (.glob py!"ctypes") py!"Structure")] .nil) block![
        .assign (.sub (.name "struct_dict") (.name "field_name")) (.call (.glob py!"struct_to_dict") exprs![(.name "field_data")] .nil)] block![
        .ifte (.cmp .notIn (.const (.str py!"future")) (.name "field_name")) block![
          .ifte (.call (.glob py!"isinstance") exprs![(.name "field_data"), (.attr (.glob py!"ctypes") py!"Array")] .nil) block![
            .assign (.sub (.name "struct_dict") (.name "field_name")) (.list exprs![]),
            .assign (.name "limiters") (.call (.glob py!"getattr") exprs![(.name "struct"), (.const (.str py!"fields_limiters")), (.dict .nil)] .nil),
            .assign (.name "limiter") (.call (.attr (.name "limiters") py!"get") exprs![(.name "field_name")] .nil),
            .ifte (.name "limiter") block![
              .assign (.name "field_data") (.slice (.name "field_data") (.const .none) (.call (.glob py!"getattr") exprs![(.name "struct"), (.name "limiter")] .nil))] block![],
            .for ["sub_data"] (.name "field_data") block![
              .ifte (.call (.glob py!"isinstance") exprs![(.name "sub_data"), (.attr (.glob py!"ctypes") py!"Structure")] .nil) block![
                .expr (.call (.attr (.sub (.name "struct_dict") (.name "field_name")) py!"append") exprs![(.call (.glob py!"struct_to_dict") exprs![(.name "sub_data")] .nil)] .nil)] block![
                .expr (.call (.attr (.sub (.name "struct_dict") (.name "field_name")) py!"append") exprs![(.name "sub_data")] .nil)]]] block![
            .ifte (.call (.glob py!"isinstance") exprs![(.name "field_data"), (.glob py!"bytes")] .nil) block![
              .assign (.sub (.name "struct_dict") (.name "field_name")) (.call (.attr (.name "field_data") py!"decode") exprs![] (.cons "errors" (.const (.str py!"ignore")) <| .nil))] block![
              .assign (.sub (.name "struct_dict") (.name "field_name")) (.name "field_data")]]] block![]]],
    .ret (.name "struct_dict")] }

/-- atoparser/utils.py: the statements of the module, in order. -/
def Utils.decls : List Decl := [
  .import py!"ctypes",
  .import py!"io",
  .import py!"zlib",
  .fromImport py!"atoparser.structs" py!"atop_1_26",
  .fromImport py!"atoparser.structs" py!"atop_2_3",
  .fromImport py!"atoparser.structs" py!"atop_2_4",
  .fromImport py!"atoparser.structs" py!"atop_2_5",
  .fromImport py!"atoparser.structs" py!"atop_2_6",
  .fromImport py!"atoparser.structs" py!"atop_2_7",
  .fromImport py!"atoparser.structs" py!"atop_2_8",
  .fromImport py!"atoparser.structs" py!"atop_2_9",
  .fromImport py!"atoparser.structs" py!"atop_2_10",
  .fromImport py!"atoparser.structs" py!"atop_2_11",
  .fromImport py!"atoparser.structs" py!"atop_2_12",
  .fromImport py!"atoparser.structs.shared" py!"pid_t",
  .assign py!"_VERSIONS" (.list exprs![(.glob py!"atop_1_26"), (.glob py!"atop_2_3"), (.glob py!"atop_2_4"), (.glob py!"atop_2_5"), (.glob py!"atop_2_6"), (.glob py!"atop_2_7"), (.glob py!"atop_2_8"), (.glob py!"atop_2_9"), (.glob py!"atop_2_10"), (.glob py!"atop_2_11"), (.glob py!"atop_2_12")]),
  .assign py!"_CSTAT_VERSIONS" (.slice (.glob py!"_VERSIONS") (.const (.int 9)) (.const .none)),
  .assign py!"_DEFAULT_VERSION" (.attr (.attr (.sub (.glob py!"_VERSIONS") (.const (.int (-1)))) py!"Header") py!"supported_version"),
  .assign py!"_HEADER_BY_VERSION" (.dictComp (.attr (.attr (.name "module") py!"Header") py!"supported_version") (.attr (.name "module") py!"Header") "module" (.glob py!"_VERSIONS")),
  .assign py!"MAX_SAMPLES_PER_FILE" (.const (.int 86400)),
  .assign py!"MAGIC" (.const (.int 4276993775)),
  .def Utils.generate_statistics,
  .def Utils.get_header,
  .def Utils.get_record,
  .def Utils.get_sstat,
  .def Utils.get_tstat,
  .def Utils.get_cstat,
  .def Utils.struct_to_dict]

/-- atoparser/__init__.py: the statements of the module, in order. -/
def Package.decls : List Decl := [
  .fromImport py!"atoparser.utils" py!"CGChainer",
  .fromImport py!"atoparser.utils" py!"CStat",
  .fromImport py!"atoparser.utils" py!"Header",
  .fromImport py!"atoparser.utils" py!"Record",
  .fromImport py!"atoparser.utils" py!"SStat",
  .fromImport py!"atoparser.utils" py!"TStat",
  .fromImport py!"atoparser.utils" py!"generate_statistics",
  .fromImport py!"atoparser.utils" py!"get_cstat",
  .fromImport py!"atoparser.utils" py!"get_header",
  .fromImport py!"atoparser.utils" py!"get_record",
  .fromImport py!"atoparser.utils" py!"get_sstat",
  .fromImport py!"atoparser.utils" py!"get_tstat",
  .fromImport py!"atoparser.utils" py!"struct_to_dict"]

/-- atoparser/parsers/atop_1_26.py:11-37 -/
def Parsers.parse_cpu : FnDef := {
  name := py!"parse_cpu"
  params := ["header", "record", "sstat", "tstats"]
  defaults := []
  body := block![
    .for ["index", "cpu"] (.call (.glob py!"enumerate") exprs![(.attr (.attr (.name "sstat") py!"cpu") py!"cpu")] .nil) block![
      .ifte (.cmp .gtE (.name "index") (.attr (.attr (.name "sstat") py!"cpu") py!"nrcpu")) block![
        .brk] block![],
      .assign (.name "values") (.dict (.cons (.const (.str py!"timestamp")) (.attr (.name "record") py!"curtime") <| .cons (.const (.str py!"interval")) (.attr (.name "record") py!"interval") <| .cons (.const (.str py!"ticks")) (.attr (.name "header") py!"hertz") <| .cons (.const (.str py!"proc")) (.name "index") <| .cons (.const (.str py!"system")) (.attr (.name "cpu") py!"stime") <| .cons (.const (.str py!"user")) (.attr (.name "cpu") py!"utime") <| .cons (.const (.str py!"niced")) (.attr (.name "cpu") py!"ntime") <| .cons (.const (.str py!"idle")) (.attr (.name "cpu") py!"itime") <| .cons (.const (.str py!"wait")) (.attr (.name "cpu") py!"wtime") <| .cons (.const (.str py!"irq")) (.attr (.name "cpu") py!"Itime") <| .cons (.const (.str py!"softirq")) (.attr (.name "cpu") py!"Stime") <| .cons (.const (.str py!"steal")) (.attr (.name "cpu") py!"steal") <| .cons (.const (.str py!"guest")) (.attr (.name "cpu") py!"guest") <| .nil)),
      .yield (.name "values")]] }

/-- atoparser/parsers/atop_1_26.py:40-57 -/
def Parsers.parse_CPL : FnDef := {
  name := py!"parse_CPL"
  params := ["header", "record", "sstat", "tstats"]
  defaults := []
  body := block![
    .assign (.name "values") (.dict (.cons (.const (.str py!"timestamp")) (.attr (.name "record") py!"curtime") <| .cons (.const (.str py!"interval")) (.attr (.name "record") py!"interval") <| .cons (.const (.str py!"procs")) (.attr (.attr (.name "sstat") py!"cpu") py!"nrcpu") <| .cons (.const (.str py!"load_1")) (.attr (.attr (.name "sstat") py!"cpu") py!"lavg1") <| .cons (.const (.str py!"load_5")) (.attr (.attr (.name "sstat") py!"cpu") py!"lavg5") <| .cons (.const (.str py!"load_15")) (.attr (.attr (.name "sstat") py!"cpu") py!"lavg15") <| .cons (.const (.str py!"context_switches")) (.attr (.attr (.name "sstat") py!"cpu") py!"csw") <| .cons (.const (.str py!"interrupts")) (.attr (.attr (.name "sstat") py!"cpu") py!"devint") <| .nil)),
    .yield (.name "values")] }

/-- atoparser/parsers/atop_1_26.py:60-82 -/
def Parsers.parse_CPU : FnDef := {
  name := py!"parse_CPU"
  params := ["header", "record", "sstat", "tstats"]
  defaults := []
  body := block![
    .assign (.name "values") (.dict (.cons (.const (.str py!"timestamp")) (.attr (.name "record") py!"curtime") <| .cons (.const (.str py!"interval")) (.attr (.name "record") py!"interval") <| .cons (.const (.str py!"ticks")) (.attr (.name "header") py!"hertz") <| .cons (.const (.str py!"procs")) (.attr (.attr (.name "sstat") py!"cpu") py!"nrcpu") <| .cons (.const (.str py!"system")) (.attr (.attr (.attr (.name "sstat") py!"cpu") py!"all") py!"stime") <| .cons (.const (.str py!"user")) (.attr (.attr (.attr (.name "sstat") py!"cpu") py!"all") py!"utime") <| .cons (.const (.str py!"niced")) (.attr (.attr (.attr (.name "sstat") py!"cpu") py!"all") py!"ntime") <| .cons (.const (.str py!"idle")) (.attr (.attr (.attr (.name "sstat") py!"cpu") py!"all") py!"itime") <| .cons (.const (.str py!"wait")) (.attr (.attr (.attr (.name "sstat") py!"cpu") py!"all") py!"wtime") <| .cons (.const (.str py!"irq")) (.attr (.attr (.attr (.name "sstat") py!"cpu") py!"all") py!"Itime") <| .cons (.const (.str py!"softirq")) (.attr (.attr (.attr (.name "sstat") py!"cpu") py!"all") py!"Stime") <| .cons (.const (.str py!"steal")) (.attr (.attr (.attr (.name "sstat") py!"cpu") py!"all") py!"steal") <| .cons (.const (.str py!"guest")) (.attr (.attr (.attr (.name "sstat") py!"cpu") py!"all") py!"guest") <| .nil)),
    .yield (.name "values")] }

/-- atoparser/parsers/atop_1_26.py:85-106 -/
def Parsers.parse_DSK : FnDef := {
  name := py!"parse_DSK"
  params := ["header", "record", "sstat", "tstats"]
  defaults := []
  body := block![
    .for ["disk"] (.attr (.attr (.name "sstat") py!"dsk") py!"dsk") block![
      .ifte (.not (.attr (.name "disk") py!"name")) block![
        .brk] block![],
      .assign (.name "values") (.dict (.cons (.const (.str py!"timestamp")) (.attr (.name "record") py!"curtime") <| .cons (.const (.str py!"interval")) (.attr (.name "record") py!"interval") <| .cons (.const (.str py!"name")) (.call (.attr (.attr (.name "disk") py!"name") py!"decode") exprs![] .nil) <| .cons (.const (.str py!"io_ms")) (.attr (.name "disk") py!"io_ms") <| .cons (.const (.str py!"reads")) (.attr (.name "disk") py!"nread") <| .cons (.const (.str py!"read_sectors")) (.attr (.name "disk") py!"nrsect") <| .cons (.const (.str py!"writes")) (.attr (.name "disk") py!"nwrite") <| .cons (.const (.str py!"write_sectors")) (.attr (.name "disk") py!"nwsect") <| .nil)),
      .yield (.name "values")]] }

/-- atoparser/parsers/atop_1_26.py:109-130 -/
def Parsers.parse_LVM : FnDef := {
  name := py!"parse_LVM"
  params := ["header", "record", "sstat", "tstats"]
  defaults := []
  body := block![
    .for ["lvm"] (.attr (.attr (.name "sstat") py!"dsk") py!"lvm") block![
      .ifte (.not (.attr (.name "lvm") py!"name")) block![
        .brk] block![],
      .assign (.name "values") (.dict (.cons (.const (.str py!"timestamp")) (.attr (.name "record") py!"curtime") <| .cons (.const (.str py!"interval")) (.attr (.name "record") py!"interval") <| .cons (.const (.str py!"name")) (.call (.attr (.attr (.name "lvm") py!"name") py!"decode") exprs![] .nil) <| .cons (.const (.str py!"io_ms")) (.attr (.name "lvm") py!"io_ms") <| .cons (.const (.str py!"reads")) (.attr (.name "lvm") py!"nread") <| .cons (.const (.str py!"read_sectors")) (.attr (.name "lvm") py!"nrsect") <| .cons (.const (.str py!"writes")) (.attr (.name "lvm") py!"nwrite") <| .cons (.const (.str py!"write_sectors")) (.attr (.name "lvm") py!"nwsect") <| .nil)),
      .yield (.name "values")]] }

/-- atoparser/parsers/atop_1_26.py:133-154 -/
def Parsers.parse_MDD : FnDef := {
  name := py!"parse_MDD"
  params := ["header", "record", "sstat", "tstats"]
  defaults := []
  body := block![
    .for ["mdd"] (.attr (.attr (.name "sstat") py!"dsk") py!"mdd") block![
      .ifte (.not (.attr (.name "mdd") py!"name")) block![
        .brk] block![],
      .assign (.name "values") (.dict (.cons (.const (.str py!"timestamp")) (.attr (.name "record") py!"curtime") <| .cons (.const (.str py!"interval")) (.attr (.name "record") py!"interval") <| .cons (.const (.str py!"name")) (.call (.attr (.attr (.name "mdd") py!"name") py!"decode") exprs![] .nil) <| .cons (.const (.str py!"io_ms")) (.attr (.name "mdd") py!"io_ms") <| .cons (.const (.str py!"reads")) (.attr (.name "mdd") py!"nread") <| .cons (.const (.str py!"read_sectors")) (.attr (.name "mdd") py!"nrsect") <| .cons (.const (.str py!"writes")) (.attr (.name "mdd") py!"nwrite") <| .cons (.const (.str py!"write_sectors")) (.attr (.name "mdd") py!"nwsect") <| .nil)),
      .yield (.name "values")]] }

/-- atoparser/parsers/atop_1_26.py:157-175 -/
def Parsers.parse_MEM : FnDef := {
  name := py!"parse_MEM"
  params := ["header", "record", "sstat", "tstats"]
  defaults := []
  body := block![
    .assign (.name "values") (.dict (.cons (.const (.str py!"timestamp")) (.attr (.name "record") py!"curtime") <| .cons (.const (.str py!"interval")) (.attr (.name "record") py!"interval") <| .cons (.const (.str py!"page_size")) (.attr (.name "header") py!"pagesize") <| .cons (.const (.str py!"phys_mem")) (.attr (.attr (.name "sstat") py!"mem") py!"physmem") <| .cons (.const (.str py!"free_mem")) (.attr (.attr (.name "sstat") py!"mem") py!"freemem") <| .cons (.const (.str py!"page_cache")) (.attr (.attr (.name "sstat") py!"mem") py!"cachemem") <| .cons (.const (.str py!"buffer_cache")) (.attr (.attr (.name "sstat") py!"mem") py!"buffermem") <| .cons (.const (.str py!"slab")) (.attr (.attr (.name "sstat") py!"mem") py!"slabmem") <| .cons (.const (.str py!"dirty_pages")) (.attr (.attr (.name "sstat") py!"mem") py!"cachedrt") <| .nil)),
    .yield (.name "values")] }

/-- atoparser/parsers/atop_1_26.py:178-200 -/
def Parsers.parse_NETL : FnDef := {
  name := py!"parse_NETL"
  params := ["header", "record", "sstat", "tstats"]
  defaults := []
  body := block![
    .for ["interface"] (.attr (.attr (.name "sstat") py!"intf") py!"intf") block![
      .ifte (.not (.attr (.name "interface") py!"name")) block![
        .brk] block![],
      .assign (.name "values") (.dict (.cons (.const (.str py!"timestamp")) (.attr (.name "record") py!"curtime") <| .cons (.const (.str py!"interval")) (.attr (.name "record") py!"interval") <| .cons (.const (.str py!"name")) (.call (.attr (.attr (.name "interface") py!"name") py!"decode") exprs![] .nil) <| .cons (.const (.str py!"pkt_received")) (.attr (.name "interface") py!"rpack") <| .cons (.const (.str py!"byte_received")) (.attr (.name "interface") py!"rbyte") <| .cons (.const (.str py!"pkt_transmitted")) (.attr (.name "interface") py!"spack") <| .cons (.const (.str py!"bytes_transmitted")) (.attr (.name "interface") py!"sbyte") <| .cons (.const (.str py!"speed")) (.attr (.name "interface") py!"speed") <| .cons (.const (.str py!"duplex")) (.call (.attr (.glob py!"int") py!"from_bytes") exprs![(.attr (.name "interface") py!"duplex")] (.cons "byteorder" (.const (.str py!"big")) <| .nil)) <| .nil)),
      .yield (.name "values")]] }

/-- atoparser/parsers/atop_1_26.py:203-223 -/
def Parsers.parse_NETU : FnDef := {
  name := py!"parse_NETU"
  params := ["header", "record", "sstat", "tstats"]
  defaults := []
  body := block![
    .assign (.name "values") (.dict (.cons (.const (.str py!"timestamp")) (.attr (.name "record") py!"curtime") <| .cons (.const (.str py!"interval")) (.attr (.name "record") py!"interval") <| .cons (.const (.str py!"name")) (.const (.str py!"upper")) <| .cons (.const (.str py!"tcp_pkt_received")) (.attr (.attr (.attr (.name "sstat") py!"net") py!"tcp") py!"InSegs") <| .cons (.const (.str py!"tcp_pkt_transmitted")) (.attr (.attr (.attr (.name "sstat") py!"net") py!"tcp") py!"OutSegs") <| .cons (.const (.str py!"udp_pkt_received")) (.bin .add (.attr (.attr (.attr (.name "sstat") py!"net") py!"udpv4") py!"InDatagrams") (.attr (.attr (.attr (.name "sstat") py!"net") py!"udpv6") py!"Udp6InDatagrams")) <| .cons (.const (.str py!"udp_pkt_transmitted")) (.bin .add (.attr (.attr (.attr (.name "sstat") py!"net") py!"udpv4") py!"OutDatagrams") (.attr (.attr (.attr (.name "sstat") py!"net") py!"udpv6") py!"Udp6OutDatagrams")) <| .cons (.const (.str py!"ip_pkt_received")) (.bin .add (.attr (.attr (.attr (.name "sstat") py!"net") py!"ipv4") py!"InReceives") (.attr (.attr (.attr (.name "sstat") py!"net") py!"ipv6") py!"Ip6InReceives")) <| .cons (.const (.str py!"ip_pkt_transmitted")) (.bin .add (.attr (.attr (.attr (.name "sstat") py!"net") py!"ipv4") py!"OutRequests") (.attr (.attr (.attr (.name "sstat") py!"net") py!"ipv6") py!"Ip6OutRequests")) <| .cons (.const (.str py!"ip_pkt_delivered")) (.bin .add (.attr (.attr (.attr (.name "sstat") py!"net") py!"ipv4") py!"InDelivers") (.attr (.attr (.attr (.name "sstat") py!"net") py!"ipv6") py!"Ip6InDelivers")) <| .cons (.const (.str py!"ip_pkt_forwarded")) (.bin .add (.attr (.attr (.attr (.name "sstat") py!"net") py!"ipv4") py!"ForwDatagrams") (.attr (.attr (.attr (.name "sstat") py!"net") py!"ipv6") py!"Ip6OutForwDatagrams")) <| .nil)),
    .yield (.name "values")] }

/-- atoparser/parsers/atop_1_26.py:226-242 -/
def Parsers.parse_PAG : FnDef := {
  name := py!"parse_PAG"
  params := ["header", "record", "sstat", "tstats"]
  defaults := []
  body := block![
    .assign (.name "values") (.dict (.cons (.const (.str py!"timestamp")) (.attr (.name "record") py!"curtime") <| .cons (.const (.str py!"interval")) (.attr (.name "record") py!"interval") <| .cons (.const (.str py!"page_size")) (.attr (.name "header") py!"pagesize") <| .cons (.const (.str py!"page_scans")) (.attr (.attr (.name "sstat") py!"mem") py!"pgscans") <| .cons (.const (.str py!"alloc_stalls")) (.attr (.attr (.name "sstat") py!"mem") py!"allocstall") <| .cons (.const (.str py!"swapins")) (.attr (.attr (.name "sstat") py!"mem") py!"swins") <| .cons (.const (.str py!"swapouts")) (.attr (.attr (.name "sstat") py!"mem") py!"swouts") <| .nil)),
    .yield (.name "values")] }

/-- atoparser/parsers/atop_1_26.py:245-269 -/
def Parsers.parse_PRC : FnDef := {
  name := py!"parse_PRC"
  params := ["header", "record", "sstat", "tstats"]
  defaults := []
  body := block![
    .for ["stat"] (.name "tstats") block![
      .assign (.name "values") (.dict (.cons (.const (.str py!"timestamp")) (.attr (.name "record") py!"curtime") <| .cons (.const (.str py!"interval")) (.attr (.name "record") py!"interval") <| .cons (.const (.str py!"pid")) (.attr (.attr (.name "stat") py!"gen") py!"pid") <| .cons (.const (.str py!"name")) (.call (.attr (.attr (.attr (.name "stat") py!"gen") py!"name") py!"decode") exprs![] .nil) <| .cons (.const (.str py!"state")) (.call (.attr (.attr (.attr (.name "stat") py!"gen") py!"state") py!"decode") exprs![] .nil) <| .cons (.const (.str py!"ticks")) (.attr (.name "header") py!"hertz") <| .cons (.const (.str py!"user_consumption")) (.attr (.attr (.name "stat") py!"cpu") py!"utime") <| .cons (.const (.str py!"system_consumption")) (.attr (.attr (.name "stat") py!"cpu") py!"stime") <| .cons (.const (.str py!"nice")) (.attr (.attr (.name "stat") py!"cpu") py!"nice") <| .cons (.const (.str py!"priority")) (.attr (.attr (.name "stat") py!"cpu") py!"prio") <| .cons (.const (.str py!"priority_realtime")) (.attr (.attr (.name "stat") py!"cpu") py!"rtprio") <| .cons (.const (.str py!"policy")) (.attr (.attr (.name "stat") py!"cpu") py!"policy") <| .cons (.const (.str py!"cpu")) (.attr (.attr (.name "stat") py!"cpu") py!"curcpu") <| .cons (.const (.str py!"sleep")) (.attr (.attr (.name "stat") py!"cpu") py!"sleepavg") <| .nil)),
      .yield (.name "values")]] }

/-- atoparser/parsers/atop_1_26.py:272-294 -/
def Parsers.parse_PRD : FnDef := {
  name := py!"parse_PRD"
  params := ["header", "record", "sstat", "tstats"]
  defaults := []
  body := block![
    .for ["stat"] (.name "tstats") block![
      .assign (.name "values") (.dict (.cons (.const (.str py!"timestamp")) (.attr (.name "record") py!"curtime") <| .cons (.const (.str py!"interval")) (.attr (.name "record") py!"interval") <| .cons (.const (.str py!"pid")) (.attr (.attr (.name "stat") py!"gen") py!"pid") <| .cons (.const (.str py!"name")) (.call (.attr (.attr (.attr (.name "stat") py!"gen") py!"name") py!"decode") exprs![] .nil) <| .cons (.const (.str py!"state")) (.call (.attr (.attr (.attr (.name "stat") py!"gen") py!"state") py!"decode") exprs![] .nil) <| .cons (.const (.str py!"kernel_patch")) (.ifExp (.bin .bitAnd (.attr (.name "header") py!"supportflags") (.attr (.glob py!"atop_1_26") py!"PATCHSTAT")) (.const (.str py!"y")) (.const (.str py!"n"))) <| .cons (.const (.str py!"standard_io")) (.ifExp (.bin .bitAnd (.attr (.name "header") py!"supportflags") (.attr (.glob py!"atop_1_26") py!"IOSTAT")) (.const (.str py!"y")) (.const (.str py!"n"))) <| .cons (.const (.str py!"reads")) (.attr (.attr (.name "stat") py!"dsk") py!"rio") <| .cons (.const (.str py!"read_sectors")) (.attr (.attr (.name "stat") py!"dsk") py!"rsz") <| .cons (.const (.str py!"writes")) (.attr (.attr (.name "stat") py!"dsk") py!"wio") <| .cons (.const (.str py!"written_sectors")) (.attr (.attr (.name "stat") py!"dsk") py!"wsz") <| .cons (.const (.str py!"cancelled_sector_writes")) (.attr (.attr (.name "stat") py!"dsk") py!"cwsz") <| .nil)),
      .yield (.name "values")]] }

/-- atoparser/parsers/atop_1_26.py:297-330 -/
def Parsers.parse_PRG : FnDef := {
  name := py!"parse_PRG"
  params := ["header", "record", "sstat", "tstats"]
  defaults := []
  body := block![
    .for ["stat"] (.name "tstats") block![
      .assign (.name "values") (.dict (.cons (.const (.str py!"timestamp")) (.attr (.name "record") py!"curtime") <| .cons (.const (.str py!"interval")) (.attr (.name "record") py!"interval") <| .cons (.const (.str py!"pid")) (.attr (.attr (.name "stat") py!"gen") py!"pid") <| .cons (.const (.str py!"name")) (.call (.attr (.attr (.attr (.name "stat") py!"gen") py!"name") py!"decode") exprs![] .nil) <| .cons (.const (.str py!"state")) (.call (.attr (.attr (.attr (.name "stat") py!"gen") py!"state") py!"decode") exprs![] .nil) <| .cons (.const (.str py!"real_uid")) (.attr (.attr (.name "stat") py!"gen") py!"ruid") <| .cons (.const (.str py!"real_gid")) (.attr (.attr (.name "stat") py!"gen") py!"rgid") <| .cons (.const (.str py!"tgid")) (.attr (.attr (.name "stat") py!"gen") py!"pid") <| .cons (.const (.str py!"threads")) (.attr (.attr (.name "stat") py!"gen") py!"nthr") <| .cons (.const (.str py!"exit_code")) (.attr (.attr (.name "stat") py!"gen") py!"excode") <| .cons (.const (.str py!"start_time")) (.attr (.attr (.name "stat") py!"gen") py!"btime") <| .cons (.const (.str py!"cmd")) (.call (.attr (.attr (.attr (.name "stat") py!"gen") py!"cmdline") py!"decode") exprs![] .nil) <| .cons (.const (.str py!"ppid")) (.attr (.attr (.name "stat") py!"gen") py!"ppid") <| .cons (.const (.str py!"running_threads")) (.attr (.attr (.name "stat") py!"gen") py!"nthrrun") <| .cons (.const (.str py!"sleeping_threads")) (.attr (.attr (.name "stat") py!"gen") py!"nthrslpi") <| .cons (.const (.str py!"dead_threads")) (.attr (.attr (.name "stat") py!"gen") py!"nthrslpu") <| .cons (.const (.str py!"effective_uid")) (.attr (.attr (.name "stat") py!"gen") py!"euid") <| .cons (.const (.str py!"effective_gid")) (.attr (.attr (.name "stat") py!"gen") py!"egid") <| .cons (.const (.str py!"saved_uid")) (.attr (.attr (.name "stat") py!"gen") py!"suid") <| .cons (.const (.str py!"saved_gid")) (.attr (.attr (.name "stat") py!"gen") py!"sgid") <| .cons (.const (.str py!"filesystem_uid")) (.attr (.attr (.name "stat") py!"gen") py!"fsuid") <| .cons (.const (.str py!"filesystem_gid")) (.attr (.attr (.name "stat") py!"gen") py!"fsgid") <| .cons (.const (.str py!"elapsed_time")) (.attr (.attr (.name "stat") py!"gen") py!"elaps") <| .nil)),
      .yield (.name "values")]] }

/-- atoparser/parsers/atop_1_26.py:333-356 -/
def Parsers.parse_PRM : FnDef := {
  name := py!"parse_PRM"
  params := ["header", "record", "sstat", "tstats"]
  defaults := []
  body := block![
    .for ["stat"] (.name "tstats") block![
      .assign (.name "values") (.dict (.cons (.const (.str py!"timestamp")) (.attr (.name "record") py!"curtime") <| .cons (.const (.str py!"interval")) (.attr (.name "record") py!"interval") <| .cons (.const (.str py!"pid")) (.attr (.attr (.name "stat") py!"gen") py!"pid") <| .cons (.const (.str py!"name")) (.call (.attr (.attr (.attr (.name "stat") py!"gen") py!"name") py!"decode") exprs![] .nil) <| .cons (.const (.str py!"state")) (.call (.attr (.attr (.attr (.name "stat") py!"gen") py!"state") py!"decode") exprs![] .nil) <| .cons (.const (.str py!"page")) (.attr (.name "header") py!"pagesize") <| .cons (.const (.str py!"vsize")) (.bin .mul (.attr (.attr (.name "stat") py!"mem") py!"vmem") (.const (.int 1024))) <| .cons (.const (.str py!"rsize")) (.bin .mul (.attr (.attr (.name "stat") py!"mem") py!"rmem") (.const (.int 1024))) <| .cons (.const (.str py!"ssize")) (.bin .mul (.attr (.attr (.name "stat") py!"mem") py!"shtext") (.const (.int 1024))) <| .cons (.const (.str py!"vgrowth")) (.bin .mul (.attr (.attr (.name "stat") py!"mem") py!"vgrow") (.const (.int 1024))) <| .cons (.const (.str py!"rgrowth")) (.bin .mul (.attr (.attr (.name "stat") py!"mem") py!"rgrow") (.const (.int 1024))) <| .cons (.const (.str py!"minor_faults")) (.attr (.attr (.name "stat") py!"mem") py!"minflt") <| .cons (.const (.str py!"major_faults")) (.attr (.attr (.name "stat") py!"mem") py!"majflt") <| .nil)),
      .yield (.name "values")]] }

/-- atoparser/parsers/atop_1_26.py:359-385 -/
def Parsers.parse_PRN : FnDef := {
  name := py!"parse_PRN"
  params := ["header", "record", "sstat", "tstats"]
  defaults := []
  body := block![
    .for ["stat"] (.name "tstats") block![
      .assign (.name "values") (.dict (.cons (.const (.str py!"timestamp")) (.attr (.name "record") py!"curtime") <| .cons (.const (.str py!"interval")) (.attr (.name "record") py!"interval") <| .cons (.const (.str py!"pid")) (.attr (.attr (.name "stat") py!"gen") py!"pid") <| .cons (.const (.str py!"name")) (.call (.attr (.attr (.attr (.name "stat") py!"gen") py!"name") py!"decode") exprs![] .nil) <| .cons (.const (.str py!"state")) (.call (.attr (.attr (.attr (.name "stat") py!"gen") py!"state") py!"decode") exprs![] .nil) <| .cons (.const (.str py!"kernel_patch")) (.ifExp (.bin .bitAnd (.attr (.name "header") py!"supportflags") (.attr (.glob py!"atop_1_26") py!"PATCHSTAT")) (.const (.str py!"y")) (.const (.str py!"n"))) <| .cons (.const (.str py!"tcp_transmitted")) (.attr (.attr (.name "stat") py!"net") py!"tcpsnd") <| .cons (.const (.str py!"tcp_transmitted_size")) (.attr (.attr (.name "stat") py!"net") py!"tcpssz") <| .cons (.const (.str py!"tcp_received")) (.attr (.attr (.name "stat") py!"net") py!"tcprcv") <| .cons (.const (.str py!"tcp_received_size")) (.attr (.attr (.name "stat") py!"net") py!"tcprsz") <| .cons (.const (.str py!"udp_transmitted")) (.attr (.attr (.name "stat") py!"net") py!"udpsnd") <| .cons (.const (.str py!"udp_transmitted_size")) (.attr (.attr (.name "stat") py!"net") py!"udpssz") <| .cons (.const (.str py!"udp_received")) (.attr (.attr (.name "stat") py!"net") py!"udprcv") <| .cons (.const (.str py!"udp_received_size")) (.attr (.attr (.name "stat") py!"net") py!"udprsz") <| .cons (.const (.str py!"raw_transmitted")) (.attr (.attr (.name "stat") py!"net") py!"rawsnd") <| .cons (.const (.str py!"raw_received")) (.attr (.attr (.name "stat") py!"net") py!"rawrcv") <| .nil)),
      .yield (.name "values")]] }

/-- atoparser/parsers/atop_1_26.py:388-404 -/
def Parsers.parse_SWP : FnDef := {
  name := py!"parse_SWP"
  params := ["header", "record", "sstat", "tstats"]
  defaults := []
  body := block![
    .assign (.name "values") (.dict (.cons (.const (.str py!"timestamp")) (.attr (.name "record") py!"curtime") <| .cons (.const (.str py!"interval")) (.attr (.name "record") py!"interval") <| .cons (.const (.str py!"page_size")) (.attr (.name "header") py!"pagesize") <| .cons (.const (.str py!"swap")) (.attr (.attr (.name "sstat") py!"mem") py!"totswap") <| .cons (.const (.str py!"free_swap")) (.attr (.attr (.name "sstat") py!"mem") py!"freeswap") <| .cons (.const (.str py!"committed_space")) (.attr (.attr (.name "sstat") py!"mem") py!"committed") <| .cons (.const (.str py!"committed_limit")) (.attr (.attr (.name "sstat") py!"mem") py!"commitlim") <| .nil)),
    .yield (.name "values")] }

/-- atoparser/parsers/atop_1_26.py: the statements of the module, in order. -/
def Parsers.decls : List Decl := [
  .fromImport py!"atoparser" py!"utils",
  .fromImport py!"atoparser.structs" py!"atop_1_26",
  .def Parsers.parse_cpu,
  .def Parsers.parse_CPL,
  .def Parsers.parse_CPU,
  .def Parsers.parse_DSK,
  .def Parsers.parse_LVM,
  .def Parsers.parse_MDD,
  .def Parsers.parse_MEM,
  .def Parsers.parse_NETL,
  .def Parsers.parse_NETU,
  .def Parsers.parse_PAG,
  .def Parsers.parse_PRC,
  .def Parsers.parse_PRD,
  .def Parsers.parse_PRG,
  .def Parsers.parse_PRM,
  .def Parsers.parse_PRN,
  .def Parsers.parse_SWP]

/-- atoparser/reader.py:18-59 -/
def Reader.parse_args : FnDef := {
  name := py!"parse_args"
  params := []
  defaults := []
  body := block![
    .assign (.name "parser") (.call (.attr (.glob py!"argparse") py!"ArgumentParser") exprs![(.const (.str py!"Convert binary files into JSON output."))] .nil),
    .expr (.call (.attr (.name "parser") py!"add_argument") exprs![(.const (.str py!"files"))] (.cons "nargs" (.const (.str py!"+")) <| .cons "help" (.const (.str py!"Files to process. May be uncompressed or gzip compressed.")) <| .nil)),
    .expr (.call (.attr (.name "parser") py!"add_argument") exprs![(.const (.str py!"-P")), (.const (.str py!"--parseables"))] (.cons "nargs" (.const (.str py!"+")) <| .cons "choices" (.glob py!"PARSEABLES") <| .cons "metavar" (.const (.str py!"PARSEABLE")) <| .cons "help" (.const (.str py!"Display output in Atop \"parseable\" format, instead of full structs. See \"man atop\" for full details. e.g. \"CPU\", \"DSK\", etc.")) <| .nil)),
    .expr (.call (.attr (.name "parser") py!"add_argument") exprs![(.const (.str py!"-p")), (.const (.str py!"--pretty-print"))] (.cons "action" (.const (.str py!"store_true")) <| .cons "help" (.const (.str py!"Pretty print the JSON output with indentation.")) <| .nil)),
    .expr (.call (.attr (.name "parser") py!"add_argument") exprs![(.const (.str py!"--tstats"))] (.cons "dest" (.const (.str py!"show_tstats")) <| .cons "action" (.const (.str py!"store_true")) <| .cons "help" (.const (.str py!"Include TStats/PStats in output. Very verbose.")) <| .nil)),
    .expr (.call (.attr (.name "parser") py!"add_argument") exprs![(.const (.str py!"--cstats"))] (.cons "dest" (.const (.str py!"show_cstats")) <| .cons "action" (.const (.str py!"store_true")) <| .cons "help" (.const (.str py!"Include CGroup/CStats in output. Only available with Atop 2.11+ logs. Verbose.")) <| .nil)),
    .assign (.name "args") (.call (.attr (.name "parser") py!"parse_args") exprs![] .nil),
    .ret (.name "args")] }

/-- atoparser/reader.py:62-112 -/
def Reader.parse_file : FnDef := {
  name := py!"parse_file"
  params := ["file", "parseables", "pretty_print", "show_tstats", "show_cstats"]
  defaults := [(.const .none), (.const (.bool true)), (.const (.bool false)), (.const (.bool false))]
  body := block![
    .assign (.name "samples") (.list exprs![]),
    .assign (.name "opener") (.ifExp (.cmp .notIn (.const (.str py!".gz")) (.name "file")) (.glob py!"open") (.attr (.glob py!"gzip") py!"open")),
    .with (.call (.name "opener") exprs![(.name "file"), (.const (.str py!"rb"))] .nil) "raw_file" block![
      .assign (.name "header") (.call (.attr (.glob py!"atoparser") py!"get_header") exprs![(.name "raw_file")] .nil),
      .ifte (.and (.name "parseables") (.cmp .notIn (.attr (.name "header") py!"semantic_version") (.glob py!"PARSEABLE_MAP"))) block![
        .expr (.call (.attr (.name "samples") py!"append") exprs![(.dict (.cons (.const (.str py!"error")) (.fstr exprs![(.const (.str py!"Atop version ")), (.fmt (.attr (.name "header") py!"semantic_version")), (.const (.str py!" does not support parseables, only full raw output."))]) <| .cons (.const (.str py!"file")) (.name "file") <| .nil))] .nil)] block![
        .assign (.name "parsers") (.call (.attr (.glob py!"PARSEABLE_MAP") py!"get") exprs![(.attr (.name "header") py!"semantic_version"), (.sub (.glob py!"PARSEABLE_MAP") (.const (.str py!"1.26")))] .nil),
        .for ["record", "sstat", "tstats", "cgroups"] (.call (.attr (.glob py!"atoparser") py!"generate_statistics") exprs![(.name "raw_file"), (.name "header")] (.cons "raise_on_truncation" (.const (.bool false)) <| .nil)) block![
          .ifte (.name "parseables") block![
            .for ["parseable"] (.name "parseables") block![
              .for ["sample"] (.call (.sub (.name "parsers") (.name "parseable")) exprs![(.name "header"), (.name "record"), (.name "sstat"), (.name "tstats")] .nil) block![
                .assign (.sub (.name "sample") (.const (.str py!"parseable"))) (.name "parseable"),
                .expr (.call (.attr (.name "samples") py!"append") exprs![(.name "sample")] .nil)]]] block![
            .assign (.name "converted") (.dict (.cons (.const (.str py!"header")) (.call (.attr (.glob py!"atoparser") py!"struct_to_dict") exprs![(.name "header")] .nil) <| .cons (.const (.str py!"record")) (.call (.attr (.glob py!"atoparser") py!"struct_to_dict") exprs![(.name "record")] .nil) <| .cons (.const (.str py!"sstat")) (.call (.attr (.glob py!"atoparser") py!"struct_to_dict") exprs![(.name "sstat")] .nil) <| .nil)),
            .ifte (.name "show_tstats") block![
              .assign (.sub (.name "converted") (.const (.str py!"tstat"))) (.listComp (.call (.attr (.glob py!"atoparser") py!"struct_to_dict") exprs![(.name "stat")] .nil) "stat" (.name "tstats"))] block![],
            .ifte (.name "show_cstats") block![
              .assign (.sub (.name "converted") (.const (.str py!"cgroup"))) (.listComp (.call (.attr (.glob py!"atoparser") py!"struct_to_dict") exprs![(.name "stat")] .nil) "stat" (.name "cgroups"))] block![],
            .expr (.call (.attr (.name "samples") py!"append") exprs![(.name "converted")] .nil)]]]],
    .expr (.call (.glob py!"print") exprs![(.call (.attr (.glob py!"json") py!"dumps") exprs![(.name "samples")] (.cons "indent" (.ifExp (.name "pretty_print") (.const (.int 2)) (.const .none)) <| .nil))] .nil)] }

/-- atoparser/reader.py:115-126 -/
def Reader.main : FnDef := {
  name := py!"main"
  params := []
  defaults := []
  body := block![
    .assign (.name "args") (.call (.glob py!"parse_args") exprs![] .nil),
    .for ["file"] (.attr (.name "args") py!"files") block![
      .expr (.call (.glob py!"parse_file") exprs![(.name "file"), (.attr (.name "args") py!"parseables"), (.attr (.name "args") py!"pretty_print"), (.attr (.name "args") py!"show_tstats"), (.attr (.name "args") py!"show_cstats")] .nil)]] }

/-- atoparser/reader.py: the statements of the module, in order. -/
def Reader.decls : List Decl := [
  .import py!"argparse",
  .import py!"gzip",
  .import py!"json",
  .import py!"atoparser",
  .fromImport py!"atoparser.parsers" py!"atop_1_26",
  .assign py!"PARSEABLES" (.list exprs![(.const (.str py!"cpu")), (.const (.str py!"CPL")), (.const (.str py!"CPU")), (.const (.str py!"DSK")), (.const (.str py!"LVM")), (.const (.str py!"MDD")), (.const (.str py!"MEM")), (.const (.str py!"NETL")), (.const (.str py!"NETU")), (.const (.str py!"PAG")), (.const (.str py!"PRC")), (.const (.str py!"PRG")), (.const (.str py!"PRM")), (.const (.str py!"PRN")), (.const (.str py!"SWP"))]),
  .assign py!"PARSEABLE_MAP" (.dict (.cons (.const (.str py!"1.26")) (.dictComp (.name "parseable") (.call (.glob py!"getattr") exprs![(.glob py!"atop_1_26"), (.fstr exprs![(.const (.str py!"parse_")), (.fmt (.name "parseable"))])] .nil) "parseable" (.glob py!"PARSEABLES")) <| .nil)),
  .def Reader.parse_args,
  .def Reader.parse_file,
  .def Reader.main]

end Atop.Src.Text
