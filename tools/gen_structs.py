#!/usr/bin/env python3
"""Translate the ctypes declarations in /repo/atoparser/structs/*.py into Lean schemas.

The repo is read as TEXT only (python `ast`), never imported or executed.
One Lean module per Python module; every definition cites file:first-last line.
Usage: python3 gen_structs.py /repo /verif/lean/Verif/Model/Structs
"""
import ast
import os
import sys

REPO, OUT = sys.argv[1], sys.argv[2]
MODULES = ["shared", "atop_1_26", "atop_2_3", "atop_2_4", "atop_2_5", "atop_2_6", "atop_2_7", "atop_2_8",
           "atop_2_9", "atop_2_10", "atop_2_11", "atop_2_12"]
# names defined in Verif/Model/CTypes.lean
PRIMS = {"c_uint", "c_ushort", "c_int", "c_short", "c_uint8", "c_int32", "c_long", "c_ulong", "c_longlong",
         "c_float", "c_char"}
SHARED_PRIMS = {"time_t", "count_t", "off_t", "pid_t"}  # transcribed by hand in CTypes.lean (shared.py:18-25)
SKIP = {"CGChainer"}  # plain Python class, modelled in Verif/Model/Utils.lean


def lean_mod(m):
    return "Shared" if m == "shared" else "V" + m[len("atop_"):]


def texpr(e, mod):
    """Lean term for a ctypes type expression."""
    if isinstance(e, ast.BinOp) and isinstance(e.op, ast.Mult):
        return f"(.array {texpr(e.left, mod)} {nexpr(e.right, mod)})"
    if isinstance(e, ast.Attribute) and isinstance(e.value, ast.Name):
        if e.value.id == "ctypes":
            assert e.attr in PRIMS, e.attr
            return e.attr
        return f"{lean_mod(e.value.id)}.{e.attr}"
    if isinstance(e, ast.Name):
        if e.id in SHARED_PRIMS:
            return e.id
        if e.id == "UTSName" and mod != "shared":
            return "Shared.UTSName"
        return f"{lean_mod(mod)}.{e.id}"
    raise ValueError(ast.dump(e))


def nexpr(e, mod):
    if isinstance(e, ast.Constant):
        return str(e.value)
    if isinstance(e, ast.Name):
        return f"{lean_mod(mod)}.{e.id}"
    if isinstance(e, ast.BinOp) and isinstance(e.op, ast.Add):
        return f"({nexpr(e.left, mod)} + {nexpr(e.right, mod)})"
    raise ValueError(ast.dump(e))


headers = {}
inventory = []
for m in MODULES:
    path = f"atoparser/structs/{m}.py"
    tree = ast.parse(open(os.path.join(REPO, path)).read())
    L = lean_mod(m)
    imports, body = set(), []
    for node in tree.body:
        if isinstance(node, ast.ImportFrom) and node.module == "atoparser.structs":
            imports |= {lean_mod(a.name) for a in node.names}
        elif isinstance(node, ast.ImportFrom) and node.module == "atoparser.structs.shared":
            imports.add("Shared")
        elif isinstance(node, ast.Assign):
            name = node.targets[0].id
            cite = f"/-- {path}:{node.lineno} -/"
            if name in SHARED_PRIMS or name in SKIP:
                continue
            if isinstance(node.value, ast.Constant):
                body.append(f"{cite}\nabbrev {L}.{name} : Nat := {node.value.value}")
            else:
                body.append(f"{cite}\ndef {L}.{name} : CType := {texpr(node.value, m)}")
        elif isinstance(node, ast.ClassDef):
            if node.name in SKIP or node.name == "HeaderMixin":
                continue
            cite = f"{path}:{node.lineno}-{node.end_lineno}"
            fields, lims, attrs, fields_line = None, [], {}, None
            for st in node.body:
                if isinstance(st, ast.Assign):
                    n = st.targets[0].id
                    if n == "_fields_":
                        fields = st.value
                    elif n == "fields_limiters":
                        lims = [(k.value, v.value) for k, v in zip(st.value.keys, st.value.values)]
                    else:
                        attrs[n] = st.value
                else:
                    assert isinstance(st, ast.Expr), ast.dump(st)  # docstring
            base = node.bases[0]
            if isinstance(fields, ast.List):
                flines = []
                for el in fields.elts:
                    assert isinstance(el, ast.Tuple) and len(el.elts) == 2
                    flines.append(f"    (py!\"{el.elts[0].value}\", {texpr(el.elts[1], m)})")
                ftxt = ".ofList [\n" + ",\n".join(flines) + "]"
            elif isinstance(fields, ast.Attribute):  # atop_2_11.Header._fields_
                ftxt = f"{lean_mod(fields.value.value.id)}.{fields.value.attr}.fields"
            else:
                assert fields is None
                ftxt = None
            if node.name == "Header":
                headers[m] = True
                if ftxt is None:  # class Header(atop_2_3.Header): inherits _fields_
                    ftxt = f"{lean_mod(base.value.id)}.Header.fields"
                for k in list(attrs):
                    if k == "PStat":
                        attrs.pop(k)
                assert set(attrs) == {"supported_version", "Record", "SStat", "TStat", "CStat", "CGChainer"}, attrs
                none = lambda e: isinstance(e, ast.Constant) and e.value is None
                assert none(attrs["CStat"]) == none(attrs["CGChainer"])
                cst = "none" if none(attrs["CStat"]) else f"some {L}.{attrs['CStat'].id}"
                body.append(
                    f"/-- {cite} -/\ndef {L}.Header : HeaderClass where\n"
                    f"  supportedVersion := py!\"{attrs['supported_version'].value}\"\n"
                    f"  fields := {ftxt}\n"
                    f"  Record := {L}.{attrs['Record'].id}\n"
                    f"  SStat := {L}.{attrs['SStat'].id}\n"
                    f"  TStat := {L}.{attrs['TStat'].id}\n"
                    f"  CStat := {cst}")
            else:
                assert not attrs, (m, node.name, attrs)
                assert ftxt is not None and isinstance(base, ast.Attribute) and base.attr == "Structure"
                ltxt = "[" + ", ".join(f"(py!\"{k}\", py!\"{v}\")" for k, v in lims) + "]"
                inventory.append(f"{L}.{node.name}")
                body.append(
                    f"/-- {cite} -/\ndef {L}.{node.name} : CType := .struct py!\"{m}.{node.name}\" ({ftxt}) {ltxt}")
    out = "-- GENERATED by tools/gen_structs.py from /repo/" + path + " (read as text). Do not edit.\n"
    for i in sorted(imports - {L}) or []:
        out += f"import Verif.Model.Structs.{i}\n"
    if not imports - {L}:
        out += "import Verif.Model.CTypes\n"
    out += "\nnamespace Atop\n\n" + "\n\n".join(body) + "\n\nend Atop\n"
    open(os.path.join(OUT, L + ".lean"), "w").write(out)

out = "-- GENERATED by tools/gen_structs.py. Do not edit.\n"
for m in MODULES:
    out += f"import Verif.Model.Structs.{lean_mod(m)}\n"
out += "\nnamespace Atop\n\n/-- Every `ctypes.Structure` subclass declared in /repo/atoparser/structs/*.py other than the\n`Header` classes (aliases denote the same class object and are not repeated). -/\n"
out += "def allStructs : List CType := [\n  " + ",\n  ".join(inventory) + "]\n\nend Atop\n"
open(os.path.join(OUT, "All.lean"), "w").write(out)
print(len(inventory), "struct classes,", len(headers), "headers")
