#!/usr/bin/env python3
"""Write the literal byte layouts of Verif/Spec/Layouts/*.lean from the text of /repo/atoparser/structs/*.py.

Independent of gen_structs.py: types are resolved and laid out here (LP64, little endian, natural alignment), the Lean
files contain only names and numbers.  The repo is read as TEXT only (python `ast`), never imported or executed.
Usage: python3 gen_layouts.py /repo /verif/lean/Verif/Spec/Layouts
"""
import ast
import os
import sys

REPO, OUT = sys.argv[1], sys.argv[2]
FILES = ["shared"] + ["atop_" + v for v in "1_26 2_3 2_4 2_5 2_6 2_7 2_8 2_9 2_10 2_11 2_12".split()]
C = {"c_char": ("char", 1), "c_float": ("float", 4), "c_uint8": ("uint", 1), "c_short": ("sint", 2), "c_ushort": ("uint", 2),
     "c_int": ("sint", 4), "c_int32": ("sint", 4), "c_uint": ("uint", 4), "c_long": ("sint", 8), "c_ulong": ("uint", 8),
     "c_longlong": ("sint", 8)}
env = {}


def ev(e, scope):
    """Value of an expression: a number, a string, a type, a dict, None."""
    if isinstance(e, ast.Constant):
        return e.value
    if isinstance(e, ast.Name):
        return scope[e.id]
    if isinstance(e, ast.Attribute):
        if isinstance(e.value, ast.Name) and e.value.id == "ctypes":
            return C[e.attr]
        base = e.value
        if isinstance(base, ast.Name) and base.id in env:
            return env[base.id][e.attr]
        return ev(base, scope)[e.attr]
    if isinstance(e, ast.BinOp):
        a, b = ev(e.left, scope), ev(e.right, scope)
        if isinstance(e.op, ast.Mult):
            return ("array", a, b)
        assert isinstance(e.op, ast.Add)
        return a + b
    if isinstance(e, ast.List):
        return [tuple(ev(x, scope) for x in t.elts) for t in e.elts]
    if isinstance(e, ast.Dict):
        return {k.value: v.value for k, v in zip(e.keys, e.values)}
    raise ValueError(ast.dump(e))


for f in FILES:
    sc = env[f] = {}
    for node in ast.parse(open(f"{REPO}/atoparser/structs/{f}.py").read()).body:
        if isinstance(node, ast.ImportFrom) and node.module == "atoparser.structs.shared":
            for a in node.names:
                sc[a.asname or a.name] = env["shared"][a.name]
        elif isinstance(node, ast.Assign):
            sc[node.targets[0].id] = ev(node.value, sc)
        elif isinstance(node, ast.ClassDef):
            if node.name in ("HeaderMixin", "CGChainer"):
                sc[node.name] = node.name
                continue
            cl = {}
            for b in node.bases:
                if isinstance(b, ast.Attribute) and b.attr == "Structure" or isinstance(b, ast.Name) and b.id in ("HeaderMixin",):
                    continue
                inherited = ev(b, sc)
                if isinstance(inherited, dict):
                    cl.update(inherited)
            for st in node.body:
                if isinstance(st, ast.Assign):
                    cl[st.targets[0].id] = ev(st.value, sc)
            sc[node.name] = cl


def sizeof(t):
    """(size, alignment)"""
    if isinstance(t, dict):
        end, al = 0, 1
        for n, ft in t["_fields_"]:
            s, a = sizeof(ft)
            end = -(-end // a) * a + s
            al = max(al, a)
        return -(-end // al) * al, al
    if t[0] == "array":
        s, a = sizeof(t[1])
        return s * t[2], a
    return t[1], t[1]


def offsets(t):
    end, r = 0, {}
    for n, ft in t["_fields_"]:
        s, a = sizeof(ft)
        end = -(-end // a) * a
        r[n] = (end, ft)
        end += s
    return r


count = 0


def node(t, base, ind):
    global count
    if isinstance(t, dict):
        offs = offsets(t)
        lims = t.get("fields_limiters", {})
        rows = []
        for n, (o, ft) in offs.items():
            if not isinstance(ft, dict) and "future" in n:
                continue
            rows.append(f'{ind}({"py!"}"{n}", {field(n, ft, base, o, offs, lims, ind + "  ")})')
        return ".record <| .ofList [\n" + ",\n".join(rows) + "]"
    count += 1
    if t[0] == "char":
        return f".char {base}"
    if t[0] == "float":
        return f".float {base}"
    return f".{t[0]} {base} {t[1]}"


def field(n, ft, base, o, offs, lims, ind):
    global count
    if isinstance(ft, tuple) and ft[0] == "array":
        _, e, k = ft
        if e == C["c_char"]:
            count += 1
            return f".text {base + o} {k}"
        if n in lims:
            lo, lt = offs[lims[n]]
            lim = f"(some ({base + lo}, {lt[1]}, {'true' if lt[0] == 'sint' else 'false'}))"
        else:
            lim = "none"
        return f".list {k} {sizeof(e)[0]} {lim} <| {node(e, base + o, ind)}"
    return node(ft, base + o, ind)


os.makedirs(OUT, exist_ok=True)
allv = []
for f in FILES[1:]:
    H = env[f]["Header"]
    v = f[len("atop_"):]
    ver = v.replace("_", ".")
    assert H["supported_version"] == ver
    out = [f"-- GENERATED by tools/gen_layouts.py from the text of /repo/atoparser/structs/{f}.py. Do not edit.",
           "import Verif.Spec.Node", "/-!", f"# Byte layout of the blocks of an atop {ver} log", "-/", "", "namespace Atop.Spec", ""]
    for blk, t in (("header", {"_fields_": H["_fields_"]}), ("record", H["Record"]), ("sstat", H["SStat"]), ("tstat", H["TStat"]),
                   ("cstat", H["CStat"])):
        if t is None:
            continue
        out.append(f"/-- {blk} of version {ver}: {sizeof(t)[0]} bytes -/")
        out.append(f"def L{v}.{blk} : Node := {node(t, 0, '  ')}\n")
    allv.append((v, H["CStat"] is not None, [sizeof(H[k])[0] for k in ("Record", "SStat", "TStat")] + [sizeof(H["CStat"])[0] if H["CStat"] else None]))
    out.append("end Atop.Spec")
    open(f"{OUT}/L{v}.lean", "w").write("\n".join(out) + "\n")
print(count, "leaves", allv)
out = ["-- GENERATED by tools/gen_layouts.py. Do not edit."] + [f"import Verif.Spec.Layouts.L{v}" for v, _, _ in allv]
out += ["/-!", "# The byte layouts of all versions", "-/", "", "namespace Atop.Spec", "", "/-- The blocks of a log. -/", "structure Blocks where",
        "  header : Node", "  record : Node", "  sstat : Node", "  tstat : Node", "  cstat : Option Node", "",
        "/-- Version and layout of its blocks. -/", "def layouts : List (PyStr × Blocks) := ["]
out.append(",\n".join(f'  (py!"{v.replace("_", ".")}", ⟨L{v}.header, L{v}.record, L{v}.sstat, L{v}.tstat, {f"some L{v}.cstat" if cs else "none"}⟩)' for v, cs, _ in allv) + "]")
out += ["", "end Atop.Spec"]
open(OUT + ".lean", "w").write("\n".join(out) + "\n")
