#!/usr/bin/env python3
"""Write lean/Verif/Source/Text.lean and lean/Verif/Source/Structs/: the syntax trees of the functions of /repo/atoparser, node for node.

Reads the text with Python's `ast` module; nothing is imported or run.  Any construct outside
lean/Verif/Source/Syntax.lean stops the translation.  Left out, and listed in the output: docstrings, annotations
(without value), the `Union` aliases of utils.py and the `if __name__ == "__main__"` line of reader.py.

usage: gen_source.py [repo] > lean/Verif/Source/Text.lean
       gen_source.py repo --structs lean/Verif/Source/Structs
       gen_source.py repo --readme > lean/Verif/Source/Readme.lean
"""

import ast
import sys

REPO = sys.argv[1] if len(sys.argv) > 1 else "/repo"


class Bad(Exception):
    pass


def bad(node):
    raise Bad(f"line {getattr(node, 'lineno', '?')}: {ast.dump(node)[:200]}")


def quote(s):
    return '"' + s.replace("\\", "\\\\").replace('"', '\\"').replace("\n", "\\n") + '"'


def py(s):
    return "py!" + quote(s)


BIN = {ast.Add: "add", ast.Mult: "mul", ast.BitAnd: "bitAnd", ast.RShift: "rshift", ast.Sub: "sub", ast.Div: "div"}
CMP = {ast.Eq: "eq", ast.NotEq: "notEq", ast.Lt: "lt", ast.LtE: "ltE", ast.Gt: "gt", ast.GtE: "gtE",
       ast.Is: "is", ast.IsNot: "isNot", ast.In: "isIn", ast.NotIn: "notIn"}


class Fun:
    """Translation of expressions and statements; `locals` are the names bound in the enclosing function."""

    def __init__(self, locals_=()):
        self.locals = set(locals_)

    def exprs(self, es):
        return "exprs![" + ", ".join(self.e(x) for x in es) + "]"

    def pairs(self, kvs):
        kvs = list(kvs)
        return "(" + "".join(f".cons {k} {v} <| " for k, v in kvs) + ".nil)" if kvs else ".nil"

    def e(self, n):
        return "(" + self.e0(n) + ")"

    def e0(self, n):
        match n:
            case ast.Constant(value=None):
                return ".const .none"
            case ast.Constant(value=bool() as b):
                return f".const (.bool {str(b).lower()})"
            case ast.Constant(value=int() as i):
                return f".const (.int {i})" if i >= 0 else f".const (.int ({i}))"
            case ast.Constant(value=str() as s):
                return f".const (.str {py(s)})"
            case ast.UnaryOp(op=ast.USub(), operand=ast.Constant(value=int() as i)):
                return f".const (.int (-{i}))"
            case ast.Name(id=x):
                return f".name {quote(x)}" if x in self.locals else f".glob {py(x)}"
            case ast.Attribute(value=v, attr=a):
                return f".attr {self.e(v)} {py(a)}"
            case ast.Call(func=f, args=[ast.GeneratorExp() as g], keywords=[]):
                return f".call {self.e(f)} exprs![{self.e(g)}] .nil"
            case ast.Call(func=f, args=args, keywords=kws):
                if any(isinstance(a, ast.Starred) for a in args) or any(k.arg is None for k in kws):
                    bad(n)
                k = self.pairs((quote(k.arg), self.e(k.value)) for k in kws)
                return f".call {self.e(f)} {self.exprs(args)} {k}"
            case ast.BinOp(left=a, op=op, right=b) if type(op) in BIN:
                return f".bin .{BIN[type(op)]} {self.e(a)} {self.e(b)}"
            case ast.Compare(left=a, ops=[op], comparators=[b]):
                return f".cmp .{CMP[type(op)]} {self.e(a)} {self.e(b)}"
            case ast.BoolOp(op=ast.And(), values=[a, b]):
                return f".and {self.e(a)} {self.e(b)}"
            case ast.UnaryOp(op=ast.Not(), operand=a):
                return f".not {self.e(a)}"
            case ast.IfExp(test=t, body=b, orelse=o):
                return f".ifExp {self.e(t)} {self.e(b)} {self.e(o)}"
            case ast.Subscript(value=v, slice=ast.Slice(lower=lo, upper=hi, step=None)):
                none = "(.const .none)"
                return f".slice {self.e(v)} {self.e(lo) if lo else none} {self.e(hi) if hi else none}"
            case ast.Subscript(value=v, slice=i):
                return f".sub {self.e(v)} {self.e(i)}"
            case ast.List(elts=es):
                return f".list {self.exprs(es)}"
            case ast.Tuple(elts=es):
                return f".tuple {self.exprs(es)}"
            case ast.Dict(keys=ks, values=vs):
                return ".dict " + self.pairs((self.e(k), self.e(v)) for k, v in zip(ks, vs))
            case ast.JoinedStr(values=vs):
                return f".fstr {self.exprs(vs)}"
            case ast.FormattedValue(value=v, conversion=-1, format_spec=None):
                return f".fmt {self.e(v)}"
            case ast.FormattedValue(value=v, conversion=-1, format_spec=ast.JoinedStr(values=[ast.Constant(value=str() as spec)])):
                return f".fmtSpec {self.e(v)} {py(spec)}"
            case ast.ListComp(elt=e, generators=[ast.comprehension(target=ast.Name(id=x), iter=it, ifs=[], is_async=0)]):
                return f".listComp {Fun(self.locals | {x}).e(e)} {quote(x)} {self.e(it)}"
            case ast.GeneratorExp(elt=e, generators=[ast.comprehension(target=ast.Name(id=x), iter=it, ifs=[], is_async=0)]):
                return f".genExp {Fun(self.locals | {x}).e(e)} {quote(x)} {self.e(it)}"
            case ast.DictComp(key=k, value=v, generators=[ast.comprehension(target=ast.Name(id=x), iter=it, ifs=[], is_async=0)]):
                inner = Fun(self.locals | {x})
                return f".dictComp {inner.e(k)} {inner.e(v)} {quote(x)} {self.e(it)}"
        bad(n)

    def names(self, target):
        match target:
            case ast.Name(id=x):
                return [x]
            case ast.Tuple(elts=es):
                return [e.id for e in es]
        bad(target)

    def block(self, body, ind):
        pad = "\n" + "  " * ind
        return "block![" + ",".join(pad + self.s(x, ind + 1) for x in body) + "]"

    def s(self, n, ind):
        strs = lambda xs: "[" + ", ".join(map(quote, xs)) + "]"
        match n:
            case ast.Assign(targets=[ast.Tuple() as t], value=v):
                return f".unpack {strs(self.names(t))} {self.e(v)}"
            case ast.Assign(targets=[(ast.Name() | ast.Attribute() | ast.Subscript()) as t], value=v):
                return f".assign {self.e(t)} {self.e(v)}"
            case ast.AugAssign(target=ast.Name(id=x), op=op, value=v) if type(op) in BIN:
                return f".aug {quote(x)} .{BIN[type(op)]} {self.e(v)}"
            case ast.Expr(value=ast.Yield(value=v)):
                return f".yield {self.e(v)}"
            case ast.Expr(value=v):
                return f".expr {self.e(v)}"
            case ast.If(test=t, body=b, orelse=o):
                return f".ifte {self.e(t)} {self.block(b, ind)} {self.block(o, ind)}"
            case ast.For(target=t, iter=it, body=b, orelse=[]):
                return f".for {strs(self.names(t))} {self.e(it)} {self.block(b, ind)}"
            case ast.Try(body=b, handlers=[ast.ExceptHandler(type=ty, name=None, body=h)], orelse=[], finalbody=[]) if ty:
                return f".try {self.block(b, ind)} {self.e(ty)} {self.block(h, ind)}"
            case ast.Raise(exc=None, cause=None):
                return ".reraise"
            case ast.Raise(exc=e, cause=None):
                return f".raise {self.e(e)}"
            case ast.Return(value=v) if v:
                return f".ret {self.e(v)}"
            case ast.Break():
                return ".brk"
            case ast.With(items=[ast.withitem(context_expr=e, optional_vars=ast.Name(id=x))], body=b):
                return f".with {self.e(e)} {quote(x)} {self.block(b, ind)}"
        bad(n)


def docstring(n):
    return isinstance(n, ast.Expr) and isinstance(n.value, ast.Constant) and isinstance(n.value.value, str)


def bound(fn):
    """Names a function binds: parameters, assignment, loop and `with` targets (not those of comprehensions)."""
    out = {a.arg for a in fn.args.args}
    todo = list(fn.body)
    while todo:
        n = todo.pop()
        if isinstance(n, (ast.FunctionDef, ast.Lambda, ast.Global, ast.Nonlocal, ast.NamedExpr, ast.ClassDef)):
            bad(n)
        if isinstance(n, (ast.ListComp, ast.GeneratorExp, ast.DictComp, ast.SetComp)):
            todo.extend(g.iter for g in n.generators)
            continue
        if isinstance(n, ast.Name) and isinstance(n.ctx, ast.Store):
            out.add(n.id)
        todo.extend(ast.iter_child_nodes(n))
    return out


def fundef(fn):
    a = fn.args
    if a.posonlyargs or a.kwonlyargs or a.vararg or a.kwarg or isinstance(fn, ast.AsyncFunctionDef):
        bad(fn)
    body = [s for s in fn.body if not docstring(s)]
    f = Fun(bound(fn))
    params = ", ".join(quote(x.arg) for x in a.args)
    defaults = ", ".join(Fun().e(d) for d in a.defaults)
    return f"{{\n  name := {py(fn.name)}\n  params := [{params}]\n  defaults := [{defaults}]\n  body := {f.block(body, 2)} }}"


out, left = [], []


def emit(path, nodes, lean, skip=()):
    """Definitions for the functions among `nodes`, and the list of declarations `lean`.decls."""
    decls = []
    for n in nodes:
        where = f"{path}:{n.lineno}" + (f"-{n.end_lineno}" if n.end_lineno != n.lineno else "")
        match n:
            case _ if docstring(n):
                pass
            case ast.AnnAssign(value=None):
                left.append(f"{where}: annotation {ast.unparse(n)}")
            case ast.ImportFrom(module="__future__"):
                pass
            case ast.ImportFrom(module="typing"):
                left.append(f"{where}: {ast.unparse(n)}")
            case ast.Import(names=[ast.alias(name=m, asname=None)]):
                decls.append(f".import {py(m)}")
            case ast.ImportFrom(module=m, names=[ast.alias(name=x, asname=None)], level=0):
                decls.append(f".fromImport {py(m)} {py(x)}")
            case ast.FunctionDef(name=name) if name in skip:
                left.append(f"{where}: function {name}")
            case ast.FunctionDef(name=name, decorator_list=ds):
                kind = {(): "def", ("property",): "property"}[tuple(ast.unparse(d) for d in ds)]
                # Decorators are part of the lines.
                out.append(f"/-- {where} -/\ndef {lean}.{name.strip('_')} : FnDef := {fundef(n)}\n")
                decls.append(f".{kind} {lean}.{name.strip('_')}")
            case ast.Assign(targets=[ast.Name(id=x)], value=v) if x in skip:
                left.append(f"{where}: {x} = {ast.unparse(v)[:60]}")
            case ast.Assign(targets=[ast.Name(id=x)], value=v):
                decls.append(f".assign {py(x)} {Fun().e(v)}")
            case ast.AnnAssign(target=ast.Name(id=x), value=v):
                decls.append(f".assign {py(x)} {Fun().e(v)}")
            case ast.If(test=ast.Compare(left=ast.Name(id="__name__"))):
                left.append(f"{where}: {ast.unparse(n.test)}")
            case _:
                bad(n)
    out.append(f"/-- {path}: the statements of the {'module' if nodes is mod else 'class'}, in order. -/\n"
               f"def {lean}.decls : List Decl := [\n  " + ",\n  ".join(decls) + "]\n")


def load(path):
    return ast.parse(open(f"{REPO}/{path}", encoding="utf-8").read()).body


def cls(path, name):
    return next(n for n in load(path) if isinstance(n, ast.ClassDef) and n.name == name).body


STRUCTS = ["shared", "atop_1_26", "atop_2_3", "atop_2_4", "atop_2_5", "atop_2_6", "atop_2_7", "atop_2_8", "atop_2_9",
           "atop_2_10", "atop_2_11", "atop_2_12"]


def structs(outdir):
    """One file per module of atoparser/structs: its statements, class by class.  The bodies of HeaderMixin and CGChainer
    are in Text.lean."""
    for m in STRUCTS:
        path = f"atoparser/structs/{m}.py"
        lean = "Shared" if m == "shared" else "V" + m[len("atop_"):]
        defs, decls, uses = [], [], False
        for n in load(path):
            where = f"{path}:{n.lineno}" + (f"-{n.end_lineno}" if n.end_lineno != n.lineno else "")
            match n:
                case _ if docstring(n):
                    pass
                case ast.Import(names=[ast.alias(name=x, asname=None)]):
                    decls.append(f".plain (.import {py(x)})")
                case ast.ImportFrom(module=x, names=[ast.alias(name=y, asname=None)], level=0):
                    decls.append(f".plain (.fromImport {py(x)} {py(y)})")
                case ast.Assign(targets=[ast.Name(id=x)], value=v):
                    decls.append(f".plain (.assign {py(x)} {Fun().e(v)})")
                case ast.ClassDef(name=name, bases=bases, keywords=[], decorator_list=[], body=body):
                    bs = "[" + ", ".join(Fun().e(b) for b in bases) + "]"
                    if name in ("HeaderMixin", "CGChainer"):
                        uses, b = True, f"Text.{name}.decls"
                    else:
                        items = []
                        for s in body:
                            match s:
                                case _ if docstring(s):
                                    pass
                                case ast.Assign(targets=[ast.Name(id="_fields_")], value=ast.List(elts=es)):
                                    es = ",\n    ".join(Fun().e(e) for e in es)
                                    items.append(f".assign {py('_fields_')} (.list exprs![\n    {es}])")
                                case ast.Assign(targets=[ast.Name(id=x)], value=v):
                                    items.append(f".assign {py(x)} {Fun().e(v)}")
                                case _:
                                    bad(s)
                        b = "[\n  " + ",\n  ".join(items) + "]"
                    defs.append(f"/-- {where} -/\ndef {name} : TopDecl := .class {py(name)} {bs} {b}\n")
                    decls.append(name)
                case _:
                    bad(n)
        with open(f"{outdir}/{lean}.lean", "w", encoding="utf-8") as f:
            f.write(("import Verif.Source.Text\n" if uses else "import Verif.Source.Syntax\n")
                    + f"/-!\n# The source text of {path}, as syntax trees\n\nGenerated by tools/gen_source.py --structs; do not edit.\n-/\n\n"
                    + f"set_option maxRecDepth 4000\n\nnamespace Atop.Src.Text.{lean}\n\n" + "\n".join(defs)
                    + f"\n/-- {path}: the statements of the module, in order. -/\ndef decls : List TopDecl := [\n  "
                    + ",\n  ".join(decls) + f"]\n\nend Atop.Src.Text.{lean}\n")


def readme():
    """The Python examples of README.md, as functions of the name `file` they use; their imports apart."""
    text = open(f"{REPO}/README.md", encoding="utf-8").read().split("\n")
    starts = [i for i, l in enumerate(text) if l.strip() == "```python"]
    defs = []
    for k, i in enumerate(starts, 1):
        j = next(j for j in range(i + 1, len(text)) if text[j].strip() == "```")
        body = ast.parse("\n".join(text[i + 1:j])).body
        imports = [n for n in body if isinstance(n, ast.Import)]
        rest = [n for n in body if not isinstance(n, ast.Import)]
        names = []
        for n in imports:
            for a in n.names:
                if a.asname:
                    bad(n)
                names.append(f".import {py(a.name)}")
        fn = ast.parse("def example(file): pass").body[0]
        fn.name, fn.body = f"example{k}", rest
        defs.append(f"/-- README.md:{i + 2}-{j} -/\ndef imports{k} : List Decl := [{', '.join(names)}]\n\n"
                    f"/-- README.md:{i + 2}-{j} -/\ndef example{k} : FnDef := {fundef(fn)}\n")
    print("import Verif.Source.Syntax\n/-!\n# The Python examples of README.md, as syntax trees\n\nGenerated by tools/gen_source.py --readme "
          "from /repo; do not edit.  Each example is written as a function of the path `file`, which it leaves to\nthe reader.\n-/\n\n"
          "set_option maxRecDepth 4000\n\nnamespace Atop.Src.Text.Readme\n\n" + "\n".join(defs) + "\nend Atop.Src.Text.Readme")


if len(sys.argv) > 2 and sys.argv[2] == "--readme":
    readme()
elif len(sys.argv) > 2 and sys.argv[2] == "--structs":
    structs(sys.argv[3])
else:
    mod = None
    P = "atoparser/structs/shared.py"
    emit(P, cls(P, "HeaderMixin"), "HeaderMixin")
    P = "atoparser/structs/atop_2_11.py"
    emit(P, cls(P, "CGChainer"), "CGChainer")
    for P, name, skip in [
        ("atoparser/utils.py", "Utils", ("Header", "Record", "SStat", "TStat", "CStat", "CGChainer")),
        ("atoparser/__init__.py", "Package", ("__version__",)),
        ("atoparser/parsers/atop_1_26.py", "Parsers", ()),
        ("atoparser/reader.py", "Reader", ()),
    ]:
        mod = load(P)
        emit(P, mod, name, skip)

    print("import Verif.Source.Syntax\n/-!\n# The source text of atoparser, as syntax trees\n\nGenerated by tools/gen_source.py from "
          "/repo; do not edit.\n\nLeft out besides docstrings and the annotations of parameters:\n")
    for x in left:
        print("* " + x)
    print("-/\n\nset_option maxRecDepth 4000\n\nnamespace Atop.Src.Text\n\n" + "\n".join(out) + "\nend Atop.Src.Text")
