#!/usr/bin/env python3
"""Run the Lean model (compiled from lean/Verif/Model, with the zlib decoder of lean/Verif/Spec/Zlib.lean) on the sample
logs of /repo/atoparser/test/files and compare with the values the repo's own tests expect.

The tests are read as text (AST); neither they nor the library are imported or run.  Needs a built lean/ tree.
usage: conformance.py WORKDIR
"""
import ast, gzip, json, os, re, subprocess, sys, resource

REPO = "/repo/atoparser/test"
LEAN = os.path.join(os.path.dirname(os.path.dirname(os.path.abspath(__file__))), "lean")
MAIN = '''import Verif.Model.Cli
import Verif.Spec.Zlib
open Atop
def toPy (s : String) : PyStr := s.toList.map Char.toNat
/-- first argument: the file every path opens (already unpacked); then the words of the command line -/
def main (args : List String) : IO UInt32 := do
  match args with
  | raw :: words =>
    let b <- IO.FS.readBinFile raw
    let fs : FileSystem := fun _ _ => .ok { data := b.data.toList }
    let r := program (fun _ => false) Deflate.decompress fs (words.map toPy)
    let out <- IO.getStdout
    out.putStr (String.ofList (r.1.map Char.ofNat))
    out.flush
    return (match r.2 with | .done => 0 | .raised _ => 3 | .exited _ => 4)
  | [] => return 1
'''

def build(work):
    os.makedirs(work + "/o", exist_ok=True)
    open(work + "/Main.lean", "w").write(MAIN)
    run = lambda *a, cwd=LEAN: subprocess.run(a, cwd=cwd, check=True)
    run("lake", "env", "lean", "--root=" + work, "-c", work + "/Main.c", work + "/Main.lean")
    ir = LEAN + "/.lake/build/ir"
    mods = [os.path.relpath(os.path.join(d, f), ir) for d, _, fs in os.walk(ir + "/Verif/Model") for f in fs if f.endswith(".c")]
    for m in mods + ["Verif/Spec/Zlib.c"]:
        run("leanc", "-O2", "-c", m, "-o", work + "/o/" + m.replace("/", "_") + ".o", cwd=ir)
    run("leanc", "-O2", "-c", work + "/Main.c", "-o", work + "/o/Main.o")
    run("leanc", "-o", work + "/model", *[work + "/o/" + f for f in os.listdir(work + "/o")])

class Cases(ast.NodeVisitor):
    """TEST_CASES as data; anything that is not a literal or a path becomes None."""
    def ev(self, n):
        if isinstance(n, ast.Dict): return {self.ev(k): self.ev(v) for k, v in zip(n.keys, n.values)}
        if isinstance(n, (ast.List, ast.Tuple)): return [self.ev(x) for x in n.elts]
        if isinstance(n, ast.Constant): return n.value
        if isinstance(n, ast.UnaryOp) and isinstance(n.op, ast.USub): return -self.ev(n.operand)
        if isinstance(n, ast.BinOp) and isinstance(n.op, ast.Add) and isinstance(n.left, ast.Constant): return n.left.value + (self.ev(n.right) or "")
        if isinstance(n, ast.Call) and ast.unparse(n.func) == "os.path.join": return os.path.basename(n.args[-1].value)
        return None

def cases(f):
    for n in ast.parse(open(f).read()).body:
        if isinstance(n, ast.Assign) and n.targets[0].id == "TEST_CASES": return Cases().ev(n.value)

def main():
    work = sys.argv[1]
    resource.setrlimit(resource.RLIMIT_STACK, (resource.RLIM_INFINITY, resource.RLIM_INFINITY))
    if not os.path.exists(work + "/model"): build(work)
    cache, text = {}, {}
    def model(gz, *words):
        key = (gz, words)
        if key not in text:
            name = work + "/" + gz[:-3]
            open(name, "wb").write(gzip.open(REPO + "/files/" + gz).read())
            out = subprocess.run([work + "/model", name, gz, *words], stdout=subprocess.PIPE)
            text[key] = (out.returncode, out.stdout.decode())
        return text[key]
    def doc(gz):
        if gz not in cache:
            rc, t = model(gz, "--tstats", "--cstats", "-p")
            assert rc == 0, gz
            cache[gz] = json.loads(t)
        return cache[gz]
    bad = good = 0
    def check(what, got, want):
        nonlocal bad, good
        if got == want: good += 1
        else:
            bad += 1
            print("DIFFERENT", what, "\n model:", json.dumps(got)[:600], "\n tests:", json.dumps(want)[:600])
    T = cases(REPO + "/test_atoparser.py")
    for v, c in T["file_header"].items():
        got = dict(doc(c["args"][0])[-1]["header"])
        a = got["aversion"]
        got["semantic_version"] = f"{a >> 8 & 0x7f}.{a & 0xff}"
        check("header " + v, got, c["returns"])
    last = lambda c: (doc(c["args"][0])[-1], len(doc(c["args"][0])) - 1)
    for v, c in T["file_record"].items():
        d, i = last(c)
        check("record " + v, {**d["record"], "record_index": i}, c["returns"])
    for v, c in T["file_sstat"].items():
        d, i = last(c); s = d["sstat"]
        check("sstat " + v, {"cpu": {k: s["cpu"][k] for k in ("nrcpu", "lavg1")}, "mem": {k: s["mem"][k] for k in ("physmem", "freemem")},
            "intf": {"nrintf": s["intf"]["nrintf"], "intf": [{"name": s["intf"]["intf"][0]["name"]}]},
            "dsk": {"ndsk": s["dsk"]["ndsk"], "dsk": [{"name": s["dsk"]["dsk"][0]["name"]}]}, "sample_index": i}, c["returns"])
    for v, c in T["file_tstat"].items():
        d, i = last(c); t = d["tstat"]
        check("tstat " + v, {"gen": {k: t[-1]["gen"][k] for k in ("cmdline", "name")}, "sample_index": i, "tstat_index": len(t) - 1}, c["returns"])
    for v, c in T["file_cstat"].items():
        d, i = last(c); g = d["cgroup"]
        got = None if not g else {"cstat": {"gen": {k: g[-1]["cstat"]["gen"][k] for k in ("structlen", "nprocs")}},
            "proclist": g[-1]["proclist"], "sample_index": i, "cstat_index": len(g) - 1}
        check("cstat " + v, got, c["returns"])
    for v, c in T["parseable"].items():
        gz, names = c["args"][0], c["args"][1]
        if gz is None or not isinstance(names, list): print("skipped", v); continue
        got = {}
        for n in names:
            if n == "PRD": continue   # not among PARSEABLES
            rc, t = model(gz, "-P", n, "-p")
            assert rc == 0
            if not json.loads(t): continue
            row = json.loads(t)[-1]; assert row.pop("parseable") == n
            got[n] = row
        want = {k: x for k, x in c["returns"].items() if k not in ("PRD", "sample_index")}
        check("parseable " + v, got, want)
    R = cases(REPO + "/test_reader.py")
    for v, c in R["parse_file"].items():
        gz, names = c["args"][0], (c["args"] + [None])[1]
        rc, t = model(gz, "-p", *(["-P"] + names if names else []))
        out = [re.sub(r'"file": ".*?"', '"file": "replaced_by_test"', l) for l in t.strip().splitlines()[-10:]]
        check("parse_file " + v, out, c["returns"]["stdout"])
    print(good, "agree,", bad, "differ")
    sys.exit(bad != 0)
main()
