#!/usr/bin/env python3
"""Write lean/Verif/Source/Tables.lean (to the standard output): the names of the modules of atoparser/structs, read
from their text.  The tables are checked by the kernel in Verif/Proofs/SourceClasses.lean."""
import ast
import sys
REPO = sys.argv[1] if len(sys.argv) > 1 else "/repo"
M=["shared","atop_1_26","atop_2_3","atop_2_4","atop_2_5","atop_2_6","atop_2_7","atop_2_8","atop_2_9","atop_2_10","atop_2_11","atop_2_12"]
L=lambda m:"Shared" if m=="shared" else "V"+m[5:]
out="""import Verif.Source.Classes
/-!
# The names of the modules of atoparser/structs

For every module the names it has after its import, the newest first, and the class of Verif/Model/Structs or the number
each stands for.  Written out by tools/gen_tables.py; Verif/Proofs/SourceClasses.lean checks every line against the
execution of the text.
-/

set_option maxRecDepth 4000

namespace Atop.Src.Tables

"""
prims={"time_t","count_t","off_t","pid_t"}
for m in M:
    t=ast.parse(open(f"{REPO}/atoparser/structs/{m}.py").read()).body
    rows=[]
    for n in t:
        def row(x,v): rows.insert(0,f'(py!"{x}", {v})')
        if isinstance(n,ast.Import): row(n.names[0].name,f'.mod py!"{n.names[0].name}"')
        elif isinstance(n,ast.ImportFrom):
            x=n.names[0].name
            if n.module=="atoparser.structs": row(x,f'.mod py!"atoparser.structs.{x}"')
            elif x=="HeaderMixin": row(x,'.icls py!"HeaderMixin"')
            elif x in prims: row(x,f'.ctype {x}')
            else: row(x,f'.ctype Shared.{x}')
        elif isinstance(n,ast.Assign):
            x=n.targets[0].id
            if isinstance(n.value,ast.Constant): row(x,f'.int {n.value.value}')
            elif x in prims: row(x,f'.ctype {x}')
            elif x=="CGChainer": row(x,'.icls py!"CGChainer"')
            else: row(x,f'.ctype {L(m)}.{x}')
        elif isinstance(n,ast.ClassDef):
            x=n.name
            row(x, f'.icls py!"{x}"' if x in("HeaderMixin","CGChainer") else f'.hcls {L(m)}.Header' if x=="Header" else f'.ctype {L(m)}.{x}')
    out+=f"/-- atoparser/structs/{m}.py -/\ndef {L(m).lower()} : Names := [\n  "+",\n  ".join(rows)+"]\n\n"
out+="end Atop.Src.Tables\n"
print(out,end="")
