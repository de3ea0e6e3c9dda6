#!/usr/bin/env python3
"""Copy the tables of the scalar fields from src/ecc.c to lean/Verif/Ecc/ScalarDefs.lean."""
import re
src=open('/repo/src/ecc.c').read()
o='''import Verif.Ecc.Scalar

/-!
# Model: the scalar fields (src/ecc.c)

The tables with the orders of the groups; the numbers are copied byte by byte.
-/
namespace Torsion.Sc

open Torsion

'''
names=[]
for m in re.finditer(r"^static const scalar_def_t (\w+) = \{\s*(\d+),\s*\{([^}]*)\},\s*(\w+)\s*\};",src,re.M):
    l0=src.count("\n",0,m.start())+1; l1=src.count("\n",0,m.end())+1
    bs=re.findall(r"0x[0-9a-f]{2}",m.group(3))
    rows=[", ".join(bs[i:i+16]) for i in range(0,len(bs),16)]
    o+="/-- src/ecc.c:%d-%d, `%s`. -/\ndef %s : ScDef :=\n  { bits := %s,\n    n := [%s],\n    invert := some %s }\n\n"%(l0,l1,m.group(1),m.group(1),m.group(2),",\n          ".join(rows),m.group(4))
    names.append(m.group(1))
o+="/-- src/ecc.c:9098-9526: the scalar fields. -/\ndef scDefs : List ScDef :=\n  [%s]\n\nend Torsion.Sc\n"%", ".join(names)
open('/verif/lean/Verif/Ecc/ScalarDefs.lean','w').write(o)
