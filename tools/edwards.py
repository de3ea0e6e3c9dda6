#!/usr/bin/env python3
"""Copy the tables of the Edwards curves from src/ecc.c and src/subgroups.h to lean/Verif/Ecc/EdwardsDefs.lean."""
import re
src = open('/repo/src/ecc.c').read()
sub = open('/repo/src/subgroups.h').read()
o = '''import Verif.Ecc.MontDefs
import Verif.Hash.Dispatch

/-!
# Model: the tables of the Edwards curves (src/ecc.c, src/subgroups.h)

The numbers are copied byte by byte. The constants for Ristretto are not included.
-/
namespace Torsion

/-- src/ecc.c:575-591, `edwards_def_t`; and the constant by which the function `scmul_d` of the field multiplies, which is part of
its name. `pfx` are the first `prefix_len` bytes of `prefix`. -/
structure EdwardsDef where
  hash : HashId
  context : Bool
  pfx : List Byte
  fe : FieldCode
  sc : Sc.ScDef
  h : Nat
  z : Int
  invert : Bool
  a : List Byte
  d : List Byte
  x : List Byte
  y : List Byte
  c : List Byte
  torsion : List SubgroupDef
  scmul : Option Int

'''


def rows(t, ind):
    bs = re.findall(r"0x[0-9a-f]{2}", re.sub(r"/\*.*?\*/", "", t, flags=re.S))
    return "[" + (",\n" + " " * ind).join(", ".join(bs[i:i + 16]) for i in range(0, len(bs), 16)) + "]"


def lines(s, m):
    return s.count("\n", 0, m.start()) + 1, s.count("\n", 0, m.end()) + 1


for m in re.finditer(r"^static const subgroup_def_t (subgroups_ed\w+)\[\d+\] = \{(.*?)^\};", sub, re.M | re.S):
    o += "/-- src/subgroups.h:%d-%d, `%s`. -/\ndef %s : List SubgroupDef :=\n  [" % (*lines(sub, m), m.group(1), m.group(1))
    o += ",\n   ".join("{ x := %s,\n     y := %s,\n     inf := %s }" % (rows(x, 11), rows(y, 11), "true" if i == "1" else "false")
                       for x, y, i in re.findall(r"\{\s*\{([^{}]*)\},\s*\{([^{}]*)\},\s*(\d)\s*\}", m.group(2)))
    o += "]\n\n"
names = []
for m in re.finditer(r"^static const edwards_def_t (\w+) = \{\s*HASH_(\w+),\s*(\d),\s*\{([^{}]*)\},\s*(\d+),\s*&(\w+),\s*&(\w+),\s*(\d+),\s*(-?\d+),\s*(\d),(.*?)^\};",
                     src, re.M | re.S):
    name, hsh, ctx, pfx, plen, fe, sc, h, z, inv, rest = m.groups()
    pfx = " ".join(re.findall(r"0x[0-9a-f]{2}", re.sub(r"/\*.*?\*/", "", pfx, flags=re.S))[:int(plen)])
    blocks = re.findall(r"\{([^{}]*)\}", rest)
    tors = re.search(r"(\w+),\s*&\w+\s*$", rest).group(1)
    fd = re.search(r"static const prime_def_t %s = \{(.*?)^\};" % fe, src, re.M | re.S).group(1)
    scm = re.findall(r"scmul_m(\d+)", fd)
    o += ("/-- src/ecc.c:%d-%d, `%s`. -/\ndef %s : EdwardsDef :=\n  { hash := .%s,\n    context := %s,\n    pfx := %s,\n    fe := %s,\n    sc := Sc.%s,\n"
          "    h := %s,\n    z := %s,\n    invert := %s,\n    ") % (
        *lines(src, m), name, name, hsh, "true" if ctx == "1" else "false", rows(pfx, 12), fe, sc, h, z, "true" if inv == "1" else "false")
    o += ",\n    ".join("%s := %s" % (k, rows(b, 8 + len(k))) for k, b in zip("adxyc", blocks))
    o += ",\n    torsion := %s,\n    scmul := %s }\n\n" % (tors, "some (-%s)" % scm[0] if scm else "none")
    names.append(name)
o += '''/-- src/ecc.c:10302-10306, `edwards_curves`. -/
def edDefs : List EdwardsDef :=
  [%s]

end Torsion
''' % ", ".join(names)
open('/verif/lean/Verif/Ecc/EdwardsDefs.lean', 'w').write(o)
