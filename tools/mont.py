#!/usr/bin/env python3
"""Copy the tables of the Montgomery curves from src/ecc.c and src/subgroups.h to lean/Verif/Ecc/MontDefs.lean."""
import re
src = open('/repo/src/ecc.c').read()
sub = open('/repo/src/subgroups.h').read()
o = '''import Verif.Ecc.FieldRoot
import Verif.Ecc.ScalarDefs

/-!
# Model: the tables of the Montgomery curves (src/ecc.c, src/subgroups.h)

The numbers are copied byte by byte.
-/
namespace Torsion

/-- src/ecc.c:360-364, `subgroup_def_t`. -/
structure SubgroupDef where
  x : List Byte
  y : List Byte
  inf : Bool

/-- src/ecc.c:490-502, `mont_def_t`; and the constant by which the function `scmul_a24` of the field multiplies, which is part
of its name. -/
structure MontDef where
  fe : FieldCode
  sc : Sc.ScDef
  h : Nat
  z : Int
  invert : Bool
  a : List Byte
  b : List Byte
  x : List Byte
  y : List Byte
  c : List Byte
  torsion : List SubgroupDef
  scmul : Nat

'''


def rows(t, ind):
    bs = re.findall(r"0x[0-9a-f]{2}", re.sub(r"/\*.*?\*/", "", t, flags=re.S))
    return "[" + (",\n" + " " * ind).join(", ".join(bs[i:i + 16]) for i in range(0, len(bs), 16)) + "]"


def lines(s, m):
    return s.count("\n", 0, m.start()) + 1, s.count("\n", 0, m.end()) + 1


for m in re.finditer(r"^static const subgroup_def_t (subgroups_x\w+)\[\d+\] = \{(.*?)^\};", sub, re.M | re.S):
    o += "/-- src/subgroups.h:%d-%d, `%s`. -/\ndef %s : List SubgroupDef :=\n  [" % (*lines(sub, m), m.group(1), m.group(1))
    o += ",\n   ".join("{ x := %s,\n     y := %s,\n     inf := %s }" % (rows(x, 11), rows(y, 11), "true" if i == "1" else "false")
                       for x, y, i in re.findall(r"\{\s*\{([^{}]*)\},\s*\{([^{}]*)\},\s*(\d)\s*\}", m.group(2)))
    o += "]\n\n"
names = []
for m in re.finditer(r"^static const mont_def_t (\w+) = \{\s*&(\w+),\s*&(\w+),\s*(\d+),\s*(-?\d+),\s*(\d),(.*?)^\};", src, re.M | re.S):
    blocks = re.findall(r"\{([^{}]*)\}", m.group(7))
    tors = re.search(r"(\w+)\s*$", m.group(7)).group(1)
    fd = re.search(r"static const prime_def_t %s = \{(.*?)^\};" % m.group(2), src, re.M | re.S).group(1)
    scm = [c for c in re.findall(r"scmul_(\d+)", fd) if int(c) > 8][0]
    o += "/-- src/ecc.c:%d-%d, `%s`. -/\ndef %s : MontDef :=\n  { fe := %s,\n    sc := Sc.%s,\n    h := %s,\n    z := %s,\n    invert := %s,\n    " % (
        *lines(src, m), m.group(1), m.group(1), m.group(2), m.group(3), m.group(4), m.group(5), "true" if m.group(6) == "1" else "false")
    o += ",\n    ".join("%s := %s" % (k, rows(b, 8 + len(k))) for k, b in zip("abxyc", blocks))
    o += ",\n    torsion := %s,\n    scmul := %s }\n\n" % (tors, scm)
    names.append(m.group(1))
o += '''/-- src/ecc.c:10297-10300, `mont_curves`. -/
def montDefs : List MontDef :=
  [%s]

end Torsion
''' % ", ".join(names)
open('/verif/lean/Verif/Ecc/MontDefs.lean', 'w').write(o)
