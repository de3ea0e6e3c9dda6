#!/usr/bin/env python3
"""Copy the tables of the Weierstrass curves from src/ecc.c to lean/Verif/Ecc/CurveDefs.lean."""
import re
src = open('/repo/src/ecc.c').read()
o = '''import Verif.Ecc.FieldRoot
import Verif.Ecc.ScalarDefs
import Verif.Ecc.Mul
import Verif.Util.Spec
import Mathlib.Algebra.Field.ZMod

/-!
# Model: the short Weierstrass curves (src/ecc.c)

The tables with the constants of the curves; the numbers are copied byte by byte. The entries for hashing to the curve
(`z`, `c`) and the torsion points (the cofactor is one for all of them) are left out.
-/
namespace Torsion

open Spec (beVal)

/-- src/ecc.c:331-339, `endo_def_t`. -/
structure EndoDef where
  beta : List Byte
  lambda : List Byte
  b1 : List Byte
  b2 : List Byte
  g1 : List Byte
  g2 : List Byte
  prec : Nat

/-- src/ecc.c:425-439, `wei_def_t`. -/
structure WeiDef where
  fe : FieldCode
  sc : Sc.ScDef
  h : Nat
  a : List Byte
  b : List Byte
  x : List Byte
  y : List Byte
  endo : Option EndoDef

'''


def rows(t, ind):
    bs = re.findall(r"0x[0-9a-f]{2}", re.sub(r"/\*.*?\*/", "", t, flags=re.S))
    return "[" + (",\n" + " " * ind).join(", ".join(bs[i:i + 16]) for i in range(0, len(bs), 16)) + "]"


def lines(m):
    return src.count("\n", 0, m.start()) + 1, src.count("\n", 0, m.end()) + 1


for m in re.finditer(r"^static const endo_def_t (\w+) = \{(.*?)^\};", src, re.M | re.S):
    blocks = re.findall(r"\{([^{}]*)\}", m.group(2))
    prec = re.search(r"(\d+)\s*$", m.group(2)).group(1)
    o += "/-- src/ecc.c:%d-%d, `%s`. -/\ndef %s : EndoDef :=\n  { " % (*lines(m), m.group(1), m.group(1))
    o += ",\n    ".join("%s := %s" % (k, rows(b, 8 + len(k))) for k, b in zip(["beta", "lambda", "b1", "b2", "g1", "g2"], blocks))
    o += ",\n    prec := %s }\n\n" % prec
names = []
for m in re.finditer(r"^static const wei_def_t (\w+) = \{\s*\w+,\s*\w+,\s*&(\w+),\s*&(\w+),\s*(\d+),\s*-?\d+,(.*?)^\};", src, re.M | re.S):
    blocks = re.findall(r"\{([^{}]*)\}", m.group(5))
    endo = re.search(r"(\S+)\s*$", m.group(5)).group(1)
    endo = "none" if endo == "NULL" else "some " + endo[1:]
    o += "/-- src/ecc.c:%d-%d, `%s`. -/\ndef %s : WeiDef :=\n  { fe := %s,\n    sc := Sc.%s,\n    h := %s,\n    " % (
        *lines(m), m.group(1), m.group(1), m.group(2), m.group(3), m.group(4))
    o += ",\n    ".join("%s := %s" % (k, rows(b, 8 + len(k))) for k, b in zip("abxy", blocks))
    o += ",\n    endo := %s }\n\n" % endo
    names.append(m.group(1))
o += '''/-- src/ecc.c:9722-9980: the short Weierstrass curves. -/
def weiDefs : List WeiDef :=
  [%s]

/-- src/ecc.c:4018-4087, `wei_init`: the constants are imported (`fe_import` and `sc_import`
read a big-endian number; the code of the fields itself is not modelled), then the tables are made. -/
def wei_create (d : WeiDef) [Fact d.fe.p.Prime] : C (Wei (ZMod d.fe.p)) :=
  wei_init ⟨(beVal d.a : ZMod d.fe.p), (beVal d.b : ZMod d.fe.p), d.h⟩ (beVal d.sc.n)
    ⟨(beVal d.x : ZMod d.fe.p), (beVal d.y : ZMod d.fe.p), false⟩
    (d.endo.map fun e =>
      { beta := (beVal e.beta : ZMod d.fe.p), lambda := beVal e.lambda, b1 := beVal e.b1, b2 := beVal e.b2,
        g1 := beVal e.g1, g2 := beVal e.g2, prec := e.prec })

end Torsion
''' % ", ".join(names)
open('/verif/lean/Verif/Ecc/CurveDefs.lean', 'w').write(o)
