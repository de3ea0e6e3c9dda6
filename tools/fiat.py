#!/usr/bin/env python3
"""Writes lean/Verif/Ecc/Fiat/<Field>.lean: the functions of /repo/src/fields/<field>_64.h as syntax (Verif/Ecc/Fiat/Lang.lean),
and lean/Verif/Ecc/Fiat/<Field>W32.lean: those of /repo/src/fields/<field>_32.h for p192, p251, p25519 and
secp256k1.
Every statement of C becomes one St; the numbers of the lines are cited. Anything not understood is an error."""
import re, sys, os
ROOT = os.path.dirname(os.path.dirname(os.path.abspath(__file__)))

TY = {"uint8_t": 8, "uint32_t": 32, "uint64_t": 64, "uint1": 8, "uint128": 128}
LIT = {"UINT8_C": 31, "UINT16_C": 31, "UINT32_C": 32, "UINT64_C": 64}

def width(t, fld):
    t = t.strip()
    pre = "fiat_%s_" % fld
    if t.startswith(pre): t = t[len(pre):]
    return TY[t]

def toks(s):
    return re.findall(r"[A-Za-z_][A-Za-z0-9_]*|0x[0-9a-f]+|\d+|>>|<<|[()\[\]+*&,;=~|!-]", s)

class P:
    def __init__(self, s, fld, argw):
        self.t = toks(s); self.i = 0; self.f = fld; self.argw = argw
    def peek(self, k=0): return self.t[self.i + k] if self.i + k < len(self.t) else None
    def eat(self, x=None):
        v = self.t[self.i]
        assert x is None or v == x, (v, x, self.t)
        self.i += 1
        return v
    def istype(self, t):
        return t in TY or (t.startswith("fiat_") and t.split("_")[-1] in TY)
    def unary(self):
        t = self.peek()
        if t == "(":
            if self.istype(self.peek(1)) and self.peek(2) == ")":
                self.eat(); ty = self.eat(); self.eat(")")
                return "(.cast %d %s)" % (width(ty, self.f), self.unary())
            self.eat(); e = self.expr(); self.eat(")")
            return e
        if t in LIT:
            self.eat(); self.eat("("); n = self.eat(); self.eat(")")
            return "(.lit %d %s)" % (LIT[t], n)
        if re.match(r"0x|\d", t):
            self.eat(); return "(.lit 31 %s)" % t
        m = re.fullmatch(r"x(\d+)", t)
        if m:
            self.eat(); return "(.x %d)" % (int(m.group(1)) - 1)
        m = re.fullmatch(r"arg(\d)", t)
        assert m, self.t
        self.eat(); self.eat("["); j = self.eat(); self.eat("]")
        k = int(m.group(1)) - 1
        return "(.a %d %d %s)" % (self.argw[k], k, j)
    # the source is fully parenthesised: one operator for each pair of parentheses
    def expr(self):
        e = self.unary()
        op = self.peek()
        if op in ("+", "-", "*", "&", ">>", "<<"):
            self.eat()
            if op in (">>", "<<"):
                return "(.%s %s %s)" % ({">>": "shr", "<<": "shl"}[op], e, self.eat())
            g = self.unary()
            return "(.%s %s %s)" % ({"+": "add", "-": "sub", "*": "mul", "&": "land"}[op], e, g)
        return e

def strip(s): return s[1:-1] if s.startswith("(") else s

def functions(fld, word):
    ls = open("/repo/src/fields/%s_%d.h" % (fld, word)).read().split("\n")
    i = 0
    while i < len(ls):
        m = re.match(r"static void fiat_%s_(\w+)\((.*)\) \{" % fld, ls[i])
        if not m: i += 1; continue
        j = i
        while ls[j] != "}": j += 1
        yield m.group(1), m.group(2), i + 1, j + 1, ls[i + 1:j]
        i = j + 1

def prog(fld, word, params, body):
    argw = []
    for p in params.split(","):
        p = p.strip()
        m = re.match(r"(const )?(\w+) (\w+)\[(\d+)\]", p)
        assert m, p
        if m.group(3) != "out1": argw.append(width(m.group(2), fld))
    decl, st, outs, nxt = {}, [], [], 1
    for l in body:
        l = l.strip()
        m = re.fullmatch(r"(\w+) x(\d+);", l)
        if m: decl[int(m.group(2))] = width(m.group(1), fld); continue
        m = re.fullmatch(r"x(\d+) = (.*);", l)
        if m:
            assert int(m.group(1)) == nxt, l
            p = P(m.group(2), fld, argw); e = p.expr(); assert p.peek() is None, l
            st.append(".set %d %s" % (decl[nxt], e)); nxt += 1; continue
        m = re.fullmatch(r"fiat_%s_(addcarryx|subborrowx)_u(\d+)\(&x(\d+), &x(\d+), (.*)\);" % fld, l)
        if m:
            assert int(m.group(3)) == nxt and int(m.group(4)) == nxt + 1, l
            assert decl[nxt] == word and decl[nxt + 1] == 8, l
            p = P(m.group(5), fld, argw); a = []
            for k in range(3):
                a.append(p.expr())
                if k < 2: p.eat(",")
            assert p.peek() is None
            st.append(".%s %s %s" % ({"a": "addc", "s": "subb"}[m.group(1)[0]], m.group(2), " ".join(a))); nxt += 2; continue
        m = re.fullmatch(r"fiat_%s_cmovznz_u%d\(&x(\d+), (.*)\);" % (fld, word), l)
        if m:
            assert int(m.group(1)) == nxt, l
            p = P(m.group(2), fld, argw); a = []
            for k in range(3):
                a.append(p.expr())
                if k < 2: p.eat(",")
            assert p.peek() is None and decl[nxt] == word
            st.append(".cmov %s" % " ".join(a)); nxt += 1; continue
        m = re.fullmatch(r"out1\[(\d+)\] = (.*);", l)
        assert m, l
        assert int(m.group(1)) == len(outs), l
        p = P(m.group(2), fld, argw); outs.append(strip(p.expr()))
    assert nxt == len(decl) + 1
    return st, outs

def main():
    for fld, mod in [("p192", "P192"), ("p251", "P251"), ("p25519", "P25519"), ("p448", "P448"), ("p521", "P521"), ("secp256k1", "Secp256k1")]:
        for word, suf in [(64, ""), (32, "W32")]:
            if word == 32 and fld in ("p448", "p521"): continue
            f = "%s_%d.h" % (fld, word)
            o = ["import Verif.Ecc.Fiat.Lang", "", "/-!", "# Model of src/fields/%s (written by tools/fiat.py)" % f, "-/", "namespace Torsion.Fiat" + ("." + suf if suf else ""), ""]
            for name, params, l0, l1, body in functions(fld, word):
                if re.match(r"addcarryx|subborrowx|cmovznz|selectznz", name): continue
                st, outs = prog(fld, word, params, body)
                o.append("/-- src/fields/%s:%d-%d `fiat_%s_%s`. -/" % (f, l0, l1, fld, name))
                o.append("def %s_%s : Prog where" % (fld, name))
                o.append("  body := [")
                o.append(",\n".join("    " + s for s in st) + "]")
                o.append("  outs := [" + ", ".join(outs) + "]")
                o.append("")
            o.append("end Torsion.Fiat" + ("." + suf if suf else ""))
            open(ROOT + "/lean/Verif/Ecc/Fiat/%s%s.lean" % (mod, suf), "w").write("\n".join(o) + "\n")
main()
