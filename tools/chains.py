#!/usr/bin/env python3
"""Translate the exponentiation chains of src/fields into register programs (lean/Verif/Ecc/Chains.lean)."""
import re
R = "/repo/src/fields/"
out = []

def funcs(path):
    txt = open(R + path).read()
    for m in re.finditer(r"^(?:TORSION_UNUSED )?static (void|int)\n(\w+)\(([^)]*)\) \{\n(.*?)^\}", txt, re.S | re.M):
        line = txt.count("\n", 0, m.start()) + 1
        end = txt.count("\n", 0, m.end()) + 1
        yield m.group(1), m.group(2), m.group(3), m.group(4), line, end

def emit(name, doc, params, body, tail=None, post=()):
    parts, cur = [], []
    for b in body:
        if b[0] == "call":
            if cur:
                parts.append("[" + ", ".join(cur) + "]")
                cur = []
            parts.append(b[1])
        else:
            cur.append(b[1])
    if cur:
        parts.append("[" + ", ".join(cur) + "]")
    s = " ++ ".join(parts)
    # wrap
    toks, lines, cur = re.split(r"(?<=,) |(?<=\+\+) ", s), [], "  "
    for t in toks:
        if len(cur) + len(t) > 112:
            lines.append(cur.rstrip())
            cur = "   "
        cur += t + " "
    lines.append(cur.rstrip())
    ty = "List Ins"
    if tail:
        ty = "List Ins × (Nat × Nat) × List Ins"
        lines[0] = "  (" + lines[0].strip()
        lines[-1] += ",\n   (%s), [%s])" % (tail, ", ".join(post))
    out.append("%s\ndef %s%s : %s :=\n%s\n" % (doc, name, params, ty, "\n".join(lines)))

def field(pre, names):
    for ret, fn, args, body, l0, l1 in funcs(pre + ".h"):
        short = fn[len(pre) + 4:] if fn.startswith(pre + "_fe_") else None
        if short not in names:
            continue
        ps = [re.sub(r".*\W", "", a.strip()) for a in args.split(",")]
        body = re.sub(r"/\*.*?\*/", "", body, flags=re.S)
        loc = {}
        ins, tail, done = [], None, []
        def reg(a):
            a = a.strip()
            if a in ps:
                return a
            i = loc[a]
            return "t" if i == 0 else "(t + %d)" % i
        for st in [x.strip() for x in body.split(";")]:
            if not st:
                continue
            m = re.match(pre + r"_fe_t (.*)$", st, re.S)
            if m:
                for v in m.group(1).split(","):
                    loc[v.strip()] = len(loc)
                continue
            if st == "int ret":
                continue
            m = re.match(r"(?:return|ret =) %s_fe_equal\((.*)\)$" % pre, st)
            if m:
                a, b = m.group(1).split(",")
                tail = "%s, %s" % (reg(a).strip("()") , reg(b).strip("()"))
                ins, done = [], ins
                continue
            if st == "return ret":
                continue
            m = re.match(r"%s_fe_(\w+)\((.*)\)$" % pre, st)
            assert m, (fn, st)
            op, a = m.group(1), [x.strip() for x in m.group(2).split(",")]
            if op == "set" or op == "sqr":
                ins.append(("i", ".%s %s %s" % (op, reg(a[0]), reg(a[1]))))
            elif op == "sqrn":
                ins.append(("i", ".sqrn %s %s %d" % (reg(a[0]), reg(a[1]), eval(a[2]))))
            elif op == "mul":
                ins.append(("i", ".mul %s %s %s" % tuple(map(reg, a))))
            else:
                assert op.startswith("pow"), op
                n = len(loc)
                ins.append(("call", "%s_fe_%s %s %s" % (pre, op, " ".join(map(reg, a)),
                                                         "t" if n == 0 else "(t + %d)" % n)))
        what = ": the calls up to the comparison, the registers compared, the calls after it" if tail else ""
        post = []
        if tail:
            ins, post = done, [x[1] for x in ins]
        emit(fn, "/-- src/fields/%s.h:%d-%d, `%s`%s. -/" % (pre, l0, l1, fn, what),
             " (%s t : Nat)" % " ".join(ps), ins, tail, post)

def scalar():
    for ret, fn, args, body, l0, l1 in funcs("scalar.h"):
        body = re.sub(r"/\*.*?\*/", "", body, flags=re.S)
        inp = re.search(r"sc_mont\(sc, (\w+), x\)", body).group(1)
        loc = {"z": 0, inp: 1}
        ins = []
        state = 0
        for st in [x.strip() for x in body.split(";")]:
            if not st:
                continue
            m = re.match(r"sc_t (.*)$", st, re.S)
            if m:
                for v in m.group(1).split(","):
                    loc.setdefault(v.strip(), len(loc))
                continue
            m = re.match(r"(sc_\w+)\(sc, (.*)\)$", st)
            assert m, st
            op, a = m.group(1), [x.strip() for x in m.group(2).split(",")]
            r = lambda v: str(loc[v])
            if op == "sc_mont":
                assert state == 0 and a[1] == "x" and loc[a[0]] == 1, (fn, a, loc)
                state = 1
            elif op == "sc_normal":
                assert a == ["z", "z"] and state == 1
                state = 2
            elif op == "sc_cleanse":
                assert state == 2
            else:
                assert state == 1, st
                if op == "sc_montsqr":
                    ins.append(("i", ".sqr %s %s" % (r(a[0]), r(a[1]))))
                elif op == "sc_montsqrn":
                    ins.append(("i", ".sqrn %s %s %d" % (r(a[0]), r(a[1]), eval(a[2]))))
                elif op == "sc_montmul":
                    ins.append(("i", ".mul %s %s %s" % (r(a[0]), r(a[1]), r(a[2]))))
                else:
                    assert False, op
        emit(fn, "/-- src/fields/scalar.h:%d-%d, `%s`, between `sc_mont` and `sc_normal`; `z` is register 0\nand the input register 1. -/" % (l0, l1, fn), "", ins)

ALL = {"p192": ["pow_pm3d4", "invert", "sqrt", "isqrt"],
       "p224": ["pow_s", "pow_e", "pow_em1", "invert", "legendre"],
       "p256": ["pow_pm3d4", "invert", "sqrt", "isqrt"],
       "p384": ["pow_pm3d4", "invert", "sqrt", "isqrt"],
       "p521": ["pow_core", "pow_pm3d4", "invert", "sqrt", "isqrt"],
       "secp256k1": ["pow_core", "pow_pm3d4", "invert", "sqrt", "isqrt"],
       "p25519": ["pow_core", "pow_pm5d8", "invert"],
       "p448": ["pow_core", "pow_pm3d4", "invert", "sqrt", "isqrt"],
       "p251": ["pow_core", "pow_pm3d4", "invert", "sqrt", "isqrt"]}
for k, v in ALL.items():
    field(k, v)
scalar()
head = '''import Verif.Ecc.Chain

/-!
# Model: the exponentiation chains of src/fields

Written by `tools/chains.py` from the C code, one instruction per call. Arguments are registers, so that a call with
the output in the place of the input is expressed by giving one register twice; the locals of a function are the
registers from `t` on.
-/
namespace Torsion

'''
open("/verif/lean/Verif/Ecc/Chains.lean", "w").write(head + "\n".join(out) + "\nend Torsion\n")
print(len(out), "programs")
