#!/usr/bin/env python3
"""Writes lean/Verif/Ecc/Primes.lean from tools/primes.json, the known prime factors of p - 1 for every prime p used, or
a curve modulo p with a point of prime order.

primes.json: {"factors": {p: [primes dividing p - 1, with multiplicity]}, "names": {name: p},
"curves": {p: {a, b, x, y, s}}}."""
import json, os, random
random.seed(1)
HERE = os.path.dirname(os.path.abspath(__file__))
D = json.load(open(HERE + '/primes.json'))
FAC = {int(k): v for k, v in D['factors'].items()}
CUR = {int(k): {f: int(v) for f, v in c.items()} for k, c in D['curves'].items()}
LIMIT = 10 ** 7
done = []
out = []


def witness(p, q):
    a = 2
    from math import gcd
    while not (pow(a, p - 1, p) == 1 and gcd(pow(a, (p - 1) // q, p) - 1, p) == 1):
        a += 1
    return a


def trial(n):
    fs, d = [], 2
    while d * d <= n:
        while n % d == 0:
            fs.append(d)
            n //= d
        d += 1
    return fs + ([n] if n > 1 else [])


def prime(p):
    if p in done:
        return
    done.append(p)
    if p < LIMIT:
        out.append(f"theorem prime_{p} : Nat.Prime {p} := by norm_num\n")
        return
    if p in CUR:
        c = CUR[p]
        prime(c['s'])
        out.append(f"""theorem prime_{p} :
    Nat.Prime {p} :=
  ecpp (a := {c['a']})
    (b := {c['b']})
    (x := {c['x']})
    (y := {c['y']})
    (i := {(c['s'] - 1).bit_length() - 1}) (by norm_num)
    prime_{c['s']} (by decide +kernel)
""")
        return
    fs = FAC.get(p) or trial(p - 1)
    F, use = 1, []
    for q in sorted(set(fs), reverse=True):
        e = fs.count(q)
        use.append((q, e, witness(p, q)))
        F *= q ** e
        if F * F > p:
            break
    assert F * F > p, p
    for q, _, _ in use:
        prime(q)
    lst = ', '.join(f"({q}, {e}, {a})" for q, e, a in use)
    mem = ', '.join(f"prime_{q}" for q, _, _ in use)
    out.append(f"""theorem prime_{p} :
    Nat.Prime {p} :=
  pocklington [{lst}]
    (by simp only [List.forall_mem_cons, List.not_mem_nil, false_implies, implies_true, and_true]
        exact {'⟨' + mem + '⟩' if len(use) > 1 else mem}) (by decide +kernel)
""")


for nm, p in D['names'].items():
    prime(int(p))
body = '\n'.join(out)
open(HERE + '/../lean/Verif/Ecc/Primes.lean', 'w').write(f"""import Verif.Ecc.Pocklington
import Verif.Ecc.CurveCert
import Mathlib.Tactic.NormNum.Prime

/-! Certificates of primality by Pocklington's criterion and by curves. Written by tools/primes.py. -/
namespace Torsion.Ecc

set_option linter.style.longLine false

{body}
end Torsion.Ecc
""")
