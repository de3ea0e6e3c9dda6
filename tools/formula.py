#!/usr/bin/env python3
"""Writes lean/Verif/Ecc/Fiat/Formula.lean: the formulas for points of src/ecc.c, from its text."""
import re, os
SRC = '/repo/src/ecc.c'
OUT = os.path.join(os.path.dirname(os.path.abspath(__file__)), '../lean/Verif/Ecc/Fiat/Formula.lean')
lines = open(SRC).read().split('\n')

def find(name):
    for i, l in enumerate(lines):
        if l.startswith(name + '(') and (lines[i-1].startswith('static') or lines[i-1].endswith('void')):
            j = i
            while not lines[j].endswith('{') and not lines[j].endswith(';'):
                j += 1
            if lines[j].endswith(';'):
                continue
            k = j
            while lines[k] != '}':
                k += 1
            return i, j, k
    raise Exception(name)

BIN = {'fe_mul': '.mul', 'fe_add': '.add', 'fe_sub': '.sub', 'fe_add_nc': '.addnc', 'fe_sub_nc': '.subnc'}
UN = {'fe_sqr': '.sqr', 'fe_neg': '.neg', 'fe_neg_nc': '.negnc', 'fe_mul3': '.mul3', 'fe_mul4': '.mul4', 'fe_mul8': '.mul8',
      'fe_set': '.set', 'fe_carry': '.carry'}
CONST = {'ec->a': '1000', 'ec->a24': '1001', 'ec->d': '1002', 'ec->k': '1003', 'ec->b': '1004', 'fe->one': '1005', 'fe->zero': '1006'}
OFF = {'x': 0, 'y': 1, 'z': 2, 't': 3}
STATIC = {'affine': 'affine', 'sign': 'sign', '!affine': '!affine', '!ec->zero_a': '!cfg.zero_a', 'ec->zero_a': 'cfg.zero_a',
          'ec->three_a': 'cfg.three_a', 'ec->mone_a': 'cfg.mone_a', 'ec->one_a': 'cfg.one_a', 'fe->scmul_d != NULL': 'cfg.scd',
          'fe->scmul_a24 != NULL': 'cfg.sca24', 'ec->h > 1': 'cfg.cof'}
CALLS = {'wei_mul_a': True, 'edwards_mul_a': True, 'edwards_mul_d': True, 'mont_mul_a24': True, 'jge_dbl_var': True, 'jge_zero': True,
         'jge_dbl0': True, 'jge_dbl3': True, 'jge_dblj': True}

class Fn:
    def __init__(self, name, base):
        self.name, self.base = name, base
        i, j, k = find(name)
        self.first, self.last = i, k + 1
        sig = ' '.join(lines[i:j+1])
        self.params = [re.split(r'[ *]+', p.strip())[-1] for p in sig[sig.index('(')+1:sig.rindex(')')].split(',')]
        self.params = [p for p in self.params if p != 'ec']
        body = '\n'.join(lines[j+1:k])
        body = re.sub(r'/\*.*?\*/', '', body, flags=re.S)
        self.locals, self.defs, self.ints = {}, {}, {}
        keep = []
        for l in body.split('\n'):
            m = re.match(r'#define (\w+)\s+(\w+)', l)
            if m:
                self.defs[m.group(1)] = m.group(2); continue
            if l.startswith('#'):
                continue
            m = re.match(r'\s*fe_t ([\w, ]+);', l)
            if m:
                for v in m.group(1).split(','):
                    self.locals[v.strip()] = str(base + len(self.locals))
                continue
            m = re.match(r'\s*int ([\w, ]+);', l)
            if m:
                for v in m.group(1).split(','):
                    self.ints[v.strip()] = str(base + len(self.ints))
                continue
            if re.match(r'\s*const prime_field_t', l):
                continue
            keep.append(l)
        self.tmp = base + 50
        self.s = ' '.join(keep)
        self.p = 0

    def ws(self):
        while self.p < len(self.s) and self.s[self.p].isspace():
            self.p += 1

    def reg(self, a):
        a = a.strip()
        if a in CONST:
            return CONST[a]
        m = re.match(r'^(\w+)->(\w)$', a)
        if m and m.group(1) in self.params:
            return '(%s + %d)' % (m.group(1), OFF[m.group(2)])
        a = self.defs.get(a, a)
        if a in self.locals:
            return self.locals[a]
        if a in self.params:
            return a
        raise Exception('reg %s in %s' % (a, self.name))

    def until(self, ch):
        d, q = 0, self.p
        while True:
            c = self.s[self.p]
            if c == ch and d == 0:
                break
            d += c in '('; d -= c in ')'
            self.p += 1
        r = self.s[q:self.p]
        self.p += 1
        return r

    def args(self, s):
        out, d, cur = [], 0, ''
        for c in s:
            if c == ',' and d == 0:
                out.append(cur.strip()); cur = ''; continue
            d += c == '('; d -= c == ')'
            cur += c
        out.append(cur.strip())
        return out

    def flag(self, e, pre):
        """A boolean expression over the flags `f`; tests of elements go to `pre`."""
        e = e.strip()
        def rep(m):
            t = self.tmp; self.tmp += 1
            pre.append('.st (.isz %d %s)' % (t, self.reg(m.group(1))))
            return '(f %d)' % t
        e = re.sub(r'fe_is_zero\(fe, ([^)]*)\)', rep, e)
        e = re.sub(r'(\w+)->inf', lambda m: '(f %s)' % m.group(1), e)
        e = re.sub(r'(\w+)->aff', lambda m: '(f (%s + 1))' % m.group(1), e)
        for v, n in self.ints.items():
            e = re.sub(r'\b%s\b' % v, '(f %s)' % n, e)
        e = re.sub(r'\((\(f \w+\)) \| (\(f \w+\))\) \^ 1', r'!(\1 || \2)', e)
        e = e.replace(' & ', ' && ').replace(' | ', ' || ')
        if e in ('0', '1'):
            e = 'false' if e == '0' else 'true'
        return e

    def stmts(self, end):
        """Statements up to the end, as a list of codes."""
        out = []
        while True:
            self.ws()
            if self.p >= len(self.s):
                return out, False
            if self.s[self.p] == '}':
                self.p += 1
                return out, False
            if self.s.startswith('return', self.p):
                self.until(';')
                self.ws()
                if self.p < len(self.s) and self.s[self.p] == '}':
                    self.p += 1
                return out, True
            r = self.stmt(out, end)
            if r:
                return out, False

    def one(self):
        """A statement or block after if / else."""
        self.ws()
        if self.s[self.p] == '{':
            self.p += 1
            return self.stmts(False)
        out = []
        self.stmt(out, False)
        return out, False

    def stmt(self, out, end):
        self.ws()
        if self.s.startswith('if ', self.p):
            self.p = self.s.index('(', self.p) + 1
            cond = self.until(')').strip()
            a, ra = self.one()
            self.ws()
            b = []
            if self.s.startswith('else', self.p):
                self.p += 4
                b, _ = self.one()
            fin = False
            if ra:
                b, _ = self.stmts(True)
                fin = True
            if cond in STATIC:
                out.append('(bif %s then %s else %s)' % (STATIC[cond], blk(a), blk(b)))
            elif cond == 'ec->h > 1 && fe_is_zero(fe, p1->y)':
                t = self.tmp; self.tmp += 1
                out.append('(bif cfg.cof then .st (.isz %d %s) else .st (.setf %d fun _ => false))' % (t, self.reg('p1->y'), t))
                out.append('.ite %d %s %s' % (t, blk(a), blk(b)))
            else:
                pre = []
                e = self.flag(cond, pre)
                m = re.match(r'^\(f (.+)\)$', e)
                out.extend(pre)
                out.append('.ite %s %s %s' % (m.group(1), blk(a), blk(b)))
            return fin
        s = self.until(';').strip()
        m = re.match(r'^([\w>-]+) = (.*)$', s, flags=re.S)
        if m:
            l = m.group(1)
            pre = []
            e = self.flag(m.group(2), pre)
            out.extend(pre)
            if l in self.ints:
                d = self.ints[l]
            else:
                q = re.match(r'^(\w+)->(inf|aff)$', l)
                d = q.group(1) if q.group(2) == 'inf' else '(%s + 1)' % q.group(1)
            out.append('.st (.setf %s fun %s => %s)' % (d, 'f' if 'f ' in e else '_', e))
            return False
        m = re.match(r'^(?:fe->)?(\w+)\((.*)\)$', s, flags=re.S)
        f, a = m.group(1), self.args(m.group(2))
        if f == 'ASSERT':
            return False
        if f in BIN:
            out.append('.st (.bin %s %s %s %s)' % (BIN[f], *[self.reg(x) for x in a[1:]]))
        elif f in UN:
            out.append('.st (.un %s %s %s)' % (UN[f], *[self.reg(x) for x in a[1:]]))
        elif f == 'scmul_d':
            out.append('.st (.un .scd %s %s)' % (self.reg(a[0]), self.reg(a[1])))
        elif f == 'scmul_a24':
            out.append('.st (.un .sca24 %s %s)' % (self.reg(a[0]), self.reg(a[1])))
        elif f == 'fe_zero':
            out.append('.st (.un .set %s %s)' % (self.reg(a[1]), CONST['fe->zero']))
        elif f == 'fe_select':
            pre = []
            e = self.flag(a[4], pre)
            out.extend(pre)
            m = re.match(r'^\(f (.+)\)$', e)
            out.append('.st (.sel %s %s %s %s)' % (self.reg(a[1]), self.reg(a[2]), self.reg(a[3]), m.group(1)))
        elif f in CALLS:
            out.append('%s_code%s' % (f, ''.join(' ' + x for x in ([] if f == 'jge_zero' else ['cfg']) + [x if x in self.params and x.startswith('p') else self.reg(x) for x in a[1:]])))
        else:
            raise Exception(s)
        return False

def blk(l):
    return '(.block [%s])' % ', '.join(l)

def emit(name, base, flags='', extra=''):
    fn = Fn(name, base)
    code, _ = fn.stmts(True)
    ps = [p for p in fn.params if p not in ('affine', 'sign')]
    bs = [p for p in fn.params if p in ('affine', 'sign')]
    cfg = '' if name == 'jge_zero' else ' (%scfg : Cfg)' % ('' if any('cfg' in c for c in code) else '_')
    sig = '%s (%s : Nat)%s' % (cfg, ' '.join(ps), ' (%s : Bool)' % ' '.join(bs) if bs else '')
    body = ',\n  '.join(code)
    return '/-- src/ecc.c:%d-%d `%s`.%s -/\ndef %s_code%s : Code := .block [\n  %s]\n' % (fn.first, fn.last, name, extra, name, sig, body)

if __name__ == '__main__':
    head = '''import Verif.Ecc.Fiat.Code

/-!
# Model of the formulas for points in src/ecc.c (written by tools/formula.py)

The statements in their order with the variables as numbered registers: a point has its coordinates `x`, `y`, `z`, `t` in four registers
from the number given on, its flags `inf` and `aff` in two flags; the locals of each function have numbers of their own.
-/
namespace Torsion.Fiat

'''
    fns = [('wei_mul_a', 100), ('jge_zero', 140), ('jge_dblj', 200), ('jge_dbl0', 300), ('jge_dbl3', 400), ('jge_dbl_var', 450), ('jge_addsub_var', 500),
           ('jge_mixed_addsub_var', 600), ('jge_add', 700), ('jge_mixed_add', 800), ('mont_mul_a24', 100), ('pge_dbl', 200), ('pge_ladder', 300),
           ('edwards_mul_a', 100), ('edwards_mul_d', 100), ('xge_dbl', 200), ('xge_add_a', 300), ('xge_sub_a', 400), ('xge_add_m1', 500), ('xge_sub_m1', 600)]
    open(OUT, 'w').write(head + '\n'.join(emit(n, b) for n, b in fns) + '\nend Torsion.Fiat\n')
