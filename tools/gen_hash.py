#!/usr/bin/env python3
"""Transcribes the round lists and tables of /repo/src/hash.c into Verif/Hash/Tables.lean."""
import re
src = open('/repo/src/hash.c').read()

def body(fn):
    m = re.search(r'^%s\(' % fn, src, re.M)
    i = src.index('{', m.end())
    j = src.index('\n}\n', i)
    return src[i:j]

def defs(b):
    return {m[1]: int(m[2], 16) for m in re.finditer(r'#define (KH?\d) (0x[0-9a-f]+)', b)}

def rounds(fn):
    b = body(fn)
    d = defs(b)
    out = []
    for m in re.finditer(r'^  R\(([^;]*)\);', b, re.M):
        args = [a.strip() for a in m[1].split(',')]
        r = []
        for a in args:
            u = re.fullmatch(r'UINT64_C\((0x[0-9a-f]+)\)', a)
            if u: r.append(u[1])
            elif a in d: r.append('0x%08x' % d[a])
            else: r.append(a)
        out.append(r)
    return out

regs = {c: i for i, c in enumerate('ABCDEFGH')}
regsH = {c + 'H': i for i, c in enumerate('ABCDE')}
L = []
def w(s): L.append(s)
w('''import Verif.Basic

/-!
# Model: round lists and tables of src/hash.c

Generated by tools/gen_hash.py from the text of /repo/src/hash.c. Registers are numbered `A` = 0,
`B` = 1, ...; `F1` is 0, `F2` is 1, ....
-/
set_option maxRecDepth 10000

namespace Torsion

/-- The arguments of one `R(F, a, b, c, d, i, k, s)` of src/hash.c:1 `md5_transform` and src/hash.c:1
`md4_transform`. -/
structure Md5R where
  f : Fin 4
  a : Fin 4
  b : Fin 4
  c : Fin 4
  d : Fin 4
  i : Fin 16
  k : BitVec 32
  s : Nat
deriving DecidableEq

/-- The arguments of one `R(F, a, b, c, d, e, i, k, s)` of src/hash.c:1 `ripemd160_transform`. -/
structure RmdR where
  f : Fin 5
  a : Fin 5
  b : Fin 5
  c : Fin 5
  d : Fin 5
  e : Fin 5
  i : Fin 16
  k : BitVec 32
  s : Nat
deriving DecidableEq

/-- The arguments of one `R(F, a, b, c, d, e, i, k)` of src/hash.c:1 `sha1_transform`. -/
structure Sha1R where
  f : Fin 4
  a : Fin 5
  b : Fin 5
  c : Fin 5
  d : Fin 5
  e : Fin 5
  i : Nat
  k : BitVec 32
deriving DecidableEq

/-- The arguments of one `R(a, b, c, d, e, f, g, h, i, k)` of src/hash.c:1 `sha256_transform` (`w` = 32)
and src/hash.c:1 `sha512_transform` (`w` = 64). -/
structure Sha2R (w : Nat) where
  a : Fin 8
  b : Fin 8
  c : Fin 8
  d : Fin 8
  e : Fin 8
  f : Fin 8
  g : Fin 8
  h : Fin 8
  i : Nat
  k : BitVec w
deriving DecidableEq
''')

def table(name, ty, doc, rows):
    w('/-- %s -/' % doc)
    w('def %s : List %s := [' % (name, ty))
    w(',\n'.join('  ⟨%s⟩' % ', '.join(r) for r in rows))
    w(']\n')

def conv(r, rg, nreg, hasF):
    o = []
    if hasF: o.append(str(int(r[0][1:]) - 1)); r = r[1:]
    o += [str(rg[x]) for x in r[:nreg]]
    o += r[nreg:]
    return o

table('md4_rounds', 'Md5R', 'The rounds of src/hash.c:1 `md4_transform`, in order.', [conv(r, regs, 4, 1) for r in rounds('md4_transform')])
table('md5_rounds', 'Md5R', 'The rounds of src/hash.c:1 `md5_transform`, in order.', [conv(r, regs, 4, 1) for r in rounds('md5_transform')])
rm = rounds('ripemd160_transform')
l = [r for r in rm if not r[1].endswith('H')]
h = [r for r in rm if r[1].endswith('H')]
assert len(l) == 80 and len(h) == 80, (len(l), len(h))
table('rmd_rounds', 'RmdR', 'The rounds on `A` ... `E` of src/hash.c:1 `ripemd160_transform`, in order.', [conv(r, regs, 5, 1) for r in l])
table('rmd_roundsH', 'RmdR', 'The rounds on `AH` ... `EH` of src/hash.c:1 `ripemd160_transform`, in order.', [conv(r, regsH, 5, 1) for r in h])
table('sha1_rounds', 'Sha1R', 'The rounds of src/hash.c:1 `sha1_transform`, in order.', [conv(r, regs, 5, 1) for r in rounds('sha1_transform')])
table('sha256_rounds', '(Sha2R 32)', 'The rounds of src/hash.c:1 `sha256_transform`, in order.', [conv(r, regs, 8, 0) for r in rounds('sha256_transform')])
table('sha512_rounds', '(Sha2R 64)', 'The rounds of src/hash.c:1 `sha512_transform`, in order.', [conv(r, regs, 8, 0) for r in rounds('sha512_transform')])

def array(b, name):
    m = re.search(r'\b%s\[[^=]*=\s*\{' % name, b)
    i = m.end(); j = b.index('};', i)
    t = re.sub(r'/\*.*?\*/', '', b[i:j])
    return re.findall(r'0x[0-9a-f]+|(?<![0-9a-zA-Z_])\d+(?![0-9a-zA-Z_(])', re.sub(r'UINT64_C\(([^)]*)\)', r'\1', t))

def emit(name, ty, doc, vals):
    w('/-- %s -/' % doc)
    w('def %s : %s := #v[' % (name, ty))
    line = '  '
    for k, v in enumerate(vals):
        s = v + (', ' if k < len(vals) - 1 else ']')
        if len(line) + len(s) > 98:
            w(line.rstrip()); line = '  '
        line += s
    w(line + '\n')

emit('blake2b_iv', 'Vector (BitVec 64) 8', 'src/hash.c:1 `blake2b_iv`.', array(src, 'blake2b_iv'))
emit('blake2s_iv', 'Vector (BitVec 32) 8', 'src/hash.c:1 `blake2s_iv`.', array(src, 'blake2s_iv'))
v = array(body('blake2b_compress'), 'S'); assert len(v) == 192
emit('blake2b_S', 'Vector (Fin 16) 192', 'The table `S[12][16]` of src/hash.c:1 `blake2b_compress`, row after row.', v)
v = array(body('blake2s_compress'), 'S'); assert len(v) == 160
emit('blake2s_S', 'Vector (Fin 16) 160', 'The table `S[10][16]` of src/hash.c:1 `blake2s_compress`, row after row.', v)
v = array(body('gost94_g'), 'S'); assert len(v) == 128
emit('gost94_S', 'Vector (BitVec 32) 128', 'The table `S[8][16]` of src/hash.c:1 `gost94_g`, row after row.', v)
emit('gost94_cp', 'Vector Byte 32', 'The constant `cp` of src/hash.c:1 `gost94_compress`.', array(body('gost94_compress'), 'cp'))
emit('keccak_RC', 'Vector (BitVec 64) 24', 'The table `RC` of src/hash.c:1 `keccak_compress`.', array(body('keccak_compress'), 'RC'))
v = array(body('md2_transform'), 'K'); assert len(v) == 256
emit('md2_K', 'Vector Byte 256', 'The table `K` of src/hash.c:1 `md2_transform`.', v)
emit('whirlpool_RC', 'Vector (BitVec 64) 10', 'src/hash.c:1 `whirlpool_RC`.', array(src, 'whirlpool_RC'))
for i in range(8):
    v = array(src, 'whirlpool_C%d' % i); assert len(v) == 256
    emit('whirlpool_C%d' % i, 'Vector (BitVec 64) 256', 'src/hash.c:1 `whirlpool_C%d`.' % i, v)
w('end Torsion')
open('/verif/lean/Verif/Hash/Tables.lean', 'w').write('\n'.join(L) + '\n')
