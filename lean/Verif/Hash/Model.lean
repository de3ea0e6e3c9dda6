import Verif.Hash.Transform

/-!
# Model of the hash functions of src/hash.c

Digest contexts, init / update / final. Arrays that `*_init` leaves uninitialised hold the bytes given
by a function `junk`. A `*_final` returns the bytes it writes to `out`; the context it leaves behind
is not modelled (every caller in src/ initialises it again before using it).
-/
namespace Torsion

/-- An array of `n` bytes with unspecified contents, for example `block` after src/hash.c:1455-1462 `md5_init`. -/
def rawBytes (n : Nat) (junk : Nat → Byte) : List Byte := (List.range n).map junk

/-! ## MD4, MD5, RIPEMD-160, SHA-1, SHA-2, Whirlpool -/

/-- What distinguishes the hash functions written in the style of src/hash.c:1569-1597 `md5_update` and
src/hash.c:1599-1624 `md5_final`: chaining state `St`, length counter `Z` (`ctx->size`), block size `bs`, offset
`lenOff` of the length field in the last block, block function `f`, position `ctx->size & (bs - 1)`,
increment of the counter, the bytes of the length field, and the bytes of the state output. -/
structure MdAlg where
  St : Type
  Z : Type
  bs : Nat
  lenOff : Nat
  f : St → Vector Byte bs → St
  pos : Z → Nat
  incr : Z → Nat → Z
  lenBytes : Z → List Byte
  out : St → List Byte

/-- The contexts include/torsion/hash.h:226-230 `md5_s`, include/torsion/hash.h:255-259 `sha512_s` and their siblings. -/
structure MdCtx (A : MdAlg) where
  st : A.St
  block : List Byte
  size : A.Z

/-- The body common to src/hash.c:1390-1418 `md4_update`, src/hash.c:1569-1597 `md5_update`, src/hash.c:1914-1942 `ripemd160_update`,
src/hash.c:2159-2187 `sha1_update`, src/hash.c:2430-2458 `sha256_update`, src/hash.c:2727-2755 `sha512_update` and
src/hash.c:3963-3991 `whirlpool_update`. -/
def md_update (A : MdAlg) (ctx : MdCtx A) (data : List Byte) : C (MdCtx A) := do
  let r ← buf_update A.bs A.f ⟨ctx.st, ctx.block, A.pos ctx.size⟩ data
  .ok ⟨r.st, r.block, A.incr ctx.size data.length⟩

/-- The body common to src/hash.c:1420-1445 `md4_final`, src/hash.c:1599-1624 `md5_final`, src/hash.c:1944-1969 `ripemd160_final`,
src/hash.c:2189-2214 `sha1_final`, src/hash.c:2460-2485 `sha256_final`, src/hash.c:2757-2783 `sha512_final` and
src/hash.c:3993-4021 `whirlpool_final`. -/
def md_final (A : MdAlg) (ctx : MdCtx A) : C (List Byte) := do
  let pos := A.pos ctx.size
  let block ← C.wr ctx.block pos 0x80
  let pos := pos + 1
  let (st, block, pos) ←
    (if pos > A.lenOff then do
      let (block, _) ← zero_loop A.bs A.bs block pos
      let v ← C.vec A.bs block
      .ok (A.f ctx.st v, block, 0)
    else .ok (ctx.st, block, pos))
  let (block, _) ← zero_loop A.bs A.lenOff block pos
  let block ← C.blit block A.lenOff (A.lenBytes ctx.size)
  let v ← C.vec A.bs block
  .ok (A.out (A.f st v))

/-- src/hash.c:2721-2725 `sha512_increment`; `c` is a `size_t`. -/
def sha512_increment (size : BitVec 64 × BitVec 64) (c : Nat) : BitVec 64 × BitVec 64 :=
  let c : BitVec 64 := BitVec.ofNat 64 c
  let s0 := size.1 + c
  (s0, size.2 + (if s0 < c then 1 else 0))

/-- src/hash.c:3955-3961 `whirlpool_increment`, same text as src/hash.c:644-650 `gost94_increment`. -/
def whirlpool_increment (size : BitVec 64 × BitVec 64 × BitVec 64 × BitVec 64) (c : Nat) :
    BitVec 64 × BitVec 64 × BitVec 64 × BitVec 64 :=
  let c : BitVec 64 := BitVec.ofNat 64 c
  let s0 := size.1 + c
  let c : BitVec 64 := if s0 < c then 1 else 0
  let s1 := size.2.1 + c
  let c : BitVec 64 := if s1 < c then 1 else 0
  let s2 := size.2.2.1 + c
  let c : BitVec 64 := if s2 < c then 1 else 0
  (s0, s1, s2, size.2.2.2 + c)

/-- `ctx->size & mask` as a number, src/hash.c:1569-1597 `md5_update`. -/
def maskNat (size mask : BitVec 64) : Nat := (size &&& mask).toNat

/-- Transform, counter and output of src/hash.c:1390-1418 `md4_update` and src/hash.c:1420-1445 `md4_final`. -/
def md4Alg : MdAlg where
  St := Vector (BitVec 32) 4
  Z := BitVec 64
  bs := 64
  lenOff := 56
  f := md4_transform
  pos size := maskNat size 63
  incr size len := size + BitVec.ofNat 64 len
  lenBytes size := (write64le (size <<< 3)).toList
  out st := st.toList.flatMap fun w => (write32le w).toList

/-- Transform, counter and output of src/hash.c:1569-1597 `md5_update` and src/hash.c:1599-1624 `md5_final`. -/
def md5Alg : MdAlg where
  St := Vector (BitVec 32) 4
  Z := BitVec 64
  bs := 64
  lenOff := 56
  f := md5_transform
  pos size := maskNat size 63
  incr size len := size + BitVec.ofNat 64 len
  lenBytes size := (write64le (size <<< 3)).toList
  out st := st.toList.flatMap fun w => (write32le w).toList

/-- Transform, counter and output of src/hash.c:1914-1942 `ripemd160_update` and src/hash.c:1944-1969 `ripemd160_final`. -/
def ripemd160Alg : MdAlg where
  St := Vector (BitVec 32) 5
  Z := BitVec 64
  bs := 64
  lenOff := 56
  f := ripemd160_transform
  pos size := maskNat size 63
  incr size len := size + BitVec.ofNat 64 len
  lenBytes size := (write64le (size <<< 3)).toList
  out st := st.toList.flatMap fun w => (write32le w).toList

/-- Transform, counter and output of src/hash.c:2159-2187 `sha1_update` and src/hash.c:2189-2214 `sha1_final`. -/
def sha1Alg : MdAlg where
  St := Vector (BitVec 32) 5
  Z := BitVec 64
  bs := 64
  lenOff := 56
  f := sha1_transform
  pos size := maskNat size 63
  incr size len := size + BitVec.ofNat 64 len
  lenBytes size := (write64be (size <<< 3)).toList
  out st := st.toList.flatMap fun w => (write32be w).toList

/-- Transform, counter and output of src/hash.c:2430-2458 `sha256_update` and src/hash.c:2460-2485 `sha256_final`. -/
def sha256Alg : MdAlg where
  St := Vector (BitVec 32) 8
  Z := BitVec 64
  bs := 64
  lenOff := 56
  f := sha256_transform
  pos size := maskNat size 63
  incr size len := size + BitVec.ofNat 64 len
  lenBytes size := (write64be (size <<< 3)).toList
  out st := st.toList.flatMap fun w => (write32be w).toList

/-- Transform, counter and output of src/hash.c:2727-2755 `sha512_update` and src/hash.c:2757-2783 `sha512_final`. -/
def sha512Alg : MdAlg where
  St := Vector (BitVec 64) 8
  Z := BitVec 64 × BitVec 64
  bs := 128
  lenOff := 112
  f := sha512_transform
  pos size := maskNat size.1 127
  incr := sha512_increment
  lenBytes size := (write64be ((size.2 <<< 3) ||| (size.1 >>> 61))).toList ++
    (write64be (size.1 <<< 3)).toList
  out st := st.toList.flatMap fun w => (write64be w).toList

/-- Transform, counter and output of src/hash.c:3963-3991 `whirlpool_update` and src/hash.c:3993-4021 `whirlpool_final`. -/
def whirlpoolAlg : MdAlg where
  St := Vector (BitVec 64) 8
  Z := BitVec 64 × BitVec 64 × BitVec 64 × BitVec 64
  bs := 64
  lenOff := 32
  f := whirlpool_transform
  pos size := maskNat size.1 63
  incr := whirlpool_increment
  lenBytes size :=
    (write64be ((size.2.2.2 <<< 3) ||| (size.2.2.1 >>> 61))).toList ++
    (write64be ((size.2.2.1 <<< 3) ||| (size.2.1 >>> 61))).toList ++
    (write64be ((size.2.1 <<< 3) ||| (size.1 >>> 61))).toList ++
    (write64be (size.1 <<< 3)).toList
  out st := st.toList.flatMap fun w => (write64be w).toList

/-- src/hash.c:1288-1295 `md4_init`. -/
def md4_init (junk : Nat → Byte) : MdCtx md4Alg :=
  ⟨(#v[0x67452301, 0xefcdab89, 0x98badcfe, 0x10325476] : Vector (BitVec 32) 4),
    rawBytes 64 junk, (0 : BitVec 64)⟩

/-- src/hash.c:1455-1462 `md5_init`. -/
def md5_init (junk : Nat → Byte) : MdCtx md5Alg :=
  ⟨(#v[0x67452301, 0xefcdab89, 0x98badcfe, 0x10325476] : Vector (BitVec 32) 4),
    rawBytes 64 junk, (0 : BitVec 64)⟩

/-- src/hash.c:1656-1664 `ripemd160_init`. -/
def ripemd160_init (junk : Nat → Byte) : MdCtx ripemd160Alg :=
  ⟨(#v[0x67452301, 0xefcdab89, 0x98badcfe, 0x10325476, 0xc3d2e1f0] : Vector (BitVec 32) 5),
    rawBytes 64 junk, (0 : BitVec 64)⟩

/-- src/hash.c:1980-1988 `sha1_init`. -/
def sha1_init (junk : Nat → Byte) : MdCtx sha1Alg :=
  ⟨(#v[0x67452301, 0xefcdab89, 0x98badcfe, 0x10325476, 0xc3d2e1f0] : Vector (BitVec 32) 5),
    rawBytes 64 junk, (0 : BitVec 64)⟩

/-- src/hash.c:2224-2235 `sha224_init`. -/
def sha224_init (junk : Nat → Byte) : MdCtx sha256Alg :=
  ⟨(#v[0xc1059ed8, 0x367cd507, 0x3070dd17, 0xf70e5939, 0xffc00b31, 0x68581511, 0x64f98fa7,
      0xbefa4fa4] : Vector (BitVec 32) 8),
    rawBytes 64 junk, (0 : BitVec 64)⟩

/-- src/hash.c:2261-2272 `sha256_init`. -/
def sha256_init (junk : Nat → Byte) : MdCtx sha256Alg :=
  ⟨(#v[0x6a09e667, 0xbb67ae85, 0x3c6ef372, 0xa54ff53a, 0x510e527f, 0x9b05688c, 0x1f83d9ab,
      0x5be0cd19] : Vector (BitVec 32) 8),
    rawBytes 64 junk, (0 : BitVec 64)⟩

/-- src/hash.c:2495-2508 `sha384_init`. -/
def sha384_init (junk : Nat → Byte) : MdCtx sha512Alg :=
  ⟨(#v[0xcbbb9d5dc1059ed8, 0x629a292a367cd507, 0x9159015a3070dd17, 0x152fecd8f70e5939,
      0x67332667ffc00b31, 0x8eb44a8768581511, 0xdb0c2e0d64f98fa7, 0x47b5481dbefa4fa4] :
        Vector (BitVec 64) 8),
    rawBytes 128 junk, ((0, 0) : BitVec 64 × BitVec 64)⟩

/-- src/hash.c:2534-2547 `sha512_init`. -/
def sha512_init (junk : Nat → Byte) : MdCtx sha512Alg :=
  ⟨(#v[0x6a09e667f3bcc908, 0xbb67ae8584caa73b, 0x3c6ef372fe94f82b, 0xa54ff53a5f1d36f1,
      0x510e527fade682d1, 0x9b05688c2b3e6c1f, 0x1f83d9abfb41bd6b, 0x5be0cd19137e2179] :
        Vector (BitVec 64) 8),
    rawBytes 128 junk, ((0, 0) : BitVec 64 × BitVec 64)⟩

/-- src/hash.c:3888-3903 `whirlpool_init`. -/
def whirlpool_init (junk : Nat → Byte) : MdCtx whirlpoolAlg :=
  ⟨(Vector.replicate 8 0 : Vector (BitVec 64) 8),
    rawBytes 64 junk, ((0, 0, 0, 0) : BitVec 64 × BitVec 64 × BitVec 64 × BitVec 64)⟩

/-- src/hash.c:2242-2251 `sha224_final`: the first 28 bytes of `tmp[32]`. -/
def sha224_final (ctx : MdCtx sha256Alg) : C (List Byte) := do
  let tmp ← md_final sha256Alg ctx
  C.slice tmp 0 28

/-- src/hash.c:2515-2524 `sha384_final`: the first 48 bytes of `tmp[64]`. -/
def sha384_final (ctx : MdCtx sha512Alg) : C (List Byte) := do
  let tmp ← md_final sha512Alg ctx
  C.slice tmp 0 48

/-- src/hash.c:721-733 `hash160_final`; `junk` is the uninitialised `rmd.block`. -/
def hash160_final (junk : Nat → Byte) (ctx : MdCtx sha256Alg) : C (List Byte) := do
  let tmp ← md_final sha256Alg ctx
  let tmp ← C.slice tmp 0 32
  let rmd ← md_update ripemd160Alg (ripemd160_init junk) tmp
  md_final ripemd160Alg rmd

/-- src/hash.c:752-758 `hash256_final`; `junk` is what the first `sha256_final` leaves in `ctx->block`. -/
def hash256_final (junk : Nat → Byte) (ctx : MdCtx sha256Alg) : C (List Byte) := do
  let out ← md_final sha256Alg ctx
  let out ← C.slice out 0 32
  let ctx ← md_update sha256Alg (sha256_init junk) out
  md_final sha256Alg ctx

/-- include/torsion/hash.h:244-247 `md5sha1_s`. -/
structure Md5Sha1Ctx where
  md5 : MdCtx md5Alg
  sha1 : MdCtx sha1Alg

/-- src/hash.c:1630-1634 `md5sha1_init`. -/
def md5sha1_init (junk1 junk2 : Nat → Byte) : Md5Sha1Ctx := ⟨md5_init junk1, sha1_init junk2⟩

/-- src/hash.c:1636-1640 `md5sha1_update`. -/
def md5sha1_update (ctx : Md5Sha1Ctx) (data : List Byte) : C Md5Sha1Ctx := do
  let a ← md_update md5Alg ctx.md5 data
  let b ← md_update sha1Alg ctx.sha1 data
  .ok ⟨a, b⟩

/-- src/hash.c:1642-1646 `md5sha1_final`: 16 bytes at `out`, 20 bytes at `out + 16`. -/
def md5sha1_final (ctx : Md5Sha1Ctx) : C (List Byte) := do
  let a ← md_final md5Alg ctx.md5
  let b ← md_final sha1Alg ctx.sha1
  .ok (a ++ b)

/-! ## Output loops of BLAKE2 and Keccak -/

/-- `for (i = 0; i < count; i++) write64le(out + i * 8, ctx->h[i]);` of src/hash.c:208-225 `blake2b_final` from
`i` on, `n` rounds left; `wr` is the byte writer. Past the end of `h` it is `ub`. -/
def words_out {w : Nat} (wr : BitVec w → List Byte) (h : List (BitVec w)) : Nat → Nat → C (List Byte)
  | 0, _ => .ok []
  | n + 1, i => do
    let x ← C.rd h i
    let r ← words_out wr h n (i + 1)
    .ok (wr x ++ r)

/-- `for (i = count * 8; i < len; i++) out[i] = (ctx->h[i >> 3] >> (8 * (i & 7))) & 0xff;` of
src/hash.c:208-225 `blake2b_final` from `i` on, `n` rounds left; `k` is the number of bytes of a word. -/
def bytes_out {w : Nat} (k : Nat) (h : List (BitVec w)) : Nat → Nat → C (List Byte)
  | 0, _ => .ok []
  | n + 1, i => do
    let x ← C.rd h (i / k)
    let r ← bytes_out k h n (i + 1)
    .ok ((x >>> (8 * (i % k))).setWidth 8 :: r)

/-- Both loops, with `count = len / k`; src/hash.c:208-225 `blake2b_final`, src/hash.c:425-442 `blake2s_final` and
src/hash.c:1087-1116 `keccak_final`. -/
def state_out {w : Nat} (k : Nat) (wr : BitVec w → List Byte) (h : List (BitVec w)) (len : Nat) :
    C (List Byte) := do
  let count := len / k
  let a ← words_out wr h count 0
  let b ← bytes_out k h (len - count * k) (count * k)
  .ok (a ++ b)

/-! ## BLAKE2 -/

/-- What distinguishes src/hash.c:176-206 `blake2b_update` from src/hash.c:393-423 `blake2s_update`. -/
structure B2Alg (w : Nat) where
  bs : Nat
  iv : Vector (BitVec w) 8
  compress : Vector (BitVec w) 8 → BitVec w → BitVec w → Vector Byte bs → BitVec w →
    Vector (BitVec w) 8
  wr : BitVec w → List Byte

/-- The constants of src/hash.c:47-76 `blake2b_init`, src/hash.c:176-206 `blake2b_update` and src/hash.c:208-225 `blake2b_final`. -/
def blake2bAlg : B2Alg 64 := ⟨128, blake2b_iv, blake2b_compress, fun x => (write64le x).toList⟩

/-- The constants of src/hash.c:268-297 `blake2s_init`, src/hash.c:393-423 `blake2s_update` and src/hash.c:425-442 `blake2s_final`. -/
def blake2sAlg : B2Alg 32 := ⟨64, blake2s_iv, blake2s_compress, fun x => (write32le x).toList⟩

/-- `h` and `t` of include/torsion/hash.h:188-194 `blake2b_s`. -/
structure B2St (w : Nat) where
  h : Vector (BitVec w) 8
  t0 : BitVec w
  t1 : BitVec w
deriving DecidableEq

/-- include/torsion/hash.h:188-194 `blake2b_s` and include/torsion/hash.h:196-202 `blake2s_s`. -/
structure B2Ctx (w : Nat) where
  st : B2St w
  block : List Byte
  pos : Nat
  len : Nat

/-- src/hash.c:78-82 `blake2b_increment`, src/hash.c:299-303 `blake2s_increment`. -/
def blake2_increment {w : Nat} (s : B2St w) (c : Nat) : B2St w :=
  let c : BitVec w := BitVec.ofNat w c
  let t0 := s.t0 + c
  ⟨s.h, t0, s.t1 + (if t0 < c then 1 else 0)⟩

/-- src/hash.c:170-174 `blake2b_transform`, src/hash.c:387-391 `blake2s_transform`. -/
def blake2_transform {w : Nat} (A : B2Alg w) (s : B2St w) (chunk : Vector Byte A.bs) : B2St w :=
  let s := blake2_increment s A.bs
  { s with h := A.compress s.h s.t0 s.t1 chunk 0 }

/-- src/hash.c:47-76 `blake2b_init` (key and output at most 64 bytes) and src/hash.c:268-297 `blake2s_init` (32 bytes):
`max` is that limit. -/
def blake2_init {w : Nat} (A : B2Alg w) (max : Nat) (junk : Nat → Byte) (len : Nat)
    (key : List Byte) : C (B2Ctx w) := do
  C.check (decide (1 ≤ len) && decide (len ≤ max))
  C.check (decide (key.length ≤ max))
  let h := A.iv.set 0 (A.iv[0] ^^^
    (BitVec.ofNat w 0x01010000 ||| (BitVec.ofNat w key.length <<< 8) ||| BitVec.ofNat w len))
  let st : B2St w := ⟨h, 0, 0⟩
  if key.length > 0 then do
    let block ← C.blit (List.replicate A.bs 0) 0 key
    .ok ⟨st, block, A.bs, len⟩
  else .ok ⟨st, rawBytes A.bs junk, 0, len⟩

/-- The loop `while (len > 128)` of src/hash.c:176-206 `blake2b_update`; first argument: an upper bound of the
number of rounds. -/
def blake2_loop {w : Nat} (A : B2Alg w) : Nat → B2St w → List Byte → C (B2St w × List Byte)
  | 0, st, raw => .ok (st, raw)
  | k + 1, st, raw =>
    if raw.length > A.bs then do
      let v ← C.vec A.bs raw
      blake2_loop A k (blake2_transform A st v) (raw.drop A.bs)
    else .ok (st, raw)

/-- src/hash.c:176-206 `blake2b_update`, src/hash.c:393-423 `blake2s_update`. -/
def blake2_update {w : Nat} (A : B2Alg w) (ctx : B2Ctx w) (data : List Byte) : C (B2Ctx w) := do
  let pos := ctx.pos
  let want := A.bs - pos
  let (ctx, raw, pos) ←
    (if data.length > want then do
      let (ctx, raw, pos) ←
        (if pos > 0 then do
          let head ← C.slice data 0 want
          let block ← C.blit ctx.block pos head
          let v ← C.vec A.bs block
          .ok ({ ctx with block := block, st := blake2_transform A ctx.st v }, data.drop want, 0)
        else .ok (ctx, data, pos))
      let (st, raw) ← blake2_loop A raw.length ctx.st raw
      .ok ({ ctx with st := st }, raw, pos)
    else .ok (ctx, data, pos))
  if raw.length > 0 then do
    let block ← C.blit ctx.block pos raw
    .ok { ctx with block := block, pos := pos + raw.length }
  else .ok { ctx with pos := pos }

/-- src/hash.c:208-225 `blake2b_final`, src/hash.c:425-442 `blake2s_final`. -/
def blake2_final {w : Nat} (A : B2Alg w) (ctx : B2Ctx w) : C (List Byte) := do
  let (block, _) ← zero_loop A.bs A.bs ctx.block ctx.pos
  let s := blake2_increment ctx.st ctx.pos
  let v ← C.vec A.bs block
  let h := A.compress s.h s.t0 s.t1 v (BitVec.allOnes w)
  state_out (w / 8) A.wr h.toList ctx.len

/-! ## GOST94 -/

/-- `state` and `sigma` of include/torsion/hash.h:204-209 `gost94_s`. -/
abbrev GostSt := Vector Byte 32 × Vector Byte 32

/-- include/torsion/hash.h:204-209 `gost94_s`. -/
structure GostCtx where
  st : GostSt
  block : List Byte
  size : BitVec 64 × BitVec 64 × BitVec 64 × BitVec 64

/-- src/hash.c:633-636 `gost94_init`. -/
def gost94_init : GostCtx :=
  ⟨(Vector.replicate 32 0, Vector.replicate 32 0), List.replicate 32 0, (0, 0, 0, 0)⟩

/-- src/hash.c:638-642 `gost94_transform`. -/
def gost94_transform (st : GostSt) (chunk : Vector Byte 32) : GostSt :=
  (gost94_compress st.1 chunk, gost94_sum st.2 chunk)

/-- src/hash.c:652-680 `gost94_update`. -/
def gost94_update (ctx : GostCtx) (data : List Byte) : C GostCtx := do
  let r ← buf_update 32 gost94_transform ⟨ctx.st, ctx.block, maskNat ctx.size.1 31⟩ data
  .ok ⟨r.st, r.block, whirlpool_increment ctx.size data.length⟩

/-- The four `write64le` of src/hash.c:682-702 `gost94_final`. -/
def gost94_length (size : BitVec 64 × BitVec 64 × BitVec 64 × BitVec 64) : List Byte :=
  (write64le (size.1 <<< 3)).toList ++
  (write64le ((size.2.1 <<< 3) ||| (size.1 >>> 61))).toList ++
  (write64le ((size.2.2.1 <<< 3) ||| (size.2.1 >>> 61))).toList ++
  (write64le ((size.2.2.2 <<< 3) ||| (size.2.2.1 >>> 61))).toList

/-- src/hash.c:682-702 `gost94_final`. -/
def gost94_final (ctx : GostCtx) : C (List Byte) := do
  let pos := maskNat ctx.size.1 31
  let (st, block) ←
    (if pos > 0 then do
      let (block, _) ← zero_loop 32 32 ctx.block pos
      let v ← C.vec 32 block
      .ok (gost94_transform ctx.st v, block)
    else .ok (ctx.st, ctx.block))
  let block ← C.blit block 0 (gost94_length ctx.size)
  let v ← C.vec 32 block
  let s := gost94_compress st.1 v
  let s := gost94_compress s st.2
  .ok s.toList

/-! ## Keccak -/

/-- include/torsion/hash.h:211-217 `keccak_s`; of `block[192]` only the first `bs` bytes are kept (a write past
them is `ub` here). -/
structure KecCtx where
  bs : Nat
  st : Vector (BitVec 64) 25
  block : List Byte
  pos : Nat
  std : Bool

/-- src/hash.c:770-789 `keccak_init`; `bits` is an `unsigned int`, `rate = 1600 - bits * 2` wraps. -/
def keccak_init (junk : Nat → Byte) (bits : BitVec 32) : C KecCtx := do
  let rate : BitVec 32 := 1600 - bits * 2
  C.check (decide (32 ≤ bits.toNat))
  C.check (decide (bits.toNat ≤ 768))
  C.check (rate &&& 63 == 0)
  let bs := (rate >>> 3).toNat
  .ok ⟨bs, Vector.replicate 25 0, rawBytes bs junk, 0,
    bits == 128 || bits == 160 || bits == 192 || bits == 224 || bits == 256 || bits == 384 ||
      bits == 512⟩

/-- `keccak_transform(ctx, chunk)` with the outcome kept in the state, src/hash.c:1055-1085 `keccak_update`. -/
def keccak_f (std : Bool) (bs : Nat) (st : C (Vector (BitVec 64) 25)) (v : Vector Byte bs) :
    C (Vector (BitVec 64) 25) := do
  let A ← st
  keccak_transform std bs A v.toList

/-- src/hash.c:1055-1085 `keccak_update`. -/
def keccak_update (ctx : KecCtx) (data : List Byte) : C KecCtx := do
  let r ← buf_update ctx.bs (keccak_f ctx.std ctx.bs) ⟨.ok ctx.st, ctx.block, ctx.pos⟩ data
  let A ← r.st
  .ok { ctx with st := A, block := r.block, pos := r.pos }

/-- src/hash.c:1087-1116 `keccak_final`; `pad` is an `unsigned int`. -/
def keccak_final (ctx : KecCtx) (pad : BitVec 32) (len : Nat) : C (List Byte) := do
  let pad : BitVec 32 := if pad = 0 then 1 else pad
  let len := if len = 0 then 100 - ctx.bs / 2 else len
  C.check (decide (len ≤ 200))
  let block ← C.wr ctx.block ctx.pos (pad.setWidth 8)
  let (block, _) ← zero_loop ctx.bs ctx.bs block (ctx.pos + 1)
  let last ← C.rd block (ctx.bs - 1)
  let block ← C.wr block (ctx.bs - 1) (last ||| 0x80)
  let A ← keccak_transform ctx.std ctx.bs ctx.st block
  state_out 8 (fun x => (write64le x).toList) A.toList len

/-! ## MD2 -/

/-- include/torsion/hash.h:219-224 `md2_s`, see `md2_transform` for the state. -/
abbrev Md2Ctx := Buf (Vector Byte 16 × Vector Byte 16)

/-- src/hash.c:1151-1154 `md2_init`. -/
def md2_init : Md2Ctx :=
  ⟨(Vector.replicate 16 0, Vector.replicate 16 0), List.replicate 16 0, 0⟩

/-- src/hash.c:1234-1264 `md2_update`. -/
def md2_update (ctx : Md2Ctx) (data : List Byte) : C Md2Ctx := buf_update 16 md2_transform ctx data

/-- The loop `while (pos < 16) ctx->block[pos++] = left;` of src/hash.c:1266-1278 `md2_final`; first argument: upper
bound of the rounds. -/
def md2_fill (left : Byte) : Nat → List Byte → Nat → C (List Byte)
  | 0, block, _ => .ok block
  | k + 1, block, pos =>
    if pos < 16 then do
      let block ← C.wr block pos left
      md2_fill left k block (pos + 1)
    else .ok block

/-- src/hash.c:1266-1278 `md2_final`. -/
def md2_final (ctx : Md2Ctx) : C (List Byte) := do
  let left := 16 - ctx.pos
  let block ← md2_fill (BitVec.ofNat 8 left) 16 ctx.block ctx.pos
  let v ← C.vec 16 block
  let st := md2_transform ctx.st v
  let st := md2_transform st st.2
  .ok st.1.toList

end Torsion
