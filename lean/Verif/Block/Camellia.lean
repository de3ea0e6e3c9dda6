import Verif.Block.CamelliaTables
import Verif.Block.Base

/-!
# Model of Camellia, src/cipher.c
-/
namespace Torsion

/-- include/torsion/cipher.h:205-208, `camellia_s`. -/
structure Camellia where
  bits : Nat
  key : Vector (BitVec 32) 68

/-- The macro src/cipher.c:2135-2155, `F`; returns the new values of `r2` and `r3`. -/
def camellia_F (r0 r1 r2 r3 k0 k1 : BitVec 32) : Two :=
  let t0 := k0 ^^^ r0
  let t1 := k1 ^^^ r1
  let z := tbl camellia_S4 (byt t0 0) ^^^ tbl camellia_S3 (byt t0 8) ^^^
    tbl camellia_S2 (byt t0 16) ^^^ tbl camellia_S1 (byt t0 24)
  let r3 := r3 ^^^ ((z >>> 8) ||| (z <<< (32 - 8)))
  let z := z ^^^ (tbl camellia_S1 (byt t1 0) ^^^ tbl camellia_S4 (byt t1 8) ^^^
    tbl camellia_S3 (byt t1 16) ^^^ tbl camellia_S2 (byt t1 24))
  ⟨r2 ^^^ z, r3 ^^^ z⟩

/-- The macro src/cipher.c:2157-2164, `ROTL128`. -/
def camellia_rotl (s0 s1 s2 s3 : BitVec 32) (n : Nat) : Quad :=
  let t := s0 >>> (32 - n)
  ⟨(s0 <<< n) ||| (s1 >>> (32 - n)), (s1 <<< n) ||| (s2 >>> (32 - n)),
   (s2 <<< n) ||| (s3 >>> (32 - n)), (s3 <<< n) ||| t⟩

/-- The part of src/cipher.c:2166-2284 `camellia128_init` from the point on where `s0 .. s3` are loaded again from `k[0 .. 3]`. -/
def camellia128_keys (k : Vector (BitVec 32) 68) : Vector (BitVec 32) 68 :=
  let s0 := k[0]
  let s1 := k[1]
  let s2 := k[2]
  let s3 := k[3]
  let q := camellia_rotl s0 s1 s2 s3 15
  let s0 := q.a
  let s1 := q.b
  let s2 := q.c
  let s3 := q.d
  let k := k.set 8 s0
  let k := k.set 9 s1
  let k := k.set 10 s2
  let k := k.set 11 s3
  let q := camellia_rotl s0 s1 s2 s3 30
  let s0 := q.a
  let s1 := q.b
  let s2 := q.c
  let s3 := q.d
  let k := k.set 20 s0
  let k := k.set 21 s1
  let k := k.set 22 s2
  let k := k.set 23 s3
  let q := camellia_rotl s0 s1 s2 s3 15
  let s0 := q.a
  let s1 := q.b
  let s2 := q.c
  let s3 := q.d
  let k := k.set 26 s2
  let k := k.set 27 s3
  let q := camellia_rotl s0 s1 s2 s3 17
  let s0 := q.a
  let s1 := q.b
  let s2 := q.c
  let s3 := q.d
  let k := k.set 32 s0
  let k := k.set 33 s1
  let k := k.set 34 s2
  let k := k.set 35 s3
  let q := camellia_rotl s0 s1 s2 s3 17
  let s0 := q.a
  let s1 := q.b
  let s2 := q.c
  let s3 := q.d
  let k := k.set 36 s0
  let k := k.set 37 s1
  let k := k.set 38 s2
  let k := k.set 39 s3
  let q := camellia_rotl s0 s1 s2 s3 17
  let s0 := q.a
  let s1 := q.b
  let s2 := q.c
  let s3 := q.d
  let k := k.set 44 s0
  let k := k.set 45 s1
  let k := k.set 46 s2
  let k := k.set 47 s3
  k

/-- src/cipher.c:2166-2284 `camellia128_init`. -/
def camellia128_init (key : List Byte) : C Camellia := do
  let k : Vector (BitVec 32) 68 := Vector.replicate 68 0
  let s0 ← key_be key 0
  let s1 ← key_be key 4
  let s2 ← key_be key 8
  let s3 ← key_be key 12
  let k := k.set 0 s0
  let k := k.set 1 s1
  let k := k.set 2 s2
  let k := k.set 3 s3
  let f := camellia_F s0 s1 s2 s3 camellia_SIGMA[0] camellia_SIGMA[1]
  let s2 := f.l
  let s3 := f.r
  let f := camellia_F s2 s3 s0 s1 camellia_SIGMA[2] camellia_SIGMA[3]
  let s0 := f.l
  let s1 := f.r
  let s0 := s0 ^^^ k[0]
  let s1 := s1 ^^^ k[1]
  let s2 := s2 ^^^ k[2]
  let s3 := s3 ^^^ k[3]
  let f := camellia_F s0 s1 s2 s3 camellia_SIGMA[4] camellia_SIGMA[5]
  let s2 := f.l
  let s3 := f.r
  let f := camellia_F s2 s3 s0 s1 camellia_SIGMA[6] camellia_SIGMA[7]
  let s0 := f.l
  let s1 := f.r
  let k := k.set 4 s0
  let k := k.set 5 s1
  let k := k.set 6 s2
  let k := k.set 7 s3
  let q := camellia_rotl s0 s1 s2 s3 15
  let s0 := q.a
  let s1 := q.b
  let s2 := q.c
  let s3 := q.d
  let k := k.set 12 s0
  let k := k.set 13 s1
  let k := k.set 14 s2
  let k := k.set 15 s3
  let q := camellia_rotl s0 s1 s2 s3 15
  let s0 := q.a
  let s1 := q.b
  let s2 := q.c
  let s3 := q.d
  let k := k.set 16 s0
  let k := k.set 17 s1
  let k := k.set 18 s2
  let k := k.set 19 s3
  let q := camellia_rotl s0 s1 s2 s3 15
  let s0 := q.a
  let s1 := q.b
  let s2 := q.c
  let s3 := q.d
  let k := k.set 24 s0
  let k := k.set 25 s1
  let q := camellia_rotl s0 s1 s2 s3 15
  let s0 := q.a
  let s1 := q.b
  let s2 := q.c
  let s3 := q.d
  let k := k.set 28 s0
  let k := k.set 29 s1
  let k := k.set 30 s2
  let k := k.set 31 s3
  let q := camellia_rotl s1 s2 s3 s0 2
  let s1 := q.a
  let s2 := q.b
  let s3 := q.c
  let s0 := q.d
  let k := k.set 40 s1
  let k := k.set 41 s2
  let k := k.set 42 s3
  let k := k.set 43 s0
  let q := camellia_rotl s1 s2 s3 s0 17
  let s1 := q.a
  let s2 := q.b
  let s3 := q.c
  let s0 := q.d
  let k := k.set 48 s1
  let k := k.set 49 s2
  let k := k.set 50 s3
  let k := k.set 51 s0
  .ok ⟨128, camellia128_keys k⟩

/-- A part of src/cipher.c:2410-2590 `camellia256_init`, from one load of `s0 .. s3` from `k` to the next. -/
def camellia256_keys1 (k : Vector (BitVec 32) 68) : Vector (BitVec 32) 68 :=
  let s0 := k[8] ^^^ k[0]
  let s1 := k[9] ^^^ k[1]
  let s2 := k[10] ^^^ k[2]
  let s3 := k[11] ^^^ k[3]
  let f := camellia_F s0 s1 s2 s3 camellia_SIGMA[0] camellia_SIGMA[1]
  let s2 := f.l
  let s3 := f.r
  let f := camellia_F s2 s3 s0 s1 camellia_SIGMA[2] camellia_SIGMA[3]
  let s0 := f.l
  let s1 := f.r
  let s0 := s0 ^^^ k[0]
  let s1 := s1 ^^^ k[1]
  let s2 := s2 ^^^ k[2]
  let s3 := s3 ^^^ k[3]
  let f := camellia_F s0 s1 s2 s3 camellia_SIGMA[4] camellia_SIGMA[5]
  let s2 := f.l
  let s3 := f.r
  let f := camellia_F s2 s3 s0 s1 camellia_SIGMA[6] camellia_SIGMA[7]
  let s0 := f.l
  let s1 := f.r
  let k := k.set 12 s0
  let k := k.set 13 s1
  let k := k.set 14 s2
  let k := k.set 15 s3
  let s0 := s0 ^^^ k[8]
  let s1 := s1 ^^^ k[9]
  let s2 := s2 ^^^ k[10]
  let s3 := s3 ^^^ k[11]
  let f := camellia_F s0 s1 s2 s3 camellia_SIGMA[8] camellia_SIGMA[9]
  let s2 := f.l
  let s3 := f.r
  let f := camellia_F s2 s3 s0 s1 camellia_SIGMA[10] camellia_SIGMA[11]
  let s0 := f.l
  let s1 := f.r
  let k := k.set 4 s0
  let k := k.set 5 s1
  let k := k.set 6 s2
  let k := k.set 7 s3
  let q := camellia_rotl s0 s1 s2 s3 30
  let s0 := q.a
  let s1 := q.b
  let s2 := q.c
  let s3 := q.d
  let k := k.set 20 s0
  let k := k.set 21 s1
  let k := k.set 22 s2
  let k := k.set 23 s3
  let q := camellia_rotl s0 s1 s2 s3 30
  let s0 := q.a
  let s1 := q.b
  let s2 := q.c
  let s3 := q.d
  let k := k.set 40 s0
  let k := k.set 41 s1
  let k := k.set 42 s2
  let k := k.set 43 s3
  let q := camellia_rotl s1 s2 s3 s0 19
  let s1 := q.a
  let s2 := q.b
  let s3 := q.c
  let s0 := q.d
  let k := k.set 64 s1
  let k := k.set 65 s2
  let k := k.set 66 s3
  let k := k.set 67 s0
  k

/-- A part of src/cipher.c:2410-2590 `camellia256_init`, from one load of `s0 .. s3` from `k` to the next. -/
def camellia256_keys2 (k : Vector (BitVec 32) 68) : Vector (BitVec 32) 68 :=
  let s0 := k[8]
  let s1 := k[9]
  let s2 := k[10]
  let s3 := k[11]
  let q := camellia_rotl s0 s1 s2 s3 15
  let s0 := q.a
  let s1 := q.b
  let s2 := q.c
  let s3 := q.d
  let k := k.set 8 s0
  let k := k.set 9 s1
  let k := k.set 10 s2
  let k := k.set 11 s3
  let q := camellia_rotl s0 s1 s2 s3 15
  let s0 := q.a
  let s1 := q.b
  let s2 := q.c
  let s3 := q.d
  let k := k.set 16 s0
  let k := k.set 17 s1
  let k := k.set 18 s2
  let k := k.set 19 s3
  let q := camellia_rotl s0 s1 s2 s3 30
  let s0 := q.a
  let s1 := q.b
  let s2 := q.c
  let s3 := q.d
  let k := k.set 36 s0
  let k := k.set 37 s1
  let k := k.set 38 s2
  let k := k.set 39 s3
  let q := camellia_rotl s1 s2 s3 s0 2
  let s1 := q.a
  let s2 := q.b
  let s3 := q.c
  let s0 := q.d
  let k := k.set 52 s1
  let k := k.set 53 s2
  let k := k.set 54 s3
  let k := k.set 55 s0
  k

/-- A part of src/cipher.c:2410-2590 `camellia256_init`, from one load of `s0 .. s3` from `k` to the next. -/
def camellia256_keys3 (k : Vector (BitVec 32) 68) : Vector (BitVec 32) 68 :=
  let s0 := k[12]
  let s1 := k[13]
  let s2 := k[14]
  let s3 := k[15]
  let q := camellia_rotl s0 s1 s2 s3 15
  let s0 := q.a
  let s1 := q.b
  let s2 := q.c
  let s3 := q.d
  let k := k.set 12 s0
  let k := k.set 13 s1
  let k := k.set 14 s2
  let k := k.set 15 s3
  let q := camellia_rotl s0 s1 s2 s3 30
  let s0 := q.a
  let s1 := q.b
  let s2 := q.c
  let s3 := q.d
  let k := k.set 28 s0
  let k := k.set 29 s1
  let k := k.set 30 s2
  let k := k.set 31 s3
  let k := k.set 48 s1
  let k := k.set 49 s2
  let k := k.set 50 s3
  let k := k.set 51 s0
  let q := camellia_rotl s1 s2 s3 s0 17
  let s1 := q.a
  let s2 := q.b
  let s3 := q.c
  let s0 := q.d
  let k := k.set 56 s1
  let k := k.set 57 s2
  let k := k.set 58 s3
  let k := k.set 59 s0
  k

/-- A part of src/cipher.c:2410-2590 `camellia256_init`, from one load of `s0 .. s3` from `k` to the next. -/
def camellia256_keys4 (k : Vector (BitVec 32) 68) : Vector (BitVec 32) 68 :=
  let s0 := k[0]
  let s1 := k[1]
  let s2 := k[2]
  let s3 := k[3]
  let q := camellia_rotl s1 s2 s3 s0 13
  let s1 := q.a
  let s2 := q.b
  let s3 := q.c
  let s0 := q.d
  let k := k.set 24 s1
  let k := k.set 25 s2
  let k := k.set 26 s3
  let k := k.set 27 s0
  let q := camellia_rotl s1 s2 s3 s0 15
  let s1 := q.a
  let s2 := q.b
  let s3 := q.c
  let s0 := q.d
  let k := k.set 32 s1
  let k := k.set 33 s2
  let k := k.set 34 s3
  let k := k.set 35 s0
  let q := camellia_rotl s1 s2 s3 s0 17
  let s1 := q.a
  let s2 := q.b
  let s3 := q.c
  let s0 := q.d
  let k := k.set 44 s1
  let k := k.set 45 s2
  let k := k.set 46 s3
  let k := k.set 47 s0
  let q := camellia_rotl s2 s3 s0 s1 2
  let s2 := q.a
  let s3 := q.b
  let s0 := q.c
  let s1 := q.d
  let k := k.set 60 s2
  let k := k.set 61 s3
  let k := k.set 62 s0
  let k := k.set 63 s1
  k

/-- The part of src/cipher.c:2410-2590 `camellia256_init` after the key has been read. -/
def camellia256_keys (k : Vector (BitVec 32) 68) : Vector (BitVec 32) 68 :=
  camellia256_keys4 (camellia256_keys3 (camellia256_keys2 (camellia256_keys1 k)))

/-- src/cipher.c:2410-2590 `camellia256_init`. -/
def camellia256_init (key : List Byte) (key_len : Nat) : C Camellia := do
  let k : Vector (BitVec 32) 68 := Vector.replicate 68 0
  let w ← key_be key 0
  let k := k.set 0 w
  let w ← key_be key 4
  let k := k.set 1 w
  let w ← key_be key 8
  let k := k.set 2 w
  let w ← key_be key 12
  let k := k.set 3 w
  let w ← key_be key 16
  let k := k.set 8 w
  let w ← key_be key 20
  let k := k.set 9 w
  if key_len = 24 then
    let k := k.set 10 (~~~k[8])
    let k := k.set 11 (~~~k[9])
    .ok ⟨192, camellia256_keys k⟩
  else if key_len = 32 then do
    let w ← key_be key 24
    let k := k.set 10 w
    let w ← key_be key 28
    let k := k.set 11 w
    .ok ⟨256, camellia256_keys k⟩
  else .abort

/-- The two consecutive `F(r0, r1, r2, r3, k[i], k[i + 1]); F(r2, r3, r0, r1, k[j], k[j + 1]);` of
src/cipher.c:2286-2346 `camellia128_encrypt`. -/
def camellia_two (k : Vector (BitVec 32) 68) (q : Quad) (i j : Nat) (hi : i + 1 < 68 := by decide)
    (hj : j + 1 < 68 := by decide) : Quad :=
  let f := camellia_F q.a q.b q.c q.d k[i] k[i + 1]
  let g := camellia_F f.l f.r q.a q.b k[j] k[j + 1]
  ⟨g.l, g.r, f.l, f.r⟩

/-- Six consecutive `F` of src/cipher.c:2286-2346 `camellia128_encrypt`, with the keys from `k[i]` on. -/
def camellia_six (k : Vector (BitVec 32) 68) (q : Quad) (i : Nat) (h : i + 11 < 68 := by decide) :
    Quad :=
  let q := camellia_two k q i (i + 2) (by omega) (by omega)
  let q := camellia_two k q (i + 4) (i + 6) (by omega) (by omega)
  camellia_two k q (i + 8) (i + 10) (by omega) (by omega)

/-- Six consecutive `F` of src/cipher.c:2348-2408 `camellia128_decrypt`, with the keys from `k[i + 10]`
downwards. -/
def camellia_six_rev (k : Vector (BitVec 32) 68) (q : Quad) (i : Nat)
    (h : i + 11 < 68 := by decide) : Quad :=
  let q := camellia_two k q (i + 10) (i + 8) (by omega) (by omega)
  let q := camellia_two k q (i + 6) (i + 4) (by omega) (by omega)
  camellia_two k q (i + 2) i (by omega) (by omega)

/-- The six assignments between the groups of `F` in src/cipher.c:2286-2346 `camellia128_encrypt`, with
`ka, kb, kc, kd` for `k[16], k[17], k[18], k[19]`. -/
def camellia_fl (q : Quad) (ka kb kc kd : BitVec 32) : Quad :=
  let t := q.a &&& ka
  let r1 := q.b ^^^ ((t <<< 1) ||| (t >>> (32 - 1)))
  let r2 := q.c ^^^ (q.d ||| kd)
  let r0 := q.a ^^^ (r1 ||| kb)
  let t := r2 &&& kc
  let r3 := q.d ^^^ ((t <<< 1) ||| (t >>> (32 - 1)))
  ⟨r0, r1, r2, r3⟩

/-- src/cipher.c:2286-2346 `camellia128_encrypt`. -/
def camellia128_encrypt (ctx : Camellia) (src : Vector Byte 16) : Vector Byte 16 :=
  let k := ctx.key
  let q := load4be src
  let q : Quad := ⟨q.a ^^^ k[0], q.b ^^^ k[1], q.c ^^^ k[2], q.d ^^^ k[3]⟩
  let q := camellia_six k q 4
  let q := camellia_fl q k[16] k[17] k[18] k[19]
  let q := camellia_six k q 20
  let q := camellia_fl q k[32] k[33] k[34] k[35]
  let q := camellia_six k q 36
  store4be ⟨q.c ^^^ k[48], q.d ^^^ k[49], q.a ^^^ k[50], q.b ^^^ k[51]⟩

/-- src/cipher.c:2348-2408 `camellia128_decrypt`. -/
def camellia128_decrypt (ctx : Camellia) (src : Vector Byte 16) : Vector Byte 16 :=
  let k := ctx.key
  let q := load4be src
  let q : Quad := ⟨q.a ^^^ k[48], q.b ^^^ k[49], q.c ^^^ k[50], q.d ^^^ k[51]⟩
  let q := camellia_six_rev k q 36
  let q := camellia_fl q k[34] k[35] k[32] k[33]
  let q := camellia_six_rev k q 20
  let q := camellia_fl q k[18] k[19] k[16] k[17]
  let q := camellia_six_rev k q 4
  store4be ⟨q.c ^^^ k[0], q.d ^^^ k[1], q.a ^^^ k[2], q.b ^^^ k[3]⟩

/-- src/cipher.c:2592-2666 `camellia256_encrypt`. -/
def camellia256_encrypt (ctx : Camellia) (src : Vector Byte 16) : Vector Byte 16 :=
  let k := ctx.key
  let q := load4be src
  let q : Quad := ⟨q.a ^^^ k[0], q.b ^^^ k[1], q.c ^^^ k[2], q.d ^^^ k[3]⟩
  let q := camellia_six k q 4
  let q := camellia_fl q k[16] k[17] k[18] k[19]
  let q := camellia_six k q 20
  let q := camellia_fl q k[32] k[33] k[34] k[35]
  let q := camellia_six k q 36
  let q := camellia_fl q k[48] k[49] k[50] k[51]
  let q := camellia_six k q 52
  store4be ⟨q.c ^^^ k[64], q.d ^^^ k[65], q.a ^^^ k[66], q.b ^^^ k[67]⟩

/-- src/cipher.c:2668-2742 `camellia256_decrypt`. -/
def camellia256_decrypt (ctx : Camellia) (src : Vector Byte 16) : Vector Byte 16 :=
  let k := ctx.key
  let q := load4be src
  let q : Quad := ⟨q.a ^^^ k[64], q.b ^^^ k[65], q.c ^^^ k[66], q.d ^^^ k[67]⟩
  let q := camellia_six_rev k q 52
  let q := camellia_fl q k[50] k[51] k[48] k[49]
  let q := camellia_six_rev k q 36
  let q := camellia_fl q k[34] k[35] k[32] k[33]
  let q := camellia_six_rev k q 20
  let q := camellia_fl q k[18] k[19] k[16] k[17]
  let q := camellia_six_rev k q 4
  store4be ⟨q.c ^^^ k[0], q.d ^^^ k[1], q.a ^^^ k[2], q.b ^^^ k[3]⟩

/-- src/cipher.c:2747-2763 `camellia_init`. -/
def camellia_init (bits : Nat) (key : List Byte) : C Camellia :=
  if bits = 128 then camellia128_init key
  else if bits = 192 then camellia256_init key 24
  else if bits = 256 then camellia256_init key 32
  else .abort

/-- src/cipher.c:2765-2773 `camellia_encrypt`. -/
def camellia_encrypt (ctx : Camellia) (src : Vector Byte 16) : Vector Byte 16 :=
  if ctx.bits = 128 then camellia128_encrypt ctx src else camellia256_encrypt ctx src

/-- src/cipher.c:2775-2783 `camellia_decrypt`. -/
def camellia_decrypt (ctx : Camellia) (src : Vector Byte 16) : Vector Byte 16 :=
  if ctx.bits = 128 then camellia128_decrypt ctx src else camellia256_decrypt ctx src

end Torsion
