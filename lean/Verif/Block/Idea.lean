import Verif.Block.Base

/-!
# Model of IDEA, src/cipher.c

Both versions of the multiplication and of the inversion are modelled: the one for 64-bit targets
(`HAVE_STRENGTH_REDUCTION`) and the portable one.
-/
namespace Torsion

/-- include/torsion/cipher.h:230-233, `idea_s`. -/
structure Idea where
  enckey : Vector (BitVec 16) 52
  deckey : Vector (BitVec 16) 52

/-- src/cipher.c:4125-4134, `idea_mul` with `HAVE_STRENGTH_REDUCTION`. -/
def idea_mul (x y : BitVec 16) : BitVec 16 :=
  let u : BitVec 64 := x.zeroExtend 64
  let v : BitVec 64 := y.zeroExtend 64
  let u := u ||| ((0x10000 : BitVec 64) &&& -((u - 1) >>> 63))
  let v := v ||| ((0x10000 : BitVec 64) &&& -((v - 1) >>> 63))
  ((u * v) % 0x10001).truncate 16

/-- The loop of src/cipher.c:4136-4145, `idea_inv` with `HAVE_STRENGTH_REDUCTION`. -/
def idea_inv_loop (x : BitVec 64) : Nat → BitVec 64 → BitVec 64
  | 0, z => z
  | n + 1, z => idea_inv_loop x n ((z * z * x) % 0x10001)

/-- src/cipher.c:4136-4145, `idea_inv` with `HAVE_STRENGTH_REDUCTION`. -/
def idea_inv (x : BitVec 16) : BitVec 16 :=
  (idea_inv_loop (x.zeroExtend 64) 15 (x.zeroExtend 64)).truncate 16

/-- src/cipher.c:4149-4162, `idea_mul` without `HAVE_STRENGTH_REDUCTION`. -/
def idea_mul_portable (x y : BitVec 16) : BitVec 16 :=
  let u : BitVec 32 := x.zeroExtend 32
  let v : BitVec 32 := y.zeroExtend 32
  let w := u * v
  let hi := w >>> 16
  let lo := w &&& (0xffff : BitVec 32)
  let z := lo - hi + (if lo < hi then (1 : BitVec 32) else 0)
  let z := z ||| (((1 : BitVec 32) - u) &&& -((v - 1) >>> 31))
  let z := z ||| (((1 : BitVec 32) - v) &&& -((u - 1) >>> 31))
  z.truncate 16

/-- The loop of src/cipher.c:4164-4175, `idea_inv` without `HAVE_STRENGTH_REDUCTION`. -/
def idea_inv_portable_loop (x : BitVec 16) : Nat → BitVec 16 → BitVec 16
  | 0, z => z
  | n + 1, z => idea_inv_portable_loop x n (idea_mul_portable (idea_mul_portable z z) x)

/-- src/cipher.c:4164-4175, `idea_inv` without `HAVE_STRENGTH_REDUCTION`. -/
def idea_inv_portable (x : BitVec 16) : BitVec 16 := idea_inv_portable_loop x 15 x

/-- The loop filling the first eight words of src/cipher.c:4185-4206 `idea_init_encrypt`. -/
def idea_words (key : List Byte) : Nat → Nat → C (List (BitVec 16))
  | 0, _ => .ok []
  | n + 1, j => do
    let b ← C.slice key (j * 2) 2
    let v ← C.vec 2 b
    let ws ← idea_words key n (j + 1)
    .ok (read16be v :: ws)

/-- The second loop of src/cipher.c:4185-4206 `idea_init_encrypt` for `n` values of `j`; `off` = the position
of the pointer `K`, `K` = the words written so far (the one written is always the next one). -/
def idea_expand : Nat → Nat → Nat → List (BitVec 16) → C (List (BitVec 16))
  | 0, _, _, K => .ok K
  | n + 1, i, off, K => do
    let i := i + 1
    let x ← C.rd K (off + i % 8)
    let y ← C.rd K (off + (i + 1) % 8)
    if K.length = off + i + 7 then
      idea_expand n (i % 8) (off + i / 8 * 8) (K ++ [(x <<< 9) ||| (y >>> 7)])
    else .ub

/-- src/cipher.c:4185-4206 `idea_init_encrypt`. -/
def idea_init_encrypt (key : List Byte) : C (Vector (BitVec 16) 52) := do
  let K ← idea_words key 8 0
  let K ← idea_expand 44 0 0 K
  C.arr 52 K

/-- The loop of src/cipher.c:4208-4253 `idea_init_decrypt`, for the rounds listed; `D` = the words written so
far, from the pointer `D` on; the pointer `K` is at word `4 + 6 * i`. -/
def idea_dec_loop (K : Vector (BitVec 16) 52) : List (Fin 7) → List (BitVec 16) → List (BitVec 16)
  | [], D => D
  | i :: is, D =>
    let o := 4 + 6 * i.val
    let D := K[o] :: K[o + 1] :: D
    let t1 := idea_inv K[o + 2]
    let t2 := -K[o + 3]
    let t3 := -K[o + 4]
    let D := idea_inv K[o + 5] :: D
    idea_dec_loop K is (t1 :: t3 :: t2 :: D)

/-- src/cipher.c:4208-4253 `idea_init_decrypt`. -/
def idea_init_decrypt (K : Vector (BitVec 16) 52) : C (Vector (BitVec 16) 52) :=
  let t1 := idea_inv K[0]
  let t2 := -K[1]
  let t3 := -K[2]
  let D := [t1, t2, t3, idea_inv K[3]]
  let D := idea_dec_loop K [0, 1, 2, 3, 4, 5, 6] D
  let D := K[46] :: K[47] :: D
  let t1 := idea_inv K[48]
  let t2 := -K[49]
  let t3 := -K[50]
  let D := idea_inv K[51] :: D
  C.arr 52 (t1 :: t2 :: t3 :: D)

/-- src/cipher.c:4179-4183 `idea_init`. -/
def idea_init (key : List Byte) : C Idea := do
  let e ← idea_init_encrypt key
  let d ← idea_init_decrypt e
  .ok ⟨e, d⟩

/-- The loop body of src/cipher.c:4255-4296 `idea_crypt`; the pointer `K` is at word `6 * i`. -/
def idea_round (K : Vector (BitVec 16) 52) (q : Quad16) (i : Fin 8) : Quad16 :=
  let x1 := idea_mul q.a K[6 * i.val]
  let x2 := q.b + K[6 * i.val + 1]
  let x3 := q.c + K[6 * i.val + 2]
  let x4 := idea_mul q.d K[6 * i.val + 3]
  let s3 := x3
  let x3 := x3 ^^^ x1
  let x3 := idea_mul x3 K[6 * i.val + 4]
  let s2 := x2
  let x2 := x2 ^^^ x4
  let x2 := x2 + x3
  let x2 := idea_mul x2 K[6 * i.val + 5]
  let x3 := x3 + x2
  ⟨x1 ^^^ x2, x2 ^^^ s3, x3 ^^^ s2, x4 ^^^ x3⟩

/-- src/cipher.c:4255-4296 `idea_crypt`. -/
def idea_crypt (K : Vector (BitVec 16) 52) (src : Vector Byte 8) : Vector Byte 8 :=
  let q := load4x16be src
  let q := [0, 1, 2, 3, 4, 5, 6, 7].foldl (idea_round K) q
  let x1 := idea_mul q.a K[48]
  let x3 := q.c + K[49]
  let x2 := q.b + K[50]
  let x4 := idea_mul q.d K[51]
  store4x16be ⟨x1, x3, x2, x4⟩

/-- src/cipher.c:4298-4301 `idea_encrypt`. -/
def idea_encrypt (ctx : Idea) (src : Vector Byte 8) : Vector Byte 8 := idea_crypt ctx.enckey src

/-- src/cipher.c:4303-4306 `idea_decrypt`. -/
def idea_decrypt (ctx : Idea) (src : Vector Byte 8) : Vector Byte 8 := idea_crypt ctx.deckey src

end Torsion
