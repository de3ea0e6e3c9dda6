import Verif.Block.Arc2Tables
import Verif.Block.Base

/-!
# Model of ARC2 (RC2), src/cipher.c
-/
namespace Torsion

/-- include/torsion/cipher.h:196-198, `arc2_s`. -/
structure Arc2 where
  k : Vector (BitVec 16) 64

/-- The macro `ROTL16` of src/cipher.c:1045, `ROTL16`; the 16-bit operand is promoted to `int` and the
result is stored in 16 bits again. -/
def rotl16 (x : BitVec 16) (b : Nat) : BitVec 16 := (x >>> (16 - b)) ||| (x <<< b)

/-- The loop `L[i] = PI[(L[i - key_len] + L[i - 1]) & 0xff]` of src/cipher.c:1083-1120 `arc2_init` for `n`
values of `i`; `L` = the bytes written so far, so that `i` is its length. -/
def arc2_fill (key_len : Nat) : Nat → List Byte → C (List Byte)
  | 0, L => .ok L
  | n + 1, L => do
    let x ← C.rd L (L.length - key_len)
    let y ← C.rd L (L.length - 1)
    arc2_fill key_len n (L ++ [tbl arc2_PI (x + y)])

/-- The loop `while (i--)` of src/cipher.c:1083-1120 `arc2_init`; first argument = `i` before the test. -/
def arc2_reduce (len : Nat) : Nat → Byte → List Byte → C (List Byte)
  | 0, _, L => .ok L
  | i + 1, x, L => do
    let y ← C.rd L (i + len)
    let x := tbl arc2_PI (x ^^^ y)
    let L ← C.wr L i x
    arc2_reduce len i x L

/-- The loop `ctx->k[i] = read16le(L + i * 2)` of src/cipher.c:1083-1120 `arc2_init`. -/
def arc2_words (L : List Byte) : C (Vector (BitVec 16) 64) := do
  let v ← C.vec 128 L
  .ok (Vector.ofFn fun i : Fin 64 => read16le (vsub v (i * 2) 2 (by omega)))

/-- src/cipher.c:1083-1120 `arc2_init`; `key_len` is the length of the list. `7 & -ekb` is computed modulo
`2^32`, the shift of 255 gives at most 8 bits. -/
def arc2_init (key : List Byte) (ekb : Nat) : C Arc2 := do
  C.check (decide (key.length ≥ 1 ∧ key.length ≤ 128))
  C.check (decide (ekb ≤ 1024))
  let L ← arc2_fill key.length (128 - key.length) key
  let b ← C.rd L 0
  let L ← C.wr L 0 (tbl arc2_PI b)
  let L ← (if ekb > 0 ∧ ekb < 1024 then do
      let len := (ekb + 7) / 8
      let i := 128 - len
      let b ← C.rd L i
      let x := tbl arc2_PI (b &&& ((255 : Byte) >>> ((2 ^ 32 - ekb) % 8)))
      let L ← C.wr L i x
      arc2_reduce len i x L
    else .ok L)
  let k ← arc2_words L
  .ok ⟨k⟩

/-- The loop body of src/cipher.c:1122-1234 `arc2_encrypt` with `j = 4 * i`. -/
def arc2_mix (ctx : Arc2) (i : Fin 16) (q : Quad16) : Quad16 :=
  let r0 := rotl16 (q.a + ctx.k[4 * i.val] + (q.d &&& q.c) + (~~~q.d &&& q.b)) 1
  let r1 := rotl16 (q.b + ctx.k[4 * i.val + 1] + (r0 &&& q.d) + (~~~r0 &&& q.c)) 2
  let r2 := rotl16 (q.c + ctx.k[4 * i.val + 2] + (r1 &&& r0) + (~~~r1 &&& q.d)) 3
  let r3 := rotl16 (q.d + ctx.k[4 * i.val + 3] + (r2 &&& r1) + (~~~r2 &&& r0)) 5
  ⟨r0, r1, r2, r3⟩

/-- The access `ctx->k[r & 63]` of src/cipher.c:1122-1234 `arc2_encrypt`. -/
def arc2_at (ctx : Arc2) (r : BitVec 16) : BitVec 16 :=
  ctx.k[(r &&& 63).toNat]'(by
    have : (r &&& 63).toNat ≤ 63 := by rw [BitVec.toNat_and]; exact Nat.and_le_right
    omega)

/-- The four additions between the loops of src/cipher.c:1122-1234 `arc2_encrypt`. -/
def arc2_mash (ctx : Arc2) (q : Quad16) : Quad16 :=
  let r0 := q.a + arc2_at ctx q.d
  let r1 := q.b + arc2_at ctx r0
  let r2 := q.c + arc2_at ctx r1
  let r3 := q.d + arc2_at ctx r2
  ⟨r0, r1, r2, r3⟩

/-- src/cipher.c:1122-1234 `arc2_encrypt`; the loops `while (j <= 16)`, `while (j <= 40)` and
`while (j <= 60)` run over `j = 4 * i` for the listed values of `i`. -/
def arc2_encrypt (ctx : Arc2) (src : Vector Byte 8) : Vector Byte 8 :=
  let q := load4x16le src
  let q := [0, 1, 2, 3, 4].foldl (fun q i => arc2_mix ctx i q) q
  let q := arc2_mash ctx q
  let q := [5, 6, 7, 8, 9, 10].foldl (fun q i => arc2_mix ctx i q) q
  let q := arc2_mash ctx q
  let q := [11, 12, 13, 14, 15].foldl (fun q i => arc2_mix ctx i q) q
  store4x16le q

/-- The loop body of src/cipher.c:1236-1348 `arc2_decrypt` with `j = 4 * i + 3`. -/
def arc2_unmix (ctx : Arc2) (i : Fin 16) (q : Quad16) : Quad16 :=
  let r3 := rotl16 q.d (16 - 5) - ctx.k[4 * i.val + 3] - (q.c &&& q.b) - (~~~q.c &&& q.a)
  let r2 := rotl16 q.c (16 - 3) - ctx.k[4 * i.val + 2] - (q.b &&& q.a) - (~~~q.b &&& r3)
  let r1 := rotl16 q.b (16 - 2) - ctx.k[4 * i.val + 1] - (q.a &&& r3) - (~~~q.a &&& r2)
  let r0 := rotl16 q.a (16 - 1) - ctx.k[4 * i.val] - (r3 &&& r2) - (~~~r3 &&& r1)
  ⟨r0, r1, r2, r3⟩

/-- The four subtractions between the loops of src/cipher.c:1236-1348 `arc2_decrypt`. -/
def arc2_unmash (ctx : Arc2) (q : Quad16) : Quad16 :=
  let r3 := q.d - arc2_at ctx q.c
  let r2 := q.c - arc2_at ctx q.b
  let r1 := q.b - arc2_at ctx q.a
  let r0 := q.a - arc2_at ctx r3
  ⟨r0, r1, r2, r3⟩

/-- src/cipher.c:1236-1348 `arc2_decrypt`; the loops `while (j >= 44)`, `while (j >= 20)` and
`while (j >= 0)` run over `j = 4 * i + 3` for the listed values of `i`. -/
def arc2_decrypt (ctx : Arc2) (src : Vector Byte 8) : Vector Byte 8 :=
  let q := load4x16le src
  let q := [15, 14, 13, 12, 11].foldl (fun q i => arc2_unmix ctx i q) q
  let q := arc2_unmash ctx q
  let q := [10, 9, 8, 7, 6, 5].foldl (fun q i => arc2_unmix ctx i q) q
  let q := arc2_unmash ctx q
  let q := [4, 3, 2, 1, 0].foldl (fun q i => arc2_unmix ctx i q) q
  store4x16le q

end Torsion
