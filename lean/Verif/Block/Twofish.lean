import Verif.Block.TwofishTables
import Verif.Block.Base

/-!
# Model of Twofish, src/cipher.c
-/
namespace Torsion

/-- include/torsion/cipher.h:239-242, `twofish_s`. -/
structure Twofish where
  S0 : Vector (BitVec 32) 256
  S1 : Vector (BitVec 32) 256
  S2 : Vector (BitVec 32) 256
  S3 : Vector (BitVec 32) 256
  k : Vector (BitVec 32) 40

/-- The loop of src/cipher.c:5106-5128, `gf_mul`, for `n` rounds; `P[B[1] >> 7]` is an access to an
array of two words. -/
def twofish_gf_loop (p : BitVec 32) : Nat → BitVec 8 → BitVec 32 → BitVec 32 →
    C (BitVec 8 × BitVec 32 × BitVec 32)
  | 0, a, b, res => .ok (a, b, res)
  | n + 1, a, b, res => do
    let res := res ^^^ (if a.getLsbD 0 then b else 0)
    let q ← C.rd [0, p] (b >>> 7).toNat
    twofish_gf_loop p n (a >>> 1) (q ^^^ (b <<< 1)) res

/-- src/cipher.c:5106-5128, `gf_mul`. -/
def twofish_gf_mul (a b : Byte) (p : BitVec 32) : C Byte := do
  let s ← twofish_gf_loop p 7 a (b.zeroExtend 32) 0
  let res := s.2.2 ^^^ (if s.1.getLsbD 0 then s.2.1 else 0)
  .ok (res.truncate 8)

/-- src/cipher.c:5130-5150, `mds_mul`. -/
def twofish_mds_mul (v : Byte) (col : Nat) : C (BitVec 32) := do
  let x : BitVec 32 := v.zeroExtend 32
  let y ← twofish_gf_mul v 0x5b 0x169
  let z ← twofish_gf_mul v 0xef 0x169
  let y : BitVec 32 := y.zeroExtend 32
  let z : BitVec 32 := z.zeroExtend 32
  if col = 0 then .ok (x ||| (y <<< 8) ||| (z <<< 16) ||| (z <<< 24))
  else if col = 1 then .ok (z ||| (z <<< 8) ||| (y <<< 16) ||| (x <<< 24))
  else if col = 2 then .ok (y ||| (z <<< 8) ||| (x <<< 16) ||| (z <<< 24))
  else if col = 3 then .ok (y ||| (x <<< 8) ||| (z <<< 16) ||| (y <<< 24))
  else .abort

/-- Four bytes, the array `y` of src/cipher.c:5153-5200, `h_gen`. -/
structure Four where
  a : Byte
  b : Byte
  c : Byte
  d : Byte

/-- The bytes `key[4 * i + 0 .. 3]` of src/cipher.c:5153-5200, `h_gen`. -/
def twofish_rd4 (key : List Byte) (i : Nat) : C Four := do
  let a ← C.rd key (4 * i)
  let b ← C.rd key (4 * i + 1)
  let c ← C.rd key (4 * i + 2)
  let d ← C.rd key (4 * i + 3)
  .ok ⟨a, b, c, d⟩

/-- The `case 4` of src/cipher.c:5153-5200, `h_gen`. -/
def twofish_h4 (key : List Byte) (off : Nat) (y : Four) : C Four := do
  let k ← twofish_rd4 key (6 + off)
  .ok ⟨tbl twofish_S1 y.a ^^^ k.a, tbl twofish_S0 y.b ^^^ k.b,
       tbl twofish_S0 y.c ^^^ k.c, tbl twofish_S1 y.d ^^^ k.d⟩

/-- The `case 3` of src/cipher.c:5153-5200, `h_gen`. -/
def twofish_h3 (key : List Byte) (off : Nat) (y : Four) : C Four := do
  let k ← twofish_rd4 key (4 + off)
  .ok ⟨tbl twofish_S1 y.a ^^^ k.a, tbl twofish_S1 y.b ^^^ k.b,
       tbl twofish_S0 y.c ^^^ k.c, tbl twofish_S0 y.d ^^^ k.d⟩

/-- The `case 2` of src/cipher.c:5153-5200, `h_gen`. -/
def twofish_h2 (key : List Byte) (off : Nat) (y : Four) : C Four := do
  let k ← twofish_rd4 key (2 + off)
  let j ← twofish_rd4 key off
  .ok ⟨tbl twofish_S1 (tbl twofish_S0 (tbl twofish_S0 y.a ^^^ k.a) ^^^ j.a),
       tbl twofish_S0 (tbl twofish_S0 (tbl twofish_S1 y.b ^^^ k.b) ^^^ j.b),
       tbl twofish_S1 (tbl twofish_S1 (tbl twofish_S0 y.c ^^^ k.c) ^^^ j.c),
       tbl twofish_S0 (tbl twofish_S1 (tbl twofish_S1 y.d ^^^ k.d) ^^^ j.d)⟩

/-- src/cipher.c:5153-5200, `h_gen`; all four bytes `v[i]` are equal in both calls. -/
def twofish_h_gen (v : Byte) (key : List Byte) (off k : Nat) : C (BitVec 32) := do
  let y : Four := ⟨v, v, v, v⟩
  let y ← (if k = 4 then do
      let y ← twofish_h4 key off y
      let y ← twofish_h3 key off y
      twofish_h2 key off y
    else if k = 3 then do
      let y ← twofish_h3 key off y
      twofish_h2 key off y
    else if k = 2 then twofish_h2 key off y
    else .abort)
  let m0 ← twofish_mds_mul y.a 0
  let m1 ← twofish_mds_mul y.b 1
  let m2 ← twofish_mds_mul y.c 2
  let m3 ← twofish_mds_mul y.d 3
  .ok (0 ^^^ m0 ^^^ m1 ^^^ m2 ^^^ m3)

/-- src/cipher.c:5202-5205, `rol32`; called with a constant between 1 and 31. -/
def twofish_rol32 (x : BitVec 32) (y : Nat) : BitVec 32 := (x <<< (y % 32)) ||| (x >>> (32 - y % 32))

/-- src/cipher.c:5207-5210, `ror32`; called with a constant between 1 and 31. -/
def twofish_ror32 (x : BitVec 32) (y : Nat) : BitVec 32 := (x >>> (y % 32)) ||| (x <<< (32 - y % 32))

/-- The innermost loop of the first loop of src/cipher.c:5212-5286 `twofish_init`: the sum over the values of
`v` listed. -/
def twofish_rs (key : List Byte) (i : Nat) (j : Fin 4) : List (Fin 8) → Byte → C Byte
  | [], w => .ok w
  | v :: vs, w => do
    let b ← C.rd key (8 * i + v.val)
    let m ← twofish_gf_mul b twofish_RS[8 * j.val + v.val] 0x14d
    twofish_rs key i j vs (w ^^^ m)

/-- The bytes `W[4 * i .. 4 * i + 3]` computed by src/cipher.c:5212-5286 `twofish_init`. -/
def twofish_W (key : List Byte) (i : Nat) : C Four := do
  let a ← twofish_rs key i 0 (List.finRange 8) 0
  let b ← twofish_rs key i 1 (List.finRange 8) 0
  let c ← twofish_rs key i 2 (List.finRange 8) 0
  let d ← twofish_rs key i 3 (List.finRange 8) 0
  .ok ⟨a, b, c, d⟩

/-- The subkey loop of src/cipher.c:5212-5286 `twofish_init` for the values of `i` listed. -/
def twofish_subkeys (key : List Byte) (k : Nat) : List (Fin 20) → List (BitVec 32) → C (List (BitVec 32))
  | [], ks => .ok ks
  | i :: is, ks => do
    let A ← twofish_h_gen (BitVec.ofNat 8 (2 * i.val)) key 0 k
    let h ← twofish_h_gen (BitVec.ofNat 8 (2 * i.val + 1)) key 1 k
    let B := twofish_rol32 h 8
    twofish_subkeys key k is (ks ++ [A + B, twofish_rol32 (2 * B + A) 9])

/-- The loop filling one table of src/cipher.c:5212-5286 `twofish_init`: `mds_mul(f(i), col)` for the values
of `i` listed. -/
def twofish_fill (f : Byte → Byte) (col : Nat) : List (Fin 256) → List (BitVec 32) → C (List (BitVec 32))
  | [], t => .ok t
  | i :: is, t => do
    let m ← twofish_mds_mul (f (BitVec.ofFin i)) col
    twofish_fill f col is (t ++ [m])

/-- The argument of `mds_mul` for the table `S[0]`, cases 2, 3 and 4 of
src/cipher.c:5212-5286 `twofish_init`. -/
def twofish_q0 (W0 W1 W2 W3 : Four) (k : Nat) (i : Byte) : Byte :=
  if k = 2 then tbl twofish_S1 (tbl twofish_S0 (tbl twofish_S0 i ^^^ W0.a) ^^^ W1.a)
  else if k = 3 then
    tbl twofish_S1 (tbl twofish_S0 (tbl twofish_S0 (tbl twofish_S1 i ^^^ W0.a) ^^^ W1.a) ^^^ W2.a)
  else tbl twofish_S1 (tbl twofish_S0 (tbl twofish_S0 (tbl twofish_S1 (tbl twofish_S1 i ^^^ W0.a) ^^^
    W1.a) ^^^ W2.a) ^^^ W3.a)

/-- The argument of `mds_mul` for the table `S[1]` of src/cipher.c:5212-5286 `twofish_init`. -/
def twofish_q1 (W0 W1 W2 W3 : Four) (k : Nat) (i : Byte) : Byte :=
  if k = 2 then tbl twofish_S0 (tbl twofish_S0 (tbl twofish_S1 i ^^^ W0.b) ^^^ W1.b)
  else if k = 3 then
    tbl twofish_S0 (tbl twofish_S0 (tbl twofish_S1 (tbl twofish_S1 i ^^^ W0.b) ^^^ W1.b) ^^^ W2.b)
  else tbl twofish_S0 (tbl twofish_S0 (tbl twofish_S1 (tbl twofish_S1 (tbl twofish_S0 i ^^^ W0.b) ^^^
    W1.b) ^^^ W2.b) ^^^ W3.b)

/-- The argument of `mds_mul` for the table `S[2]` of src/cipher.c:5212-5286 `twofish_init`. -/
def twofish_q2 (W0 W1 W2 W3 : Four) (k : Nat) (i : Byte) : Byte :=
  if k = 2 then tbl twofish_S1 (tbl twofish_S1 (tbl twofish_S0 i ^^^ W0.c) ^^^ W1.c)
  else if k = 3 then
    tbl twofish_S1 (tbl twofish_S1 (tbl twofish_S0 (tbl twofish_S0 i ^^^ W0.c) ^^^ W1.c) ^^^ W2.c)
  else tbl twofish_S1 (tbl twofish_S1 (tbl twofish_S0 (tbl twofish_S0 (tbl twofish_S0 i ^^^ W0.c) ^^^
    W1.c) ^^^ W2.c) ^^^ W3.c)

/-- The argument of `mds_mul` for the table `S[3]` of src/cipher.c:5212-5286 `twofish_init`. -/
def twofish_q3 (W0 W1 W2 W3 : Four) (k : Nat) (i : Byte) : Byte :=
  if k = 2 then tbl twofish_S0 (tbl twofish_S1 (tbl twofish_S1 i ^^^ W0.d) ^^^ W1.d)
  else if k = 3 then
    tbl twofish_S0 (tbl twofish_S1 (tbl twofish_S1 (tbl twofish_S0 i ^^^ W0.d) ^^^ W1.d) ^^^ W2.d)
  else tbl twofish_S0 (tbl twofish_S1 (tbl twofish_S1 (tbl twofish_S0 (tbl twofish_S1 i ^^^ W0.d) ^^^
    W1.d) ^^^ W2.d) ^^^ W3.d)

/-- src/cipher.c:5212-5286 `twofish_init`; the rows of `W` from row `k` on stay 0. -/
def twofish_init (bits : Nat) (key : List Byte) : C Twofish := do
  C.check (decide (bits = 128 ∨ bits = 192 ∨ bits = 256))
  let k := bits / 64
  let W0 ← twofish_W key 0
  let W1 ← twofish_W key 1
  let W2 ← (if k ≥ 3 then twofish_W key 2 else .ok ⟨0, 0, 0, 0⟩)
  let W3 ← (if k ≥ 4 then twofish_W key 3 else .ok ⟨0, 0, 0, 0⟩)
  let ks ← twofish_subkeys key k (List.finRange 20) []
  let ks ← C.arr 40 ks
  let t0 ← twofish_fill (twofish_q0 W0 W1 W2 W3 k) 0 (List.finRange 256) []
  let t1 ← twofish_fill (twofish_q1 W0 W1 W2 W3 k) 1 (List.finRange 256) []
  let t2 ← twofish_fill (twofish_q2 W0 W1 W2 W3 k) 2 (List.finRange 256) []
  let t3 ← twofish_fill (twofish_q3 W0 W1 W2 W3 k) 3 (List.finRange 256) []
  let t0 ← C.arr 256 t0
  let t1 ← C.arr 256 t1
  let t2 ← C.arr 256 t2
  let t3 ← C.arr 256 t3
  .ok ⟨t0, t1, t2, t3, ks⟩

/-- The value `t1` before the addition in src/cipher.c:5288-5354 `twofish_encrypt`. -/
def twofish_g0 (ctx : Twofish) (x : BitVec 32) : BitVec 32 :=
  tbl ctx.S0 (byt x 0) ^^^ tbl ctx.S1 (byt x 8) ^^^ tbl ctx.S2 (byt x 16) ^^^ tbl ctx.S3 (byt x 24)

/-- The value `t2` in src/cipher.c:5288-5354 `twofish_encrypt`. -/
def twofish_g1 (ctx : Twofish) (x : BitVec 32) : BitVec 32 :=
  tbl ctx.S1 (byt x 0) ^^^ tbl ctx.S2 (byt x 8) ^^^ tbl ctx.S3 (byt x 16) ^^^ tbl ctx.S0 (byt x 24)

/-- The loop body of src/cipher.c:5288-5354 `twofish_encrypt`. -/
def twofish_round (ctx : Twofish) (q : Quad) (i : Fin 8) : Quad :=
  let t2 := twofish_g1 ctx q.b
  let t1 := twofish_g0 ctx q.a
  let t1 := t1 + t2
  let ic := twofish_ror32 (q.c ^^^ (t1 + ctx.k[8 + i.val * 4])) 1
  let id := twofish_rol32 q.d 1 ^^^ (t2 + t1 + ctx.k[8 + i.val * 4 + 1])
  let t2 := twofish_g1 ctx id
  let t1 := twofish_g0 ctx ic
  let t1 := t1 + t2
  let ia := twofish_ror32 (q.a ^^^ (t1 + ctx.k[8 + i.val * 4 + 2])) 1
  let ib := twofish_rol32 q.b 1 ^^^ (t2 + t1 + ctx.k[8 + i.val * 4 + 3])
  ⟨ia, ib, ic, id⟩

/-- src/cipher.c:5288-5354 `twofish_encrypt`. -/
def twofish_encrypt (ctx : Twofish) (src : Vector Byte 16) : Vector Byte 16 :=
  let q := load4le src
  let q : Quad := ⟨q.a ^^^ ctx.k[0], q.b ^^^ ctx.k[1], q.c ^^^ ctx.k[2], q.d ^^^ ctx.k[3]⟩
  let q := (List.finRange 8).foldl (twofish_round ctx) q
  store4le ⟨q.c ^^^ ctx.k[4], q.d ^^^ ctx.k[5], q.a ^^^ ctx.k[6], q.b ^^^ ctx.k[7]⟩

/-- The loop body of src/cipher.c:5356-5422 `twofish_decrypt`, where the counter is `i + 1`. -/
def twofish_unround (ctx : Twofish) (q : Quad) (i : Fin 8) : Quad :=
  let t2 := twofish_g1 ctx q.d
  let t1 := twofish_g0 ctx q.c
  let t1 := t1 + t2
  let ia := twofish_rol32 q.a 1 ^^^ (t1 + ctx.k[4 + (i.val + 1) * 4 + 2])
  let ib := twofish_ror32 (q.b ^^^ (t2 + t1 + ctx.k[4 + (i.val + 1) * 4 + 3])) 1
  let t2 := twofish_g1 ctx ib
  let t1 := twofish_g0 ctx ia
  let t1 := t1 + t2
  let ic := twofish_rol32 q.c 1 ^^^ (t1 + ctx.k[4 + (i.val + 1) * 4])
  let id := twofish_ror32 (q.d ^^^ (t2 + t1 + ctx.k[4 + (i.val + 1) * 4 + 1])) 1
  ⟨ia, ib, ic, id⟩

/-- src/cipher.c:5356-5422 `twofish_decrypt`. -/
def twofish_decrypt (ctx : Twofish) (src : Vector Byte 16) : Vector Byte 16 :=
  let t := load4le src
  let q : Quad := ⟨t.c ^^^ ctx.k[6], t.d ^^^ ctx.k[7], t.a ^^^ ctx.k[4], t.b ^^^ ctx.k[5]⟩
  let q := [7, 6, 5, 4, 3, 2, 1, 0].foldl (twofish_unround ctx) q
  store4le ⟨q.a ^^^ ctx.k[0], q.b ^^^ ctx.k[1], q.c ^^^ ctx.k[2], q.d ^^^ ctx.k[3]⟩

end Torsion
