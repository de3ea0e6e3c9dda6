import Verif.Block.AesTables
import Verif.Block.Base

/-!
# Model of AES, src/cipher.c

The arrays `enckey` and `deckey` are the lists of the `4 * (rounds + 1)` words in use; the rest of
the 60 words is never read. Reading or writing outside of the lists is `ub`.
-/
namespace Torsion

/-- include/torsion/cipher.h:190-194, `aes_s`. -/
structure Aes where
  rounds : Nat
  enckey : List (BitVec 32)
  deckey : List (BitVec 32)

/-- The four masked table accesses of a rotated word in src/cipher.c:659-788 `aes_init_encrypt`. -/
def aes_sub_rot (word : BitVec 32) : BitVec 32 :=
  (tbl aes_TE2 (byt word 16) &&& 0xff000000) ^^^
  (tbl aes_TE3 (byt word 8) &&& 0x00ff0000) ^^^
  (tbl aes_TE0 (byt word 0) &&& 0x0000ff00) ^^^
  (tbl aes_TE1 (byt word 24) &&& 0x000000ff)

/-- The four masked table accesses of a word in the case 256 of
src/cipher.c:659-788 `aes_init_encrypt`. -/
def aes_sub (word : BitVec 32) : BitVec 32 :=
  (tbl aes_TE2 (byt word 24) &&& 0xff000000) ^^^
  (tbl aes_TE3 (byt word 16) &&& 0x00ff0000) ^^^
  (tbl aes_TE0 (byt word 8) &&& 0x0000ff00) ^^^
  (tbl aes_TE1 (byt word 0) &&& 0x000000ff)

/-- The loop of the case 128 of src/cipher.c:659-788 `aes_init_encrypt`; `K` = the words written so far,
the pointer `K` is at word `4 * i`; first argument = bound of the rounds. -/
def aes_expand128 : Nat → Nat → List (BitVec 32) → C (List (BitVec 32))
  | 0, _, _ => .ub
  | n + 1, i, K => do
    let k0 ← C.rd K (4 * i)
    let k1 ← C.rd K (4 * i + 1)
    let k2 ← C.rd K (4 * i + 2)
    let k3 ← C.rd K (4 * i + 3)
    let rc ← C.rd aes_RCON.toList i
    let k4 := k0 ^^^ aes_sub_rot k3 ^^^ rc
    let k5 := k1 ^^^ k4
    let k6 := k2 ^^^ k5
    let k7 := k3 ^^^ k6
    if i + 1 = 10 then .ok (K ++ [k4, k5, k6, k7])
    else aes_expand128 n (i + 1) (K ++ [k4, k5, k6, k7])

/-- The loop of the case 192 of src/cipher.c:659-788 `aes_init_encrypt`; the pointer `K` is at word
`6 * i`. -/
def aes_expand192 : Nat → Nat → List (BitVec 32) → C (List (BitVec 32))
  | 0, _, _ => .ub
  | n + 1, i, K => do
    let k0 ← C.rd K (6 * i)
    let k1 ← C.rd K (6 * i + 1)
    let k2 ← C.rd K (6 * i + 2)
    let k3 ← C.rd K (6 * i + 3)
    let k4 ← C.rd K (6 * i + 4)
    let k5 ← C.rd K (6 * i + 5)
    let rc ← C.rd aes_RCON.toList i
    let k6 := k0 ^^^ aes_sub_rot k5 ^^^ rc
    let k7 := k1 ^^^ k6
    let k8 := k2 ^^^ k7
    let k9 := k3 ^^^ k8
    if i + 1 = 8 then .ok (K ++ [k6, k7, k8, k9])
    else
      let k10 := k4 ^^^ k9
      let k11 := k5 ^^^ k10
      aes_expand192 n (i + 1) (K ++ [k6, k7, k8, k9, k10, k11])

/-- The loop of the case 256 of src/cipher.c:659-788 `aes_init_encrypt`; the pointer `K` is at word
`8 * i`. -/
def aes_expand256 : Nat → Nat → List (BitVec 32) → C (List (BitVec 32))
  | 0, _, _ => .ub
  | n + 1, i, K => do
    let k0 ← C.rd K (8 * i)
    let k1 ← C.rd K (8 * i + 1)
    let k2 ← C.rd K (8 * i + 2)
    let k3 ← C.rd K (8 * i + 3)
    let k4 ← C.rd K (8 * i + 4)
    let k5 ← C.rd K (8 * i + 5)
    let k6 ← C.rd K (8 * i + 6)
    let k7 ← C.rd K (8 * i + 7)
    let rc ← C.rd aes_RCON.toList i
    let k8 := k0 ^^^ aes_sub_rot k7 ^^^ rc
    let k9 := k1 ^^^ k8
    let k10 := k2 ^^^ k9
    let k11 := k3 ^^^ k10
    if i + 1 = 7 then .ok (K ++ [k8, k9, k10, k11])
    else
      let k12 := k4 ^^^ aes_sub k11
      let k13 := k5 ^^^ k12
      let k14 := k6 ^^^ k13
      let k15 := k7 ^^^ k14
      aes_expand256 n (i + 1) (K ++ [k8, k9, k10, k11, k12, k13, k14, k15])

/-- src/cipher.c:659-788 `aes_init_encrypt`; returns `rounds` and `enckey`. -/
def aes_init_encrypt (bits : Nat) (key : List Byte) : C (Nat × List (BitVec 32)) :=
  if bits = 128 then do
    let K ← be_words key 4 0
    let K ← aes_expand128 10 0 K
    .ok (10, K)
  else if bits = 192 then do
    let K ← be_words key 6 0
    let K ← aes_expand192 8 0 K
    .ok (12, K)
  else if bits = 256 then do
    let K ← be_words key 8 0
    let K ← aes_expand256 7 0 K
    .ok (14, K)
  else .abort

/-- One round of the inner loop of the first loop of src/cipher.c:790-831 `aes_init_decrypt`: exchange two
words. -/
def aes_swap1 (K : List (BitVec 32)) (i j : Nat) : C (List (BitVec 32)) := do
  let x ← C.rd K i
  let y ← C.rd K j
  let K ← C.wr K i y
  C.wr K j x

/-- The first loop of src/cipher.c:790-831 `aes_init_decrypt`; first argument = bound of the rounds. -/
def aes_swap : Nat → Nat → Nat → List (BitVec 32) → C (List (BitVec 32))
  | 0, _, _, K => .ok K
  | n + 1, i, j, K =>
    if i < j then do
      let K ← aes_swap1 K i j
      let K ← aes_swap1 K (i + 1) (j + 1)
      let K ← aes_swap1 K (i + 2) (j + 2)
      let K ← aes_swap1 K (i + 3) (j + 3)
      aes_swap n (i + 4) (j - 4) K
    else .ok K

/-- The right hand side of the assignments of the second loop of
src/cipher.c:790-831 `aes_init_decrypt`. -/
def aes_inv_word (w : BitVec 32) : BitVec 32 :=
  tbl aes_TD0 ((tbl aes_TE1 (byt w 24)).truncate 8) ^^^
  tbl aes_TD1 ((tbl aes_TE1 (byt w 16)).truncate 8) ^^^
  tbl aes_TD2 ((tbl aes_TE1 (byt w 8)).truncate 8) ^^^
  tbl aes_TD3 ((tbl aes_TE1 (byt w 0)).truncate 8)

/-- One assignment of the second loop of src/cipher.c:790-831 `aes_init_decrypt`. -/
def aes_inv1 (K : List (BitVec 32)) (i : Nat) : C (List (BitVec 32)) := do
  let w ← C.rd K i
  C.wr K i (aes_inv_word w)

/-- The second loop of src/cipher.c:790-831 `aes_init_decrypt`: `n` rounds from round `i` on. -/
def aes_inv_loop : Nat → Nat → List (BitVec 32) → C (List (BitVec 32))
  | 0, _, K => .ok K
  | n + 1, i, K => do
    let K ← aes_inv1 K (4 * i)
    let K ← aes_inv1 K (4 * i + 1)
    let K ← aes_inv1 K (4 * i + 2)
    let K ← aes_inv1 K (4 * i + 3)
    aes_inv_loop n (i + 1) K

/-- src/cipher.c:790-831 `aes_init_decrypt`; returns `deckey`. -/
def aes_init_decrypt (rounds : Nat) (enckey : List (BitVec 32)) : C (List (BitVec 32)) := do
  let K ← aes_swap rounds 0 (4 * rounds) enckey
  aes_inv_loop (rounds - 1) 1 K

/-- src/cipher.c:653-657 `aes_init`. -/
def aes_init (bits : Nat) (key : List Byte) : C Aes := do
  let e ← aes_init_encrypt bits key
  let d ← aes_init_decrypt e.1 e.2
  .ok ⟨e.1, e.2, d⟩

/-- The words `K[off .. off + 3]` of src/cipher.c:833-926 `aes_encrypt`. -/
def rd_quad (K : List (BitVec 32)) (off : Nat) : C Quad := do
  let a ← C.rd K off
  let b ← C.rd K (off + 1)
  let c ← C.rd K (off + 2)
  let d ← C.rd K (off + 3)
  .ok ⟨a, b, c, d⟩

/-- The exclusive or of the words of a state with the words of a round key, as in
src/cipher.c:833-926 `aes_encrypt`. -/
def Quad.xor (s k : Quad) : Quad := ⟨s.a ^^^ k.a, s.b ^^^ k.b, s.c ^^^ k.c, s.d ^^^ k.d⟩

/-- The four table accesses for one word of src/cipher.c:833-926 `aes_encrypt`. -/
def aes_te (w x y z k : BitVec 32) : BitVec 32 :=
  tbl aes_TE0 (byt w 24) ^^^ tbl aes_TE1 (byt x 16) ^^^ tbl aes_TE2 (byt y 8) ^^^
    tbl aes_TE3 (byt z 0) ^^^ k

/-- One of the two halves of the loop body of src/cipher.c:833-926 `aes_encrypt`. -/
def aes_enc_round (s k : Quad) : Quad :=
  ⟨aes_te s.a s.b s.c s.d k.a, aes_te s.b s.c s.d s.a k.b,
   aes_te s.c s.d s.a s.b k.c, aes_te s.d s.a s.b s.c k.d⟩

/-- The four masked table accesses for one word after the loop of src/cipher.c:833-926 `aes_encrypt`. -/
def aes_tl (w x y z k : BitVec 32) : BitVec 32 :=
  (tbl aes_TE2 (byt w 24) &&& 0xff000000) ^^^ (tbl aes_TE3 (byt x 16) &&& 0x00ff0000) ^^^
    (tbl aes_TE0 (byt y 8) &&& 0x0000ff00) ^^^ (tbl aes_TE1 (byt z 0) &&& 0x000000ff) ^^^ k

/-- The assignments after the loop of src/cipher.c:833-926 `aes_encrypt`. -/
def aes_enc_last (t k : Quad) : Quad :=
  ⟨aes_tl t.a t.b t.c t.d k.a, aes_tl t.b t.c t.d t.a k.b,
   aes_tl t.c t.d t.a t.b k.c, aes_tl t.d t.a t.b t.c k.d⟩

/-- The loop of src/cipher.c:833-926 `aes_encrypt` and of src/cipher.c:928-1021 `aes_decrypt` (which differ in
the round); `r` is the loop counter, `off` the position of the pointer `K`. Started with
`r = 0` the counter never becomes 0 again and the loop leaves the array. -/
def aes_loop (round : Quad → Quad → Quad) (K : List (BitVec 32)) :
    Nat → Nat → Quad → C (Quad × Nat)
  | 0, _, _ => .ub
  | r + 1, off, s => do
    let k ← rd_quad K (off + 4)
    let t := round s k
    if r = 0 then .ok (t, off + 8)
    else
      let k ← rd_quad K (off + 8)
      aes_loop round K r (off + 8) (round t k)

/-- src/cipher.c:833-926 `aes_encrypt`. -/
def aes_encrypt (ctx : Aes) (src : Vector Byte 16) : C (Vector Byte 16) := do
  let k ← rd_quad ctx.enckey 0
  let t ← aes_loop aes_enc_round ctx.enckey (ctx.rounds / 2) 0 ((load4be src).xor k)
  let k ← rd_quad ctx.enckey t.2
  .ok (store4be (aes_enc_last t.1 k))

/-- The four table accesses for one word of src/cipher.c:928-1021 `aes_decrypt`. -/
def aes_td (w x y z k : BitVec 32) : BitVec 32 :=
  tbl aes_TD0 (byt w 24) ^^^ tbl aes_TD1 (byt x 16) ^^^ tbl aes_TD2 (byt y 8) ^^^
    tbl aes_TD3 (byt z 0) ^^^ k

/-- One of the two halves of the loop body of src/cipher.c:928-1021 `aes_decrypt`. -/
def aes_dec_round (s k : Quad) : Quad :=
  ⟨aes_td s.a s.d s.c s.b k.a, aes_td s.b s.a s.d s.c k.b,
   aes_td s.c s.b s.a s.d k.c, aes_td s.d s.c s.b s.a k.d⟩

/-- The four table accesses for one word after the loop of src/cipher.c:928-1021 `aes_decrypt`. -/
def aes_tdl (w x y z k : BitVec 32) : BitVec 32 :=
  ((tbl aes_TD4 (byt w 24)).zeroExtend 32 <<< 24) ^^^ ((tbl aes_TD4 (byt x 16)).zeroExtend 32 <<< 16) ^^^
    ((tbl aes_TD4 (byt y 8)).zeroExtend 32 <<< 8) ^^^ ((tbl aes_TD4 (byt z 0)).zeroExtend 32 <<< 0) ^^^ k

/-- The assignments after the loop of src/cipher.c:928-1021 `aes_decrypt`. -/
def aes_dec_last (t k : Quad) : Quad :=
  ⟨aes_tdl t.a t.d t.c t.b k.a, aes_tdl t.b t.a t.d t.c k.b,
   aes_tdl t.c t.b t.a t.d k.c, aes_tdl t.d t.c t.b t.a k.d⟩

/-- src/cipher.c:928-1021 `aes_decrypt`. -/
def aes_decrypt (ctx : Aes) (src : Vector Byte 16) : C (Vector Byte 16) := do
  let k ← rd_quad ctx.deckey 0
  let t ← aes_loop aes_dec_round ctx.deckey (ctx.rounds / 2) 0 ((load4be src).xor k)
  let k ← rd_quad ctx.deckey t.2
  .ok (store4be (aes_dec_last t.1 k))

end Torsion
