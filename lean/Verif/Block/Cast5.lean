import Verif.Block.Cast5Tables
import Verif.Block.Base

/-!
# Model of CAST5 (CAST-128), src/cipher.c
-/
namespace Torsion

/-- include/torsion/cipher.h:210-213, `cast5_s`. -/
structure Cast5 where
  masking : Vector (BitVec 32) 16
  rotate : Vector (BitVec 8) 16

/-- The rows of src/cipher.c:2807-3336, `S`. -/
def cast5_S (i : Fin 8) : Vector (BitVec 32) 256 :=
  #v[cast5_S0, cast5_S1, cast5_S2, cast5_S3, cast5_S4, cast5_S5, cast5_S6, cast5_S7][i]

/-- The rotation in src/cipher.c:3399-3428, `f1`; for `r = 0` the mask `c` makes both shifts by 0. `r` is
at most 31, as it is masked by src/cipher.c:3438-3487 `cast5_init`. -/
def cast5_rot (t r : BitVec 32) : BitVec 32 :=
  let c : BitVec 32 := if r ≠ 0 then 0xffffffff else 0
  (t <<< r.toNat) ||| (t >>> ((32 - r) &&& c).toNat)

/-- src/cipher.c:3402-3412, `f1`. -/
def cast5_f1 (d m r : BitVec 32) : BitVec 32 :=
  let I := cast5_rot (m + d) r
  ((tbl (cast5_S 0) (byt I 24) ^^^ tbl (cast5_S 1) (byt I 16)) - tbl (cast5_S 2) (byt I 8)) +
    tbl (cast5_S 3) (byt I 0)

/-- src/cipher.c:3414-3424, `f2`. -/
def cast5_f2 (d m r : BitVec 32) : BitVec 32 :=
  let I := cast5_rot (m ^^^ d) r
  ((tbl (cast5_S 0) (byt I 24) - tbl (cast5_S 1) (byt I 16)) + tbl (cast5_S 2) (byt I 8)) ^^^
    tbl (cast5_S 3) (byt I 0)

/-- src/cipher.c:3426-3436, `f3`. -/
def cast5_f3 (d m r : BitVec 32) : BitVec 32 :=
  let I := cast5_rot (m - d) r
  ((tbl (cast5_S 0) (byt I 24) + tbl (cast5_S 1) (byt I 16)) ^^^ tbl (cast5_S 2) (byt I 8)) -
    tbl (cast5_S 3) (byt I 0)

/-- The access `(t[n >> 2] >> (24 - 8 * (n & 3))) & 0xff` of src/cipher.c:3438-3487 `cast5_init`. -/
def cast5_byte (t : Vector (BitVec 32) 8) (n : Fin 32) : Byte :=
  byt t[n.val / 4] (24 - 8 * (n.val % 4))

/-- The common part of the two inner loops of src/cipher.c:3438-3487 `cast5_init`: five table accesses, the
last one in row `x`. -/
def cast5_w (t : Vector (BitVec 32) 8) (n0 n1 n2 n3 n4 : Fin 32) (x : Fin 8) : BitVec 32 :=
  tbl (cast5_S 4) (cast5_byte t n0) ^^^ tbl (cast5_S 5) (cast5_byte t n1) ^^^
    tbl (cast5_S 6) (cast5_byte t n2) ^^^ tbl (cast5_S 7) (cast5_byte t n3) ^^^
    tbl (cast5_S x) (cast5_byte t n4)

/-- The first inner loop of src/cipher.c:3438-3487 `cast5_init`, for the values of `j` listed, with the
array src/cipher.c:3400, `X`; `a[0]` and `a[1]` are indices of words. -/
def cast5_a (r : Fin 4) (t : Vector (BitVec 32) 8) : List (Fin 4) → C (Vector (BitVec 32) 8)
  | [] => .ok t
  | j :: js => do
    let o := 28 * r.val + 7 * j.val
    let a0 := cast5_A[o].val
    let a1 := cast5_A[o + 1].val
    let w ← C.rd t.toList a1
    let w := w ^^^ cast5_w t cast5_A[o + 2] cast5_A[o + 3] cast5_A[o + 4] cast5_A[o + 5] cast5_A[o + 6]
      (#v[(6 : Fin 8), 7, 4, 5][j])
    if h : a0 < 8 then cast5_a r (t.set a0 w) js else .ub

/-- The second inner loop of src/cipher.c:3438-3487 `cast5_init`, the words for `j = 0 .. 3`. -/
def cast5_b (r : Fin 4) (t : Vector (BitVec 32) 8) : List (BitVec 32) :=
  (List.finRange 4).map fun j =>
    let o := 20 * r.val + 5 * j.val
    cast5_w t cast5_B[o] cast5_B[o + 1] cast5_B[o + 2] cast5_B[o + 3] cast5_B[o + 4]
      ⟨4 + j.val, by omega⟩

/-- The two outer loops of src/cipher.c:3438-3487 `cast5_init`, over the values of `r` listed; `k` = the words
written so far. -/
def cast5_loop : List (Fin 4) → Vector (BitVec 32) 8 → List (BitVec 32) → C (List (BitVec 32))
  | [], _, k => .ok k
  | r :: rs, t, k => do
    let t ← cast5_a r t [0, 1, 2, 3]
    cast5_loop rs t (k ++ cast5_b r t)

/-- src/cipher.c:3438-3487 `cast5_init`. `t[4 .. 7]` are uninitialised in C and are written before they are
read; here they start as 0. -/
def cast5_init (key : List Byte) : C Cast5 := do
  let w ← be_words key 4 0
  let t ← C.arr 8 (w ++ [0, 0, 0, 0])
  let k ← cast5_loop [0, 1, 2, 3, 0, 1, 2, 3] t []
  let k ← C.arr 32 k
  .ok ⟨Vector.ofFn fun i : Fin 16 => k[i.val],
       Vector.ofFn fun i : Fin 16 => (k[16 + i.val] &&& 0x1f).truncate 8⟩

/-- The macro src/cipher.c:3489-3493, `R`. -/
def cast5_R (ctx : Cast5) (s : Two) (fi : (BitVec 32 → BitVec 32 → BitVec 32 → BitVec 32) × Fin 16) :
    Two :=
  ⟨s.r, s.l ^^^ fi.1 s.r ctx.masking[fi.2] (ctx.rotate[fi.2].zeroExtend 32)⟩

/-- src/cipher.c:3495-3522 `cast5_encrypt`. -/
def cast5_encrypt (ctx : Cast5) (src : Vector Byte 8) : Vector Byte 8 :=
  let s := load2be src
  let s := [(cast5_f1, 0), (cast5_f2, 1), (cast5_f3, 2), (cast5_f1, 3), (cast5_f2, 4), (cast5_f3, 5),
    (cast5_f1, 6), (cast5_f2, 7), (cast5_f3, 8), (cast5_f1, 9), (cast5_f2, 10), (cast5_f3, 11),
    (cast5_f1, 12), (cast5_f2, 13), (cast5_f3, 14), (cast5_f1, 15)].foldl (cast5_R ctx) s
  store2be ⟨s.r, s.l⟩

/-- src/cipher.c:3524-3551 `cast5_decrypt`. -/
def cast5_decrypt (ctx : Cast5) (src : Vector Byte 8) : Vector Byte 8 :=
  let s := load2be src
  let s := [(cast5_f1, 15), (cast5_f3, 14), (cast5_f2, 13), (cast5_f1, 12), (cast5_f3, 11),
    (cast5_f2, 10), (cast5_f1, 9), (cast5_f3, 8), (cast5_f2, 7), (cast5_f1, 6), (cast5_f3, 5),
    (cast5_f2, 4), (cast5_f1, 3), (cast5_f3, 2), (cast5_f2, 1), (cast5_f1, 0)].foldl (cast5_R ctx) s
  store2be ⟨s.r, s.l⟩

end Torsion
