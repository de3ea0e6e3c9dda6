import Verif.Block.DesTables
import Verif.Block.Base

/-!
# Model of DES, DES-EDE and DES-EDE3, src/cipher.c
-/
namespace Torsion

/-- include/torsion/cipher.h:215-217, `des_s`. -/
structure Des where
  keys : Vector (BitVec 32) 32

/-- The two assignments `u <<= 1; u |= (x >> n) & 1;` of src/cipher.c:3666-3700 `des_ip`. -/
def des_bit (u x : BitVec 32) (n : Nat) : BitVec 32 := (u <<< 1) ||| ((x >>> n) &&& 1)

/-- An inner loop of src/cipher.c:3666-3700 `des_ip`, for the values of `j` listed. -/
def des_bits (u x : BitVec 32) (i : Nat) (js : List Nat) : BitVec 32 :=
  js.foldl (fun u j => des_bit u x (j + i)) u

/-- src/cipher.c:3666-3700 `des_ip`. -/
def des_ip (x : Two) : Two :=
  let u := [6, 4, 2, 0].foldl (fun u i =>
    des_bits (des_bits u x.r i [0, 8, 16, 24]) x.l i [0, 8, 16, 24]) 0
  let v := [6, 4, 2, 0].foldl (fun v i =>
    des_bits (des_bits v x.r i [1, 9, 17, 25]) x.l i [1, 9, 17, 25]) 0
  ⟨u, v⟩

/-- src/cipher.c:3702-3730 `des_rip`. -/
def des_rip (x : Two) : Two :=
  let u := [0, 1, 2, 3].foldl (fun u i =>
    [24, 16, 8, 0].foldl (fun u j => des_bit (des_bit u x.r (j + i)) x.l (j + i)) u) 0
  let v := [4, 5, 6, 7].foldl (fun v i =>
    [24, 16, 8, 0].foldl (fun v j => des_bit (des_bit v x.r (j + i)) x.l (j + i)) v) 0
  ⟨u, v⟩

/-- src/cipher.c:3732-3784 `des_pc1`. -/
def des_pc1 (x : Two) : Two :=
  let u := [7, 6, 5].foldl (fun u i =>
    des_bits (des_bits u x.r i [0, 8, 16, 24]) x.l i [0, 8, 16, 24]) 0
  let u := des_bits u x.r 4 [0, 8, 16, 24]
  let v := [1, 2, 3].foldl (fun v i =>
    des_bits (des_bits v x.r i [0, 8, 16, 24]) x.l i [0, 8, 16, 24]) 0
  let v := des_bits v x.l 4 [0, 8, 16, 24]
  ⟨u, v⟩

/-- src/cipher.c:3786-3789 `des_r28shl`. -/
def des_r28shl (x : BitVec 32) (b : Nat) : BitVec 32 := ((x <<< b) &&& 0xfffffff) ||| (x >>> (28 - b))

/-- src/cipher.c:3791-3811 `des_pc2`. -/
def des_pc2 (x : Two) : Two :=
  let u := (List.finRange 24).foldl (fun u i => des_bit u x.l des_pc2_table[i.val].val) 0
  let v := (List.finRange 24).foldl (fun v i => des_bit v x.r des_pc2_table[24 + i.val].val) 0
  ⟨u, v⟩

/-- src/cipher.c:3813-3835 `des_expand`. -/
def des_expand (r : BitVec 32) : Two :=
  let u : BitVec 32 := ((r &&& 1) <<< 5) ||| (r >>> 27)
  let u := [23, 19, 15].foldl (fun (u : BitVec 32) (i : Nat) => (u <<< 6) ||| ((r >>> i) &&& 0x3f)) u
  let v : BitVec 32 := [11, 7, 3].foldl (fun (v : BitVec 32) (i : Nat) => (v ||| ((r >>> i) &&& 0x3f)) <<< 6) 0
  let v := v ||| (((r &&& 0x1f) <<< 1) ||| (r >>> 31))
  ⟨u, v⟩

/-- The table access `des_s_table[i * 0x40 + ((w >> n) & 0x3f)]` of src/cipher.c:3837-3854 `des_substitute`. -/
def des_s_at (i : Fin 8) (w : BitVec 32) (n : Nat) : BitVec 32 :=
  (des_s_table[i.val * 0x40 + ((w >>> n) &&& 0x3f).toNat]'(by
    have h : ((w >>> n) &&& 0x3f).toNat ≤ 0x3f := by
      rw [BitVec.toNat_and]; exact Nat.and_le_right
    have := i.isLt
    omega)).zeroExtend 32

/-- src/cipher.c:3837-3854 `des_substitute`. -/
def des_substitute (l r : BitVec 32) : BitVec 32 :=
  let s := (List.finRange 4).foldl (fun (s : BitVec 32) (i : Fin 4) =>
    (s <<< 4) ||| des_s_at ⟨i.val, by omega⟩ l (18 - i.val * 6)) (0 : BitVec 32)
  (List.finRange 4).foldl (fun (s : BitVec 32) (i : Fin 4) =>
    (s <<< 4) ||| des_s_at ⟨4 + i.val, by omega⟩ r (18 - i.val * 6)) s

/-- src/cipher.c:3856-3867 `des_permute`. -/
def des_permute (s : BitVec 32) : BitVec 32 :=
  (List.finRange 32).foldl (fun f i => des_bit f s des_permute_table[i].val) 0

/-- The value `f` of one round of src/cipher.c:3869-3903 `des_encipher`. -/
def des_f (kl kr r : BitVec 32) : BitVec 32 :=
  let b := des_expand r
  des_permute (des_substitute (kl ^^^ b.l) (kr ^^^ b.r))

/-- The loop body of src/cipher.c:3869-3903 `des_encipher` for `i = 2 * n`; in
src/cipher.c:3905-3939 `des_decipher` the two variables have changed their roles. -/
def des_round (ctx : Des) (s : Two) (n : Fin 16) : Two :=
  ⟨s.r, s.l ^^^ des_f ctx.keys[2 * n.val] ctx.keys[2 * n.val + 1] s.r⟩

/-- src/cipher.c:3869-3903 `des_encipher`; `des_rip(&r, &l)` gets the halves exchanged. -/
def des_encipher (ctx : Des) (x : Two) : Two :=
  let s := des_ip x
  let s := (List.finRange 16).foldl (des_round ctx) s
  des_rip ⟨s.r, s.l⟩

/-- src/cipher.c:3905-3939 `des_decipher`; the pair is `(r, l)`. -/
def des_decipher (ctx : Des) (x : Two) : Two :=
  let s := des_ip x
  let s := [15, 14, 13, 12, 11, 10, 9, 8, 7, 6, 5, 4, 3, 2, 1, 0].foldl (des_round ctx) s
  des_rip ⟨s.r, s.l⟩

/-- The loop of src/cipher.c:3941-3967 `des_init` for the shifts listed; `ks` = the keys written so far. -/
def des_keys : List Nat → BitVec 32 → BitVec 32 → List (BitVec 32) → List (BitVec 32)
  | [], _, _, ks => ks
  | shift :: shifts, kl, kr, ks =>
    let kl := des_r28shl kl shift
    let kr := des_r28shl kr shift
    let k := des_pc2 ⟨kl, kr⟩
    des_keys shifts kl kr (ks ++ [k.l, k.r])

/-- src/cipher.c:3941-3967 `des_init`. -/
def des_init (key : List Byte) : C Des := do
  let kl ← key_be key 0
  let kr ← key_be key 4
  let k := des_pc1 ⟨kl, kr⟩
  let ks ← C.arr 32 (des_keys des_shift_table.toList k.l k.r [])
  .ok ⟨ks⟩

/-- src/cipher.c:3969-3978 `des_encrypt`. -/
def des_encrypt (ctx : Des) (src : Vector Byte 8) : Vector Byte 8 :=
  store2be (des_encipher ctx (load2be src))

/-- src/cipher.c:3980-3989 `des_decrypt`. -/
def des_decrypt (ctx : Des) (src : Vector Byte 8) : Vector Byte 8 :=
  store2be (des_decipher ctx (load2be src))

/-- include/torsion/cipher.h:219-222, `des_ede_s`. -/
structure DesEde where
  x : Des
  y : Des

/-- src/cipher.c:3995-3999 `des_ede_init`. -/
def des_ede_init (key : List Byte) : C DesEde := do
  let x ← des_init key
  let y ← des_init (key.drop 8)
  .ok ⟨x, y⟩

/-- src/cipher.c:4001-4008 `des_ede_encrypt`. -/
def des_ede_encrypt (ctx : DesEde) (src : Vector Byte 8) : Vector Byte 8 :=
  des_encrypt ctx.x (des_decrypt ctx.y (des_encrypt ctx.x src))

/-- src/cipher.c:4010-4017 `des_ede_decrypt`. -/
def des_ede_decrypt (ctx : DesEde) (src : Vector Byte 8) : Vector Byte 8 :=
  des_decrypt ctx.x (des_encrypt ctx.y (des_decrypt ctx.x src))

/-- include/torsion/cipher.h:224-228, `des_ede3_s`. -/
structure DesEde3 where
  x : Des
  y : Des
  z : Des

/-- src/cipher.c:4023-4028 `des_ede3_init`. -/
def des_ede3_init (key : List Byte) : C DesEde3 := do
  let x ← des_init key
  let y ← des_init (key.drop 8)
  let z ← des_init (key.drop 16)
  .ok ⟨x, y, z⟩

/-- src/cipher.c:4030-4037 `des_ede3_encrypt`. -/
def des_ede3_encrypt (ctx : DesEde3) (src : Vector Byte 8) : Vector Byte 8 :=
  des_encrypt ctx.z (des_decrypt ctx.y (des_encrypt ctx.x src))

/-- src/cipher.c:4039-4046 `des_ede3_decrypt`. -/
def des_ede3_decrypt (ctx : DesEde3) (src : Vector Byte 8) : Vector Byte 8 :=
  des_decrypt ctx.x (des_encrypt ctx.y (des_decrypt ctx.z src))

end Torsion
