import Verif.Basic

/-!
# Model of src/mpi.c: single limbs

Limbs are 64-bit words (`MP_LIMB_BITS == 64`). Of the macros that exist in several versions, the
portable C version (without a 128-bit type and without assembly) is the one the other definitions use;
the version with the 128-bit type is also here (`_wide`), and both are proved to be the same function.
The assembly versions are not modelled. `ASSERT` compiles to nothing outside debug builds and is not
modelled; `CHECK` and `torsion_abort` are.
-/
namespace Torsion

/-- `mp_limb_t`, include/torsion/mpi.h:314-323, with 64-bit limbs. -/
abbrev Limb := BitVec 64

/-- The value of a C comparison as a limb (0 or 1), as in src/mpi.c:598-602. -/
def flag (p : Prop) [Decidable p] : Limb := if p then 1 else 0

/-- src/mpi.c:287-295 `mp_add`: `[z, c] = x + y`. -/
def mp_add (x y : Limb) : Limb × Limb :=
  let z := x + y
  (z, flag (z < y))

/-- src/mpi.c:321-329 `mp_sub`: `[z, c] = x - y`. -/
def mp_sub (x y : Limb) : Limb × Limb :=
  let z := x - y
  (z, flag (z > x))

/-- `MP_LOW_MASK`, include/torsion/mpi.h:349-350, with 64-bit limbs. -/
def MP_LOW_MASK : Limb := 0xffffffff

/-- src/mpi.c:355-361 `mp_mul`, the version without a wide type: `[hi, lo] = x * y`. -/
def mp_mul (x y : Limb) : Limb × Limb :=
  let u0 := x >>> 32
  let u1 := x &&& MP_LOW_MASK
  let v0 := y >>> 32
  let v1 := y &&& MP_LOW_MASK
  let t := u1 * v1
  let w3 := t &&& MP_LOW_MASK
  let k := t >>> 32
  let t := u0 * v1 + k
  let w2 := t &&& MP_LOW_MASK
  let w1 := t >>> 32
  let t := u1 * v0 + w2
  let k := t >>> 32
  (u0 * v0 + w1 + k, (t <<< 32) + w3)

/-- src/mpi.c:364-370 `mp_sqr`, the version without a wide type: `[hi, lo] = x^2`. -/
def mp_sqr (x : Limb) : Limb × Limb :=
  let u0 := x >>> 32
  let u1 := x &&& MP_LOW_MASK
  let u2 := u0 * u1
  let t := u1 * u1
  let w3 := t &&& MP_LOW_MASK
  let k := t >>> 32
  let t := u2 + k
  let w2 := t &&& MP_LOW_MASK
  let w1 := t >>> 32
  let t := u2 + w2
  let k := t >>> 32
  (u0 * u0 + w1 + k, (t <<< 32) + w3)

/-- src/mpi.c:373-382 `mp_add_1`: `[z, c] = x + y + c`. -/
def mp_add_1 (x y c : Limb) : Limb × Limb :=
  let z := y + c
  let k := flag (z < c)
  let z := z + x
  let k := k + flag (z < x)
  (z, k)

/-- src/mpi.c:409-418 `mp_sub_1`: `[z, c] = x - y - c`. -/
def mp_sub_1 (x y c : Limb) : Limb × Limb :=
  let z := y + c
  let k := flag (z < c)
  let z := x - z
  let k := k + flag (z > x)
  (z, k)

/-- src/mpi.c:445-454 `mp_mul_1`: `[z, c] = x * y + c`. -/
def mp_mul_1 (x y c : Limb) : Limb × Limb :=
  let (hi, lo) := mp_mul x y
  let lo := lo + c
  let hi := hi + flag (lo < c)
  (lo, hi)

/-- src/mpi.c:457-468 `mp_addmul_1`: `[z, c] = z + x * y + c`. -/
def mp_addmul_1 (z x y c : Limb) : Limb × Limb :=
  let (hi, lo) := mp_mul x y
  let lo := lo + c
  let hi := hi + flag (lo < c)
  let lo := lo + z
  let hi := hi + flag (lo < z)
  (lo, hi)

/-- src/mpi.c:471-483 `mp_submul_1`: `[z, c] = z - x * y - c`. -/
def mp_submul_1 (z x y c : Limb) : Limb × Limb :=
  let (hi, lo) := mp_mul x y
  let lo := lo + c
  let hi := hi + flag (lo < c)
  let lo := z - lo
  let hi := hi + flag (lo > z)
  (lo, hi)

/-- src/mpi.c:486-494 `mp_neg_1`: `[z, c] = ~x + c`. -/
def mp_neg_1 (x c : Limb) : Limb × Limb :=
  let z := ~~~x + c
  (z, flag (z < c))

/-! ### The versions with a 128-bit type (`MP_FAST_WIDE`) -/

/-- `(mp_wide_t)x`, src/mpi.c:526-530. -/
def wide (x : Limb) : BitVec 128 := x.zeroExtend 128

/-- The assignment of a wide value to a limb, src/mpi.c:526-530. -/
def lo64 (w : BitVec 128) : Limb := w.truncate 64

/-- `w >> MP_LIMB_BITS` assigned to a limb, src/mpi.c:526-530. -/
def hi64 (w : BitVec 128) : Limb := (w >>> 64).truncate 64

/-- src/mpi.c:287-295 `mp_add`. -/
def mp_add_wide (x y : Limb) : Limb × Limb :=
  let w := wide x + wide y
  (lo64 w, hi64 w)

/-- src/mpi.c:321-329 `mp_sub`; `-(_w >> MP_LIMB_BITS)` is computed in the wide type. -/
def mp_sub_wide (x y : Limb) : Limb × Limb :=
  let w := wide x - wide y
  (lo64 w, lo64 (-(w >>> 64)))

/-- src/mpi.c:355-361 `mp_mul`. -/
def mp_mul_wide (x y : Limb) : Limb × Limb :=
  let w := wide x * wide y
  (hi64 w, lo64 w)

/-- src/mpi.c:373-382 `mp_add_1`. -/
def mp_add_1_wide (x y c : Limb) : Limb × Limb :=
  let w := wide x + wide y + wide c
  (lo64 w, hi64 w)

/-- src/mpi.c:409-418 `mp_sub_1`. -/
def mp_sub_1_wide (x y c : Limb) : Limb × Limb :=
  let w := wide x - wide y - wide c
  (lo64 w, lo64 (-(w >>> 64)))

/-- src/mpi.c:445-454 `mp_mul_1`. -/
def mp_mul_1_wide (x y c : Limb) : Limb × Limb :=
  let w := wide x * wide y + wide c
  (lo64 w, hi64 w)

/-- src/mpi.c:457-468 `mp_addmul_1`. -/
def mp_addmul_1_wide (z x y c : Limb) : Limb × Limb :=
  let w := wide z + wide x * wide y + wide c
  (lo64 w, hi64 w)

/-- src/mpi.c:471-483 `mp_submul_1`. -/
def mp_submul_1_wide (z x y c : Limb) : Limb × Limb :=
  let w := wide z - wide x * wide y - wide c
  (lo64 w, lo64 (-(w >>> 64)))

/-- src/mpi.c:486-494 `mp_neg_1`; `~(x)` is computed in the limb type. -/
def mp_neg_1_wide (x c : Limb) : Limb × Limb :=
  let w := wide (~~~x) + wide c
  (lo64 w, hi64 w)

/-! ### Bit counting -/

/-- src/mpi.c:920-957 `mp_popcount`, the portable version. -/
def mp_popcount (x : Limb) : Nat :=
  let a : Limb := 0x5555555555555555
  let b : Limb := 0x3333333333333333
  let c : Limb := 0x0f0f0f0f0f0f0f0f
  let d : Limb := 0x0101010101010101
  let x := x - ((x >>> 1) &&& a)
  let x := (x &&& b) + ((x >>> 2) &&& b)
  let x := ((x + (x >>> 4)) &&& c) * d
  (x >>> 56).toNat

/-- src/mpi.c:959-999 `mp_clz`, the portable version. -/
def mp_clz (x : Limb) : Nat :=
  let x := x ||| (x >>> 1)
  let x := x ||| (x >>> 2)
  let x := x ||| (x >>> 4)
  let x := x ||| (x >>> 8)
  let x := x ||| (x >>> 16)
  let x := x ||| (x >>> 32)
  64 - mp_popcount x

/-- src/mpi.c:1001-1051 `mp_ctz`, the portable version. -/
def mp_ctz (x : Limb) : Nat := mp_popcount ((x &&& -x) - 1)

/-- src/mpi.c:1053-1072 `mp_bitlen`. -/
def mp_bitlen (x : Limb) : Nat := 64 - mp_clz x

/-- src/mpi.c:1074-1081 `mp_mul_gt_2`. -/
def mp_mul_gt_2 (u v y1 y0 : Limb) : Bool :=
  let (x1, x0) := mp_mul u v
  x1 > y1 || (x1 == y1 && x0 > y0)

/-- src/mpi.c:1089-1095 `mp_limb_cast`; an `mp_long_t` is a 64-bit two's complement word. -/
def mp_limb_cast (x : BitVec 64) : Limb :=
  if x = 0x8000000000000000 then 0x8000000000000000
  else if x.slt 0 then -x else x

/-- src/mpi.c:1097-1107 `mp_long_cast`. -/
def mp_long_cast (x : Limb) (sign : Int) : BitVec 64 :=
  let m : Limb := 0x7fffffffffffffff
  if sign < 0 then
    if x = 0x8000000000000000 then 0x8000000000000000 else -(x &&& m)
  else x &&& m

/-! ### Division of two limbs by one -/

/-- The correction loop of src/mpi.c:1841-1979 `mp_div`. The number bounds the rounds; a loop that would go on
after that many rounds is `ub` in the model, so a result proved to be `ok` includes its termination. -/
def mp_div_fix (vn1 vn0 un : Limb) : Nat → Limb → Limb → C Limb
  | 0, _, _ => .ub
  | n + 1, q, rhat =>
    let b : Limb := 0x100000000
    if q ≥ b ∨ q * vn0 > rhat * b + un then
      let q := q - 1
      let rhat := rhat + vn1
      if rhat ≥ b then .ok q else mp_div_fix vn1 vn0 un n q rhat
    else .ok q

/-- The main part of src/mpi.c:1841-1979 `mp_div`, the portable version, with the shift `s`. -/
def mp_div_norm (n1 n0 d : Limb) (s : Nat) : C (Limb × Limb) := do
  let b : Limb := 0x100000000
  let d := d <<< s
  let vn1 := d >>> 32
  let vn0 := d &&& MP_LOW_MASK
  let u := if s ≠ 0 then ((n1 <<< s) ||| (n0 >>> (64 - s)), n0 <<< s) else (n1, n0)
  let un32 := u.1
  let un1 := u.2 >>> 32
  let un0 := u.2 &&& MP_LOW_MASK
  let q1 := un32 / vn1
  let rhat := un32 - q1 * vn1
  let q1 ← mp_div_fix vn1 vn0 un1 3 q1 rhat
  let un21 := un32 * b + un1 - q1 * d
  let q0 := un21 / vn1
  let rhat := un21 - q0 * vn1
  let q0 ← mp_div_fix vn1 vn0 un0 3 q0 rhat
  .ok (q1 * b + q0, (un21 * b + un0 - q0 * d) >>> s)

/-- src/mpi.c:1841-1979 `mp_div`, the portable version; division by zero is `ub`. -/
def mp_div (n1 n0 d : Limb) : C (Limb × Limb) :=
  if n1 = 0 then
    if d = 0 then .ub
    else
      let q := n0 / d
      .ok (q, n0 - q * d)
  else if n1 ≥ d then .abort
  else mp_div_norm n1 n0 d (mp_clz d)

/-- src/mpi.c:1981-2038 `mp_inv_2by1`. -/
def mp_inv_2by1 (d : Limb) : C Limb := do
  let (q, _) ← mp_div (~~~d) (~~~0) d
  .ok q

/-- src/mpi.c:2040-2183 `mp_div_2by1`, the C version. -/
def mp_div_2by1 (u1 u0 d v : Limb) : Limb × Limb :=
  let (q1, q0) := mp_mul v u1
  let q0 := q0 + u0
  let q1 := q1 + (u1 + flag (q0 < u0))
  let q1 := q1 + 1
  let r0 := u0 - q1 * d
  let (q1, r0) := if r0 > q0 then (q1 - 1, r0 + d) else (q1, r0)
  if r0 ≥ d then (q1 + 1, r0 - d) else (q1, r0)

/-- src/mpi.c:2185-2249 `mp_inv_3by2`. -/
def mp_inv_3by2 (d1 d0 : Limb) : C Limb := do
  let v ← mp_inv_2by1 d1
  let p := d1 * v
  let p := p + d0
  let (v, p) :=
    if p < d0 then
      let v := v - 1
      let (v, p) := if p ≥ d1 then (v - 1, p - d1) else (v, p)
      (v, p - d1)
    else (v, p)
  let (t1, t0) := mp_mul v d0
  let p := p + t1
  if p < t1 then
    let v := v - 1
    if p > d1 ∨ (p = d1 ∧ t0 ≥ d0) then .ok (v - 1) else .ok v
  else .ok v

/-- src/mpi.c:2251-2439 `mp_div_3by2`, the C version: `(q, r1, r0)`. -/
def mp_div_3by2 (u2 u1 u0 d1 d0 v : Limb) : Limb × Limb × Limb :=
  let (q1, q0) := mp_mul v u2
  let q0 := q0 + u1
  let q1 := q1 + (u2 + flag (q0 < u1))
  let r0 := u0
  let r1 := u1 - d1 * q1
  let (t1, t0) := mp_mul d0 q1
  let r1 := r1 - (t1 + flag (r0 < t0))
  let r0 := r0 - t0
  let r1 := r1 - (d1 + flag (r0 < d0))
  let r0 := r0 - d0
  let q1 := q1 + 1
  let (q1, r1, r0) :=
    if r1 ≥ q0 then
      let r0 := r0 + d0
      (q1 - 1, r1 + (d1 + flag (r0 < d0)), r0)
    else (q1, r1, r0)
  if r1 > d1 ∨ (r1 = d1 ∧ r0 ≥ d0) then
    (q1 + 1, r1 - (d1 + flag (r0 < d0)), r0 - d0)
  else (q1, r1, r0)

/-- src/mpi.c:2441-2474 `mp_inv_mod`. -/
def mp_inv_mod (d : Limb) : Limb :=
  let m := d
  let m := m * (2 - d * m)
  let m := m * (2 - d * m)
  let m := m * (2 - d * m)
  let m := m * (2 - d * m)
  let m := m * (2 - d * m)
  m

end Torsion
