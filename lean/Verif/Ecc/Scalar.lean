import Verif.Mpi.Powm
import Verif.Mpi.Gcd
import Verif.Mpi.Random
import Verif.Ecc.Chains

/-!
# Model: scalars (src/ecc.c)

The functions on limb vectors. A vector of type `sc_t` has `sc->limbs` limbs in use; the flags are limbs (0 or 1) as in
src/mpi.c.
-/
namespace Torsion.Sc

open Torsion

/-- src/ecc.c:243-247, `scalar_def_t`; `invert` is the chain between `sc_mont` and `sc_normal`, if there is one. -/
structure ScDef where
  bits : Nat
  n : List Byte
  invert : Option (List Ins)

/-- src/ecc.c:227-241, `scalar_field_t`. -/
structure ScField where
  endian : Int
  bits : Nat
  endo_bits : Nat
  limbs : Nat
  shift : Nat
  size : Nat
  mask : Nat
  n : List Limb
  nh : List Limb
  m : List Limb
  k : Limb
  r2 : List Limb
  invert : Option (List Ins)

/-- src/ecc.c:1935-1997 `scalar_field_init`. The `size` bytes of the order are all which are given. -/
def scalar_field_init (d : ScDef) (endian : Int) : C ScField := do
  let limbs := (d.bits + 63) / 64
  let shift := limbs * 2 + 2
  let size := (d.bits + 7) / 8
  let mask := if d.bits % 8 ≠ 0 then 2 ^ (d.bits % 8) - 1 else 0xff
  if d.n.length ≠ size then .ub
  let n ← mpn_import limbs d.n 1
  let nh := (mpn_rshift n 1).1
  let m ← mpn_barrett n shift
  let (k, r2) ← mpn_mont n
  return { endian := endian, bits := d.bits, endo_bits := (d.bits + 1) / 2 + 1, limbs := limbs, shift := shift,
           size := size, mask := mask, n := n, nh := nh, m := m, k := k, r2 := r2, invert := d.invert }

/-- src/ecc.c:249, `sc_one`, as many limbs as are in use. -/
def sc_one (sc : ScField) : List Limb := mpn_set_1 sc.limbs 1

/-- src/ecc.c:726-729 `sc_zero`. -/
def sc_zero (sc : ScField) : List Limb := mpn_zero sc.limbs

/-- src/ecc.c:741-744 `sc_set_word`. -/
def sc_set_word (sc : ScField) (x : Limb) : List Limb := mpn_set_1 sc.limbs x

/-- src/ecc.c:746-750 `sc_select`. -/
def sc_select (x y : List Limb) (f : Limb) : List Limb := mpn_cnd_select x y f

/-- src/ecc.c:752-755 `sc_select_zero`. -/
def sc_select_zero (x : List Limb) (f : Limb) : List Limb := mpn_cnd_zero x f

/-- src/ecc.c:757-760 `sc_is_zero`. -/
def sc_is_zero (x : List Limb) : Limb := mpn_sec_zero_p x

/-- src/ecc.c:762-765 `sc_equal`. -/
def sc_equal (x y : List Limb) : Limb := mpn_sec_equal_p x y

/-- src/ecc.c:767-770 `sc_cmp_var`. -/
def sc_cmp_var (x y : List Limb) : Int := mpn_cmp x y

/-- src/ecc.c:772-775 `sc_is_canonical`. -/
def sc_is_canonical (sc : ScField) (x : List Limb) : Limb := mpn_sec_lt_p x sc.n

/-- src/ecc.c:777-780 `sc_is_high`. -/
def sc_is_high (sc : ScField) (x : List Limb) : Limb := mpn_sec_gt_p x sc.nh

/-- src/ecc.c:782-785 `sc_is_high_var`. -/
def sc_is_high_var (sc : ScField) (x : List Limb) : Bool := decide (mpn_cmp x sc.nh > 0)

/-- src/ecc.c:787-790 `sc_bitlen_var`. -/
def sc_bitlen_var (x : List Limb) : Nat := mpn_bitlen x

/-- src/ecc.c:792-795 `sc_get_bit`. -/
def sc_get_bit (x : List Limb) (pos : Nat) : Limb := mpn_getbit x pos

/-- src/ecc.c:797-801 `sc_get_bits`. -/
def sc_get_bits (x : List Limb) (pos width : Nat) : Limb := mpn_getbits x pos width

/-- src/ecc.c:803-808 `sc_reduce_weak`. -/
def sc_reduce_weak (sc : ScField) (x : List Limb) (hi : Limb) : List Limb × Bool := mpn_reduce_weak x sc.n hi

/-- src/ecc.c:810-815 `sc_add`. -/
def sc_add (sc : ScField) (x y : List Limb) : List Limb :=
  let z := mpn_add_n x y
  (sc_reduce_weak sc z.1 z.2).1

/-- src/ecc.c:817-824 `sc_sub`. -/
def sc_sub (sc : ScField) (x y : List Limb) : C (List Limb) := do
  let t := mpn_sub_n sc.n y
  C.check (t.2 == 0)
  return sc_add sc x t.1

/-- src/ecc.c:826-833 `sc_neg`. -/
def sc_neg (sc : ScField) (x : List Limb) : C (List Limb) := do
  let zero := sc_is_zero x
  let z := mpn_sub_n sc.n x
  C.check (z.2 == 0)
  return sc_select_zero z.1 zero

/-- src/ecc.c:835-840 `sc_neg_cond`. -/
def sc_neg_cond (sc : ScField) (x : List Limb) (f : Limb) : C (List Limb) := do
  let y ← sc_neg sc x
  return sc_select x y f

/-- src/ecc.c:842-848 `sc_reduce`; `sc->shift` limbs are read. -/
def sc_reduce (sc : ScField) (xp : List Limb) : C (List Limb) :=
  if xp.length ≠ sc.shift then .ub else mpn_reduce xp sc.m sc.n

/-- src/ecc.c:850-862 `sc_mod`. -/
def sc_mod (sc : ScField) (xp : List Limb) : C (List Limb) := do
  C.check (decide (xp.length ≤ sc.shift))
  sc_reduce sc (xp ++ mpn_zero (sc.shift - xp.length))

/-- src/ecc.c:864-874 `sc_mul`. -/
def sc_mul (sc : ScField) (x y : List Limb) : C (List Limb) :=
  sc_reduce sc (mpn_mul_n x y ++ mpn_zero (sc.shift - sc.limbs * 2))

/-- src/ecc.c:876-887 `sc_sqr`. -/
def sc_sqr (sc : ScField) (x : List Limb) : C (List Limb) :=
  sc_reduce sc (mpn_sqr x ++ mpn_zero (sc.shift - sc.limbs * 2))

/-- src/ecc.c:889-899 `sc_mul_word`. -/
def sc_mul_word (sc : ScField) (x : List Limb) (y : Limb) : C (List Limb) :=
  let z := mpn_mul_1 x y
  sc_reduce sc ((z.1 ++ [z.2]) ++ mpn_zero (sc.shift - (sc.limbs + 1)))

/-- src/ecc.c:901-907 `sc_mulshift`. -/
def sc_mulshift (x y : List Limb) (shift : Nat) : C (List Limb) := do
  let z ← mpn_mulshift x y shift
  C.check (z.2 == 0)
  return z.1

/-- src/ecc.c:909-914 `sc_montmul`. -/
def sc_montmul (sc : ScField) (x y : List Limb) : C (List Limb) := mpn_sec_montmul x y sc.n sc.k

/-- src/ecc.c:916-919 `sc_montsqr`. -/
def sc_montsqr (sc : ScField) (x : List Limb) : C (List Limb) := sc_montmul sc x x

/-- src/ecc.c:921-931 `sc_montsqrn`. -/
def sc_montsqrn (sc : ScField) (x : List Limb) (n : Nat) : C (List Limb) := do
  C.check (decide (0 < n))
  let z ← sc_montsqr sc x
  sqr_loop (sc_montmul sc) (n - 1) z

/-- src/ecc.c:933-936 `sc_mont`. -/
def sc_mont (sc : ScField) (x : List Limb) : C (List Limb) := sc_montmul sc x sc.r2

/-- src/ecc.c:938-941 `sc_normal`. -/
def sc_normal (sc : ScField) (x : List Limb) : C (List Limb) := sc_montmul sc x (sc_one sc)

/-- src/ecc.c:943-946 `sc_import_raw`; `sc->size` bytes are read. -/
def sc_import_raw (sc : ScField) (xp : List Byte) : C (List Limb) :=
  if xp.length ≠ sc.size then .ub else mpn_import sc.limbs xp sc.endian

/-- src/ecc.c:948-959 `sc_import`. -/
def sc_import (sc : ScField) (xp : List Byte) : C (List Limb × Limb) := do
  let z ← sc_import_raw sc xp
  let ret := 1 &&& sc_is_canonical sc z
  return (sc_select_zero z (ret ^^^ 1), ret)

/-- src/ecc.c:961-981 `sc_import_wide`. -/
def sc_import_wide (sc : ScField) (xp : List Byte) : C (List Limb × Limb) := do
  C.check (decide (xp.length * 8 ≤ sc.shift * 64))
  let zp ← mpn_import sc.shift xp sc.endian
  let ret := 1 &&& mpn_sec_lt_p (zp.take sc.limbs) sc.n
  let ret := if xp.length > sc.size then ret &&& mpn_sec_zero_p (zp.drop sc.limbs) else ret
  let z ← sc_reduce sc zp
  return (z, ret)

/-- src/ecc.c:983-988 `sc_import_weak`. -/
def sc_import_weak (sc : ScField) (xp : List Byte) : C (List Limb × Limb) := do
  let z ← sc_import_raw sc xp
  let r := sc_reduce_weak sc z 0
  return (r.1, flag (r.2 = true) ^^^ 1)

/-- src/ecc.c:990-993 `sc_import_strong`. -/
def sc_import_strong (sc : ScField) (xp : List Byte) : C (List Limb × Limb) :=
  if xp.length ≠ sc.size then .ub else sc_import_wide sc xp

/-- src/ecc.c:995-1001 `sc_import_reduce`. -/
def sc_import_reduce (sc : ScField) (xp : List Byte) : C (List Limb × Limb) :=
  if sc.bits % 8 = 0 then sc_import_weak sc xp else sc_import_strong sc xp

/-- src/ecc.c:1004-1014, `sc_import_pad_raw`, the loops which skip zero bytes at the high end. -/
def pad_strip (size : Nat) : List Byte → List Byte
  | [] => []
  | x :: xs => if (x :: xs).length > size ∧ x = 0 then pad_strip size xs else x :: xs

/-- src/ecc.c:1003-1024 `sc_import_pad_raw`. -/
def sc_import_pad_raw (sc : ScField) (xp : List Byte) : C (List Limb × Limb) := do
  let xp := if sc.endian = 1 then pad_strip sc.size xp else (pad_strip sc.size xp.reverse).reverse
  if xp.length > sc.size then return (mpn_zero sc.limbs, 0)
  let z ← mpn_import sc.limbs xp sc.endian
  return (z, 1)

/-- src/ecc.c:1026-1037 `sc_import_pad`. -/
def sc_import_pad (sc : ScField) (xp : List Byte) : C (List Limb × Limb) := do
  let (z, r) ← sc_import_pad_raw sc xp
  let ret := 1 &&& r
  let ret := ret &&& sc_is_canonical sc z
  return (sc_select_zero z (ret ^^^ 1), ret)

/-- src/ecc.c:1039-1042 `sc_export`. -/
def sc_export (sc : ScField) (x : List Limb) : C (List Byte) := mpn_export sc.size x sc.endian

/-- src/ecc.c:1044-1061 `sc_set_fe`, from the exported field element `raw`, which has `fe->size` bytes in the order
`fe->endian`. -/
def sc_set_fe (sc : ScField) (fbits : Nat) (fendian : Int) (raw : List Byte) : C (List Limb × Limb) := do
  if fbits < sc.bits then
    let z ← mpn_import sc.limbs raw fendian
    return (z, 1)
  else if fbits > sc.bits then sc_import_wide sc raw
  else sc_import_weak sc raw

/-- src/ecc.c:1075-1078, `sc_pow`, the table; the list is the part of the array which is filled. -/
def sc_pow_wnd (sc : ScField) : Nat → List (List Limb) → C (List (List Limb))
  | 0, w => .ok w
  | k + 1, w => do
    let a ← C.rd w (w.length / 2)
    let b ← sc_montsqr sc a
    let x ← C.rd w 1
    let c ← sc_montmul sc b x
    sc_pow_wnd sc k (w ++ [b, c])

/-- src/ecc.c:1082-1091, `sc_pow`, the main loop: `i` rounds are left. -/
def sc_pow_loop (sc : ScField) (wnd : List (List Limb)) (ep : List Limb) (steps : Nat) : Nat → List Limb → C (List Limb)
  | 0, z => .ok z
  | i + 1, z => do
    let b := mpn_getbits ep (i * 4) 4
    let w ← C.rd wnd b.toNat
    if i = steps - 1 then sc_pow_loop sc wnd ep steps i w
    else do
      let z ← sc_montsqrn sc z 4
      let z ← sc_montmul sc z w
      sc_pow_loop sc wnd ep steps i z

/-- src/ecc.c:1063-1094 `sc_pow`. -/
def sc_pow (sc : ScField) (x ep : List Limb) : C (List Limb) := do
  let steps := (sc.bits + 3) / 4
  let w0 ← sc_mont sc (sc_one sc)
  let w1 ← sc_mont sc x
  let wnd ← sc_pow_wnd sc 7 [w0, w1]
  let z ← sc_pow_loop sc wnd ep steps steps w0
  sc_normal sc z

/-- src/ecc.c:1096-1101 `sc_invert_var`. -/
def sc_invert_var (sc : ScField) (x : List Limb) : C (List Limb × Bool) := mpn_invert_n x sc.n

/-- src/fields/scalar.h:14-80, `q192_sc_invert` and the others: the chain between `sc_mont` and `sc_normal`. -/
def sc_chain (sc : ScField) (prog : List Ins) (x : List Limb) : C (List Limb) := do
  let x1 ← sc_mont sc x
  let s ← runIns (sc_montmul sc) prog (regSet (fun _ => none) 1 x1)
  let z ← regGet s 0
  sc_normal sc z

/-- src/ecc.c:1103-1120 `sc_invert`. -/
def sc_invert (sc : ScField) (x : List Limb) : C (List Limb × Limb) := do
  let z ← match sc.invert with
    | some prog => sc_chain sc prog x
    | none => sc_pow sc x (mpn_sub_1 sc.n 2).1
  return (z, sc_is_zero z ^^^ 1)

/-- src/ecc.c:1122-1129 `sc_minimize`. -/
def sc_minimize (sc : ScField) (x : List Limb) : C (List Limb × Limb) := do
  let high := sc_is_high sc x
  let z ← sc_neg_cond sc x high
  return (z, high)

/-- src/ecc.c:1131-1141 `sc_minimize_var`. -/
def sc_minimize_var (sc : ScField) (x : List Limb) : C (List Limb × Bool) := do
  let high := sc_is_high_var sc x
  if high then
    let z ← sc_neg sc x
    return (z, high)
  else return (x, high)

/-- src/ecc.c:1335-1345, `sc_random`, the loop. -/
def sc_random_loop {S : Type} (sc : ScField) (rng : ByteGen S) (mask : Limb) : Nat → S → R (List Limb × S)
  | 0, _ => .spin
  | fuel + 1, s => do
    let zs ← R.lift (mpn_random rng s sc.limbs)
    let top ← R.lift (C.rd zs.1 (sc.limbs - 1))
    let z ← R.lift (C.wr zs.1 (sc.limbs - 1) (top &&& mask))
    let ok := 1 &&& sc_is_canonical sc z
    let ok := ok &&& (sc_is_zero z ^^^ 1)
    if ok ≠ 0 then return (z, zs.2) else sc_random_loop sc rng mask fuel zs.2

/-- src/ecc.c:1326-1344 `sc_random`. -/
def sc_random {S : Type} (sc : ScField) (rng : ByteGen S) (fuel : Nat) (s : S) : R (List Limb × S) :=
  let mask : Limb := BitVec.ofNat 64 (2 ^ (sc.bits % 64) - 1)
  let mask := if mask = 0 then BitVec.allOnes 64 else mask
  sc_random_loop sc rng mask fuel s

end Torsion.Sc
