import Verif.Ecc.CurveDefs
import Verif.Common.Buffer
import Verif.Hash.Spec

/-!
# Model: field elements and points as bytes (src/ecc.c)

The field is the integers modulo the prime `fe.p`; the conversions of the fields (`from_bytes`, `to_bytes`) are the
numbers written in little-endian order, the code in src/fields/ is not modelled. All curves here are big-endian.
Scalars are numbers below the order; the limb code is modelled in Scalar.lean.
-/
namespace Torsion

open Spec (beVal leVal bigBytes)

section
variable (fe : FieldCode)

/-- src/ecc.c:2003-2061 `prime_field_init`: `fe->bits`, given in the table, is the size of the prime. -/
def feBits : Nat := fe.p.size

/-- src/ecc.c:2003-2061 `prime_field_init`: `fe->size`. -/
def feSize : Nat := (feBits fe + 7) / 8

/-- src/ecc.c:613-628 `bytes_lt`: from the most significant byte of two numbers of `n` bytes in little-endian order. -/
def bytes_lt_loop (xp yp : List Byte) : Nat → BitVec 32 → BitVec 32 → C (BitVec 32)
  | 0, eq, lt => return lt &&& (eq ^^^ 1)
  | n + 1, eq, lt => do
    let a ← C.rd xp n
    let b ← C.rd yp n
    let a := a.setWidth 32
    let b := b.setWidth 32
    let lt := lt ||| (eq &&& ((a - b) >>> 31))
    let eq := eq &&& (((a ^^^ b) - 1) >>> 31)
    bytes_lt_loop xp yp n eq lt

/-- src/ecc.c:613-628 `bytes_lt`. -/
def bytes_lt (xp yp : List Byte) (n : Nat) : C (BitVec 32) := bytes_lt_loop xp yp n 1 0

/-- src/ecc.c:2003-2061 `prime_field_init`: `fe->mask`. -/
def feMask : Byte := if feBits fe % 8 ≠ 0 then BitVec.ofNat 8 (2 ^ (feBits fe % 8) - 1) else 0xff

/-- src/ecc.c:1363-1388 `fe_import` with `fe->endian == 1`: the element and whether the number was reduced. -/
def fe_import (xp : List Byte) : C (ZMod fe.p × Bool) := do
  let tmp ← C.slice xp 0 (feSize fe)
  let tmp := tmp.reverse
  let ret ← bytes_lt tmp (Spec.leBytes (feSize fe) fe.p) (feSize fe)
  let top ← C.rd tmp (feSize fe - 1)
  let tmp ← C.wr tmp (feSize fe - 1) (top &&& feMask fe)
  return ((leVal tmp : ZMod fe.p), ret != 0)

/-- src/ecc.c:653-672 `byte_pad_be`, the loop which skips zero bytes. -/
def byte_pad_skip (zn : Nat) : List Byte → List Byte
  | [] => []
  | x :: xs => if (x :: xs).length > zn ∧ x = 0 then byte_pad_skip zn xs else x :: xs

/-- src/ecc.c:653-672 `byte_pad_be`. -/
def byte_pad_be (zn : Nat) (xp : List Byte) : List Byte × Bool :=
  let xp := byte_pad_skip zn xp
  if xp.length > zn then (List.replicate zn 0, false)
  else (List.replicate (zn - xp.length) 0 ++ xp, true)

/-- src/ecc.c:1402-1414 `fe_import_pad` with `fe->endian == 1`. -/
def fe_import_pad (xp : List Byte) : C (ZMod fe.p × Bool) := do
  let tmp := byte_pad_be (feSize fe) xp
  let z ← fe_import fe tmp.1
  return (z.1, tmp.2 && z.2)

/-- src/ecc.c:1416-1428 `fe_export` with `fe->endian == 1`. -/
def fe_export (x : ZMod fe.p) : List Byte := bigBytes (feSize fe) x.val

/-- src/ecc.c:1589-1608 `fe_is_odd`. -/
def fe_is_odd (x : ZMod fe.p) : Bool := x.val % 2 == 1

/-- src/ecc.c:1638-1641 `fe_set_odd`. -/
def fe_set_odd (x : ZMod fe.p) (odd : Bool) : ZMod fe.p :=
  if fe_is_odd fe x ^^ odd then -x else x

end

section
variable (fe : FieldCode) [Fact fe.p.Prime]

/-- src/ecc.c:376-421, `wei_s`: the fields which the protocols use, besides those for the multiplication. -/
structure WeiT extends Wei (ZMod fe.p) where
  sc_p : Nat
  fe_n : ZMod fe.p
  highOrder : Bool
  smallGap : Bool

end

/-- src/ecc.c:4089-4101 `wei_has_high_order`: the number of limbs, then the numbers are compared. -/
def wei_has_high_order (n p : Nat) : Bool :=
  if (n.size + 63) / 64 < (p.size + 63) / 64 then false
  else if (n.size + 63) / 64 > (p.size + 63) / 64 then true
  else decide (p ≤ n)

/-- src/ecc.c:4103-4121 `wei_has_small_gap`; the numbers have the same number of limbs when they are divided, so the quotient
fits in the word `q` unless the leading limb of `n` is small, which it is not for an order of the full size. -/
def wei_has_small_gap (n p : Nat) : Bool :=
  if (n.size + 63) / 64 < (p.size + 63) / 64 then false
  else if (n.size + 63) / 64 > (p.size + 63) / 64 then true
  else if p ≤ n then true
  else p / n == 1

/-- src/ecc.c:4018-4087 `wei_init`. -/
def wei_curve (d : WeiDef) [Fact d.fe.p.Prime] : C (WeiT d.fe) := do
  let w ← wei_create d
  return { toWei := w, sc_p := d.fe.p % beVal d.sc.n, fe_n := (beVal d.sc.n : ZMod d.fe.p),
           highOrder := wei_has_high_order (beVal d.sc.n) d.fe.p, smallGap := wei_has_small_gap (beVal d.sc.n) d.fe.p }

section
variable {fe : FieldCode} [Fact fe.p.Prime]

/-- src/ecc.c:2133-2156 `wge_set_x`; `sign` is `none` for -1. -/
def wge_set_x (ec : WeiT fe) (x : ZMod fe.p) (sign : Option Bool) : C (Wge (ZMod fe.p) × Bool) := do
  let y := wei_solve_y2 ec.toCurve x
  let (y, ret) ← fe_sqrt fe 0 0 y
  let (y, ret) := match sign with
    | none => (y, ret)
    | some sign =>
      let y := fe_set_odd fe y sign
      (y, if ec.h > 1 then ret && !(fe_is_zero y && sign) else ret)
  return (⟨fe_select x 0 (!ret), fe_select y 0 (!ret), !ret⟩, ret)

/-- src/ecc.c:2171-2214 `wge_import`; `len` is the length of the list. -/
def wge_import (ec : WeiT fe) (raw : List Byte) : C (Wge (ZMod fe.p) × Bool) := do
  if raw.length = 0 then return (wge_zero, false)
  let form ← C.rd raw 0
  if form = 0x02 ∨ form = 0x03 then
    if raw.length ≠ 1 + feSize fe then return (wge_zero, false)
    let x ← fe_import fe (raw.drop 1)
    let r ← wge_set_x ec x.1 (some (form.toNat % 2 == 1))
    return (r.1, x.2 && r.2)
  else if form = 0x04 ∨ form = 0x06 ∨ form = 0x07 then
    if raw.length ≠ 1 + feSize fe * 2 then return (wge_zero, false)
    let x ← fe_import fe (raw.drop 1)
    let y ← fe_import fe (raw.drop (1 + feSize fe))
    let hybrid : Bool := form == 0x04 || form == (if fe_is_odd fe y.1 then 0x07 else 0x06)
    let r := wge_set_xy ec.toCurve x.1 y.1
    return (r.1, x.2 && y.2 && hybrid && r.2)
  else return (wge_zero, false)

/-- src/ecc.c:2216-2243 `wge_export`: the bytes and the result. -/
def wge_export (_ec : WeiT fe) (p : Wge (ZMod fe.p)) (compact : Bool) : List Byte × Bool :=
  (if compact then (if fe_is_odd fe p.y then 0x03 else 0x02) :: fe_export fe p.x
   else 0x04 :: (fe_export fe p.x ++ fe_export fe p.y), !p.inf)

/-- src/ecc.c:2245-2256 `wge_import_even`. -/
def wge_import_even (ec : WeiT fe) (raw : List Byte) : C (Wge (ZMod fe.p) × Bool) := do
  let x ← fe_import fe raw
  let r ← wge_set_x ec x.1 (some false)
  return (r.1, x.2 && r.2)

/-- src/ecc.c:2258-2269 `wge_import_square`. -/
def wge_import_square (ec : WeiT fe) (raw : List Byte) : C (Wge (ZMod fe.p) × Bool) := do
  let x ← fe_import fe raw
  let r ← wge_set_x ec x.1 none
  return (r.1, x.2 && r.2)

/-- src/ecc.c:2271-2280 `wge_export_x`. -/
def wge_export_x (_ec : WeiT fe) (p : Wge (ZMod fe.p)) : List Byte × Bool := (fe_export fe p.x, !p.inf)

end

/-! ### Scalars as numbers -/

/-- src/ecc.c:1935-1997 `scalar_field_init`: `sc->size` for the order `n`. -/
def scSize (n : Nat) : Nat := (n.size + 7) / 8

/-- src/ecc.c:948-959 `sc_import` on numbers (`sc_import_exact` for the limbs). -/
def num_import (n : Nat) (xp : List Byte) : C (Nat × Bool) := do
  let b ← C.slice xp 0 (scSize n)
  return (if beVal b < n then beVal b else 0, decide (beVal b < n))

/-- src/ecc.c:1026-1037 `sc_import_pad` on numbers (`sc_import_exact` for the limbs). -/
def num_import_pad (n : Nat) (xp : List Byte) : Nat × Bool :=
  (if beVal xp < n then beVal xp else 0, decide (beVal xp < n))

/-- src/ecc.c:1039-1042 `sc_export` on numbers (`sc_export_exact` for the limbs). -/
def num_export (n a : Nat) : List Byte := bigBytes (scSize n) a

/-- src/ecc.c:1044-1061 `sc_set_fe` on numbers (`sc_set_fe_exact` for the limbs). -/
def num_set_fe {fe : FieldCode} (n : Nat) (x : ZMod fe.p) : Nat × Bool := (x.val % n, decide (x.val < n))

/-- src/ecc.c:1103-1120 `sc_invert` and `sc_invert_var` on numbers (`sc_invert_exact`, `sc_invert_var_exact` for the
limbs). -/
def num_invert (n a : Nat) : Nat × Bool := (((a : ZMod n)⁻¹).val, decide (a ≠ 0))

/-- src/ecc.c:826-833 `sc_neg` on numbers (`sc_add_sub_neg_exact` for the limbs). -/
def num_neg (n a : Nat) : Nat := (n - a) % n

/-- src/ecc.c:1495-1512 `fe_set_sc`: the low `fe->size` bytes of the scalar are imported. -/
def fe_set_sc (fe : FieldCode) (n x : Nat) : C (ZMod fe.p × Bool) := do
  let raw := bigBytes (feSize fe) x
  let ret := if scSize n > feSize fe then decide (x < fe.p) else true
  let z ← fe_import fe raw
  return (z.1, ret && z.2)

end Torsion
