import Verif.Ecc.Fiat.P192
import Verif.Ecc.Fiat.P251
import Verif.Ecc.Fiat.P25519
import Verif.Ecc.Fiat.P448
import Verif.Ecc.Fiat.P521
import Verif.Ecc.Fiat.Secp256k1

/-!
# Model of the field layer of src/ecc.c over the limb code

Only fields without Montgomery representation, on machines with 64-bit words. The functions read their arguments before they write the
result, so that `z` may be `x` or `y`: a call takes the contents of the arrays and returns the contents of `z`.
-/
namespace Torsion.Fiat

/-- src/ecc.c:315-340 `prime_def_t` and what `prime_field_init` adds to it (src/ecc.c:2003-2060). The widths of the limbs are not in
the code but in the comments at the top of the files in src/fields. `scmul_a24` and `scmul_d` are the programs called one after the
other, with the constant they are named after. -/
structure FiatField where
  p : Nat
  bits : List Nat
  size : Nat
  mask : Nat
  add : Prog
  sub : Prog
  opp : Prog
  carry : Prog
  mul : Prog
  square : Prog
  scmul_3 : Prog
  scmul_4 : Prog
  scmul_8 : Prog
  scmul_a24 : Option (Int × List Prog)
  scmul_d : Option (Int × List Prog)
  to_bytes : Prog
  from_bytes : Prog

/-- The fields of src/ecc.c:9066-9515 with a `carry` function. -/
inductive FieldName where
  | p192 | p521 | secp256k1 | p25519 | p448 | p251
deriving DecidableEq, Repr

/-- src/ecc.c:9066-9096 `field_p192`. -/
def field_p192 : FiatField where
  p := 2 ^ 192 - 2 ^ 64 - 1
  bits := [48, 48, 48, 48]
  size := 24
  mask := 0xff
  add := p192_add
  sub := p192_sub
  opp := p192_opp
  carry := p192_carry
  mul := p192_carry_mul
  square := p192_carry_square
  scmul_3 := p192_carry_scmul_3
  scmul_4 := p192_carry_scmul_4
  scmul_8 := p192_carry_scmul_8
  scmul_a24 := none
  scmul_d := none
  to_bytes := p192_to_bytes
  from_bytes := p192_from_bytes

/-- src/ecc.c:9268-9304 `field_p521`. -/
def field_p521 : FiatField where
  p := 2 ^ 521 - 1
  bits := [58, 58, 58, 58, 58, 58, 58, 58, 57]
  size := 66
  mask := 1
  add := p521_add
  sub := p521_sub
  opp := p521_opp
  carry := p521_carry
  mul := p521_carry_mul
  square := p521_carry_square
  scmul_3 := p521_carry_scmul_3
  scmul_4 := p521_carry_scmul_4
  scmul_8 := p521_carry_scmul_8
  scmul_a24 := none
  scmul_d := none
  to_bytes := p521_to_bytes
  from_bytes := p521_from_bytes

/-- src/ecc.c:9328-9359 `field_secp256k1`. -/
def field_secp256k1 : FiatField where
  p := 2 ^ 256 - 2 ^ 32 - 977
  bits := [43, 43, 42, 43, 43, 42]
  size := 32
  mask := 0xff
  add := secp256k1_add
  sub := secp256k1_sub
  opp := secp256k1_opp
  carry := secp256k1_carry
  mul := secp256k1_carry_mul
  square := secp256k1_carry_square
  scmul_3 := secp256k1_carry_scmul_3
  scmul_4 := secp256k1_carry_scmul_4
  scmul_8 := secp256k1_carry_scmul_8
  scmul_a24 := none
  scmul_d := none
  to_bytes := secp256k1_to_bytes
  from_bytes := secp256k1_from_bytes

/-- src/ecc.c:9378-9409 `field_p25519`. -/
def field_p25519 : FiatField where
  p := 2 ^ 255 - 19
  bits := [51, 51, 51, 51, 51]
  size := 32
  mask := 0x7f
  add := p25519_add
  sub := p25519_sub
  opp := p25519_opp
  carry := p25519_carry
  mul := p25519_carry_mul
  square := p25519_carry_square
  scmul_3 := p25519_carry_scmul_3
  scmul_4 := p25519_carry_scmul_4
  scmul_8 := p25519_carry_scmul_8
  scmul_a24 := some (121666, [p25519_carry_scmul_121666])
  scmul_d := none
  to_bytes := p25519_to_bytes
  from_bytes := p25519_from_bytes

/-- src/ecc.c:9428-9462 `field_p448`, with src/fields/p448.h:226-230 `fiat_p448_carry_scmul_m39081`. -/
def field_p448 : FiatField where
  p := 2 ^ 448 - 2 ^ 224 - 1
  bits := [56, 56, 56, 56, 56, 56, 56, 56]
  size := 56
  mask := 0xff
  add := p448_add
  sub := p448_sub
  opp := p448_opp
  carry := p448_carry
  mul := p448_carry_mul
  square := p448_carry_square
  scmul_3 := p448_carry_scmul_3
  scmul_4 := p448_carry_scmul_4
  scmul_8 := p448_carry_scmul_8
  scmul_a24 := some (39082, [p448_carry_scmul_39082])
  scmul_d := some (-39081, [p448_opp, p448_carry_scmul_39081])
  to_bytes := p448_to_bytes
  from_bytes := p448_from_bytes

/-- src/ecc.c:9484-9515 `field_p251`, with src/fields/p251.h:210-214 `fiat_p251_carry_scmul_m1174`. -/
def field_p251 : FiatField where
  p := 2 ^ 251 - 9
  bits := [51, 50, 50, 50, 50]
  size := 32
  mask := 7
  add := p251_add
  sub := p251_sub
  opp := p251_opp
  carry := p251_carry
  mul := p251_carry_mul
  square := p251_carry_square
  scmul_3 := p251_carry_scmul_3
  scmul_4 := p251_carry_scmul_4
  scmul_8 := p251_carry_scmul_8
  scmul_a24 := none
  scmul_d := some (-1174, [p251_opp, p251_carry_scmul_1174])
  to_bytes := p251_to_bytes
  from_bytes := p251_from_bytes

/-- The definitions of src/ecc.c:9066-9515 by name. -/
def field : FieldName → FiatField
  | .p192 => field_p192
  | .p521 => field_p521
  | .secp256k1 => field_secp256k1
  | .p25519 => field_p25519
  | .p448 => field_p448
  | .p251 => field_p251

section
variable (fe : FiatField)

/-- src/fields/p25519_64.h:767-783 `fiat_p25519_selectznz`, for any number of limbs. -/
def selectznz (flag : Nat) (x y : List Nat) : List Nat := List.zipWith (cmovznz flag) x y

/-- src/ecc.c:1444-1451 `fe_select`. -/
def fe_select (x y : List Nat) (flag : Int) : List Nat := selectznz (if flag ≠ 0 then 1 else 0) x y

/-- src/ecc.c:1514-1527 `fe_set_word`. -/
def fe_set_word (x : Nat) : C (List Nat) := run fe.carry [x :: List.replicate (fe.bits.length - 1) 0]

/-- src/ecc.c:1610-1616 `fe_carry`. -/
def fe_carry (x : List Nat) : C (List Nat) := run fe.carry [x]

/-- src/ecc.c:1618-1624 `fe_neg`. -/
def fe_neg (x : List Nat) : C (List Nat) := do
  let z ← run fe.opp [x]
  run fe.carry [z]

/-- src/ecc.c:1626-1629 `fe_neg_nc`. -/
def fe_neg_nc (x : List Nat) : C (List Nat) := run fe.opp [x]

/-- src/ecc.c:1631-1636 `fe_neg_cond`. -/
def fe_neg_cond (x : List Nat) (flag : Int) : C (List Nat) := do
  let y ← fe_neg fe x
  .ok (fe_select x y flag)

/-- src/ecc.c:1643-1649 `fe_add`. -/
def fe_add (x y : List Nat) : C (List Nat) := do
  let z ← run fe.add [x, y]
  run fe.carry [z]

/-- src/ecc.c:1651-1657 `fe_sub`. -/
def fe_sub (x y : List Nat) : C (List Nat) := do
  let z ← run fe.sub [x, y]
  run fe.carry [z]

/-- src/ecc.c:1659-1662 `fe_add_nc`. -/
def fe_add_nc (x y : List Nat) : C (List Nat) := run fe.add [x, y]

/-- src/ecc.c:1664-1667 `fe_sub_nc`. -/
def fe_sub_nc (x y : List Nat) : C (List Nat) := run fe.sub [x, y]

/-- src/ecc.c:1669-1672 `fe_mul`. -/
def fe_mul (x y : List Nat) : C (List Nat) := run fe.mul [x, y]

/-- src/ecc.c:1674-1677 `fe_sqr`. -/
def fe_sqr (x : List Nat) : C (List Nat) := run fe.square [x]

/-- src/ecc.c:1679-1682 `fe_mul3`. -/
def fe_mul3 (x : List Nat) : C (List Nat) := run fe.scmul_3 [x]

/-- src/ecc.c:1684-1687 `fe_mul4`. -/
def fe_mul4 (x : List Nat) : C (List Nat) := run fe.scmul_4 [x]

/-- src/ecc.c:1689-1692 `fe_mul8`. -/
def fe_mul8 (x : List Nat) : C (List Nat) := run fe.scmul_8 [x]

/-- The calls in src/fields/p448.h:226-230 `fiat_p448_carry_scmul_m39081`, one after the other. -/
def runAll : List Prog → List Nat → C (List Nat)
  | [], x => .ok x
  | q :: r, x => do
    let z ← run q [x]
    runAll r z

/-- `fe->from_bytes` as called by `fe_import` (src/ecc.c:1363-1388), after the high bits were cleared. -/
def fe_from_bytes (b : List Nat) : C (List Nat) := run fe.from_bytes [b]

/-- `fe->to_bytes` as called by `fe_export` (src/ecc.c:1416-1428). -/
def fe_to_bytes (x : List Nat) : C (List Nat) := run fe.to_bytes [x]

/-- src/ecc.c:1542-1561 `fe_is_zero`. -/
def fe_is_zero (x : List Nat) : C Nat := do
  let tmp ← run fe.to_bytes [x]
  let z := tmp.foldl (fun z b => z ||| b) 0
  .ok (((z + (2 ^ 64 - 1)) % 2 ^ 64) >>> 63)

/-- src/ecc.c:1563-1587 `fe_equal`. -/
def fe_equal (x y : List Nat) : C Nat := do
  let u ← run fe.to_bytes [x]
  let v ← run fe.to_bytes [y]
  let z := (List.zipWith (fun a b => a ^^^ b) u v).foldl (fun z b => z ||| b) 0
  .ok (((z + (2 ^ 64 - 1)) % 2 ^ 64) >>> 63)

/-- src/ecc.c:1589-1608 `fe_is_odd`. -/
def fe_is_odd (x : List Nat) : C Nat := do
  let tmp ← run fe.to_bytes [x]
  let b ← C.rd tmp 0
  .ok (b &&& 1)

/-- src/ecc.c:1638-1641 `fe_set_odd`. -/
def fe_set_odd (x : List Nat) (odd : Int) : C (List Nat) := do
  let b ← fe_is_odd fe x
  fe_neg_cond fe x ((b ^^^ (if odd ≠ 0 then 1 else 0) : Nat) : Int)

end
end Torsion.Fiat
