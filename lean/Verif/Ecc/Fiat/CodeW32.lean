import Verif.Ecc.Fiat.Code
import Verif.Ecc.Fiat.FieldW32

/-!
# Model of the language of the formulas in src/ecc.c, over 32-bit words

The calls of `Verif/Ecc/Fiat/Code.lean`, run on the limbs of src/fields/*_32.h.
-/
namespace Torsion.Fiat.W32

section
variable (fe : FiatField)

/-- src/ecc.c:1643-1672 on limbs. -/
def binL : Bin → List Nat → List Nat → C (List Nat)
  | .mul, x, y => fe_mul fe x y
  | .add, x, y => fe_add fe x y
  | .sub, x, y => fe_sub fe x y
  | .addnc, x, y => fe_add_nc fe x y
  | .subnc, x, y => fe_sub_nc fe x y

/-- src/ecc.c:1610-1629 and src/ecc.c:1674-1692 on limbs. A call of `scmul_d` or `scmul_a24` without such a function is undefined. -/
def unL : Un → List Nat → C (List Nat)
  | .sqr, x => fe_sqr fe x
  | .neg, x => fe_neg fe x
  | .negnc, x => fe_neg_nc fe x
  | .mul3, x => fe_mul3 fe x
  | .mul4, x => fe_mul4 fe x
  | .mul8, x => fe_mul8 fe x
  | .set, x => .ok x
  | .carry, x => fe_carry fe x
  | .scd, x =>
    match fe.scmul_d with
    | some q => runAll q.2 x
    | none => .ub
  | .sca24, x =>
    match fe.scmul_a24 with
    | some q => runAll q.2 x
    | none => .ub

/-- A call in src/ecc.c:3022-7000. -/
def stepL (m : Mem (List Nat)) : FSt → C (Mem (List Nat))
  | .bin o z x y => do
    let v ← binL fe o (m.r x) (m.r y)
    .ok (m.put z v)
  | .un o z x => do
    let v ← unL fe o (m.r x)
    .ok (m.put z v)
  | .sel z x y b => .ok (m.put z (fe_select (m.r x) (m.r y) (if m.f b then 1 else 0)))
  | .isz b x => do
    let v ← fe_is_zero fe (m.r x)
    .ok (m.putf b (v != 0))
  | .setf b g => .ok (m.putf b (g m.f))

/-- The statements in src/ecc.c:3022-7000 run on limbs. -/
def runL : Code → Mem (List Nat) → C (Mem (List Nat))
  | .nil, m => .ok m
  | .st s, m => stepL fe m s
  | .seq c d, m => do
    let m ← runL c m
    runL d m
  | .ite b c d, m => if m.f b then runL c m else runL d m

end
end Torsion.Fiat.W32
