import Verif.Ecc.Fiat.Field

/-!
# Model of the language of the formulas in src/ecc.c

Functions on points call the functions of the field one after the other; `Code` is such a sequence, with the branches that depend on a
flag. Registers hold field elements as limbs; two names for the same variable are the same register.
-/
namespace Torsion.Fiat

/-- What is fixed for a curve in src/ecc.c:355-480: whether `a` is 0, -3, -1, 1, whether the cofactor is above 1, and whether the field
has functions for the constants. -/
structure Cfg where
  zero_a : Bool
  three_a : Bool
  mone_a : Bool
  one_a : Bool
  cof : Bool
  sca24 : Bool
  scd : Bool

/-- The functions of two elements, src/ecc.c:1643-1672. -/
inductive Bin where
  | mul | add | sub | addnc | subnc

/-- The functions of one element, src/ecc.c:1453-1459, src/ecc.c:1610-1629 and src/ecc.c:1674-1692. -/
inductive Un where
  | sqr | neg | negnc | mul3 | mul4 | mul8 | set | carry | scd | sca24

/-- The calls in src/ecc.c:3022-7000: an element computed, a selection by a flag, a flag set by the test for zero
or from other flags. -/
inductive FSt where
  | bin (o : Bin) (z x y : Nat)
  | un (o : Un) (z x : Nat)
  | sel (z x y b : Nat)
  | isz (b x : Nat)
  | setf (b : Nat) (g : (Nat → Bool) → Bool)

/-- The bodies of the functions in src/ecc.c:3022-7000. -/
inductive Code where
  | nil
  | st (s : FSt)
  | seq (c d : Code)
  | ite (b : Nat) (c d : Code)

/-- A block of src/ecc.c:3022-7000. -/
def Code.block : List Code → Code
  | [] => .nil
  | c :: r => .seq c (Code.block r)

/-- The variables in src/ecc.c:3022-7000: field elements and flags. -/
structure Mem (α : Type) where
  r : Nat → α
  f : Nat → Bool

/-- Assignment to a variable in src/ecc.c:3022-7000. -/
def Mem.put {α : Type} (m : Mem α) (z : Nat) (v : α) : Mem α := ⟨fun i => if i = z then v else m.r i, m.f⟩

/-- Assignment to a flag in src/ecc.c:3022-7000. -/
def Mem.putf {α : Type} (m : Mem α) (b : Nat) (v : Bool) : Mem α := ⟨m.r, fun i => if i = b then v else m.f i⟩

section
variable (fe : FiatField)

/-- src/ecc.c:1643-1672 on limbs. -/
def binL : Bin → List Nat → List Nat → C (List Nat)
  | .mul, x, y => fe_mul fe x y
  | .add, x, y => fe_add fe x y
  | .sub, x, y => fe_sub fe x y
  | .addnc, x, y => fe_add_nc fe x y
  | .subnc, x, y => fe_sub_nc fe x y

/-- src/ecc.c:1610-1629 and src/ecc.c:1674-1692 on limbs. A call of `scmul_d` or `scmul_a24` without such a function is undefined. -/
def unL : Un → List Nat → C (List Nat)
  | .sqr, x => fe_sqr fe x
  | .neg, x => fe_neg fe x
  | .negnc, x => fe_neg_nc fe x
  | .mul3, x => fe_mul3 fe x
  | .mul4, x => fe_mul4 fe x
  | .mul8, x => fe_mul8 fe x
  | .set, x => .ok x
  | .carry, x => fe_carry fe x
  | .scd, x =>
    match fe.scmul_d with
    | some q => runAll q.2 x
    | none => .ub
  | .sca24, x =>
    match fe.scmul_a24 with
    | some q => runAll q.2 x
    | none => .ub

/-- A call in src/ecc.c:3022-7000. -/
def stepL (m : Mem (List Nat)) : FSt → C (Mem (List Nat))
  | .bin o z x y => do
    let v ← binL fe o (m.r x) (m.r y)
    .ok (m.put z v)
  | .un o z x => do
    let v ← unL fe o (m.r x)
    .ok (m.put z v)
  | .sel z x y b => .ok (m.put z (fe_select (m.r x) (m.r y) (if m.f b then 1 else 0)))
  | .isz b x => do
    let v ← fe_is_zero fe (m.r x)
    .ok (m.putf b (v != 0))
  | .setf b g => .ok (m.putf b (g m.f))

/-- The statements in src/ecc.c:3022-7000 run on limbs. -/
def runL : Code → Mem (List Nat) → C (Mem (List Nat))
  | .nil, m => .ok m
  | .st s, m => stepL fe m s
  | .seq c d, m => do
    let m ← runL c m
    runL d m
  | .ite b c d, m => if m.f b then runL c m else runL d m

end
end Torsion.Fiat
