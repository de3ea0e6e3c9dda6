import Verif.Basic

/-!
# Model: register programs

The exponentiation chains of src/fields are sequences of calls without branches. They are modelled as programs on
registers, which hold field elements or scalars; reading a register which was not written is undefined behaviour.
-/
namespace Torsion

/-- One call: `*_set`, `*_sqr` (or `sc_montsqr`), `*_sqrn` (or `sc_montsqrn`), `*_mul` (or `sc_montmul`), destination
first. -/
inductive Ins where
  | set (d a : Nat)
  | sqr (d a : Nat)
  | sqrn (d a n : Nat)
  | mul (d a b : Nat)
deriving Repr, DecidableEq

variable {A : Type}

/-- The value of a register, for the programs below (src/fields/scalar.h:11-80, `q192_sc_invert`, for example). -/
def regGet (s : Nat → Option A) (r : Nat) : C A :=
  match s r with
  | some a => .ok a
  | none => .ub

/-- The registers after an assignment (src/fields/scalar.h:11-80, `q192_sc_invert`, for example). -/
def regSet (s : Nat → Option A) (r : Nat) (a : A) : Nat → Option A := fun i => if i = r then some a else s i

/-- src/fields/p256.h:55-63, `p256_fe_sqrn` (and the others with this name), the loop. -/
def sqr_loop (mul : A → A → C A) : Nat → A → C A
  | 0, a => .ok a
  | n + 1, a => do
    let b ← mul a a
    sqr_loop mul n b

/-- One call on the registers; `mul` is the multiplication. As in src/fields/p256.h:55-63, `p256_fe_sqrn` squares at
least once. -/
def stepIns (mul : A → A → C A) (s : Nat → Option A) : Ins → C (Nat → Option A)
  | .set d a => do
    let x ← regGet s a
    return regSet s d x
  | .sqr d a => do
    let x ← regGet s a
    let y ← mul x x
    return regSet s d y
  | .sqrn d a n => do
    let x ← regGet s a
    let y ← mul x x
    let z ← sqr_loop mul (n - 1) y
    return regSet s d z
  | .mul d a b => do
    let x ← regGet s a
    let y ← regGet s b
    let z ← mul x y
    return regSet s d z

/-- A sequence of calls (src/fields/scalar.h:11-80, `q192_sc_invert`, for example). -/
def runIns (mul : A → A → C A) : List Ins → (Nat → Option A) → C (Nat → Option A)
  | [], s => .ok s
  | i :: is, s => do
    let s ← stepIns mul s i
    runIns mul is s

end Torsion
