import Verif.Ecc.Fiat.CodeSpec
import Verif.Ecc.Point
import Verif.Ecc.Mont
import Verif.Ecc.Edwards
import Mathlib.Algebra.Field.ZMod

/-!
# Points held in limbs

A point at place `p` has its coordinates in the variables `p`, `p + 1`, `p + 2`, `p + 3` and its flags in `p` and `p + 1`. The constants of the
curve are in the variables from 1000. The places of the arguments of a function are given by a layout: two arguments are the same object or different ones.
-/
namespace Torsion.Spec
open Torsion.Fiat

/-- The reduced limbs of `x`. -/
def LimbsOf (f : FieldName) (l : List Nat) (x : ZMod (field f).p) : Prop := FieldRep (field f).bits (field f).p 1 l x

/-- The constants of a Weierstrass curve: `a`, 1 and 0. -/
structure HasWei (f : FieldName) (m : Mem (List Nat)) (ec : Curve (ZMod (field f).p)) : Prop where
  a : LimbsOf f (m.r 1000) ec.a
  one : LimbsOf f (m.r 1005) 1
  zero : LimbsOf f (m.r 1006) 0

/-- The constants of a Montgomery curve: `a24`, 1 and 0; the multiplication by a small `a24` is the function for that constant. -/
structure HasMont (f : FieldName) (m : Mem (List Nat)) (ec : Mont (ZMod (field f).p)) : Prop where
  a24 : LimbsOf f (m.r 1001) ec.a24
  one : LimbsOf f (m.r 1005) 1
  zero : LimbsOf f (m.r 1006) 0
  scmul : ∀ k, ec.scmul = some k → ∃ q, (field f).scmul_a24 = some q ∧ (q.1 : ZMod (field f).p) = k

/-- The constants of an Edwards curve: `a`, `d` and `2d`; the multiplication by a small `d` is the function for that constant. -/
structure HasEdwards (f : FieldName) (m : Mem (List Nat)) (ec : Edwards (ZMod (field f).p)) : Prop where
  a : LimbsOf f (m.r 1000) ec.a
  d : LimbsOf f (m.r 1002) ec.d
  k : LimbsOf f (m.r 1003) ec.k
  scmul : ∀ k, ec.scmul = some k → ∃ q, (field f).scmul_d = some q ∧ (q.1 : ZMod (field f).p) = k

/-- A Jacobian point at a place. -/
structure HasJge (f : FieldName) (m : Mem (List Nat)) (p : Nat) (P : Jge (ZMod (field f).p)) : Prop where
  x : LimbsOf f (m.r p) P.x
  y : LimbsOf f (m.r (p + 1)) P.y
  z : LimbsOf f (m.r (p + 2)) P.z
  inf : m.f p = P.inf
  aff : m.f (p + 1) = P.aff

/-- An affine point at a place. -/
structure HasWge (f : FieldName) (m : Mem (List Nat)) (p : Nat) (P : Wge (ZMod (field f).p)) : Prop where
  x : LimbsOf f (m.r p) P.x
  y : LimbsOf f (m.r (p + 1)) P.y
  inf : m.f p = P.inf

/-- A point of the Montgomery ladder at a place. -/
structure HasPge (f : FieldName) (m : Mem (List Nat)) (p : Nat) (P : Pge (ZMod (field f).p)) : Prop where
  x : LimbsOf f (m.r p) P.x
  z : LimbsOf f (m.r (p + 2)) P.z

/-- An Edwards point in extended coordinates at a place. -/
structure HasXge (f : FieldName) (m : Mem (List Nat)) (p : Nat) (P : Xge (ZMod (field f).p)) : Prop where
  x : LimbsOf f (m.r p) P.x
  y : LimbsOf f (m.r (p + 1)) P.y
  z : LimbsOf f (m.r (p + 2)) P.z
  t : LimbsOf f (m.r (p + 3)) P.t

/-- What src/ecc.c:4045-4055, `wei_init`, finds about a curve. -/
def weiCfg {F : Type} [Field F] [DecidableEq F] (ec : Curve F) : Cfg := ⟨ec.zero_a, ec.three_a, false, false, decide (ec.h > 1), false, false⟩

/-- Whether src/ecc.c:6047-6055, `mont_mul_a24`, has a function for its constant. -/
def montCfg {F : Type} (ec : Mont F) : Cfg := ⟨false, false, false, false, false, ec.scmul.isSome, false⟩

/-- What src/ecc.c:7203-7204, `edwards_init`, finds about a curve, and whether src/ecc.c:7331-7339, `edwards_mul_d`, has a function for its constant. -/
def edwardsCfg {F : Type} [Field F] [DecidableEq F] (ec : Edwards F) : Cfg := ⟨false, false, ec.mone_a, ec.one_a, false, false, ec.scmul.isSome⟩

/-- The ways in which a result and an operand may be the same object or two objects. -/
def layouts2 : List (Nat × Nat) := [(0, 10), (0, 0)]

/-- The ways in which a result and two operands may be the same objects or different ones. -/
def layouts3 : List (Nat × Nat × Nat) := [(0, 10, 20), (0, 0, 20), (0, 10, 0), (0, 10, 10), (0, 0, 0)]

/-- The ways in which the two results and three operands of the ladder may be the same objects or different ones, given that the second result is
neither the first result nor the first operand, which the code asserts. -/
def layouts5 : List (Nat × Nat × Nat × Nat × Nat) := [
  (0, 10, 0, 0, 0), (0, 10, 0, 0, 10), (0, 10, 0, 0, 20), (0, 10, 0, 10, 0), (0, 10, 0, 10, 10),
  (0, 10, 0, 10, 20), (0, 10, 0, 20, 0), (0, 10, 0, 20, 10), (0, 10, 0, 20, 20), (0, 10, 0, 20, 30),
  (0, 10, 20, 0, 0), (0, 10, 20, 0, 10), (0, 10, 20, 0, 20), (0, 10, 20, 0, 30), (0, 10, 20, 10, 0),
  (0, 10, 20, 10, 10), (0, 10, 20, 10, 20), (0, 10, 20, 10, 30), (0, 10, 20, 20, 0), (0, 10, 20, 20, 10),
  (0, 10, 20, 20, 20), (0, 10, 20, 20, 30), (0, 10, 20, 30, 0), (0, 10, 20, 30, 10), (0, 10, 20, 30, 20),
  (0, 10, 20, 30, 30), (0, 10, 20, 30, 40)]

end Torsion.Spec
