import Verif.Ecc.Fiat.FormulaSpec
import Verif.Ecc.Fiat.FieldW32
import Verif.Ecc.Fiat.SpecW32

/-!
# Points held in limbs of 32-bit words

As `Verif/Ecc/Fiat/FormulaSpec.lean`.
-/
namespace Torsion.Spec.W32
open Torsion.Fiat

/-- The reduced limbs of `x`. -/
def LimbsOf (f : Fiat.W32.FieldName) (l : List Nat) (x : ZMod (Fiat.W32.field f).p) : Prop := LimbRep (Fiat.W32.field f).bits (Fiat.W32.field f).tight (Fiat.W32.field f).p l x

/-- The constants of a Weierstrass curve: `a`, 1 and 0. -/
structure HasWei (f : Fiat.W32.FieldName) (m : Mem (List Nat)) (ec : Curve (ZMod (Fiat.W32.field f).p)) : Prop where
  a : LimbsOf f (m.r 1000) ec.a
  one : LimbsOf f (m.r 1005) 1
  zero : LimbsOf f (m.r 1006) 0

/-- The constants of a Montgomery curve: `a24`, 1 and 0; the multiplication by a small `a24` is the function for that constant. -/
structure HasMont (f : Fiat.W32.FieldName) (m : Mem (List Nat)) (ec : Mont (ZMod (Fiat.W32.field f).p)) : Prop where
  a24 : LimbsOf f (m.r 1001) ec.a24
  one : LimbsOf f (m.r 1005) 1
  zero : LimbsOf f (m.r 1006) 0
  scmul : ∀ k, ec.scmul = some k → ∃ q, (Fiat.W32.field f).scmul_a24 = some q ∧ (q.1 : ZMod (Fiat.W32.field f).p) = k

/-- The constants of an Edwards curve: `a`, `d` and `2d`; the multiplication by a small `d` is the function for that constant. -/
structure HasEdwards (f : Fiat.W32.FieldName) (m : Mem (List Nat)) (ec : Edwards (ZMod (Fiat.W32.field f).p)) : Prop where
  a : LimbsOf f (m.r 1000) ec.a
  d : LimbsOf f (m.r 1002) ec.d
  k : LimbsOf f (m.r 1003) ec.k
  scmul : ∀ k, ec.scmul = some k → ∃ q, (Fiat.W32.field f).scmul_d = some q ∧ (q.1 : ZMod (Fiat.W32.field f).p) = k

/-- A Jacobian point at a place. -/
structure HasJge (f : Fiat.W32.FieldName) (m : Mem (List Nat)) (p : Nat) (P : Jge (ZMod (Fiat.W32.field f).p)) : Prop where
  x : LimbsOf f (m.r p) P.x
  y : LimbsOf f (m.r (p + 1)) P.y
  z : LimbsOf f (m.r (p + 2)) P.z
  inf : m.f p = P.inf
  aff : m.f (p + 1) = P.aff

/-- An affine point at a place. -/
structure HasWge (f : Fiat.W32.FieldName) (m : Mem (List Nat)) (p : Nat) (P : Wge (ZMod (Fiat.W32.field f).p)) : Prop where
  x : LimbsOf f (m.r p) P.x
  y : LimbsOf f (m.r (p + 1)) P.y
  inf : m.f p = P.inf

/-- A point of the Montgomery ladder at a place. -/
structure HasPge (f : Fiat.W32.FieldName) (m : Mem (List Nat)) (p : Nat) (P : Pge (ZMod (Fiat.W32.field f).p)) : Prop where
  x : LimbsOf f (m.r p) P.x
  z : LimbsOf f (m.r (p + 2)) P.z

/-- An Edwards point in extended coordinates at a place. -/
structure HasXge (f : Fiat.W32.FieldName) (m : Mem (List Nat)) (p : Nat) (P : Xge (ZMod (Fiat.W32.field f).p)) : Prop where
  x : LimbsOf f (m.r p) P.x
  y : LimbsOf f (m.r (p + 1)) P.y
  z : LimbsOf f (m.r (p + 2)) P.z
  t : LimbsOf f (m.r (p + 3)) P.t

end Torsion.Spec.W32
