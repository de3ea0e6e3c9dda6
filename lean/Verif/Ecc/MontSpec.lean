import Verif.Ecc.Mont
import Mathlib.AlgebraicGeometry.EllipticCurve.Affine.Point

/-!
# Montgomery curves: the group

The group of points of `B y^2 = x^3 + A x^2 + x` is Mathlib's `WeierstrassCurve.Affine.Point` of the curve in the coordinates
`x / B`, `y / B`. Every element of the field is the abscissa of a point if `B` may be chosen: the curves with the same `A` are
the curve and its quadratic twist.
-/
namespace Torsion.Spec

open WeierstrassCurve.Affine (Point)

variable {F : Type} [Field F] [DecidableEq F]

/-- The curve `B y^2 = x^3 + A x^2 + x`, in the coordinates `x / B` and `y / B`. -/
def montCurve (a b : F) : WeierstrassCurve.Affine F := ⟨0, a / b, 0, 1 / b ^ 2, 0⟩

/-- Its points. -/
abbrev MPt (a b : F) : Type := Point (montCurve a b)

/-- The struct `mge_t` for a point. -/
def montAffine {a b : F} : MPt a b → Mge F
  | .zero => ⟨0, 0, true⟩
  | .some x y _ => ⟨b * x, b * y, false⟩

/-- The abscissa of a point; infinity has none. -/
def montX {a b : F} : MPt a b → Option F
  | .zero => none
  | .some x _ _ => some (b * x)

/-- `p` is one of the structs `pge_t` for a point: infinity is `(x, 0)`, with a non-zero `x`; a point with the abscissa `x` is
`(x z, z)` with a non-zero `z`. -/
def MontXZ {a b : F} (p : Pge F) (P : MPt a b) : Prop :=
  match montX P with
  | none => p.z = 0 ∧ p.x ≠ 0
  | some x => p.z ≠ 0 ∧ p.x = x * p.z

/-- `B y^2 = x^3 + A x^2 + x` is a curve of odd characteristic. -/
structure MontGood (a b : F) : Prop where
  two : (2 : F) ≠ 0
  b0 : b ≠ 0
  disc : a ^ 2 ≠ 4

/-- The constants of the struct agree with each other. -/
structure MontOk (ec : Mont F) : Prop where
  good : MontGood ec.a ec.b
  bi : ec.bi * ec.b = 1
  a24 : 4 * ec.a24 = ec.a + 2
  scmul : ∀ k, ec.scmul = some k → k = ec.a24
  a0 : ec.a0 * ec.b = ec.a
  b0 : ec.b0 * ec.b ^ 2 = 1

end Torsion.Spec
