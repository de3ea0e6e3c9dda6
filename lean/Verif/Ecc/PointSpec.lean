import Verif.Ecc.Point
import Mathlib.AlgebraicGeometry.EllipticCurve.Affine.Point

/-!
# Short Weierstrass curves: the group

The group of points of `y^2 = x^3 + a x + b` is Mathlib's `WeierstrassCurve.Affine.Point`, with the chord and
tangent law and its proof that this is an abelian group. What remains to say is which struct stands for which
point.
-/
namespace Torsion.Spec

open WeierstrassCurve.Affine (Point)

variable {F : Type} [Field F] [DecidableEq F]

/-- The curve `y^2 = x^3 + a x + b`. -/
def weier (a b : F) : WeierstrassCurve.Affine F := ⟨0, 0, 0, a, b⟩

/-- The points of the curve of `ec`. -/
abbrev Pt (ec : Curve F) : Type := Point (weier ec.a ec.b)

/-- The struct `wge_t` for a point. -/
def affine {ec : Curve F} : Pt ec → Wge F
  | .zero => ⟨0, 0, true⟩
  | .some x y _ => ⟨x, y, false⟩

/-- `j` is one of the structs `jge_t` for a point: infinity is `(1, 1, 0)`; a finite point `(x, y)` is
`(x z^2, y z^3, z)` for some non-zero `z`, which is `1` if the struct is marked as affine. -/
def Jac {ec : Curve F} (j : Jge F) : Pt ec → Prop
  | .zero => j = ⟨1, 1, 0, true, false⟩
  | .some x y _ => j.inf = false ∧ j.z ≠ 0 ∧ j.x = x * j.z ^ 2 ∧ j.y = y * j.z ^ 3 ∧ (j.aff = true → j.z = 1)

/-- What the formulas rely on: the characteristic is not 2, and a curve of cofactor at most 1 has no point of
order two, so that leaving out the test for `y = 0` there is justified. -/
structure Good (ec : Curve F) : Prop where
  two : (2 : F) ≠ 0
  odd : ec.h ≤ 1 → ∀ x : F, x ^ 3 + ec.a * x + ec.b ≠ 0

end Torsion.Spec
