import Verif.Ecc.EdMulSpec
import Verif.Ecc.EcdhSpec

/-!
# Elligator 2 on Edwards curves

The map goes to the Montgomery curve `v^2 = u^3 + A u^2 + u`, and from there to the Edwards curve by the birational map.
-/
namespace Torsion.Spec

/-- The point `P` of the Edwards curve and the point `(u, v)` of `v^2 = u^3 + A u^2 + u` correspond: `u = (1 + y) / (1 - y)`, or the negative
of it, and `v = c u / x`. The neutral element corresponds to no point, `(0, -1)` to `(0, 0)`. -/
structure MontOf {F : Type} [Field F] {a d : F} (A c : F) (invert : Bool) (P : EPt a d) (u v : F) : Prop where
  on : v ^ 2 = u ^ 3 + A * u ^ 2 + u
  eu : u * (1 - P.y) = (if invert then -1 else 1) * (1 + P.y)
  ev : v * P.x = c * u

/-- `(x, y)` is the image of `u` by Elligator 2 on the curve `y^2 = x^3 + A x^2 + x`, for the non-square `z`: the first of `x1` and `-x1 - A`
that is the abscissa of a point, and the root with the parity of `u` (unless it is zero). -/
structure ElligXY {p : Nat} [Fact p.Prime] (A z u x y : ZMod p) : Prop where
  first : IsSquare (elligX1 A z u ^ 3 + A * elligX1 A z u ^ 2 + elligX1 A z u) → x = elligX1 A z u
  second : ¬ IsSquare (elligX1 A z u ^ 3 + A * elligX1 A z u ^ 2 + elligX1 A z u) → x = -elligX1 A z u - A
  eqn : y ^ 2 = x ^ 3 + A * x ^ 2 + x
  par : y = 0 ∨ y.val % 2 = u.val % 2

/-- The image on the Edwards curve. -/
def EdElligator {p : Nat} [Fact p.Prime] {a d : ZMod p} (A z c : ZMod p) (invert : Bool) (u : ZMod p) (P : EPt a d) : Prop :=
  ∃ x y, ElligXY A z u x y ∧ MontOf A c invert P x y

/-- The element of the field in the first bytes of a string: bits above the length of the prime are ignored, and the number is reduced. -/
def leElem (fe : FieldCode) (bytes : List Byte) : ZMod fe.p := ((leVal (bytes.take (feSize fe)) % 2 ^ fe.p.size : Nat) : ZMod fe.p)

end Torsion.Spec
