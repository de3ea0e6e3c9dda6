import Verif.Ecc.RistrettoSpec

/-!
# Elligator for Ristretto

A number `u` gives a point `(s, t)` of the Jacobi quartic `t^2 = s^4 + 2 a (d + a) / (d - a) s^2 + 1`, and this one a doubled point of
the Edwards curve. The element `q` is a fixed one which is not a square, and `k` a fixed root of `a d - 1`.
-/
namespace Torsion.Spec

variable {fe : FieldCode} [Fact fe.p.Prime] {a d : ZMod fe.p} [EdGood a d]

/-- The point of the quartic for the number `u`. -/
def RistQuartic (a d q u s t : ZMod fe.p) : Prop :=
  let r := q * u ^ 2
  let N := a * (r + 1) * (d + a) * (d - a)
  let D := (d * r - a) * (a * r - d)
  if D = 0 then s = 0 ∧ t = 1
  else if IsSquare (N / D) then s ^ 2 = N / D ∧ s.val % 2 = 0 ∧ t = -(r - 1) * (d + a) ^ 2 / D - 1
  else s ^ 2 = r * N / D ∧ (s = 0 ∨ s.val % 2 = 1) ∧ t = r * (r - 1) * (d + a) ^ 2 / D - 1

/-- The point of the Edwards curve for the point `(s, t)` of the quartic. -/
def RistPoint (k s t : ZMod fe.p) (P : EPt a d) : Prop := P.x * (t * k) = 2 * s ∧ P.y * (1 - a * s ^ 2) = 1 + a * s ^ 2

/-- The point for the number `u`. -/
def RistElligator (q k u : ZMod fe.p) (P : EPt a d) : Prop := ∃ s t, RistQuartic a d q u s t ∧ RistPoint k s t P

end Torsion.Spec
