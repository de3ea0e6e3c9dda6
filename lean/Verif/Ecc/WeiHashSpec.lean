import Verif.Ecc.EncodeSpec
import Verif.Ecc.WeiHash

/-!
# Maps from numbers to points of a short Weierstrass curve

The simplified map of Shallue, van de Woestijne and Ulas for `a b ≠ 0` and the map of Shallue and van de Woestijne for `a = 0`
(RFC 9380, sections 6.6.1 and 6.6.2), as relations between a number and an abscissa. The parity of the ordinate is that of the number.
-/
namespace Torsion.Spec

section
variable {F : Type} [Field F] [DecidableEq F]

/-- The right side of the equation of the curve. -/
def weiG (a b x : F) : F := x ^ 3 + a * x + b

/-- The first candidate of the simplified map. -/
def sswuX1 (a b z u : F) : F := if z ^ 2 * u ^ 4 + z * u ^ 2 = 0 then b / (z * a) else -b / a * (1 + 1 / (z ^ 2 * u ^ 4 + z * u ^ 2))

/-- The simplified map: the first candidate if it is an abscissa, else the second. -/
def Sswu (a b z u x : F) : Prop :=
  (IsSquare (weiG a b (sswuX1 a b z u)) ∧ x = sswuX1 a b z u) ∨
  (¬ IsSquare (weiG a b (sswuX1 a b z u)) ∧ x = z * u ^ 2 * sswuX1 a b z u)

/-- The candidates of the map for `a = 0`; `c` is a root of `-3 z^2`. -/
def svdwX1 (b c z u : F) : F := (c - z) / 2 - u ^ 2 * c / (u ^ 2 + weiG 0 b z)
def svdwX2 (b c z u : F) : F := u ^ 2 * c / (u ^ 2 + weiG 0 b z) - (c + z) / 2
def svdwX3 (b z u : F) : F := z - (u ^ 2 + weiG 0 b z) ^ 2 / (3 * z ^ 2 * u ^ 2)

/-- The map for `a = 0`: the first of the candidates which is an abscissa; `(c - z) / 2` if they do not exist. -/
def Svdw (b c z u x : F) : Prop :=
  if u = 0 ∨ u ^ 2 + weiG 0 b z = 0 then x = (c - z) / 2 else
  (IsSquare (weiG 0 b (svdwX1 b c z u)) ∧ x = svdwX1 b c z u) ∨
  (¬ IsSquare (weiG 0 b (svdwX1 b c z u)) ∧ IsSquare (weiG 0 b (svdwX2 b c z u)) ∧ x = svdwX2 b c z u) ∨
  (¬ IsSquare (weiG 0 b (svdwX1 b c z u)) ∧ ¬ IsSquare (weiG 0 b (svdwX2 b c z u)) ∧ x = svdwX3 b z u)

end

variable {fe : FieldCode} [Fact fe.p.Prime]

/-- `P` is the point for the number `u`, with the constants `c` and `z`. -/
def WeiMapped {ec : Curve (ZMod fe.p)} (c z u : ZMod fe.p) : Pt ec → Prop
  | .zero => False
  | .some x y _ => y.val % 2 = u.val % 2 ∧ if ec.a = 0 then Svdw ec.b c z u x else Sswu ec.a ec.b z u x

/-- The number in a string of bytes: as many bytes as the prime has, big-endian, without the bits above those of the prime. -/
def beElem (fe : FieldCode) (bytes : List Byte) : ZMod fe.p :=
  ((beVal (bytes.take (feSize fe)) % 2 ^ fe.p.size : Nat) : ZMod fe.p)

/-- What the maps need from the constants: the inverses, a non-square `z` with an abscissa for the exceptional case, or the root `c` with
an abscissa for the exceptional case and a `z` without numbers such that `u^2 + g(z) = 0`. -/
structure MapC (ec : WeiT fe) (m : WeiMap (ZMod fe.p)) : Prop where
  ai : m.ai = ec.a⁻¹
  zi : m.zi = m.z⁻¹
  i2 : m.i2 = (2 : ZMod fe.p)⁻¹
  i3 : m.i3 = (3 : ZMod fe.p)⁻¹
  z0 : m.z ≠ 0
  sswu : ec.a ≠ 0 → ¬ IsSquare m.z ∧ IsSquare (weiG ec.a ec.b (ec.b / (m.z * ec.a))) ∧ m.z ≠ -1
  svdw : ec.a = 0 → m.c ^ 2 = -3 * m.z ^ 2 ∧ IsSquare (weiG 0 ec.b ((m.c - m.z) / 2)) ∧ (3 : ZMod fe.p) ≠ 0 ∧ ¬ IsSquare (-weiG 0 ec.b m.z)

end Torsion.Spec
