import Verif.Ecc.EddsaSpec
import Verif.Ecc.EdElligSpec

/-!
# Keys for signatures as keys for key exchange: the maps

RFC 7748, sections 4.1 and 4.2: Ed25519 and X25519 live on the same curve in two shapes, Ed448 and X448 on two curves with an isogeny of
degree four between them.
-/
namespace Torsion.Spec

section
variable {F : Type} [Field F] [DecidableEq F] {a d : F}

/-- The abscissa on the Montgomery curve which is isomorphic to the Edwards curve: `(1 + y) / (1 - y)`, or the negative of it. -/
def edU (invert : Bool) (P : EPt a d) : Option F :=
  if P.x = 0 ∧ P.y = 1 then none else some ((if invert then -1 else 1) * (1 + P.y) / (1 - P.y))

/-- The abscissa of the image by the isogeny of degree four: `y^2 / x^2`. The kernel is `(0, 1)` and `(0, -1)` over the field. -/
def isoU (P : EPt a d) : Option F := if P.x = 0 then none else some (P.y ^ 2 / P.x ^ 2)

end

/-- The abscissa to which the library converts. -/
def convU (e : EdwardsDef) [Fact e.fe.p.Prime] {a d : ZMod e.fe.p} (P : EPt a d) : Option (ZMod e.fe.p) :=
  if e.fe.p.size = 448 then isoU P else edU e.invert P

/-- An abscissa as bytes, and whether there is one: zeros for infinity. -/
def optBytes (fe : FieldCode) [Fact fe.p.Prime] : Option (ZMod fe.p) → List Byte × Bool
  | none => (List.replicate (feSize fe) 0, false)
  | some u => (leBytes (feSize fe) u.val, true)

end Torsion.Spec
