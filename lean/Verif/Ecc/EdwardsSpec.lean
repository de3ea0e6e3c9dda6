import Verif.Ecc.EdAlg

/-!
# Twisted Edwards curves: the points and their addition

`a x^2 + y^2 = 1 + d x^2 y^2`, with a square `a` and a non-square `d`: then the denominators of the addition law do not vanish
(`Ecc.ed_ne`), so that it needs no exceptions. That it is the law of an abelian group is shown in EdGroup.lean.
-/
namespace Torsion.Spec

variable {F : Type} [Field F]

/-- The points of the curve. -/
@[ext] structure EPt (a d : F) where
  x : F
  y : F
  on : a * x ^ 2 + y ^ 2 = 1 + d * x ^ 2 * y ^ 2

variable {a d : F}

instance : Zero (EPt a d) := ⟨⟨0, 1, by ring⟩⟩

instance : Neg (EPt a d) := ⟨fun P => ⟨-P.x, P.y, by linear_combination P.on⟩⟩

/-- The addition law. -/
instance [EdGood a d] : Add (EPt a d) :=
  ⟨fun P Q => ⟨(P.x * Q.y + Q.x * P.y) / (1 + d * P.x * Q.x * P.y * Q.y), (P.y * Q.y - a * P.x * Q.x) / (1 - d * P.x * Q.x * P.y * Q.y),
    Ecc.ed_closed P.on Q.on⟩⟩

end Torsion.Spec
