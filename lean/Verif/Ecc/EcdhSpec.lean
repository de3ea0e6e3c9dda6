import Verif.Ecc.MontSpec

/-!
# ECDH over Montgomery curves: what X25519 and X448 compute

RFC 7748 in terms of the group: a public key is an abscissa, a private key a number with some bits fixed, and the shared secret is the
abscissa of the product.
-/
namespace Torsion.Spec

/-- The scalar of a private key: the bits below the cofactor are cleared, and the highest bit is `bits - 1` and set. -/
def clamp (bits h v : Nat) : Nat := v % 2 ^ (bits - 1) / h * h + 2 ^ (bits - 1)

/-- The scalar of the private key `priv`. -/
def privKey (d : MontDef) (priv : List Byte) : Nat := clamp d.fe.p.size d.h (leVal (priv.take (feSize d.fe)))

/-- The abscissa of the public key `pub`: bits above the length of the prime are ignored, and the number is reduced. -/
def pubX (d : MontDef) (pub : List Byte) : ZMod d.fe.p := ((leVal (pub.take (feSize d.fe)) % 2 ^ d.fe.p.size : Nat) : ZMod d.fe.p)

/-- The bytes for the abscissa of a point and whether there is one: zeros for infinity. -/
def uBytes (d : MontDef) [Fact d.fe.p.Prime] {a b : ZMod d.fe.p} (P : MPt a b) : List Byte × Bool :=
  match montX P with
  | none => (List.replicate (feSize d.fe) 0, false)
  | some x => (leBytes (feSize d.fe) x.val, true)

/-- The ordinate has the wanted parity, if there is one. -/
def HasSign (d : MontDef) [Fact d.fe.p.Prime] {a b : ZMod d.fe.p} (P : MPt a b) : Option Bool → Prop
  | none => True
  | some s => ((montAffine P).y.val % 2 = 1 ↔ s = true)

end Torsion.Spec

namespace Torsion.Spec

/-- The first candidate of Elligator 2 for the abscissa. -/
def elligX1 {F : Type} [Field F] [DecidableEq F] (a z u : F) : F := if 1 + z * u ^ 2 = 0 then -a else -a / (1 + z * u ^ 2)

/-- `P` is the image of `u` by Elligator 2 on the curve with `B = 1`, for the non-square `z`: the first of `x1` and
`-x1 - A` that is the abscissa of a point, and the root with the parity of `u` (unless it is zero). -/
def Elligator {p : Nat} [Fact p.Prime] {a b : ZMod p} (z u : ZMod p) (P : MPt a b) : Prop :=
  (IsSquare (elligX1 a z u ^ 3 + a * elligX1 a z u ^ 2 + elligX1 a z u) → montX P = some (elligX1 a z u)) ∧
  (¬ IsSquare (elligX1 a z u ^ 3 + a * elligX1 a z u ^ 2 + elligX1 a z u) → montX P = some (-elligX1 a z u - a)) ∧
  ((montAffine P).y = 0 ∨ (montAffine P).y.val % 2 = u.val % 2)

end Torsion.Spec
