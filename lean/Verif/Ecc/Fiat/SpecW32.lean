import Verif.Ecc.Fiat.Spec

/-!
# Limbs with a bound for each
-/
namespace Torsion.Spec

/-- Limbs of the widths `bits`, each at most its bound in `bnd`, that stand for the element `z`. -/
def LimbRep (bits bnd : List Nat) (p : Nat) (l : List Nat) (z : ZMod p) : Prop :=
  l.length = bits.length ∧ List.Forall₂ (fun x b => x ≤ b) l bnd ∧ (radixValue bits l : ZMod p) = z

end Torsion.Spec
