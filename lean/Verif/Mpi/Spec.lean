import Verif.Mpi.Limb

/-!
# Specification: the number a vector of limbs stands for
-/
namespace Torsion.Spec

/-- The number of a limb vector, lowest limb first, in base `2^64`. -/
def val : List Limb → Nat
  | [] => 0
  | x :: xs => x.toNat + 2 ^ 64 * val xs

end Torsion.Spec
