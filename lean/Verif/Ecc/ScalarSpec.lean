import Verif.Ecc.Scalar
import Verif.Mpi.Spec
import Verif.Mpi.RandomProps
import Mathlib.Data.Nat.Prime.Defs

/-! # Specification: scalars modulo the order of a group -/
namespace Torsion.Spec

/-- The table of a scalar field is that of the odd number `N`. -/
structure ScDefOk (d : Sc.ScDef) (N : Nat) : Prop where
  len : d.n.length = (d.bits + 7) / 8
  num : beVal d.n = N
  bits : N.size = d.bits
  odd : N % 2 = 1
  one : 1 < N

/-- The field was initialized from the table of `N`, for one of the two byte orders. -/
structure ScInit (sc : Sc.ScField) (N : Nat) : Prop where
  init : ∃ d e, ScDefOk d N ∧ (e = 1 ∨ e = -1) ∧ Sc.scalar_field_init d e = .ok sc

/-- The vector holds the scalar `a`, which is reduced. -/
structure Scalar (sc : Sc.ScField) (N : Nat) (x : List Limb) (a : Nat) : Prop where
  len : x.length = sc.limbs
  num : val x = a
  lt : a < N

/-- The number in a byte string in the order of the field. -/
def bytesVal (endian : Int) (b : List Byte) : Nat := if endian = 1 then beVal b else leVal b

/-- The `i`-th number which the generator offers for a field of `bits` bits in `limbs` limbs. -/
def scCandidate {S : Type} (gen : S → Nat → List Byte × S) (limbs bits : Nat) (s : S) (i : Nat) : Nat :=
  leVal (gen (stateAfter gen (limbs * 8) s i) (limbs * 8)).1 % 2 ^ bits

end Torsion.Spec
