import Verif.Basic
import Mathlib.Data.Nat.Digits.Defs

/-!
# Independent vocabulary: the number written by a byte string
-/
namespace Torsion.Spec

/-- The little-endian number written by a byte string. -/
def leVal (b : List Byte) : Nat := Nat.ofDigits 256 (b.map BitVec.toNat)

/-- The big-endian number written by a byte string. -/
def beVal (b : List Byte) : Nat := Nat.ofDigits 256 (b.map BitVec.toNat).reverse

end Torsion.Spec
