import Verif.Mpi.MpzSpec
import Mathlib.Data.Nat.Digits.Defs

/-!
# Specification: the bits of an integer
-/
namespace Torsion.Spec

/-- Bit `n` of the infinite two's complement form of `i`. The division is the floor. -/
def bit (i : Int) (n : Nat) : Bool := decide (i / 2 ^ n % 2 = 1)

/-- `r` is the first position from `pos` on at which `i` has the bit `b`. -/
def FirstBit (i : Int) (b : Bool) (pos r : Nat) : Prop :=
  pos ≤ r ∧ bit i r = b ∧ ∀ n, pos ≤ n → n < r → bit i n ≠ b

/-- The number of ones in the binary form of `n`. -/
def ones (n : Nat) : Nat := (Nat.digits 2 n).sum

/-- The integer that a compact word stands for: bits 24 to 31 are the number of bytes `e`, bit 23 the sign and
bits 0 to 22 the three leading bytes, of which only `e` count if `e < 3`. -/
def fromCompact (x : Nat) : Int :=
  let m : Nat := x % 2 ^ 23 * 256 ^ (x / 2 ^ 24 % 256) / 256 ^ 3
  if x.testBit 23 then -(m : Int) else m

end Torsion.Spec
