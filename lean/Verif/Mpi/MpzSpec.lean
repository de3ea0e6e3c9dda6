import Verif.Mpi.Mpz
import Verif.Mpi.Spec

/-!
# Specification: the integer an `mpz_t` stands for
-/
namespace Torsion.Spec

/-- The integer of an `mpz_t`. -/
def ival (x : Mpz) : Int := if x.neg then -(val x.mag : Int) else val x.mag

/-- The normal form every `mpz_t` must be in: no leading zero limb and no negative zero. -/
def Canon (x : Mpz) : Prop := x.mag.getLast? ≠ some 0 ∧ (x.neg = true → x.mag ≠ [])

/-- `x` is in normal form and stands for `i`. -/
def Rep (x : Mpz) (i : Int) : Prop := Canon x ∧ ival x = i

/-- The destination can take `n` limbs without being resized (heap memory always can). -/
def Room (z : Dest) (n : Nat) : Prop :=
  match z with
  | .heap => True
  | .vla a => n ≤ a

/-- Division rounded to the nearest integer, halves away from zero. -/
def divRound (i j : Int) : Int :=
  i.sign * j.sign * (((2 * i.natAbs + j.natAbs) / (2 * j.natAbs) : Nat) : Int)

end Torsion.Spec
