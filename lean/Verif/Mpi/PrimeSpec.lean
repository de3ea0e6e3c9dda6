import Mathlib.NumberTheory.LegendreSymbol.JacobiSymbol

/-!
# Specification: probable primes

The definitions of the literature: strong probable primes to a base (Miller and Rabin), and "extra strong" Lucas probable
primes with the parameters `(P, 1)` (Baillie, Grantham, Mo and Jones).
-/
namespace Torsion.Spec

/-- `n` is a strong probable prime to the base `a`. -/
def StrongProbablePrime (n a : Nat) : Prop :=
  ∃ s d, n - 1 = 2 ^ s * d ∧ d % 2 = 1 ∧ (a ^ d % n = 1 ∨ ∃ r < s, a ^ (2 ^ r * d) % n = n - 1)

/-- The Lucas sequence `U(P, 1)`. -/
def lucasU (P : Int) : Nat → Int
  | 0 => 0
  | 1 => 1
  | k + 2 => P * lucasU P (k + 1) - lucasU P k

/-- The Lucas sequence `V(P, 1)`. -/
def lucasV (P : Int) : Nat → Int
  | 0 => 2
  | 1 => P
  | k + 2 => P * lucasV P (k + 1) - lucasV P k

/-- `n` is an extra strong Lucas probable prime to the parameter `p`. -/
def ExtraStrongLucas (n p : Nat) : Prop :=
  ∃ r s, n + 1 = 2 ^ r * s ∧ s % 2 = 1 ∧
    (((n : Int) ∣ lucasU p s ∧ ((n : Int) ∣ lucasV p s - 2 ∨ (n : Int) ∣ lucasV p s + 2)) ∨
      ∃ t, t + 1 < r ∧ (n : Int) ∣ lucasV p (2 ^ t * s))

/-- `p` is the first parameter from three whose discriminant `p^2 - 4` has a Jacobi symbol other than one. -/
def FirstParam (n p : Nat) : Prop :=
  3 ≤ p ∧ jacobiSym ((p : Int) ^ 2 - 4) n ≠ 1 ∧ ∀ p', 3 ≤ p' → p' < p → jacobiSym ((p' : Int) ^ 2 - 4) n = 1

/-- The Lucas test with the parameters up to `bound`. -/
def LucasTest (n bound : Nat) : Prop :=
  ∃ p, FirstParam n p ∧ p ≤ bound ∧ (jacobiSym ((p : Int) ^ 2 - 4) n = -1 ∧ ExtraStrongLucas n p ∨ n = p + 2)

/-- The Lucas test with the parameters up to 10000 has a parameter to use. -/
def HasLucasParam (n : Nat) : Prop := ∃ p : Nat, 3 ≤ p ∧ p ≤ 10000 ∧ jacobiSym ((p : Int) ^ 2 - 4) n ≠ 1

/-- What is known of a number which passes: a prime if it is below 1024, a probable prime in the sense of Baillie, Pomerance,
Selfridge and Wagstaff otherwise. -/
def BailliePSW (n : Nat) : Prop :=
  (n < 1024 ∧ n.Prime) ∨
    (1024 ≤ n ∧ (∀ q, q.Prime → q ≤ 53 → ¬ q ∣ n) ∧ StrongProbablePrime n 2 ∧ LucasTest n 10000)

end Torsion.Spec
