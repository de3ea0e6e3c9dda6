import Mathlib.Algebra.BigOperators.Intervals
import Mathlib.Data.Nat.Factorial.DoubleFactorial
import Mathlib.Data.Nat.Fib.Basic
import Mathlib.Data.Nat.Choose.Basic
import Mathlib.Tactic.Ring

/-!
# Specification: multifactorials, binomials of any integer, Lucas numbers
-/
namespace Torsion.Spec

/-- The product of the numbers from 1 to `n` which leave the remainder of `n` modulo `m`. -/
def multiFactorial (n m : Nat) : Nat := ∏ i ∈ (Finset.Icc 1 n).filter (fun i => i % m = n % m), i

/-- `n (n - 1) ... (n - k + 1)`. -/
def falling (n : Int) (k : Nat) : Int := ∏ i ∈ Finset.range k, (n - i)

/-- `b` is the binomial coefficient `n` over `k`, for `n` of either sign. -/
def IsBinomial (n : Int) (k : Nat) (b : Int) : Prop := b * k.factorial = falling n k

/-- The Lucas numbers 2, 1, 3, 4, 7, 11, ... -/
def lucasNumber : Nat → Nat
  | 0 => 2
  | 1 => 1
  | n + 2 => lucasNumber n + lucasNumber (n + 1)

end Torsion.Spec
