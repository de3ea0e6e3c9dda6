import Mathlib.NumberTheory.LegendreSymbol.JacobiSymbol

/-!
# The Kronecker symbol by its textbook definition

The symbol for a prime says whether a number is a square modulo it; the symbol for other numbers is the
product over the prime factors, with the factors for two and for the sign.
-/
namespace Torsion.Spec

/-- The factor of a prime `p`: for `p = 2` by the residue of `a` modulo eight, otherwise by `a` being a
multiple of `p`, a square or not a square modulo `p`. -/
noncomputable def kroneckerPrime (a : Int) (p : Nat) : Int :=
  open Classical in
  if p = 2 then (if a % 2 = 0 then 0 else if a % 8 = 1 ∨ a % 8 = 7 then 1 else -1)
  else if (p : Int) ∣ a then 0
  else if ∃ r : Int, (p : Int) ∣ r * r - a then 1 else -1

/-- The Kronecker symbol `(a / b)`. -/
noncomputable def kronecker (a b : Int) : Int :=
  if b = 0 then (if a.natAbs = 1 then 1 else 0)
  else (if a < 0 ∧ b < 0 then -1 else 1) * ((b.natAbs.primeFactorsList).map (kroneckerPrime a)).prod

end Torsion.Spec
