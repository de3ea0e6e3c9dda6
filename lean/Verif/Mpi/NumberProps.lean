import Verif.Mpi.RemoveLemmas

/-!
# Factorials, binomials, Fibonacci and Lucas numbers, removing a factor: exact for every argument
-/
namespace Torsion
open Spec (Rep multiFactorial IsBinomial lucasNumber)

/-- C88. Factorial, double factorial and multifactorial are exact for every word; `mpz_mfac_uiui` with the distance zero
gives `n`. -/
theorem mpz_factorials_exact (n m : Limb) :
    (∃ t, mpz_fac_ui n = .ok t ∧ Rep t (n.toNat.factorial : Nat)) ∧
    (∃ t, mpz_2fac_ui n = .ok t ∧ Rep t (n.toNat.doubleFactorial : Nat)) ∧
    (∃ t, mpz_mfac_uiui n m = .ok t ∧ Rep t (multiFactorial n.toNat m.toNat : Nat)) := by
  refine ⟨⟨_, Mpi.mfac_of n 1, ?_⟩, ⟨_, Mpi.mfac_of n 2, ?_⟩, ⟨_, Mpi.mfac_of n m, Mpi.of_rep _⟩⟩
  · rw [show (1 : Limb).toNat = 1 from rfl, Mpi.multi_one]; exact Mpi.of_rep _
  · rw [show (2 : Limb).toNat = 2 from rfl, Mpi.multi_two]; exact Mpi.of_rep _

example : mpz_mfac_uiui 10 3 = .ok ⟨false, [280]⟩ := by decide +kernel
example : mpz_fac_ui 21 = .ok ⟨false, [0xc5077d36b8c40000, 2]⟩ := by decide +kernel

/-- C88. Binomial coefficients are exact, for an integer of any size and sign (`mpz_bin_ui`), a word (`mpz_bin_uiui`) and a
signed word (`mpz_bin_siui`, also where `|n| + k` does not fit in a word); for a natural `n` this is the usual number of
subsets, zero for `k > n`. -/
theorem mpz_binomials_exact (x : Mpz) (i : Int) (hx : Rep x i) (n k : Limb) :
    (∃ t b, mpz_bin_ui x k = .ok t ∧ Rep t b ∧ IsBinomial i k.toNat b) ∧
    (∃ t, mpz_bin_uiui n k = .ok t ∧ Rep t (n.toNat.choose k.toNat : Nat)) ∧
    (∃ t b, mpz_bin_siui n k = .ok t ∧ Rep t b ∧ IsBinomial n.toInt k.toNat b) ∧
    (∀ (b : Int) (m : Nat), IsBinomial m k.toNat b ↔ b = (m.choose k.toNat : Nat)) := by
  refine ⟨⟨_, _, by rw [Mpi.rep_of hx]; exact Mpi.bin_ui_of i k, Mpi.of_rep _, Mpi.binVal_spec _ _⟩,
    ⟨_, Mpi.bin_uiui_of n k, Mpi.of_rep _⟩, ⟨_, _, Mpi.bin_siui_of n k, Mpi.of_rep _, Mpi.binVal_spec _ _⟩, fun b m => ?_⟩
  have hm : IsBinomial m k.toNat (m.choose k.toNat : Nat) := by
    unfold IsBinomial
    rw [Mpi.falling_nat]
    push_cast
    rfl
  exact ⟨fun h => Mpi.binomial_unique h hm, fun h => h ▸ hm⟩

example : mpz_bin_ui ⟨true, [3]⟩ 3 = .ok ⟨true, [10]⟩ := by decide +kernel
example : mpz_bin_uiui 10 7 = .ok ⟨false, [120]⟩ := by decide +kernel
example : mpz_bin_siui (BitVec.ofInt 64 (-2)) (BitVec.allOnes 64 - 1) = .ok ⟨false, [BitVec.allOnes 64]⟩ := by decide +kernel

/-- C88. Fibonacci and Lucas numbers with their predecessors, for every word but zero; for zero the number itself. -/
theorem mpz_fibonacci_exact (n : Limb) :
    (∃ t, mpz_fib_ui n = .ok t ∧ Rep t (Nat.fib n.toNat : Nat)) ∧
    (∃ t, mpz_lucnum_ui n = .ok t ∧ Rep t (lucasNumber n.toNat : Nat)) ∧
    (n ≠ 0 → ∃ t u, mpz_fib2_ui n = .ok (t, u) ∧ Rep t (Nat.fib n.toNat : Nat) ∧ Rep u (Nat.fib (n.toNat - 1) : Nat)) ∧
    (n ≠ 0 → ∃ t u, mpz_lucnum2_ui n = .ok (t, u) ∧ Rep t (lucasNumber n.toNat : Nat) ∧
      Rep u (lucasNumber (n.toNat - 1) : Nat)) := by
  refine ⟨⟨_, by unfold mpz_fib_ui; rw [Mpi.fib2_of, C.ok_bind], Mpi.of_rep _⟩,
    ⟨_, by unfold mpz_lucnum_ui; rw [Mpi.lucnum2_of, C.ok_bind], Mpi.of_rep _⟩, fun h => ⟨_, _, Mpi.fib2_of n, Mpi.of_rep _, ?_⟩,
    fun h => ⟨_, _, Mpi.lucnum2_of n, Mpi.of_rep _, ?_⟩⟩
  · rw [if_neg h]; exact Mpi.of_rep _
  · rw [if_neg h]; exact Mpi.of_rep _

example : mpz_fib2_ui 94 = .ok (⟨false, [0x11f38ad0840bf6bf, 1]⟩, ⟨false, [0xa94fad42221f2702]⟩) := by decide +kernel
example : mpz_lucnum2_ui 10 = .ok (⟨false, [123]⟩, ⟨false, [76]⟩) := by decide +kernel

/-- C88. At zero the predecessors are reported as zero: the numbers `F(-1) = 1` and `L(-1) = -1`, which continue the
recurrence to the left, are not what `mpz_fib2_ui` and `mpz_lucnum2_ui` store. -/
theorem mpz_fibonacci_predecessor_of_zero :
    (∃ t u, mpz_fib2_ui 0 = .ok (t, u) ∧ Rep t 0 ∧ Rep u 0 ∧ ¬ (Nat.fib 1 : Int) = 0 + 0) ∧
    (∃ t u, mpz_lucnum2_ui 0 = .ok (t, u) ∧ Rep t 2 ∧ Rep u 0 ∧ ¬ (lucasNumber 1 : Int) = 2 + 0) :=
  ⟨⟨_, _, Mpi.fib2_of 0, Mpi.of_rep _, Mpi.of_rep _, by decide⟩,
    ⟨_, _, Mpi.lucnum2_of 0, Mpi.of_rep _, Mpi.of_rep _, by decide⟩⟩

/-- C88. `mpz_remove` divides out the largest power of a factor other than 0 and ±1, of either sign, and returns the
exponent; with or without an output for the quotient. Zero and the factors ±1 leave the number; the factor 0 aborts. -/
theorem mpz_remove_exact (x y : Mpz) (i j : Int) (hx : Rep x i) (hy : Rep y j) :
    (j = 0 → mpz_remove (some .heap) x y = .abort) ∧
    (j ≠ 0 → ∃ t k c, mpz_remove (some .heap) x y = .ok (t, c) ∧ Rep t k ∧
      (∃ u, mpz_remove none x y = .ok (u, c)) ∧
      ((i = 0 ∨ j.natAbs = 1) → k = i ∧ c = 0) ∧
      (i ≠ 0 → 2 ≤ j.natAbs → i = j ^ c * k ∧ ¬ j ∣ k)) := by
  constructor
  · intro h
    unfold mpz_remove
    rw [if_pos ((Mpi.rep_len hy).2 h)]
  · intro h
    obtain ⟨k, c, h1, h2, h3⟩ := Mpi.remove_of i h
    rw [Mpi.rep_of hx, Mpi.rep_of hy]
    refine ⟨_, k, c, h1, Mpi.of_rep k, h2, fun h4 => ?_, fun h4 h5 => ?_⟩
    · rcases h3 with ⟨-, h3⟩ | h3
      · exact h3
      · rcases h4 with h4 | h4
        · exact absurd h4 h3.1
        · omega
    · rcases h3 with ⟨h3 | h3, -⟩ | h3
      · exact absurd h3 h4
      · omega
      · exact h3.2.2

example : mpz_remove (some .heap) ⟨true, [96]⟩ ⟨true, [2]⟩ = .ok (⟨false, [3]⟩, 5) := by decide +kernel
example : mpz_remove (some .heap) ⟨false, [0, 45]⟩ ⟨true, [3]⟩ = .ok (⟨false, [0, 5]⟩, 2) := by decide +kernel

end Torsion
