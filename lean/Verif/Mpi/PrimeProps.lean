import Mathlib.Tactic.NormNum.LegendreSymbol
import Verif.Mpi.PrimeTrial
import Verif.Mpi.PrimeLiars

/-!
# Properties C90: the primality tests
-/
namespace Torsion
open Torsion.Spec Torsion.Mpi

/-- C90. Miller-Rabin on an odd number above seven: it never fails; it accepts exactly if `n` is a strong probable prime to all
bases drawn from the generator (the last base is two if so asked for), which are between `2` and `n - 2`; if it rejects, there
is a base which proves that `n` is composite. -/
theorem mpz_mr_prime_p_exact {S : Type} (rng : ByteGen S) (fuel : Nat) (s : S) (x : Mpz) (n : Nat) (hx : Rep x n)
    (ho : n % 2 = 1) (hn : 7 < n) (reps : Int) (force2 : Bool) :
    (mpz_mr_prime_p rng fuel s x reps force2 = .spin ∨ ∃ b s', mpz_mr_prime_p rng fuel s x reps force2 = .ok (b, s')) ∧
    (∀ s', mpz_mr_prime_p rng fuel s x reps force2 = .ok (true, s') ↔
      ∃ l, Drawn rng fuel n force2 reps.toNat s l s' ∧ ∀ a ∈ l, StrongProbablePrime n a) ∧
    (∀ s', mpz_mr_prime_p rng fuel s x reps force2 = .ok (false, s') →
      ∃ a, 2 ≤ a ∧ a ≤ n - 2 ∧ ¬ StrongProbablePrime n a) := by
  rw [rep_of hx]
  obtain ⟨k, q, h1, h2, h3, e⟩ := mr_prime_of rng fuel s ho hn reps force2
  exact rounds_of rng fuel hn h1 h2 h3 force2 reps.toNat s _ e

/-- C90. Miller-Rabin on all other numbers decides primality. -/
theorem mpz_mr_prime_p_small {S : Type} (rng : ByteGen S) (fuel : Nat) (s : S) (x : Mpz) (i : Int) (hx : Rep x i)
    (h : i ≤ 7 ∨ i % 2 = 0) (reps : Int) (force2 : Bool) :
    ∃ b, mpz_mr_prime_p rng fuel s x reps force2 = .ok (b, s) ∧ (b = true ↔ 0 ≤ i ∧ i.natAbs.Prime) := by
  refine ⟨_, (by rw [rep_of hx]; exact mr_small rng fuel s h reps force2), ?_⟩
  rw [decide_eq_true_iff]
  exact small_prime_iff h

/-- C90. Miller-Rabin rejects no prime, whatever the generator gives. -/
theorem mpz_mr_prime_p_prime {S : Type} (rng : ByteGen S) (fuel : Nat) (s s' : S) (x : Mpz) (n : Nat) (hx : Rep x n)
    (hn : n.Prime) (reps : Int) (force2 : Bool) : mpz_mr_prime_p rng fuel s x reps force2 ≠ .ok (false, s') := by
  intro h
  by_cases h7 : (n : Int) ≤ 7 ∨ (n : Int) % 2 = 0
  · obtain ⟨b, e, hb⟩ := mpz_mr_prime_p_small rng fuel s x n hx h7 reps force2
    rw [hb.2 ⟨by omega, hn⟩, h] at e
    cases e
  · obtain ⟨a, h1, h2, h3⟩ := (mpz_mr_prime_p_exact rng fuel s x n hx (by omega) (by omega) reps force2).2.2 s' h
    exact h3 (prime_strong hn (by omega) (by omega) (by omega))

/-- C90. Of the `n - 3` bases between `2` and `n - 2`, fewer than half let an odd composite `n` pass a round. -/
theorem strong_liars_lt_half {n : Nat} (ho : n % 2 = 1) (hn : 7 < n) (hc : ¬ n.Prime) (bases : Finset Nat)
    (hs : ∀ a ∈ bases, 2 ≤ a ∧ a ≤ n - 2 ∧ StrongProbablePrime n a) : 2 * bases.card < n - 3 := by
  have := liars_bound ho hn hc bases hs
  omega

/-- C90. The Lucas test on an odd number above seven is the "extra strong" Lucas test with the first parameter `p` from three
for which the Jacobi symbol of `p^2 - 4` is not one; numbers without such a parameter up to the bound are rejected. -/
theorem mpz_lucas_prime_p_exact (x : Mpz) (n : Nat) (hx : Rep x n) (ho : n % 2 = 1) (hn : 7 < n) (limit : Limb) :
    ∃ b, mpz_lucas_prime_p x limit = .ok b ∧
      (b = true ↔ LucasTest n (if limit = 0 then 10000 else min 10000 limit.toNat)) := by
  rw [rep_of hx]
  exact lucas_of ho hn limit

/-- C90. The Lucas test on all other numbers decides primality. -/
theorem mpz_lucas_prime_p_small (x : Mpz) (i : Int) (hx : Rep x i) (h : i ≤ 7 ∨ i % 2 = 0) (limit : Limb) :
    ∃ b, mpz_lucas_prime_p x limit = .ok b ∧ (b = true ↔ 0 ≤ i ∧ i.natAbs.Prime) := by
  refine ⟨_, (by rw [rep_of hx]; exact lucas_small h limit), ?_⟩
  rw [decide_eq_true_iff]
  exact small_prime_iff h

/-- C90. The Lucas test accepts a prime exactly if there is a parameter within the bound. -/
theorem mpz_lucas_prime_p_prime (x : Mpz) (n : Nat) (hx : Rep x n) (hn : n.Prime) (h7 : 7 < n) (limit : Limb) :
    mpz_lucas_prime_p x limit = .ok true ↔
      ∃ p : Nat, 3 ≤ p ∧ p ≤ (if limit = 0 then 10000 else min 10000 limit.toNat) ∧ jacobiSym ((p : Int) ^ 2 - 4) n ≠ 1 := by
  have ho : n % 2 = 1 := (hn.eq_two_or_odd).resolve_left (by omega)
  obtain ⟨b, e, hb⟩ := mpz_lucas_prime_p_exact x n hx ho h7 limit
  rw [e, ← prime_lucas hn h7, ← hb]
  exact ⟨fun h => by cases h; rfl, fun h => by rw [h]⟩

/-- C90. The whole test below 1024, and on negative numbers: it decides primality and draws nothing. -/
theorem mpz_probab_prime_p_small {S : Type} (rng : ByteGen S) (fuel : Nat) (s : S) (x : Mpz) (i : Int) (hx : Rep x i)
    (h : i < 1024) (rounds : Int) :
    ∃ b, mpz_probab_prime_p rng fuel s x rounds = .ok (b, s) ∧ (b = true ↔ 0 ≤ i ∧ i.natAbs.Prime) := by
  rw [rep_of hx]
  by_cases h0 : i ≤ 0
  · refine ⟨false, probab_neg rng fuel s h0 rounds, (by simp), ?_⟩
    rintro ⟨h1, h2⟩
    have : i = 0 := by omega
    subst this
    exact absurd h2 Nat.not_prime_zero
  · obtain ⟨n, rfl⟩ := Int.eq_ofNat_of_zero_le (by omega : 0 ≤ i)
    refine ⟨decide n.Prime, probab_small rng fuel s (by omega) rounds, ?_⟩
    rw [decide_eq_true_iff]
    exact ⟨fun h => ⟨by omega, h⟩, fun h => h.2⟩

/-- C90. The whole test from 1024: a number with a prime factor up to 53 is rejected; any other is accepted exactly if it is a
strong probable prime to the `rounds` bases drawn and to the base two, and passes the Lucas test. The sum of `rounds` and one
must fit an `int`; there is no other fault. -/
theorem mpz_probab_prime_p_exact {S : Type} (rng : ByteGen S) (fuel : Nat) (s : S) (x : Mpz) (n : Nat) (hx : Rep x n)
    (h : 1024 ≤ n) (rounds : Int) :
    ((∃ q, q.Prime ∧ q ≤ 53 ∧ q ∣ n) → mpz_probab_prime_p rng fuel s x rounds = .ok (false, s)) ∧
    ((¬ ∃ q, q.Prime ∧ q ≤ 53 ∧ q ∣ n) →
      (rounds + 1 ≥ 2 ^ 31 → mpz_probab_prime_p rng fuel s x rounds = .ub) ∧
      (rounds + 1 < 2 ^ 31 →
        (mpz_probab_prime_p rng fuel s x rounds = .spin ∨ ∃ b s', mpz_probab_prime_p rng fuel s x rounds = .ok (b, s')) ∧
        (∀ s', mpz_probab_prime_p rng fuel s x rounds = .ok (true, s') ↔
          (∃ l, Drawn rng fuel n true (rounds + 1).toNat s l s' ∧ ∀ a ∈ l, StrongProbablePrime n a) ∧ LucasTest n 10000) ∧
        (∀ s', mpz_probab_prime_p rng fuel s x rounds = .ok (false, s') →
          (∃ a, 2 ≤ a ∧ a ≤ n - 2 ∧ ¬ StrongProbablePrime n a) ∨ ¬ LucasTest n 10000))) := by
  rw [rep_of hx]
  refine ⟨fun hq => probab_factor rng fuel s h rounds hq, fun hq => ⟨fun hr => ?_, fun hr => probab_of rng fuel s h rounds hr hq _ rfl⟩⟩
  rw [probab_rest rng fuel s h rounds hq, if_pos hr]

/-- C90. What passes the whole test, with any number of rounds from zero on, is a prime below 1024 or a probable prime in the
sense of Baillie, Pomerance, Selfridge and Wagstaff. -/
theorem mpz_probab_prime_p_passed {S : Type} (rng : ByteGen S) (fuel : Nat) (s s' : S) (x : Mpz) (i : Int) (hx : Rep x i)
    (rounds : Int) (hr : 0 ≤ rounds) (h : mpz_probab_prime_p rng fuel s x rounds = .ok (true, s')) :
    0 ≤ i ∧ BailliePSW i.natAbs := by
  by_cases hs : i < 1024
  · obtain ⟨b, e, hb⟩ := mpz_probab_prime_p_small rng fuel s x i hx hs rounds
    rw [h] at e
    cases e
    obtain ⟨h0, h1⟩ := hb.1 rfl
    exact ⟨h0, Or.inl ⟨by omega, h1⟩⟩
  · obtain ⟨n, rfl⟩ := Int.eq_ofNat_of_zero_le (by omega : 0 ≤ i)
    rw [Int.natAbs_natCast]
    obtain ⟨h1, h2⟩ := mpz_probab_prime_p_exact rng fuel s x n hx (by omega) rounds
    by_cases hq : ∃ q, q.Prime ∧ q ≤ 53 ∧ q ∣ n
    · rw [h1 hq] at h
      cases h
    · obtain ⟨h3, h4⟩ := h2 hq
      by_cases hr' : rounds + 1 ≥ 2 ^ 31
      · rw [h3 hr'] at h
        cases h
      · obtain ⟨⟨l, hl, ha⟩, hL⟩ := ((h4 (by omega)).2.1 s').1 h
        refine ⟨by omega, Or.inr ⟨by omega, fun q h1 h2 h3 => hq ⟨q, h1, h2, h3⟩, ha 2 ?_, hL⟩⟩
        obtain ⟨c, hc⟩ : ∃ c, (rounds + 1).toNat = c + 1 := ⟨rounds.toNat, by omega⟩
        rw [hc] at hl
        exact drawn_two rng fuel n c s l s' hl

/-- C90. The whole test rejects no prime below 1024 and no prime which has a parameter for the Lucas test. -/
theorem mpz_probab_prime_p_prime {S : Type} (rng : ByteGen S) (fuel : Nat) (s s' : S) (x : Mpz) (n : Nat) (hx : Rep x n)
    (hn : n.Prime) (hp : n < 1024 ∨ HasLucasParam n) (rounds : Int) (hr : rounds + 1 < 2 ^ 31) :
    mpz_probab_prime_p rng fuel s x rounds ≠ .ok (false, s') := by
  rw [rep_of hx]
  exact probab_prime rng fuel s s' hn rounds hr hp

/-- C90. There are primes, as large as one likes, which the Lucas test rejects for every limit; the whole test rejects them
(if it ends), whatever the generator and the number of rounds. The source takes this case to be impossible. -/
theorem mpz_probab_prime_p_wrong (m : Nat) : ∃ n : Nat, m < n ∧ n.Prime ∧ ∀ x, Rep x n →
    (∀ limit, mpz_lucas_prime_p x limit = .ok false) ∧
    ∀ (S : Type) (rng : ByteGen S) (fuel : Nat) (s s' : S) (rounds : Int), mpz_probab_prime_p rng fuel s x rounds ≠ .ok (true, s') := by
  obtain ⟨n, hn, hM, hj⟩ := exists_bad_prime 10002 (max m 1024)
  have h1 : m < n := lt_of_le_of_lt (le_max_left _ _) hM
  have h2 : 1024 < n := lt_of_le_of_lt (le_max_right _ _) hM
  have ho : n % 2 = 1 := (hn.eq_two_or_odd).resolve_left (by omega)
  have key : ∀ p : Nat, 3 ≤ p → p ≤ 10000 → jacobiSym ((p : Int) ^ 2 - 4) n = 1 := fun p h3 h4 => by
    have e : (p : Int) ^ 2 - 4 = ((p - 2 : Nat) : Int) * ((p + 2 : Nat) : Int) := by
      push_cast [Nat.cast_sub (by omega : 2 ≤ p)]
      ring
    rw [e, jacobiSym.mul_left, hj _ (by omega) (by omega), hj _ (by omega) (by omega), one_mul]
  refine ⟨n, h1, hn, fun x hx => ⟨fun limit => ?_, fun S rng fuel s s' rounds h => ?_⟩⟩
  · obtain ⟨b, e, hb⟩ := mpz_lucas_prime_p_exact x n hx ho (by omega) limit
    cases b with
    | false => exact e
    | true =>
      obtain ⟨p, h3, h4, h5⟩ := (mpz_lucas_prime_p_prime x n hx hn (by omega) limit).1 e
      refine absurd (key p h3 (le_trans h4 ?_)) h5
      split
      · exact le_refl _
      · exact min_le_left _ _
  · have hq : ¬ ∃ q, q.Prime ∧ q ≤ 53 ∧ q ∣ n := by
      rintro ⟨q, h1, h2, h3⟩
      have := (Nat.prime_dvd_prime_iff_eq h1 hn).1 h3
      omega
    obtain ⟨h3, h4⟩ := (mpz_probab_prime_p_exact rng fuel s x n hx (by omega) rounds).2 hq
    by_cases hr : rounds + 1 ≥ 2 ^ 31
    · rw [h3 hr] at h
      cases h
    · obtain ⟨p, h5, h6, -⟩ := (((h4 (by omega)).2.1 s').1 h).2
      exact h5.2.1 (key p h5.1 h6)

/-! Cases: `2047 = 23 * 89` is a strong probable prime to the base two, but not to the base three; 11 passes the Lucas
test with the parameter five. -/
example : ¬ Nat.Prime 2047 ∧ StrongProbablePrime 2047 2 ∧ ¬ StrongProbablePrime 2047 3 := by
  refine ⟨by decide +kernel, ⟨1, 1023, by decide, by decide, Or.inl (by decide +kernel)⟩, ?_⟩
  rw [strong_iff (k := 1) (q := 1023) (by decide) (by decide) (by decide)]
  unfold StrongZ
  rintro (h | ⟨r, hr, h⟩)
  · revert h; decide +kernel
  · obtain rfl : r = 0 := by omega
    revert h; decide +kernel
example : LucasTest 11 10000 := by
  refine ⟨5, ⟨by decide, by norm_num, fun p h1 h2 => ?_⟩, by decide, Or.inl ⟨by norm_num, 2, 3, by decide, by decide, Or.inr ⟨0, by decide, by decide⟩⟩⟩
  obtain rfl | rfl : p = 3 ∨ p = 4 := by omega
  · norm_num
  · norm_num
example : mpz_lucas_prime_p (mpz_of 11) 0 = .ok true :=
  (mpz_lucas_prime_p_prime _ 11 (of_rep _) (by decide) (by decide) 0).2 ⟨5, by decide, by decide, by norm_num⟩
example : HasLucasParam 1031 := ⟨5, by decide, by decide, by norm_num⟩
example : mpz_mod_primorial (mpz_of 1031) = (1031, 1031) := by decide +kernel

end Torsion
