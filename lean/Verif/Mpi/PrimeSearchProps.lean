import Verif.Mpi.PrimeSearch

/-!
# Properties C91: the search for primes
-/
namespace Torsion
open Torsion.Spec Torsion.Mpi

/-- C91. The next prime: if the search ends, the result is above `x`, is a prime below 1024 or a probable prime, and no prime in
between is left out which is below 1024 or has a parameter for the Lucas test. -/
theorem mpz_nextprime_exact {S : Type} (rng : ByteGen S) (fuel : Nat) (s : S) (x : Mpz) (i : Int) (hx : Rep x i) :
    mpz_nextprime rng fuel s x = .spin ∨
    ∃ (z : Mpz) (n : Nat) (s' : S), mpz_nextprime rng fuel s x = .ok (z, s') ∧ Rep z n ∧ i < n ∧ BailliePSW n ∧
      ∀ m : Nat, m.Prime → i < m → m < n → 1024 ≤ m ∧ ¬ HasLucasParam m := by
  rw [rep_of hx]
  unfold mpz_nextprime
  by_cases h2 : i < 2
  · rw [if_pos ((cmp_ui_neg_of _ _).2 h2)]
    refine Or.inr ⟨_, 2, s, rfl, ?_, by omega, Or.inl ⟨by decide, by decide⟩, fun m hm _ h => ?_⟩
    · rw [set_ui_of]; exact of_rep _
    · have := hm.two_le; omega
  · rw [if_neg (by rw [cmp_ui_neg_of]; exact h2), R.liftM_eq, odd_of, R.lift_ok, R.ok_bind, R.liftM_eq, add_ui_of, R.lift_ok,
      R.ok_bind]
    obtain ⟨k, hk, hk2, hk1⟩ : ∃ k : Int, i + ((1 + (if decide (i % 2 = 1) = true then 1 else 0) : Limb).toNat : Int) = k ∧
        k % 2 = 1 ∧ i < k ∧ k ≤ i + 2 := by
      by_cases ho : i % 2 = 1
      · exact ⟨i + 2, by rw [decide_eq_true ho]; rfl, by omega, by omega, by omega⟩
      · exact ⟨i + 1, by rw [decide_eq_false ho]; rfl, by omega, by omega, by omega⟩
    have hkc : k ≤ i + 1 ∨ i % 2 = 1 := by omega
    rw [hk]
    rcases next_loop_of rng fuel fuel s k with h | ⟨j, s', h1, ⟨s1, hp⟩, h3⟩
    · exact Or.inl h
    · obtain ⟨n, hn⟩ := Int.eq_ofNat_of_zero_le (by omega : 0 ≤ k + 2 * (j : Int))
      have hp' := (mpz_probab_prime_p_passed rng fuel s1 s' _ _ (of_rep _) 20 (by decide) hp).2
      rw [hn, Int.natAbs_natCast] at hp'
      refine Or.inr ⟨_, n, s', h1, ?_, by omega, hp', fun m hm h4 h5 => ?_⟩
      · rw [hn]; exact of_rep _
      · have ho : m % 2 = 1 := (hm.eq_two_or_odd).resolve_left (by omega)
        obtain ⟨j', hj⟩ := Int.eq_ofNat_of_zero_le (by omega : 0 ≤ ((m : Int) - k) / 2)
        have hm' : k + 2 * (j' : Int) = m := by omega
        have := h3 j' (by omega)
        rw [hm'] at this
        exact rejected_prime this hm

/-- C91. The next prime is exact below 1024: the least prime above `x`, without a draw from the generator. -/
theorem mpz_nextprime_small {S : Type} (rng : ByteGen S) (fuel : Nat) (s : S) (x : Mpz) (i : Int) (hx : Rep x i) (p : Nat)
    (hp : p.Prime) (hip : i < p) (h : p < 1024) (z : Mpz) (s' : S) (e : mpz_nextprime rng fuel s x = .ok (z, s')) :
    ∃ n : Nat, Rep z n ∧ n.Prime ∧ i < n ∧ n ≤ p ∧ ∀ m : Nat, m.Prime → i < m → n ≤ m := by
  rcases mpz_nextprime_exact rng fuel s x i hx with h1 | ⟨z', n, s1, h1, h2, h3, h4, h5⟩
  · rw [h1] at e; cases e
  · rw [h1] at e
    cases e
    have hnp : n ≤ p := by
      by_contra hc
      have := h5 p hp hip (by omega)
      omega
    refine ⟨n, h2, ?_, h3, hnp, fun m hm him => ?_⟩
    · rcases h4 with h4 | h4
      · exact h4.2
      · omega
    · by_contra hc
      have := h5 m hm him (by omega)
      omega

/-- C91. The search for an odd prime in `[x, x + m]`: a number which is found is in the interval, odd, a prime or probable prime,
and no odd prime before it is left out which is below 1024 or has a parameter for the Lucas test; if none is found, there is
no such odd prime in the interval. The prime two is never found (see `mpz_findprime_wrong`). -/
theorem mpz_findprime_odd {S : Type} (rng : ByteGen S) (fuel : Nat) (s : S) (x : Mpz) (i : Int) (hx : Rep x i) (m : Limb) :
    mpz_findprime rng fuel s x m = .spin ∨
    ∃ (z : Mpz) (b : Bool) (k : Int) (s' : S), mpz_findprime rng fuel s x m = .ok (z, b, s') ∧ Rep z k ∧
      (b = true → i ≤ k ∧ k ≤ i + m.toNat ∧ k % 2 = 1 ∧ 0 ≤ k ∧ BailliePSW k.natAbs ∧
        ∀ p : Nat, p.Prime → p ≠ 2 → i ≤ p → p < k → 1024 ≤ p ∧ ¬ HasLucasParam p) ∧
      (b = false → ∀ p : Nat, p.Prime → p ≠ 2 → i ≤ p → p ≤ i + m.toNat → 1024 ≤ p ∧ ¬ HasLucasParam p) := by
  rw [rep_of hx]
  unfold mpz_findprime
  rw [R.liftM_eq, set_of, R.lift_ok, R.ok_bind, R.liftM_eq, even_of, R.lift_ok, R.ok_bind]
  have key : ∀ (k : Int) (c : Nat), k % 2 = 1 → i ≤ k → k ≤ i + 1 → (∀ q : Int, q % 2 = 1 → (i ≤ q ∧ q ≤ i + m.toNat ↔ k ≤ q ∧ q < k + 2 * c)) →
      mpz_findprime_loop rng fuel c s (mpz_of k) = .spin ∨
      ∃ (z : Mpz) (b : Bool) (k : Int) (s' : S), mpz_findprime_loop rng fuel c s (mpz_of (if i % 2 = 0 then i + 1 else i)) = .ok (z, b, s') ∧ Rep z k ∧
      (b = true → i ≤ k ∧ k ≤ i + m.toNat ∧ k % 2 = 1 ∧ 0 ≤ k ∧ BailliePSW k.natAbs ∧
        ∀ p : Nat, p.Prime → p ≠ 2 → i ≤ p → p < k → 1024 ≤ p ∧ ¬ HasLucasParam p) ∧
      (b = false → ∀ p : Nat, p.Prime → p ≠ 2 → i ≤ p → p ≤ i + m.toNat → 1024 ≤ p ∧ ¬ HasLucasParam p) := by
    intro k c hk1 hk2 hk3 hc
    have hk : (if i % 2 = 0 then i + 1 else i) = k := by split <;> omega
    rw [hk]
    rcases find_loop_of rng fuel c s k with h | ⟨j, b, s', h1, h2, h3, h4⟩
    · exact Or.inl h
    · have hrej : ∀ p : Nat, p.Prime → p ≠ 2 → i ≤ p → (p : Int) < k + 2 * j → 1024 ≤ p ∧ ¬ HasLucasParam p := by
        intro p hp hp2 hip hpk
        have ho : p % 2 = 1 := (hp.eq_two_or_odd).resolve_left hp2
        obtain ⟨j', hj⟩ := Int.eq_ofNat_of_zero_le (by omega : 0 ≤ ((p : Int) - k) / 2)
        have hm' : k + 2 * (j' : Int) = p := by omega
        have := h4 j' (by omega)
        rw [hm'] at this
        exact rejected_prime this hp
      refine Or.inr ⟨_, b, _, s', h1, of_rep _, fun hb => ?_, fun hb p hp hp2 hip hpm => ?_⟩
      · obtain ⟨g1, s1, g2⟩ := h2 hb
        obtain ⟨g3, g4⟩ := mpz_probab_prime_p_passed rng fuel s1 s' _ _ (of_rep _) 20 (by decide) g2
        obtain ⟨g5, g6⟩ := (hc (k + 2 * j) (by omega)).2 ⟨by omega, by omega⟩
        exact ⟨g5, g6, by omega, g3, g4, hrej⟩
      · have ho : p % 2 = 1 := (hp.eq_two_or_odd).resolve_left hp2
        have := ((hc p (by omega)).1 ⟨hip, hpm⟩).2
        rw [← h3 hb] at this
        exact hrej p hp hp2 hip this
  by_cases he : i % 2 = 0
  · rw [if_pos (by rw [decide_eq_true_iff]; exact he), R.liftM_eq, add_1_of, R.lift_ok, R.ok_bind]
    have hi : (if i % 2 = 0 then i + 1 else i) = i + 1 := if_pos he
    rw [hi] at key
    by_cases hm : m = 0
    · rw [if_pos hm]
      subst hm
      refine Or.inr ⟨_, false, _, s, rfl, of_rep _, (fun h => by cases h), fun _ p hp hp2 h1 h2 => ?_⟩
      have ho : p % 2 = 1 := (hp.eq_two_or_odd).resolve_left hp2
      have h2 : (p : Int) ≤ i + (0 : Nat) := h2
      omega
    · rw [if_neg hm]
      have hpos : 0 < m.toNat := Nat.pos_of_ne_zero fun h => hm (BitVec.eq_of_toNat_eq h)
      have hc : ((m - 1) / 2 + 1).toNat = (m.toNat - 1) / 2 + 1 := by
        have := m.isLt
        have e1 : (m - 1).toNat = m.toNat - 1 := BitVec.toNat_sub_of_le (show 1 ≤ m.toNat from hpos)
        rw [BitVec.toNat_add, BitVec.toNat_udiv, e1]
        exact Nat.mod_eq_of_lt (by show (m.toNat - 1) / 2 + 1 < 2 ^ 64; omega)
      rw [hc]
      exact key (i + 1) _ (by omega) (by omega) (by omega) (fun q hq => by push_cast [hpos]; omega)
  · rw [if_neg (by rw [decide_eq_true_iff]; exact he)]
    have hi : (if i % 2 = 0 then i + 1 else i) = i := if_neg he
    rw [hi] at key
    have hc : (m / 2 + 1).toNat = m.toNat / 2 + 1 := by
      have := m.isLt
      rw [BitVec.toNat_add, BitVec.toNat_udiv]
      exact Nat.mod_eq_of_lt (by show m.toNat / 2 + 1 < 2 ^ 64; omega)
    rw [hc]
    exact key i _ (by omega) (by omega) (by omega) (fun q hq => by push_cast; omega)

/-- C91. The search from two finds nothing in `[2, 2]` and in `[1, 2]`. -/
theorem mpz_findprime_wrong {S : Type} (rng : ByteGen S) (fuel : Nat) (s : S) :
    mpz_findprime rng fuel s ⟨false, [2]⟩ 0 = .ok (⟨false, [3]⟩, false, s) ∧
    mpz_findprime rng fuel s ⟨false, [1]⟩ 1 = .ok (⟨false, [3]⟩, false, s) := ⟨rfl, rfl⟩

/-- C91. A random prime: less than two bits is an error; otherwise, if the search ends, the result has exactly the given number
of bits with the top two set, is odd, and is a prime below 1024 or a probable prime. -/
theorem mpz_randprime_exact {S : Type} (rng : ByteGen S) (fuel : Nat) (s : S) (bits : Nat) :
    (bits ≤ 1 → mpz_randprime rng fuel s bits = .abort) ∧
    (1 < bits → mpz_randprime rng fuel s bits = .spin ∨
      ∃ (z : Mpz) (n : Nat) (s' : S), mpz_randprime rng fuel s bits = .ok (z, s') ∧ Rep z n ∧
        3 * 2 ^ (bits - 2) ≤ n ∧ n < 2 ^ bits ∧ n % 2 = 1 ∧ BailliePSW n) := by
  unfold mpz_randprime
  refine ⟨fun h => if_pos (by omega), fun h => ?_⟩
  rw [if_neg (by omega)]
  rcases randprime_loop_of rng fuel h fuel s with e | ⟨n, s', e, ⟨s1, hp⟩, h1, h2, h3⟩
  · exact Or.inl e
  · refine Or.inr ⟨_, n, s', e, of_rep _, h1, h2, h3, ?_⟩
    have := (mpz_probab_prime_p_passed rng fuel s1 s' _ _ (of_rep _) 20 (by decide) hp).2
    rwa [Int.natAbs_natCast] at this

/-- C91. The product of two such primes of `bits` and `bits'` bits has exactly `bits + bits'` bits. -/
theorem randprime_product {b b' n n' : Nat} (hb : 1 < b) (hb' : 1 < b') (h1 : 3 * 2 ^ (b - 2) ≤ n) (h2 : n < 2 ^ b)
    (h3 : 3 * 2 ^ (b' - 2) ≤ n') (h4 : n' < 2 ^ b') : 2 ^ (b + b' - 1) ≤ n * n' ∧ n * n' < 2 ^ (b + b') := by
  obtain ⟨q, rfl⟩ : ∃ q, b = q + 2 := ⟨b - 2, by omega⟩
  obtain ⟨q', rfl⟩ : ∃ q, b' = q + 2 := ⟨b' - 2, by omega⟩
  constructor
  · have e : q + 2 + (q' + 2) - 1 = q + q' + 3 := by omega
    rw [e]
    calc 2 ^ (q + q' + 3) ≤ (3 * 2 ^ q) * (3 * 2 ^ q') := by
          have : (3 * 2 ^ q) * (3 * 2 ^ q') = 9 * 2 ^ (q + q') := by rw [pow_add]; ring
          rw [this, pow_succ, pow_succ, pow_succ]
          have : 0 < 2 ^ (q + q') := by positivity
          omega
      _ ≤ n * n' := Nat.mul_le_mul h1 h3
  · rw [pow_add]
    exact Nat.mul_lt_mul'' h2 h4

/-! Cases: the prime after 24 is 29; the first in `[24, 30]`; a four-bit prime from a generator which gives ones. -/
/-- A generator of ones. -/
def onesGen : ByteGen Unit := ⟨fun _ n => (List.replicate n 255, ()), fun _ _ => List.length_replicate⟩
example : mpz_nextprime onesGen 9 () ⟨false, [24]⟩ = .ok (⟨false, [29]⟩, ()) := by decide +kernel
example : mpz_findprime onesGen 9 () ⟨false, [24]⟩ 6 = .ok (⟨false, [29]⟩, true, ()) := by decide +kernel
example : mpz_findprime onesGen 9 () ⟨false, [24]⟩ 4 = .ok (⟨false, [29]⟩, false, ()) := by decide +kernel
example : mpz_randprime onesGen 9 () 5 = .ok (⟨false, [31]⟩, ()) := by decide +kernel

end Torsion
