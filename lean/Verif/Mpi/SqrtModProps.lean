import Verif.Mpi.SqrtModLemmas

/-!
# Square roots modulo a prime and modulo a product of two primes
-/
namespace Torsion
open Spec (Rep)

private theorem isSquare_zmod {p : Nat} (i : Int) : IsSquare (i : ZMod p) ↔ ∃ r : Int, (p : Int) ∣ r * r - i := by
  constructor
  · rintro ⟨a, ha⟩
    obtain ⟨r, rfl⟩ := ZMod.intCast_surjective a
    refine ⟨r, (ZMod.intCast_zmod_eq_zero_iff_dvd _ _).1 ?_⟩
    push_cast
    rw [ha, sub_self]
  · rintro ⟨r, hr⟩
    refine ⟨r, ?_⟩
    have := (ZMod.intCast_zmod_eq_zero_iff_dvd _ _).2 hr
    push_cast at this
    exact (sub_eq_zero.1 this).symm

private theorem square_dvd {p : Nat} {i r : Int} (h : (r : ZMod p) * r = i) : (p : Int) ∣ r * r - i := by
  refine (ZMod.intCast_zmod_eq_zero_iff_dvd _ _).1 ?_
  push_cast
  rw [h, sub_self]

/-- C89. For every odd prime `p` and every integer `i`, of any size and sign, `mpz_sqrtm` ends (within `p` rounds of each of
its loops) and gives the exact answer: a root in `[0, p)` if there is one, else failure with the output set to zero. -/
theorem mpz_sqrtm_exact {x m : Mpz} {i : Int} {p : Nat} (hx : Rep x i) (hm : Rep m p) (hp : p.Prime) (h2 : p ≠ 2) {fuel : Nat}
    (hf : p ≤ fuel) :
    ((∃ r : Int, (p : Int) ∣ r * r - i) → ∃ z k, mpz_sqrtm fuel x m = .ok (z, true) ∧ Rep z k ∧ 0 ≤ k ∧ k < p ∧
      (p : Int) ∣ k * k - i) ∧
    ((¬ ∃ r : Int, (p : Int) ∣ r * r - i) → ∃ z, mpz_sqrtm fuel x m = .ok (z, false) ∧ Rep z 0) := by
  have : Fact p.Prime := ⟨hp⟩
  have ho : p % 2 = 1 := (hp.eq_two_or_odd).resolve_left h2
  rw [Mpi.rep_of hx, Mpi.rep_of hm, ← isSquare_zmod]
  obtain ⟨ha, hb⟩ := Mpi.sqrtm_prime ho hf i
  refine ⟨fun hs => ?_, fun hs => ⟨_, hb hs, Mpi.of_rep 0⟩⟩
  obtain ⟨r, e, h0, h1, h⟩ := ha hs
  exact ⟨_, r, e, Mpi.of_rep r, h0, h1, square_dvd h⟩

example : mpz_sqrtm 17 ⟨false, [13]⟩ ⟨false, [17]⟩ = .ok (⟨false, [8]⟩, true) := by decide +kernel
example : mpz_sqrtm 41 ⟨true, [4]⟩ ⟨false, [41]⟩ = .ok (⟨false, [18]⟩, true) := by decide +kernel
example : mpz_sqrtm 13 ⟨false, [2]⟩ ⟨false, [13]⟩ = .ok (⟨false, []⟩, false) := by decide +kernel

/-- C89. The modulus need not be prime for the answer to be trusted: whatever is returned as a root modulo an odd `p` is one
and is reduced, if `p` is not 1 modulo 8 or has no factor in common with the number. -/
theorem mpz_sqrtm_sound {x m z : Mpz} {i : Int} {p : Nat} (hx : Rep x i) (hm : Rep m p) (ho : p % 2 = 1) {fuel : Nat}
    (hc : p % 8 ≠ 1 ∨ Int.gcd i p = 1) (h : mpz_sqrtm fuel x m = .ok (z, true)) :
    ∃ k : Int, Rep z k ∧ 0 ≤ k ∧ k < p ∧ (p : Int) ∣ k * k - i := by
  rw [Mpi.rep_of hx, Mpi.rep_of hm] at h
  obtain ⟨r, rfl, h0, h1, h⟩ := Mpi.sqrtm_sound fuel ho (fun h8 => hc.resolve_left (fun h => h h8)) h
  exact ⟨r, Mpi.of_rep r, h0, h1, square_dvd h⟩

example : mpz_sqrtm 0 ⟨false, [10]⟩ ⟨false, [15]⟩ = .ok (⟨false, [10]⟩, true) := by decide +kernel

/-- C89. Moduli that are not positive, or even (2 among them), are refused, whatever the number. -/
theorem mpz_sqrtm_refuses {x m : Mpz} {j : Int} (hm : Rep m j) (fuel : Nat) (h : j ≤ 0 ∨ j % 2 = 0) :
    mpz_sqrtm fuel x m = .ok (⟨false, []⟩, false) := by
  unfold mpz_sqrtm
  rw [R.liftM_eq, Mpi.even_rep hm, R.lift_ok, R.ok_bind, if_pos]
  rcases h with h | h
  · left
    rw [Mpi.rep_of hm]
    rcases lt_or_eq_of_le h with h | h
    · exact le_of_lt ((Mpi.size_neg_of j).2 h)
    · exact le_of_eq ((Mpi.size_zero_of j).2 h)
  · right
    exact decide_eq_true h

example : Rep ⟨false, [2]⟩ 2 ∧ Rep ⟨true, [71]⟩ (-71) :=
  ⟨⟨⟨by decide, by decide⟩, by decide⟩, ⟨⟨by decide, by decide⟩, by decide⟩⟩

/-- C89. Outside the primes the function can be wrong: modulo 9 it calls 0 a square root of 3. -/
theorem mpz_sqrtm_wrong_root (fuel : Nat) :
    mpz_sqrtm fuel ⟨false, [3]⟩ ⟨false, [9]⟩ = .ok (⟨false, []⟩, true) ∧ ¬ ∃ r : Int, (9 : Int) ∣ r * r - 3 := by
  refine ⟨?_, ?_⟩
  · have h3 : (⟨false, [3]⟩ : Mpz) = mpz_of 3 := by decide +kernel
    have h9 : (⟨false, [9]⟩ : Mpz) = mpz_of (9 : Nat) := by decide +kernel
    have hj : jacobiSym (3 % ((9 : Nat) : Int)) 9 = 0 := by
      rw [jacobiSym.eq_zero_iff_not_coprime]; decide
    rw [h3, h9, Mpi.sqrtm_of fuel 3 (p := 9) (by decide), if_neg (by decide), if_neg (by decide)]
    unfold mpz_sqrtm_0
    rw [if_neg (by decide), R.liftM_eq, Mpi.jacobi_of _ (by decide), R.lift_ok, R.ok_bind, hj, if_neg (by decide), if_pos rfl]
    rfl
  · rintro ⟨r, k, hk⟩
    have h3 : (3 : Int) ∣ r * r := ⟨3 * k + 1, by linear_combination hk⟩
    have h3r : (3 : Int) ∣ r := by
      rcases Int.prime_three.dvd_or_dvd h3 with h | h <;> exact h
    obtain ⟨c, rfl⟩ := h3r
    have : 3 * (3 * (c * c) - 3 * k) = 3 * 1 := by linear_combination hk
    omega

/-- C89. And it can fail to return: modulo the square of any odd number above one (so also of any odd prime), for any number
without a common factor with it, the search for a non-residue never ends. -/
theorem mpz_sqrtm_never_ends {x m : Mpz} {i : Int} {q : Nat} (hx : Rep x i) (hm : Rep m (q * q : Nat)) (ho : q % 2 = 1)
    (h1 : q ≠ 1) (hc : Int.gcd i q = 1) (fuel : Nat) : mpz_sqrtm fuel x m = .spin := by
  rw [Mpi.rep_of hx, Mpi.rep_of hm]
  exact Mpi.sqrtm_spin fuel ho h1 hc

example : Rep ⟨false, [4]⟩ 4 ∧ Rep ⟨false, [9]⟩ (3 * 3 : Nat) ∧ Int.gcd 4 (3 : Nat) = 1 :=
  ⟨⟨⟨by decide, by decide⟩, by decide⟩, ⟨⟨by decide, by decide⟩, by decide⟩, by decide⟩

/-- C89. For two different odd primes `mpz_sqrtpq` gives a root modulo the product, in `[0, pq)`, exactly if there is one. -/
theorem mpz_sqrtpq_exact {x m n : Mpz} {i : Int} {p q : Nat} (hx : Rep x i) (hm : Rep m p) (hn : Rep n q) (hp : p.Prime)
    (hq : q.Prime) (hp2 : p ≠ 2) (hq2 : q ≠ 2) (hpq : p ≠ q) {fuel : Nat} (hfp : p ≤ fuel) (hfq : q ≤ fuel) :
    ((∃ r : Int, ((p * q : Nat) : Int) ∣ r * r - i) → ∃ z k, mpz_sqrtpq fuel x m n = .ok (some z) ∧ Rep z k ∧ 0 ≤ k ∧
      k < (p * q : Nat) ∧ ((p * q : Nat) : Int) ∣ k * k - i) ∧
    ((¬ ∃ r : Int, ((p * q : Nat) : Int) ∣ r * r - i) → mpz_sqrtpq fuel x m n = .ok none) := by
  have hco : Nat.Coprime p q := (Nat.coprime_primes hp hq).2 hpq
  obtain ⟨ap, np⟩ := mpz_sqrtm_exact hx hm hp hp2 hfp
  obtain ⟨aq, nq⟩ := mpz_sqrtm_exact hx hn hq hq2 hfq
  have build : (∃ r : Int, (p : Int) ∣ r * r - i) → (∃ r : Int, (q : Int) ∣ r * r - i) →
      ∃ z k, mpz_sqrtpq fuel x m n = .ok (some z) ∧ Rep z k ∧ 0 ≤ k ∧ k < (p * q : Nat) ∧ ((p * q : Nat) : Int) ∣ k * k - i := by
    intro h1 h2
    obtain ⟨za, a, ea, ra, -, -, da⟩ := ap h1
    obtain ⟨zb, b, eb, rb, -, -, db⟩ := aq h2
    rw [Mpi.rep_of hx, Mpi.rep_of hm, Mpi.rep_of ra] at ea
    rw [Mpi.rep_of hx, Mpi.rep_of hn, Mpi.rep_of rb] at eb
    obtain ⟨r, e, h0, hlt, ⟨u, hu⟩, ⟨v, hv⟩⟩ := Mpi.sqrtpq_combine hp.pos hq.pos hco ea eb
    rw [Mpi.rep_of hx, Mpi.rep_of hm, Mpi.rep_of hn]
    refine ⟨_, r, e, Mpi.of_rep r, h0, hlt, ?_⟩
    push_cast
    refine IsCoprime.mul_dvd (Nat.isCoprime_iff_coprime.2 hco) ?_ ?_
    · obtain ⟨w, hw⟩ := da
      exact ⟨u * (r + a) + w, by linear_combination (r + a) * hu + hw⟩
    · obtain ⟨w, hw⟩ := db
      exact ⟨v * (r + b) + w, by linear_combination (r + b) * hv + hw⟩
  constructor
  · rintro ⟨r, hr⟩
    push_cast at hr
    exact build ⟨r, (dvd_mul_right _ _).trans hr⟩ ⟨r, (dvd_mul_left _ _).trans hr⟩
  · intro hno
    by_cases h1 : ∃ r : Int, (p : Int) ∣ r * r - i
    · by_cases h2 : ∃ r : Int, (q : Int) ∣ r * r - i
      · obtain ⟨z, k, -, -, -, -, h⟩ := build h1 h2
        exact absurd ⟨k, h⟩ hno
      · obtain ⟨za, a, ea, -⟩ := ap h1
        obtain ⟨zb, eb, -⟩ := nq h2
        unfold mpz_sqrtpq
        rw [ea, R.ok_bind, if_neg (by simp), eb, R.ok_bind, if_pos rfl]
    · obtain ⟨za, ea, -⟩ := np h1
      unfold mpz_sqrtpq
      rw [ea, R.ok_bind, if_pos rfl]

example : mpz_sqrtpq 19 ⟨false, [4]⟩ ⟨false, [17]⟩ ⟨false, [19]⟩ = .ok (some ⟨false, [36]⟩) := by decide +kernel
example : mpz_sqrtpq 19 ⟨false, [3]⟩ ⟨false, [17]⟩ ⟨false, [19]⟩ = .ok none := by decide +kernel

end Torsion
