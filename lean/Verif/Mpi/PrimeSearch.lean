import Verif.Mpi.PrimeProps
import Verif.Mpi.RandomProps

/-!
# Lemmas: the search for primes
-/
namespace Torsion.Mpi
open Torsion.Spec

/-- The test ends with an answer or with the fuel of the generator. -/
theorem probab_total {S : Type} (rng : ByteGen S) (fuel : Nat) (s : S) (i : Int) (rounds : Int) (hr : rounds + 1 < 2 ^ 31) :
    mpz_probab_prime_p rng fuel s (mpz_of i) rounds = .spin ∨
      ∃ b s', mpz_probab_prime_p rng fuel s (mpz_of i) rounds = .ok (b, s') := by
  by_cases h0 : i < 1024
  · obtain ⟨b, e, -⟩ := mpz_probab_prime_p_small rng fuel s _ i (of_rep i) h0 rounds
    exact Or.inr ⟨_, _, e⟩
  · obtain ⟨n, rfl⟩ := Int.eq_ofNat_of_zero_le (by omega : 0 ≤ i)
    obtain ⟨h1, h2⟩ := mpz_probab_prime_p_exact rng fuel s _ n (of_rep _) (by omega) rounds
    by_cases hq : ∃ q, q.Prime ∧ q ≤ 53 ∧ q ∣ n
    · exact Or.inr ⟨_, _, h1 hq⟩
    · exact ((h2 hq).2 hr).1

/-- The number passed the test in some state of the generator. -/
def Passed {S : Type} (rng : ByteGen S) (fuel : Nat) (i : Int) (s' : S) : Prop :=
  ∃ s, mpz_probab_prime_p rng fuel s (mpz_of i) 20 = .ok (true, s')

/-- The number was rejected in some state of the generator. -/
def Rejected {S : Type} (rng : ByteGen S) (fuel : Nat) (i : Int) : Prop :=
  ∃ s s', mpz_probab_prime_p rng fuel s (mpz_of i) 20 = .ok (false, s')

theorem rejected_prime {S : Type} {rng : ByteGen S} {fuel : Nat} {n : Nat} (h : Rejected rng fuel n) (hn : n.Prime) :
    1024 ≤ n ∧ ¬ HasLucasParam n := by
  obtain ⟨s, s', h⟩ := h
  constructor
  · by_contra h1
    exact mpz_probab_prime_p_prime rng fuel s s' _ n (of_rep _) hn (Or.inl (by omega)) 20 (by decide) h
  · exact fun h1 => mpz_probab_prime_p_prime rng fuel s s' _ n (of_rep _) hn (Or.inr h1) 20 (by decide) h

theorem step_of (i : Int) : mpz_add_ui .heap (mpz_of i) 2 = .ok (mpz_of (i + 2)) := add_ui_of i 2

theorem next_loop_of {S : Type} (rng : ByteGen S) (fuel : Nat) : ∀ (f : Nat) (s : S) (i : Int),
    mpz_nextprime_loop rng fuel f s (mpz_of i) = .spin ∨
      ∃ (j : Nat) (s' : S), mpz_nextprime_loop rng fuel f s (mpz_of i) = .ok (mpz_of (i + 2 * j), s') ∧
        Passed rng fuel (i + 2 * j) s' ∧ ∀ j' < j, Rejected rng fuel (i + 2 * j')
  | 0, s, i => Or.inl rfl
  | f + 1, s, i => by
    rw [mpz_nextprime_loop]
    rcases probab_total rng fuel s i 20 (by decide) with e | ⟨b, s1, e⟩
    · rw [e]; exact Or.inl rfl
    · cases b with
      | true =>
        refine Or.inr ⟨0, s1, ?_, ⟨s, ?_⟩, fun j' h => by omega⟩
        · rw [e, R.ok_bind, if_pos rfl]; simp
        · simpa using e
      | false =>
        rw [e, R.ok_bind, if_neg Bool.false_ne_true, R.liftM_eq, step_of, R.lift_ok, R.ok_bind]
        rcases next_loop_of rng fuel f s1 (i + 2) with h | ⟨j, s', h1, h2, h3⟩
        · exact Or.inl h
        · refine Or.inr ⟨j + 1, s', ?_, ?_, ?_⟩
          · rw [h1]; congr 2; push_cast; congr 1; ring
          · have : i + 2 * ((j + 1 : Nat) : Int) = i + 2 + 2 * j := by push_cast; ring
            rw [this]; exact h2
          · intro j' hj
            cases j' with
            | zero => exact ⟨s, s1, by simpa using e⟩
            | succ k =>
              have : i + 2 * ((k + 1 : Nat) : Int) = i + 2 + 2 * k := by push_cast; ring
              rw [this]; exact h3 k (by omega)

theorem find_loop_of {S : Type} (rng : ByteGen S) (fuel : Nat) : ∀ (c : Nat) (s : S) (i : Int),
    mpz_findprime_loop rng fuel c s (mpz_of i) = .spin ∨
      ∃ (j : Nat) (b : Bool) (s' : S), mpz_findprime_loop rng fuel c s (mpz_of i) = .ok (mpz_of (i + 2 * j), b, s') ∧
        (b = true → j < c ∧ Passed rng fuel (i + 2 * j) s') ∧ (b = false → j = c) ∧ ∀ j' < j, Rejected rng fuel (i + 2 * j')
  | 0, s, i => Or.inr ⟨0, false, s, by rw [mpz_findprime_loop]; simp, (fun h => by cases h), fun _ => rfl, fun j' h => by omega⟩
  | c + 1, s, i => by
    rw [mpz_findprime_loop]
    rcases probab_total rng fuel s i 20 (by decide) with e | ⟨b, s1, e⟩
    · rw [e]; exact Or.inl rfl
    · cases b with
      | true =>
        refine Or.inr ⟨0, true, s1, ?_, fun _ => ⟨by omega, s, ?_⟩, (fun h => by cases h), fun j' h => by omega⟩
        · rw [e, R.ok_bind, if_pos rfl]; simp
        · simpa using e
      | false =>
        rw [e, R.ok_bind, if_neg Bool.false_ne_true, R.liftM_eq, step_of, R.lift_ok, R.ok_bind]
        rcases find_loop_of rng fuel c s1 (i + 2) with h | ⟨j, b, s', h1, h2, h3, h4⟩
        · exact Or.inl h
        · refine Or.inr ⟨j + 1, b, s', ?_, fun hb => ⟨?_, ?_⟩, fun hb => ?_, ?_⟩
          · rw [h1]; congr 2; push_cast; congr 1; ring
          · have := (h2 hb).1; omega
          · have : i + 2 * ((j + 1 : Nat) : Int) = i + 2 + 2 * j := by push_cast; ring
            rw [this]; exact (h2 hb).2
          · have := h3 hb; omega
          · intro j' hj
            cases j' with
            | zero => exact ⟨s, s1, by simpa using e⟩
            | succ k =>
              have : i + 2 * ((k + 1 : Nat) : Int) = i + 2 + 2 * k := by push_cast; ring
              rw [this]; exact h4 k (by omega)

/-! ### Random primes -/

theorem setbit_of (n pos : Nat) : mpz_setbit (mpz_of n) pos = .ok (mpz_of ((if n.testBit pos then n else n + 2 ^ pos : Nat) : Int)) := by
  obtain ⟨t, e, rt⟩ := setbit_rep pos (of_rep (n : Int))
  rw [e, rep_of rt, bit_nonneg]
  congr 2
  split
  · rfl
  · rw [if_neg (by omega)]; push_cast; rfl

theorem randprime_bits {q n : Nat} (h : n < 2 ^ (q + 2)) :
    ∃ m, (do let z ← mpz_setbit (mpz_of n) (q + 1)
             let z ← mpz_setbit z q
             mpz_setbit z 0 : C Mpz) = .ok (mpz_of (m : Nat)) ∧ 3 * 2 ^ q ≤ m ∧ m < 2 ^ (q + 2) ∧ m % 2 = 1 := by
  have hq : 0 < 2 ^ q := by positivity
  rw [setbit_of, C.ok_bind, setbit_of, C.ok_bind, setbit_of]
  refine ⟨_, rfl, ?_⟩
  simp only [Nat.testBit_eq_decide_div_mod_eq, decide_eq_true_eq, pow_zero, Nat.div_one]
  have h1 : (2 : Nat) ^ (q + 1) = 2 * 2 ^ q := by ring
  have h2 : (2 : Nat) ^ (q + 2) = 4 * 2 ^ q := by ring
  rw [h2] at h
  rw [h1, h2]
  clear h1 h2
  generalize (2 : Nat) ^ q = Q at *
  have e1 : ∀ m, 2 * Q ≤ m → m < 4 * Q → m / (2 * Q) = 1 := fun m a b => by
    rw [Nat.div_eq_iff (by omega)]; omega
  have e0 : ∀ m, m < 2 * Q → m / (2 * Q) = 0 := fun m a => Nat.div_eq_of_lt a
  have f2 : ∀ m, 2 * Q ≤ m → m < 3 * Q → m / Q = 2 := fun m a b => by
    rw [Nat.div_eq_iff (by omega)]; omega
  have f3 : ∀ m, 3 * Q ≤ m → m < 4 * Q → m / Q = 3 := fun m a b => by
    rw [Nat.div_eq_iff (by omega)]; omega
  have s1 : ∃ m, (if n / (2 * Q) % 2 = 1 then n else n + 2 * Q) = m ∧ 2 * Q ≤ m ∧ m < 4 * Q := by
    by_cases c : n < 2 * Q
    · rw [e0 n c]; exact ⟨_, rfl, by simp; omega⟩
    · rw [e1 n (by omega) h]; exact ⟨_, rfl, by simp; omega⟩
  obtain ⟨m, e, g1, g2⟩ := s1
  rw [e]
  have s2 : ∃ k, (if m / Q % 2 = 1 then m else m + Q) = k ∧ 3 * Q ≤ k ∧ k < 4 * Q := by
    by_cases c : m < 3 * Q
    · rw [f2 m g1 c]; exact ⟨_, rfl, by simp; omega⟩
    · rw [f3 m (by omega) g2]; exact ⟨_, rfl, by simp; omega⟩
  obtain ⟨k, e, g3, g4⟩ := s2
  rw [e]
  split <;> omega

theorem delta_even (ra rb : Limb) : ∀ (c : Nat) (d d' : Limb), d.toNat % 2 = 0 → d.toNat + 2 * c ≤ 2 ^ 20 →
    mpz_randprime_delta ra rb c d = some d' → d'.toNat % 2 = 0 ∧ d'.toNat < 2 ^ 20
  | 0, d, d', _, _, h => by cases h
  | c + 1, d, d', h2, hc, h => by
    have e : (d + 2).toNat = d.toNat + 2 := by
      rw [BitVec.toNat_add]
      exact Nat.mod_eq_of_lt (by show d.toNat + 2 < 2 ^ 64; omega)
    rw [mpz_randprime_delta] at h
    split at h
    · exact delta_even ra rb c _ d' (by rw [e]; omega) (by rw [e]; omega) h
    · split at h
      · exact delta_even ra rb c _ d' (by rw [e]; omega) (by rw [e]; omega) h
      · cases h
        exact ⟨h2, by omega⟩

/-- A candidate is odd, has the given number of bits, and the top two bits are set. -/
theorem candidate_of {S : Type} (rng : ByteGen S) (s : S) {bits : Nat} (hb : 1 < bits) :
    ∃ o s', mpz_randprime_candidate rng s bits = .ok (o, s') ∧
      ∀ z, o = some z → ∃ n : Nat, z = mpz_of n ∧ 3 * 2 ^ (bits - 2) ≤ n ∧ n < 2 ^ bits ∧ n % 2 = 1 := by
  obtain ⟨q, rfl⟩ : ∃ q, bits = q + 2 := ⟨bits - 2, by omega⟩
  unfold mpz_randprime_candidate
  obtain ⟨z, e, rz⟩ := mpz_urandomb_exact rng s (q + 2)
  rw [e, C.ok_bind, rep_of rz]
  dsimp only
  have h3 : q + 2 - 1 = q + 1 := rfl
  have h4 : q + 2 - 2 = q := rfl
  rw [h3, h4]
  obtain ⟨m, e', g1, g2, g3⟩ := randprime_bits (q := q) (Nat.mod_lt (leVal (rng.gen s ((q + 2 + 63) / 64 * 8)).1) (by positivity))
  generalize leVal (rng.gen s ((q + 2 + 63) / 64 * 8)).1 % 2 ^ (q + 2) = n at *
  rw [setbit_of, C.ok_bind, setbit_of, C.ok_bind] at e' ⊢
  rw [e', C.ok_bind]
  split
  · have tail : ∀ m' : Nat, m ≤ m' → m' % 2 = 1 → ∃ (o : Option Mpz) (s' : S),
        (do let len ← mpz_bitlen (mpz_of m')
            .ok (if len ≠ q + 2 then none else some (mpz_of m'), (rng.gen s ((q + 2 + 63) / 64 * 8)).2) : C (Option Mpz × S)) =
          .ok (o, s') ∧
        ∀ z, o = some z → ∃ n : Nat, z = mpz_of n ∧ 3 * 2 ^ q ≤ n ∧ n < 2 ^ (q + 2) ∧ n % 2 = 1 := fun m' g4 g5 => by
      rw [bitlen_of, C.ok_bind]
      refine ⟨_, _, rfl, fun z hz => ?_⟩
      split at hz
      · cases hz
      · rename_i h5
        cases hz
        refine ⟨m', rfl, by omega, ?_, g5⟩
        rw [Int.natAbs_natCast, not_not] at h5
        rw [← h5]
        exact Nat.lt_size_self m'
    cases hd : mpz_randprime_delta (mpz_mod_primorial (mpz_of m)).1 (mpz_mod_primorial (mpz_of m)).2 (2 ^ 19) 0 with
    | none => exact tail m (le_refl _) g3
    | some d =>
      have := delta_even _ _ _ _ _ rfl (by decide) hd
      dsimp only
      rw [add_ui_of, C.ok_bind, ← Nat.cast_add]
      exact tail (m + d.toNat) (by omega) (by omega)
  · refine ⟨_, _, rfl, fun z hz => ?_⟩
    cases hz
    exact ⟨m, rfl, g1, g2, g3⟩

theorem randprime_loop_of {S : Type} (rng : ByteGen S) (fuel : Nat) {bits : Nat} (hb : 1 < bits) : ∀ (f : Nat) (s : S),
    mpz_randprime_loop rng fuel bits f s = .spin ∨
      ∃ (n : Nat) (s' : S), mpz_randprime_loop rng fuel bits f s = .ok (mpz_of n, s') ∧ Passed rng fuel n s' ∧
        3 * 2 ^ (bits - 2) ≤ n ∧ n < 2 ^ bits ∧ n % 2 = 1
  | 0, s => Or.inl rfl
  | f + 1, s => by
    rw [mpz_randprime_loop]
    obtain ⟨o, s1, e, h⟩ := candidate_of rng s hb
    rw [R.liftM_eq, e, R.lift_ok, R.ok_bind]
    cases o with
    | none => exact randprime_loop_of rng fuel hb f s1
    | some z =>
      obtain ⟨n, rfl, h1, h2, h3⟩ := h z rfl
      dsimp only
      rcases probab_total rng fuel s1 n 20 (by decide) with e | ⟨b, s2, e⟩
      · rw [e]; exact Or.inl rfl
      · cases b with
        | true =>
          refine Or.inr ⟨n, s2, ?_, ⟨s1, e⟩, h1, h2, h3⟩
          rw [e, R.ok_bind, if_pos rfl]
        | false =>
          rw [e, R.ok_bind, if_neg Bool.false_ne_true]
          exact randprime_loop_of rng fuel hb f s2

end Torsion.Mpi
