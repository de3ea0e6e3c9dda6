import Verif.Mpi.SqrtModLemmas
import Verif.Mpi.PrimeSpec
import Verif.Mpi.Prime

/-!
# Lemmas: the test of Miller and Rabin
-/
namespace Torsion.Mpi
open Torsion.Spec

theorem cmp_ui_neg_of (i : Int) (w : Limb) : mpz_cmp_ui (mpz_of i) w < 0 ↔ i < w.toNat := by
  rw [cmp_ui_of]
  split
  · simp [*]
  · split <;> simp <;> omega

theorem cmp_ui_nonpos_of (i : Int) (w : Limb) : mpz_cmp_ui (mpz_of i) w ≤ 0 ↔ i ≤ w.toNat := by
  rw [cmp_ui_of]
  split
  · simp; omega
  · split
    · simp; omega
    · simp; omega

theorem even_of (i : Int) : mpz_even_p (mpz_of i) = .ok (decide (i % 2 = 0)) := even_rep (of_rep i)

theorem reduced_eq {n : Nat} {y c : Int} (h0 : 0 ≤ y) (h1 : y < n) (c0 : 0 ≤ c) (c1 : c < n) : y = c ↔ (y : ZMod n) = c := by
  rw [← mod_eq_of_zmod c0 c1, Int.emod_eq_of_lt h0 h1]

theorem reduced_one {n : Nat} (hn : 2 < n) {y : Int} (h0 : 0 ≤ y) (h1 : y < n) : y = 1 ↔ (y : ZMod n) = 1 := by
  rw [reduced_eq h0 h1 (by omega) (by omega), Int.cast_one]

theorem reduced_neg_one {n : Nat} (hn : 2 < n) {y : Int} (h0 : 0 ≤ y) (h1 : y < n) :
    y = ((n - 1 : Nat) : Int) ↔ (y : ZMod n) = -1 := by
  rw [reduced_eq h0 h1 (by omega) (by omega), show ((n - 1 : Nat) : Int) = (n : Int) - 1 by omega]
  push_cast
  rw [ZMod.natCast_self, zero_sub]

theorem one_ne_neg_one {n : Nat} (hn : 2 < n) : (1 : ZMod n) ≠ -1 := by
  intro h
  have h2 : ((2 : Nat) : ZMod n) = 0 := by push_cast; linear_combination h
  have := Nat.le_of_dvd (by omega) ((ZMod.natCast_eq_zero_iff 2 n).1 h2)
  omega

theorem chain_of {n : Nat} (hn : 2 < n) : ∀ (c : Nat) (y : Int),
    ∃ b, mpz_mr_chain (mpz_of n) (mpz_of ((n - 1 : Nat) : Int)) c (mpz_of y) = .ok b ∧
      (b = true ↔ ∃ r < c, (y : ZMod n) ^ 2 ^ (r + 1) = -1)
  | 0, y => ⟨false, rfl, by simp⟩
  | c + 1, y => by
    unfold mpz_mr_chain
    rw [sqr_of, C.ok_bind, mod_nat_of _ (by omega), C.ok_bind]
    have h0 : 0 ≤ y * y % (n : Int) := Int.emod_nonneg _ (by omega)
    have h1 : y * y % (n : Int) < n := Int.emod_lt_of_pos _ (by omega)
    have hc : ((y * y % (n : Int) : Int) : ZMod n) = (y : ZMod n) ^ 2 := by rw [zmod_mod, Int.cast_mul, pow_two]
    have hp : ∀ r, (y : ZMod n) ^ 2 ^ (r + 1) = ((y : ZMod n) ^ 2) ^ 2 ^ r := fun r => by rw [← pow_mul, pow_succ' 2 r]
    by_cases h : y * y % (n : Int) = ((n - 1 : Nat) : Int)
    · rw [if_pos ((cmp_zero_of _ _).2 h)]
      refine ⟨true, rfl, fun _ => ⟨0, by omega, ?_⟩, fun _ => rfl⟩
      rw [hp, pow_zero, pow_one, ← hc]
      exact (reduced_neg_one hn h0 h1).1 h
    · rw [if_neg fun h' => h ((cmp_zero_of _ _).1 h')]
      have hm : (y : ZMod n) ^ 2 ≠ -1 := fun h' => h ((reduced_neg_one hn h0 h1).2 (by rw [hc, h']))
      by_cases ho : y * y % (n : Int) = 1
      · rw [if_pos ((cmp_ui_zero_of _ _).2 ho)]
        have hy : (y : ZMod n) ^ 2 = 1 := by rw [← hc]; exact (reduced_one hn h0 h1).1 ho
        refine ⟨false, rfl, fun h => absurd h (by decide), ?_⟩
        rintro ⟨r, -, hr⟩
        rw [hp, hy, one_pow] at hr
        exact absurd hr (one_ne_neg_one hn)
      · rw [if_neg fun h' => ho ((cmp_ui_zero_of _ _).1 h')]
        obtain ⟨b, e, hb⟩ := chain_of hn c (y * y % (n : Int))
        refine ⟨b, e, hb.trans ?_⟩
        rw [hc]
        constructor
        · rintro ⟨r, hr, h⟩
          exact ⟨r + 1, by omega, by rw [hp]; exact h⟩
        · rintro ⟨r, hr, h⟩
          cases r with
          | zero => exact absurd (by rw [hp, pow_zero, pow_one] at h; exact h) hm
          | succ r => exact ⟨r, by omega, by rw [hp] at h; exact h⟩

/-- The condition of a round in the ring of remainders. -/
def StrongZ (n k q : Nat) (a : ZMod n) : Prop := a ^ q = 1 ∨ ∃ r < k, a ^ (2 ^ r * q) = -1

theorem mr_base_of {n : Nat} (hn : 2 < n) {k : Nat} (hk : 1 ≤ k) (q : Nat) (x : Int) :
    ∃ b, mpz_mr_base (mpz_of n) (mpz_of ((n - 1 : Nat) : Int)) (mpz_of q) k (mpz_of x) = .ok b ∧
      (b = true ↔ StrongZ n k q x) := by
  unfold mpz_mr_base StrongZ
  rw [powm_nat_of _ _ (by omega), C.ok_bind]
  have h0 : 0 ≤ x ^ q % (n : Int) := Int.emod_nonneg _ (by omega)
  have h1 : x ^ q % (n : Int) < n := Int.emod_lt_of_pos _ (by omega)
  have hc : ((x ^ q % (n : Int) : Int) : ZMod n) = (x : ZMod n) ^ q := by rw [zmod_mod, Int.cast_pow]
  have hp : ∀ r, (x : ZMod n) ^ (2 ^ r * q) = ((x : ZMod n) ^ q) ^ 2 ^ r := fun r => by rw [← pow_mul, Nat.mul_comm]
  simp only [cmp_ui_zero_of, cmp_zero_of]
  by_cases h : x ^ q % (n : Int) = ((1 : Limb).toNat : Int) ∨ x ^ q % (n : Int) = ((n - 1 : Nat) : Int)
  · rw [if_pos h]
    refine ⟨true, rfl, fun _ => ?_, fun _ => rfl⟩
    rcases h with h | h
    · left; rw [← hc]; exact (reduced_one hn h0 h1).1 h
    · right; exact ⟨0, by omega, by rw [hp, pow_zero, pow_one, ← hc]; exact (reduced_neg_one hn h0 h1).1 h⟩
  · rw [if_neg h]
    have g1 : (x : ZMod n) ^ q ≠ 1 := fun g => h (Or.inl ((reduced_one hn h0 h1).2 (by rw [hc, g])))
    have g2 : (x : ZMod n) ^ q ≠ -1 := fun g => h (Or.inr ((reduced_neg_one hn h0 h1).2 (by rw [hc, g])))
    obtain ⟨b, e, hb⟩ := chain_of hn (k - 1) (x ^ q % (n : Int))
    refine ⟨b, e, hb.trans ?_⟩
    rw [hc]
    constructor
    · rintro ⟨r, hr, h⟩
      exact Or.inr ⟨r + 1, by omega, by rw [hp]; exact h⟩
    · rintro (h | ⟨r, hr, h⟩)
      · exact absurd h g1
      · rw [hp] at h
        cases r with
        | zero => exact absurd (by simpa using h) g2
        | succ r => exact ⟨r, by omega, h⟩

theorem two_odd_unique {s d k q : Nat} (hd : d % 2 = 1) (hq : q % 2 = 1) (h : 2 ^ s * d = 2 ^ k * q) : s = k ∧ d = q := by
  have key : ∀ {s d k q : Nat}, q % 2 = 1 → 2 ^ s * d = 2 ^ k * q → s ≤ k := fun {s d k q} hq h => by
    have hc : Nat.Coprime (2 ^ s) q := Nat.Coprime.pow_left _ (Nat.coprime_two_left.2 (Nat.odd_iff.2 hq))
    have := hc.dvd_of_dvd_mul_right (⟨d, h.symm⟩ : 2 ^ s ∣ 2 ^ k * q)
    exact (Nat.pow_dvd_pow_iff_le_right (by omega)).1 this
  have e : s = k := Nat.le_antisymm (key hq h) (key hd h.symm)
  subst e
  exact ⟨rfl, Nat.eq_of_mul_eq_mul_left (Nat.two_pow_pos s) h⟩

theorem mod_one_iff {n : Nat} (hn : 2 < n) (x : Nat) : x % n = 1 ↔ (x : ZMod n) = 1 := by
  have := (mod_eq_of_zmod (p := n) (a := (x : Int)) (x := 1) (by omega) (by omega))
  rw [Int.cast_one, Int.cast_natCast] at this
  rw [← this]
  omega

theorem mod_neg_one_iff {n : Nat} (hn : 2 < n) (x : Nat) : x % n = n - 1 ↔ (x : ZMod n) = -1 := by
  have := reduced_neg_one hn (y := (x : Int) % n) (Int.emod_nonneg _ (by omega)) (Int.emod_lt_of_pos _ (by omega))
  rw [zmod_mod, Int.cast_natCast] at this
  rw [← this]
  omega

theorem strong_iff {n k q : Nat} (hn : 2 < n) (h : n - 1 = 2 ^ k * q) (hq : q % 2 = 1) (a : Nat) :
    StrongProbablePrime n a ↔ StrongZ n k q (a : ZMod n) := by
  unfold StrongProbablePrime StrongZ
  have e : ∀ m, a ^ m % n = 1 ↔ (a : ZMod n) ^ m = 1 := fun m => by rw [mod_one_iff hn, Nat.cast_pow]
  have e' : ∀ m, a ^ m % n = n - 1 ↔ (a : ZMod n) ^ m = -1 := fun m => by rw [mod_neg_one_iff hn, Nat.cast_pow]
  simp only [e, e']
  constructor
  · rintro ⟨s, d, h1, h2, h3⟩
    obtain ⟨rfl, rfl⟩ := two_odd_unique h2 hq (h1.symm.trans h)
    exact h3
  · exact fun h3 => ⟨k, q, h, hq, h3⟩

/-- A root of unity of order a power of two, in a field. -/
theorem two_power_order {K : Type} [Field K] (x : K) : ∀ k, x ^ 2 ^ k = 1 → x = 1 ∨ ∃ r < k, x ^ 2 ^ r = -1
  | 0, h => Or.inl (by simpa using h)
  | k + 1, h => by
    rw [pow_succ 2 k, pow_mul, pow_two] at h
    rcases mul_self_eq_one_iff.1 h with h | h
    · rcases two_power_order x k h with h | ⟨r, hr, h⟩
      · exact Or.inl h
      · exact Or.inr ⟨r, by omega, h⟩
    · exact Or.inr ⟨k, by omega, h⟩

theorem prime_strongZ {n k q : Nat} (hn : n.Prime) (h : n - 1 = 2 ^ k * q) {a : ZMod n} (ha : a ≠ 0) : StrongZ n k q a := by
  have : Fact n.Prime := ⟨hn⟩
  have hp : ∀ r, a ^ (2 ^ r * q) = (a ^ q) ^ 2 ^ r := fun r => by rw [← pow_mul, Nat.mul_comm]
  unfold StrongZ
  simp only [hp]
  apply two_power_order
  rw [← hp, ← h]
  exact ZMod.pow_card_sub_one_eq_one ha

theorem prime_strong {n : Nat} (hn : n.Prime) (h2 : 2 < n) {a : Nat} (ha : 0 < a) (han : a < n) : StrongProbablePrime n a := by
  have ho : n % 2 = 1 := (hn.eq_two_or_odd).resolve_left (by omega)
  obtain ⟨h1, hm, hq⟩ := split_pred ho (by omega)
  rw [Nat.mul_comm] at hm
  rw [strong_iff h2 hm.symm hq]
  refine prime_strongZ hn hm.symm fun h0 => ?_
  have := Nat.le_of_dvd ha ((ZMod.natCast_eq_zero_iff a n).1 h0)
  omega

/-! ### The rounds -/

/-- The bases of `c` rounds, drawn one after another (the last of them is two with `force2`). -/
def Drawn {S : Type} (rng : ByteGen S) (fuel n : Nat) (force2 : Bool) : Nat → S → List Nat → S → Prop
  | 0, s, l, s' => l = [] ∧ s' = s
  | c + 1, s, l, s' => ∃ a l' s1, l = a :: l' ∧ 2 ≤ a ∧ a ≤ n - 2 ∧
    (if c = 0 ∧ force2 = true then a = 2 ∧ s1 = s
      else mpz_urandomm rng fuel s (mpz_of ((n - 3 : Nat) : Int)) = .ok (mpz_of ((a - 2 : Nat) : Int), s1)) ∧
    Drawn rng fuel n force2 c s1 l' s'

theorem rounds_of {S : Type} (rng : ByteGen S) (fuel : Nat) {n : Nat} (hn : 7 < n) {k q : Nat} (h : n - 1 = 2 ^ k * q)
    (hq : q % 2 = 1) (hk : 1 ≤ k) (force2 : Bool) : ∀ (c : Nat) (s : S) (X : R (Bool × S)),
    X = mpz_mr_rounds rng fuel (mpz_of n) (mpz_of ((n - 1 : Nat) : Int)) (mpz_of ((n - 3 : Nat) : Int)) (mpz_of q) k force2 c s →
    (X = .spin ∨ ∃ b s', X = .ok (b, s')) ∧
    (∀ s', X = .ok (true, s') ↔ ∃ l, Drawn rng fuel n force2 c s l s' ∧ ∀ a ∈ l, StrongProbablePrime n a) ∧
    (∀ s', X = .ok (false, s') → ∃ a, 2 ≤ a ∧ a ≤ n - 2 ∧ ¬ StrongProbablePrime n a)
  | 0, s, X, hX => by
    subst hX
    unfold mpz_mr_rounds Drawn
    refine ⟨Or.inr ⟨_, _, rfl⟩, fun s' => ⟨fun h => ?_, ?_⟩, fun s' h => by cases h⟩
    · cases h
      exact ⟨[], ⟨rfl, rfl⟩, by simp⟩
    · rintro ⟨l, ⟨-, rfl⟩, -⟩
      rfl
  | c + 1, s, X, hX => by
    unfold mpz_mr_rounds at hX
    have hdraw : ∀ Y : R (Mpz × S), Y = (if c = 0 ∧ force2 = true then .ok (mpz_set_ui 2, s) else do
        let xs ← mpz_urandomm rng fuel s (mpz_of ((n - 3 : Nat) : Int))
        let x ← R.lift (mpz_add_ui .heap xs.1 2)
        .ok (x, xs.2) : R (Mpz × S)) →
        (Y = .spin ∧ ∀ a s1, ¬ (if c = 0 ∧ force2 = true then a = 2 ∧ s1 = s
          else mpz_urandomm rng fuel s (mpz_of ((n - 3 : Nat) : Int)) = .ok (mpz_of ((a - 2 : Nat) : Int), s1))) ∨
        ∃ a s1, Y = .ok (mpz_of (a : Nat), s1) ∧ 2 ≤ a ∧ a ≤ n - 2 ∧ ∀ a' s1', 2 ≤ a' → ((if c = 0 ∧ force2 = true then a' = 2 ∧ s1' = s
          else mpz_urandomm rng fuel s (mpz_of ((n - 3 : Nat) : Int)) = .ok (mpz_of ((a' - 2 : Nat) : Int), s1')) ↔ a' = a ∧ s1' = s1) := by
      intro Y hY
      by_cases hf : c = 0 ∧ force2 = true
      · simp only [if_pos hf] at hY ⊢
        right
        exact ⟨2, s, by rw [hY, set_ui_of]; rfl, by omega, by omega, fun _ _ _ => Iff.rfl⟩
      · simp only [if_neg hf] at hY ⊢
        rcases urandomm_of rng fuel s (m := n - 3) (by omega) with hs | ⟨a, s1, hs, ha⟩
        · left
          rw [hs] at hY ⊢
          exact ⟨hY, fun a s1 h => by cases h⟩
        · right
          refine ⟨a + 2, s1, ?_, by omega, by omega, fun a' s1' h2 => ?_⟩
          · rw [hY, hs, R.ok_bind, add_ui_of, R.lift_ok, R.ok_bind]
            push_cast
            rfl
          · rw [hs]
            constructor
            · intro h
              have h1 := (Prod.ext_iff.1 (R.ok.inj h))
              have h3 := of_inj.1 h1.1
              exact ⟨by omega, h1.2.symm⟩
            · rintro ⟨rfl, rfl⟩
              rw [Nat.add_sub_cancel]
    simp only [R.liftM_eq] at hX
    rcases hdraw _ rfl with ⟨hs, hno⟩ | ⟨a, s1, hs, ha2, han, hiff⟩
    · rw [hs, R.spin_bind] at hX
      refine ⟨Or.inl hX, fun s' => ⟨fun h => (by rw [hX] at h; cases h), ?_⟩, fun s' h => by rw [hX] at h; cases h⟩
      rintro ⟨l, hl, -⟩
      unfold Drawn at hl
      obtain ⟨a, l', s1, -, -, -, h, -⟩ := hl
      exact absurd h (hno a s1)
    · obtain ⟨b, e, hb⟩ := mr_base_of (show 2 < n by omega) hk q (a : Int)
      rw [Int.cast_natCast, ← strong_iff (by omega) h hq] at hb
      rw [hs, R.ok_bind] at hX
      dsimp only at hX
      rw [e, R.lift_ok, R.ok_bind] at hX
      cases b with
      | false =>
        rw [if_neg (by decide)] at hX
        have hns : ¬ StrongProbablePrime n a := fun h => absurd (hb.2 h) (by decide)
        refine ⟨Or.inr ⟨_, _, hX⟩, fun s' => ⟨fun h => (by rw [hX] at h; cases h), ?_⟩, fun s' _ => ⟨a, ha2, han, hns⟩⟩
        rintro ⟨l, hl, hall⟩
        unfold Drawn at hl
        obtain ⟨a', l', s1', rfl, h2, -, h, -⟩ := hl
        obtain ⟨rfl, -⟩ := (hiff a' s1' h2).1 h
        exact absurd (hall _ (by simp)) hns
      | true =>
        rw [if_pos rfl] at hX
        obtain ⟨i1, i2, i3⟩ := rounds_of rng fuel hn h hq hk force2 c s1 X hX
        refine ⟨i1, fun s' => (i2 s').trans ?_, i3⟩
        constructor
        · rintro ⟨l, hl, hall⟩
          refine ⟨a :: l, ?_, ?_⟩
          · unfold Drawn
            exact ⟨a, l, s1, rfl, ha2, han, (hiff a s1 ha2).2 ⟨rfl, rfl⟩, hl⟩
          · intro x hx
            rcases List.mem_cons.1 hx with rfl | hx
            · exact hb.1 rfl
            · exact hall x hx
        · rintro ⟨l, hl, hall⟩
          unfold Drawn at hl
          obtain ⟨a', l', s1', rfl, h2, -, h, hl⟩ := hl
          obtain ⟨rfl, rfl⟩ := (hiff a' s1' h2).1 h
          exact ⟨l', hl, fun x hx => hall x (List.mem_cons_of_mem _ hx)⟩

theorem mr_prime_of {S : Type} (rng : ByteGen S) (fuel : Nat) (s : S) {n : Nat} (ho : n % 2 = 1) (hn : 7 < n) (reps : Int)
    (force2 : Bool) : ∃ k q, n - 1 = 2 ^ k * q ∧ q % 2 = 1 ∧ 1 ≤ k ∧ mpz_mr_prime_p rng fuel s (mpz_of n) reps force2 =
      mpz_mr_rounds rng fuel (mpz_of n) (mpz_of ((n - 1 : Nat) : Int)) (mpz_of ((n - 3 : Nat) : Int)) (mpz_of (q : Nat)) k force2
        reps.toNat s := by
  obtain ⟨h1, hm, hq⟩ := split_pred ho (by omega)
  refine ⟨_, _, (by rw [Nat.mul_comm]; exact hm.symm), hq, h1, ?_⟩
  unfold mpz_mr_prime_p
  rw [if_neg (by rw [cmp_ui_neg_of]; show ¬ ((n : Int) < (2 : Nat)); omega), R.liftM_eq, even_of, R.lift_ok, R.ok_bind,
    if_neg (by rw [decide_eq_true_iff]; omega), if_neg (by rw [cmp_ui_nonpos_of]; show ¬ ((n : Int) ≤ (7 : Nat)); omega),
    R.liftM_eq, sub_1_of, R.lift_ok, R.ok_bind, R.liftM_eq, sub_ui_of, R.lift_ok, R.ok_bind,
    show ((n : Int) - 1) = ((n - 1 : Nat) : Int) by omega,
    show (((n - 1 : Nat) : Int) - (2 : Limb).toNat) = ((n - 3 : Nat) : Int) by rw [show (2 : Limb).toNat = 2 from rfl]; omega]
  dsimp only
  rw [R.liftM_eq, quo_2exp_of, R.lift_ok, R.ok_bind, shift_nat]

theorem mr_small {S : Type} (rng : ByteGen S) (fuel : Nat) (s : S) {i : Int} (h : i ≤ 7 ∨ i % 2 = 0) (reps : Int)
    (force2 : Bool) : mpz_mr_prime_p rng fuel s (mpz_of i) reps force2 = .ok (decide (i = 2 ∨ i = 3 ∨ i = 5 ∨ i = 7), s) := by
  unfold mpz_mr_prime_p
  by_cases h2 : i < 2
  · rw [if_pos ((cmp_ui_neg_of _ _).2 h2), decide_eq_false (by omega)]
  · rw [if_neg (by rw [cmp_ui_neg_of]; exact h2), R.liftM_eq, even_of, R.lift_ok, R.ok_bind]
    by_cases he : i % 2 = 0
    · rw [if_pos (by rw [decide_eq_true_iff]; exact he)]
      congr 2
      rw [decide_eq_decide, cmp_ui_zero_of]
      show i = (2 : Nat) ↔ _
      omega
    · rw [if_neg (by rw [decide_eq_true_iff]; exact he), if_pos ((cmp_ui_nonpos_of _ _).2 (show i ≤ (7 : Nat) by omega)),
        decide_eq_true (by omega)]

end Torsion.Mpi
