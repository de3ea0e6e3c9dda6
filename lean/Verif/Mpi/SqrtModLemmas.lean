import Mathlib.NumberTheory.LegendreSymbol.JacobiSymbol
import Mathlib.NumberTheory.LegendreSymbol.QuadraticReciprocity
import Mathlib.Tactic.LinearCombination
import Verif.Mpi.NumberLemmas
import Verif.Mpi.GcdProps
import Verif.Mpi.SqrtMod

/-!
# Lemmas: square roots modulo a prime
-/
namespace Torsion.Mpi
open Torsion.Spec

theorem jacobi_of (i : Int) {p : Nat} (hp : p % 2 = 1) : mpz_jacobi (mpz_of i) (mpz_of p) = .ok (jacobiSym i p) := by
  have := (mpz_jacobi_exact _ _ i p (of_rep i) (of_rep p)).2.1 (by omega) (by omega)
  rwa [Int.toNat_natCast] at this

theorem cmp_zero_of (i j : Int) : mpz_cmp (mpz_of i) (mpz_of j) = 0 ↔ i = j := by
  rw [cmp_of]
  split
  · constructor
    · intro h; exact absurd h (by decide)
    · intro h; omega
  · split
    · simp [*]
    · constructor
      · intro h; exact absurd h (by decide)
      · intro h; contradiction

theorem cmp_ui_zero_of (i : Int) (w : Limb) : mpz_cmp_ui (mpz_of i) w = 0 ↔ i = w.toNat := by
  rw [cmp_ui_of]
  split
  · constructor
    · intro h; exact absurd h (by decide)
    · intro h; omega
  · split
    · simp [*]
    · constructor
      · intro h; exact absurd h (by decide)
      · intro h; contradiction

theorem mod_nat_of (i : Int) {p : Nat} (hp : 0 < p) : mpz_mod .heap (mpz_of i) (mpz_of p) = .ok (mpz_of (i % p)) :=
  mod_of i (by omega)

theorem powm_nat_of (i : Int) (e : Nat) {p : Nat} (hp : 0 < p) :
    mpz_powm .heap (mpz_of i) (mpz_of e) (mpz_of p) = .ok (mpz_of (i ^ e % p)) := by
  rw [powm_of i (by omega) (by omega), Int.toNat_natCast]

theorem shift_nat (a b : Nat) : (a : Int).tdiv (2 ^ b) = ((a / 2 ^ b : Nat) : Int) := by
  rw [Int.tdiv_eq_ediv_of_nonneg (by omega)]
  push_cast
  rfl

/-! ### The two direct formulas -/

/-- The candidate of `mpz_sqrtm_3mod4`. -/
def root3 (x : Int) (p : Nat) : Int := x ^ ((p + 1) / 4) % p

theorem sqrtm3_of (x : Int) {p : Nat} (hp : 0 < p) : mpz_sqrtm_3mod4 (mpz_of x) (mpz_of p) =
    .ok (if root3 x p * root3 x p % p = x then some (mpz_of (root3 x p)) else none) := by
  unfold mpz_sqrtm_3mod4
  rw [add_1_of, C.ok_bind, show (p : Int) + 1 = ((p + 1 : Nat) : Int) by push_cast; rfl, quo_2exp_of, C.ok_bind,
    shift_nat, powm_nat_of _ _ hp, C.ok_bind, sqr_of, C.ok_bind, mod_nat_of _ hp, C.ok_bind]
  show C.ok (if mpz_cmp (mpz_of (root3 x p * root3 x p % p)) (mpz_of x) ≠ 0 then none else some (mpz_of (root3 x p))) = _
  by_cases h : root3 x p * root3 x p % p = x
  · rw [if_neg (not_not.2 ((cmp_zero_of _ _).2 h)), if_pos h]
  · rw [if_pos (mt (cmp_zero_of _ _).1 h), if_neg h]

/-- The candidate of `mpz_sqrtm_5mod8`. -/
def root5 (x : Int) (p : Nat) : Int :=
  let t : Int := x * 2 ^ 1 % (p : Int)
  let a : Int := t ^ (p / 8) % (p : Int)
  (((a * a % p * t % p - 1) * x % p) * a) % p

theorem sqrtm5_of (x : Int) {p : Nat} (hp : 0 < p) : mpz_sqrtm_5mod8 (mpz_of x) (mpz_of p) =
    .ok (if root5 x p * root5 x p % p = x then some (mpz_of (root5 x p)) else none) := by
  unfold mpz_sqrtm_5mod8
  rw [mul_2exp_of, C.ok_bind, mod_nat_of _ hp, C.ok_bind, quo_2exp_of, C.ok_bind,
    shift_nat, powm_nat_of _ _ hp, C.ok_bind]
  simp only [sqr_of, C.ok_bind, mod_nat_of _ hp, mul_of, sub_1_of]
  show C.ok (if mpz_cmp (mpz_of (root5 x p * root5 x p % p)) (mpz_of x) ≠ 0 then none else some (mpz_of (root5 x p))) = _
  by_cases h : root5 x p * root5 x p % p = x
  · rw [if_neg (not_not.2 ((cmp_zero_of _ _).2 h)), if_pos h]
  · rw [if_pos (mt (cmp_zero_of _ _).1 h), if_neg h]

/-! ### Residues -/

theorem zmod_eq_iff {p : Nat} {a b : Int} : ((a : ZMod p) = b) ↔ (p : Int) ∣ a - b := by
  rw [← sub_eq_zero, ← Int.cast_sub, ZMod.intCast_zmod_eq_zero_iff_dvd]

theorem zmod_mod (p : Nat) (a : Int) : ((a % p : Int) : ZMod p) = a := by
  rw [zmod_eq_iff]
  exact ⟨-(a / p), by have := Int.emod_add_mul_ediv a p; linarith⟩

theorem mod_eq_of_zmod {p : Nat} {a x : Int} (h0 : 0 ≤ x) (h1 : x < p) : a % p = x ↔ ((a : ZMod p) = x) := by
  constructor
  · intro h; rw [← h, zmod_mod]
  · intro h
    rw [zmod_eq_iff] at h
    obtain ⟨k, hk⟩ := h
    have : a = x + p * k := by linarith
    rw [this, Int.add_mul_emod_self_left, Int.emod_eq_of_lt h0 h1]

theorem square_iff {p : Nat} {x : Int} : (∃ r : Int, (p : Int) ∣ r * r - x) ↔ IsSquare (x : ZMod p) := by
  constructor
  · rintro ⟨r, h⟩
    exact ⟨(r : ZMod p), by rw [← Int.cast_mul]; exact (zmod_eq_iff.2 h).symm⟩
  · rintro ⟨r, h⟩
    obtain ⟨s, rfl⟩ := ZMod.intCast_surjective r
    exact ⟨s, by rw [← zmod_eq_iff, Int.cast_mul, h]⟩

theorem root3_sq {p : Nat} [Fact p.Prime] (hp : p % 4 = 3) {x : Int} (h : IsSquare (x : ZMod p)) :
    ((root3 x p : Int) : ZMod p) * (root3 x p : Int) = x := by
  obtain ⟨r, hr⟩ := h
  unfold root3
  rw [zmod_mod, Int.cast_pow, ← pow_add, hr, ← pow_two, ← pow_mul,
    show 2 * ((p + 1) / 4 + (p + 1) / 4) = p + 1 by omega, pow_succ, ZMod.pow_card]
  ring

theorem two_pow {p : Nat} [Fact p.Prime] (hp : p % 8 = 5) : (2 : ZMod p) ^ (p / 2) = -1 := by
  have h2 : (2 : ZMod p) ≠ 0 := by
    intro h
    have : ((2 : Nat) : ZMod p) = 0 := by exact_mod_cast h
    rw [ZMod.natCast_eq_zero_iff] at this
    have := Nat.le_of_dvd (by norm_num) this
    omega
  rcases ZMod.pow_div_two_eq_neg_one_or_one p h2 with h | h
  · exfalso
    have := (ZMod.exists_sq_eq_two_iff (by omega)).1 ((ZMod.euler_criterion p h2).2 h)
    omega
  · exact h

theorem root5_sq {p : Nat} [Fact p.Prime] (hp : p % 8 = 5) {x : Int} (h : IsSquare (x : ZMod p)) :
    ((root5 x p : Int) : ZMod p) * (root5 x p : Int) = x := by
  unfold root5
  simp only
  rw [zmod_mod]
  simp only [Int.cast_mul, zmod_mod, Int.cast_sub, Int.cast_pow, Int.cast_one, pow_one, Int.cast_ofNat]
  by_cases h0 : (x : ZMod p) = 0
  · rw [h0]; ring
  have hx : (x : ZMod p) ^ (p / 2) = 1 := (ZMod.euler_criterion p h0).1 h
  generalize (x : ZMod p) = a at *
  have hi : ((a * 2) ^ (p / 8) * (a * 2) ^ (p / 8) * (a * 2)) ^ 2 = -1 := by
    have e : ((a * 2) ^ (p / 8) * (a * 2) ^ (p / 8) * (a * 2)) ^ 2 = (a * 2) ^ (p / 2) := by
      rw [← pow_add, ← pow_succ, ← pow_mul]
      congr 1
      omega
    rw [e, mul_pow, hx, two_pow hp, one_mul]
  generalize (a * 2) ^ (p / 8) = A at *
  linear_combination (a ^ 2 * A ^ 2 - a) * hi

/-! ### Tonelli-Shanks -/

theorem order_of {p : Nat} (hp : 1 < p) : ∀ (d f : Nat) (t : Int) (m : Nat), 0 ≤ t → t < p →
    (∀ e < d, (t : ZMod p) ^ (2 ^ e) ≠ 1) → (t : ZMod p) ^ (2 ^ d) = 1 → d < f →
    mpz_sqrtm_order (mpz_of p) f (mpz_of t) m = .ok (m + d)
  | _, 0, _, _, _, _, _, _, h => absurd h (by omega)
  | d, f + 1, t, m, h0, h1, hlt, hd, hf => by
    have key : ∀ u : Int, 0 ≤ u → u < p → ((u : ZMod p) = 1 ↔ u = 1) := fun u hu hu' => by
      constructor
      · intro h
        have := (mod_eq_of_zmod (p := p) (a := u) (x := 1) (by omega) (by omega)).2 (by rw [h, Int.cast_one])
        rwa [Int.emod_eq_of_lt hu hu'] at this
      · rintro rfl; simp
    unfold mpz_sqrtm_order
    by_cases ht : t = 1
    · have : d = 0 := by
        by_contra hc
        exact hlt 0 (by omega) (by rw [ht]; simp)
      rw [if_neg (by rw [not_not, cmp_ui_zero_of, ht]; rfl), this, Nat.add_zero]
    · obtain ⟨d, rfl⟩ : ∃ d', d = d' + 1 := by
        cases d with
        | zero => rw [pow_zero, pow_one] at hd; exact absurd ((key t h0 h1).1 hd) ht
        | succ d => exact ⟨d, rfl⟩
      have e : ∀ j, (((t * t % p : Int)) : ZMod p) ^ (2 ^ j) = (t : ZMod p) ^ (2 ^ (j + 1)) := fun j => by
        rw [zmod_mod, Int.cast_mul, ← pow_two, ← pow_mul, pow_succ 2 j, Nat.mul_comm]
      rw [if_pos (by rw [ne_eq, cmp_ui_zero_of]; exact ht)]
      simp only [R.liftM_eq, sqr_of, R.lift_ok, R.ok_bind, mod_nat_of _ (by omega : 0 < p)]
      rw [order_of hp d f _ (m + 1) (Int.emod_nonneg _ (by omega)) (Int.emod_lt_of_pos _ (by omega))
        (fun j hj => by rw [e]; exact hlt (j + 1) (by omega)) (by rw [e]; exact hd) (by omega)]
      congr 1
      omega

theorem order_zero {p : Nat} (hp : 0 < p) : ∀ (f : Nat) (t : Int) (m r : Nat),
    mpz_sqrtm_order (mpz_of p) f (mpz_of t) m = .ok r → m ≤ r ∧ (r = m → t = 1)
  | 0, _, _, _, h => by cases h
  | f + 1, t, m, r, h => by
    unfold mpz_sqrtm_order at h
    by_cases ht : t = 1
    · rw [if_neg (by rw [not_not, cmp_ui_zero_of, ht]; rfl)] at h
      cases h
      exact ⟨le_refl _, fun _ => ht⟩
    · rw [if_pos (by rw [ne_eq, cmp_ui_zero_of]; exact ht)] at h
      simp only [R.liftM_eq, sqr_of, R.lift_ok, R.ok_bind, mod_nat_of _ hp] at h
      have := order_zero hp f _ _ _ h
      exact ⟨by omega, fun hr => by omega⟩

theorem order_outcome {p : Nat} (hp : 0 < p) : ∀ (f : Nat) (t : Int) (m : Nat),
    mpz_sqrtm_order (mpz_of p) f (mpz_of t) m = .spin ∨ ∃ r, mpz_sqrtm_order (mpz_of p) f (mpz_of t) m = .ok r
  | 0, _, _ => Or.inl rfl
  | f + 1, t, m => by
    unfold mpz_sqrtm_order
    by_cases ht : t = 1
    · rw [if_neg (by rw [not_not, cmp_ui_zero_of, ht]; rfl)]
      exact Or.inr ⟨_, rfl⟩
    · rw [if_pos (by rw [ne_eq, cmp_ui_zero_of]; exact ht)]
      simp only [R.liftM_eq, sqr_of, R.lift_ok, R.ok_bind, mod_nat_of _ hp]
      exact order_outcome hp f _ _

theorem pow_of {p : Nat} (hp : 0 < p) : ∀ (c : Nat) (t : Int), 0 ≤ t → t < p →
    ∃ u : Int, mpz_sqrtm_pow (mpz_of p) c (mpz_of t) = .ok (mpz_of u) ∧ 0 ≤ u ∧ u < p ∧
      (u : ZMod p) = (t : ZMod p) ^ (2 ^ c)
  | 0, t, h0, h1 => ⟨t, rfl, h0, h1, by simp⟩
  | c + 1, t, h0, h1 => by
    obtain ⟨u, e, h2, h3, h4⟩ := pow_of hp c (t * t % p) (Int.emod_nonneg _ (by omega)) (Int.emod_lt_of_pos _ (by omega))
    refine ⟨u, ?_, h2, h3, ?_⟩
    · unfold mpz_sqrtm_pow
      rw [sqr_of, C.ok_bind, mod_nat_of _ hp, C.ok_bind, e]
    · rw [h4, zmod_mod, Int.cast_mul, ← pow_two, ← pow_mul, pow_succ 2 c, Nat.mul_comm]

/-- One round on residues. -/
theorem loop_round {p : Nat} (hp : 0 < p) (fuel f m k : Nat) (y b g : Int) (hg0 : 0 ≤ g) (hg1 : g < p)
    (hm : mpz_sqrtm_order (mpz_of p) fuel (mpz_of b) 0 = .ok m) (hm0 : m ≠ 0) (hk : m < k) :
    ∃ t : Int, (t : ZMod p) = (g : ZMod p) ^ (2 ^ (k - m - 1)) ∧
      mpz_sqrtm_loop (mpz_of p) fuel (f + 1) (mpz_of y) (mpz_of b) (mpz_of g) k =
        mpz_sqrtm_loop (mpz_of p) fuel f (mpz_of (y * t % p)) (mpz_of (b * (t * t % p) % p)) (mpz_of (t * t % p)) m := by
  obtain ⟨t, et, -, -, ht⟩ := pow_of hp (k - m - 1) g hg0 hg1
  refine ⟨t, ht, ?_⟩
  conv_lhs => unfold mpz_sqrtm_loop
  simp only [R.liftM_eq, set_of, R.lift_ok, R.ok_bind]
  rw [hm, R.ok_bind, if_neg hm0, if_neg (by omega), et]
  simp only [R.lift_ok, R.ok_bind, sqr_of, mul_of, mod_nat_of _ hp]

/-- Every value returned by the loop squares to `x`, for every modulus. -/
theorem loop_sound {p : Nat} (hp : 0 < p) (fuel : Nat) (x : Int) : ∀ (f : Nat) (y b g : Int) (k : Nat) (o : Option Mpz),
    0 ≤ y → y < p → 0 ≤ g → g < p → (y : ZMod p) * y = x * b →
    mpz_sqrtm_loop (mpz_of p) fuel f (mpz_of y) (mpz_of b) (mpz_of g) k = .ok o →
    ∀ z, o = some z → ∃ r : Int, z = mpz_of r ∧ 0 ≤ r ∧ r < p ∧ (r : ZMod p) * r = x
  | 0, _, _, _, _, _, _, _, _, _, _, h => by cases h
  | f + 1, y, b, g, k, o, hy0, hy1, hg0, hg1, hinv, h => by
    intro z hz
    rcases order_outcome hp fuel b 0 with hs | ⟨m, hm⟩
    · unfold mpz_sqrtm_loop at h
      simp only [R.liftM_eq, set_of, R.lift_ok, R.ok_bind] at h
      rw [hs] at h
      cases h
    by_cases hm0 : m = 0
    · subst hm0
      unfold mpz_sqrtm_loop at h
      simp only [R.liftM_eq, set_of, R.lift_ok, R.ok_bind] at h
      rw [hm, R.ok_bind, if_pos rfl] at h
      have hb := (order_zero hp fuel b 0 0 hm).2 rfl
      cases h
      cases hz
      exact ⟨y, rfl, hy0, hy1, by rw [hinv, hb, Int.cast_one, mul_one]⟩
    by_cases hk : m < k
    · obtain ⟨t, -, e⟩ := loop_round hp fuel f m k y b g hg0 hg1 hm hm0 hk
      rw [e] at h
      refine loop_sound hp fuel x f _ _ _ _ o (Int.emod_nonneg _ (by omega)) (Int.emod_lt_of_pos _ (by omega))
        (Int.emod_nonneg _ (by omega)) (Int.emod_lt_of_pos _ (by omega)) ?_ h z hz
      rw [zmod_mod, zmod_mod, Int.cast_mul, Int.cast_mul, zmod_mod, Int.cast_mul]
      linear_combination ((t : ZMod p) * t) * hinv
    · unfold mpz_sqrtm_loop at h
      simp only [R.liftM_eq, set_of, R.lift_ok, R.ok_bind] at h
      rw [hm, R.ok_bind, if_neg hm0, if_pos (by omega)] at h
      cases h
      cases hz

/-- For a prime the loop ends with a root. -/
theorem loop_complete {p : Nat} [hpf : Fact p.Prime] (fuel : Nat) : ∀ (f : Nat) (y b g : Int) (k : Nat),
    0 ≤ b → b < p → 0 ≤ g → g < p → 1 ≤ k → k ≤ f → k ≤ fuel →
    (b : ZMod p) ^ (2 ^ (k - 1)) = 1 → (g : ZMod p) ^ (2 ^ (k - 1)) = -1 →
    ∃ z, mpz_sqrtm_loop (mpz_of p) fuel f (mpz_of y) (mpz_of b) (mpz_of g) k = .ok (some z)
  | 0, _, _, _, _, _, _, _, _, h1, h2, _, _, _ => by omega
  | f + 1, y, b, g, k, hb0, hb1, hg0, hg1, hk1, hkf, hkF, hb, hg => by
    have hp1 : 1 < p := hpf.out.one_lt
    have hp : 0 < p := by omega
    have hex : ∃ m, (b : ZMod p) ^ (2 ^ m) = 1 := ⟨_, hb⟩
    classical
    have hmin := fun e (he : e < Nat.find hex) => Nat.find_min hex he
    have hspec := Nat.find_spec hex
    have hle : Nat.find hex ≤ k - 1 := Nat.find_min' hex hb
    generalize Nat.find hex = m at *
    have hm : mpz_sqrtm_order (mpz_of p) fuel (mpz_of b) 0 = .ok m := by
      rw [order_of hp1 m fuel b 0 hb0 hb1 hmin hspec (by omega), Nat.zero_add]
    by_cases hm0 : m = 0
    · refine ⟨mpz_of y, ?_⟩
      unfold mpz_sqrtm_loop
      simp only [R.liftM_eq, set_of, R.lift_ok, R.ok_bind]
      rw [hm, R.ok_bind, if_pos hm0]
    · obtain ⟨t, ht, e⟩ := loop_round hp fuel f m k y b g hg0 hg1 hm hm0 (by omega)
      rw [e]
      have htm : (t : ZMod p) ^ (2 ^ m) = -1 := by
        rw [ht, ← pow_mul, ← pow_add, show k - m - 1 + m = k - 1 by omega, hg]
      have hsq : (((t * t % p : Int)) : ZMod p) ^ (2 ^ (m - 1)) = -1 := by
        rw [zmod_mod, Int.cast_mul, ← pow_two, ← pow_mul, ← pow_succ', show m - 1 + 1 = m by omega, htm]
      have hbm : (b : ZMod p) ^ (2 ^ (m - 1)) = -1 := by
        have h2 : ((b : ZMod p) ^ (2 ^ (m - 1))) ^ 2 = 1 := by
          rw [← pow_mul, ← pow_succ, show m - 1 + 1 = m by omega, hspec]
        exact (mul_self_eq_one_iff.1 (by rw [← pow_two]; exact h2)).resolve_left (hmin (m - 1) (by omega))
      refine loop_complete fuel f _ _ _ m (Int.emod_nonneg _ (by omega)) (Int.emod_lt_of_pos _ (by omega))
        (Int.emod_nonneg _ (by omega)) (Int.emod_lt_of_pos _ (by omega)) (by omega) (by omega) (by omega) ?_ hsq
      rw [zmod_mod, Int.cast_mul, mul_pow, hbm, hsq]
      ring

theorem search_of {p : Nat} (hp : p % 2 = 1) : ∀ (d f : Nat) (n : Int), jacobiSym (n + d) p = -1 → d < f →
    ∃ r : Int, mpz_sqrtm_search (mpz_of p) f (mpz_of n) = .ok (mpz_of r) ∧ jacobiSym r p = -1
  | _, 0, _, _, h => by omega
  | d, f + 1, n, hd, h => by
    unfold mpz_sqrtm_search
    rw [R.liftM_eq, jacobi_of n hp, R.lift_ok, R.ok_bind]
    by_cases hj : jacobiSym n p = -1
    · rw [if_neg (not_not.2 hj)]
      exact ⟨n, rfl, hj⟩
    · rw [if_pos hj, R.liftM_eq, add_1_of, R.lift_ok, R.ok_bind]
      obtain ⟨d, rfl⟩ : ∃ d', d = d' + 1 := by
        cases d with
        | zero => rw [Nat.cast_zero, add_zero] at hd; exact absurd hd hj
        | succ d => exact ⟨d, rfl⟩
      exact search_of hp d f (n + 1) (by rw [← hd]; congr 1; push_cast; ring) (by omega)

theorem search_outcome {p : Nat} (hp : p % 2 = 1) : ∀ (f : Nat) (n : Int),
    mpz_sqrtm_search (mpz_of p) f (mpz_of n) = .spin ∨
      ∃ r : Int, mpz_sqrtm_search (mpz_of p) f (mpz_of n) = .ok (mpz_of r) ∧ jacobiSym r p = -1
  | 0, _ => Or.inl rfl
  | f + 1, n => by
    unfold mpz_sqrtm_search
    rw [R.liftM_eq, jacobi_of n hp, R.lift_ok, R.ok_bind]
    by_cases hj : jacobiSym n p = -1
    · rw [if_neg (not_not.2 hj)]
      exact Or.inr ⟨n, rfl, hj⟩
    · rw [if_pos hj, R.liftM_eq, add_1_of, R.lift_ok, R.ok_bind]
      exact search_outcome hp f (n + 1)

/-! ### The whole -/

theorem sqrtm0_start (fuel : Nat) (x : Int) {p : Nat} (hp : p % 2 = 1) (h1 : p ≠ 1) (hj : jacobiSym x p = 1) :
    mpz_sqrtm_0 fuel (mpz_of x) (mpz_of p) = (mpz_sqrtm_search (mpz_of p) fuel (mpz_of 2) >>= fun n => do
      let g ← R.lift (mpz_powm .heap n (mpz_of (((p - 1) / 2 ^ mpz_ctz (mpz_of ((p - 1 : Nat) : Int)) : Nat) : Int)) (mpz_of p))
      mpz_sqrtm_loop (mpz_of p) fuel fuel
        (mpz_of (x ^ (((p - 1) / 2 ^ mpz_ctz (mpz_of ((p - 1 : Nat) : Int)) + 1) / 2) % p))
        (mpz_of (x ^ ((p - 1) / 2 ^ mpz_ctz (mpz_of ((p - 1 : Nat) : Int))) % p)) g (mpz_ctz (mpz_of ((p - 1 : Nat) : Int)))) := by
  unfold mpz_sqrtm_0
  have hp0 : 0 < p := by omega
  rw [if_neg (by rw [cmp_ui_zero_of]; show ¬ ((p : Int) = (1 : Nat)); omega), R.liftM_eq, jacobi_of x hp, R.lift_ok, R.ok_bind, hj,
    if_neg (by decide), if_neg (by decide), R.liftM_eq, sub_1_of, R.lift_ok, R.ok_bind,
    show ((p : Int) - 1) = ((p - 1 : Nat) : Int) by omega]
  generalize mpz_ctz (mpz_of ((p - 1 : Nat) : Int)) = e
  dsimp only
  rw [R.liftM_eq, quo_2exp_of, R.lift_ok, R.ok_bind, shift_nat, set_ui_of]
  congr 1
  funext n
  generalize (p - 1) / 2 ^ e = s
  rw [R.liftM_eq, add_1_of, R.lift_ok, R.ok_bind, show (s : Int) + 1 = ((s + 1 : Nat) : Int) by push_cast; rfl,
    R.liftM_eq, quo_2exp_of, R.lift_ok, R.ok_bind, shift_nat, R.liftM_eq, powm_nat_of _ _ hp0, R.lift_ok, R.ok_bind,
    R.liftM_eq, powm_nat_of _ _ hp0, R.lift_ok, R.ok_bind]
  rfl

/-- The factors of `p - 1`. -/
theorem split_pred {p : Nat} (hp : p % 2 = 1) (h1 : p ≠ 1) :
    1 ≤ mpz_ctz (mpz_of ((p - 1 : Nat) : Int)) ∧
    (p - 1) / 2 ^ mpz_ctz (mpz_of ((p - 1 : Nat) : Int)) * 2 ^ mpz_ctz (mpz_of ((p - 1 : Nat) : Int)) = p - 1 ∧
    (p - 1) / 2 ^ mpz_ctz (mpz_of ((p - 1 : Nat) : Int)) % 2 = 1 := by
  obtain ⟨h2, h3⟩ := ctz_rep (of_rep ((p - 1 : Nat) : Int)) (by omega)
  generalize mpz_ctz (mpz_of ((p - 1 : Nat) : Int)) = e at *
  have h2' : 2 ^ e ∣ p - 1 := by exact_mod_cast h2
  have h3' : ¬ 2 ^ (e + 1) ∣ p - 1 := fun h => h3 (by exact_mod_cast h)
  have hm := Nat.div_mul_cancel h2'
  refine ⟨?_, hm, ?_⟩
  · by_contra hc
    have : e = 0 := by omega
    subst this
    exact h3' (by rw [Nat.zero_add, pow_one]; omega)
  · by_contra hc
    obtain ⟨c, hc'⟩ : 2 ∣ (p - 1) / 2 ^ e := by omega
    exact h3' ⟨c, by rw [← hm, hc', pow_succ]; ring⟩

theorem sqrtm0_sound (fuel : Nat) {x : Int} {p : Nat} (hp : p % 2 = 1) (hx : Int.gcd x p = 1) {o : Option Mpz}
    (h : mpz_sqrtm_0 fuel (mpz_of x) (mpz_of p) = .ok o) : ∀ z, o = some z →
    ∃ r : Int, z = mpz_of r ∧ 0 ≤ r ∧ r < p ∧ (r : ZMod p) * r = x := by
  intro z hz
  by_cases h1 : p = 1
  · unfold mpz_sqrtm_0 at h
    rw [if_pos (by rw [cmp_ui_zero_of, h1]; rfl)] at h
    cases h
    cases hz
  have hj0 : jacobiSym x p ≠ 0 := jacobiSym.ne_zero hx
  rcases jacobiSym.trichotomy x p with hj | hj | hj
  · exact absurd hj hj0
  · rw [sqrtm0_start fuel x hp h1 hj] at h
    rcases search_outcome hp fuel 2 with hs | ⟨n, hs, -⟩
    · rw [hs] at h; cases h
    · obtain ⟨he, hm, ho⟩ := split_pred hp h1
      rw [hs, R.ok_bind, powm_nat_of _ _ (by omega), R.lift_ok, R.ok_bind] at h
      refine loop_sound (by omega) fuel x fuel _ _ _ _ o (Int.emod_nonneg _ (by omega)) (Int.emod_lt_of_pos _ (by omega))
        (Int.emod_nonneg _ (by omega)) (Int.emod_lt_of_pos _ (by omega)) ?_ h z hz
      generalize (p - 1) / 2 ^ mpz_ctz (mpz_of ((p - 1 : Nat) : Int)) = s at *
      rw [zmod_mod, zmod_mod, Int.cast_pow, Int.cast_pow, ← pow_add, ← pow_succ']
      congr 1
      omega
  · unfold mpz_sqrtm_0 at h
    rw [if_neg (by rw [cmp_ui_zero_of]; show ¬ ((p : Int) = (1 : Nat)); omega), R.liftM_eq, jacobi_of x hp, R.lift_ok,
      R.ok_bind, hj, if_pos rfl] at h
    cases h
    cases hz

theorem sqrtm0_prime {p : Nat} [hpf : Fact p.Prime] (hp : p % 2 = 1) {fuel : Nat} (hf : p ≤ fuel) {x : Int} (h0 : 0 ≤ x)
    (hxp : x < p) :
    (IsSquare (x : ZMod p) → ∃ r : Int, mpz_sqrtm_0 fuel (mpz_of x) (mpz_of p) = .ok (some (mpz_of r)) ∧ 0 ≤ r ∧ r < p ∧
      (r : ZMod p) * r = x) ∧
    (¬ IsSquare (x : ZMod p) → mpz_sqrtm_0 fuel (mpz_of x) (mpz_of p) = .ok none) := by
  have hpp := hpf.out
  have h1 : p ≠ 1 := hpp.ne_one
  have hstart : ∀ j, jacobiSym x p = j → mpz_sqrtm_0 fuel (mpz_of x) (mpz_of p) = _ := fun j hj => by
    unfold mpz_sqrtm_0
    rw [if_neg (by rw [cmp_ui_zero_of]; show ¬ ((p : Int) = (1 : Nat)); omega), R.liftM_eq, jacobi_of x hp, R.lift_ok,
      R.ok_bind, hj]
  constructor
  · intro hsq
    by_cases hx0 : (x : ZMod p) = 0
    · have hj : jacobiSym x p = 0 := by rw [← jacobiSym.legendreSym.to_jacobiSym]; exact (legendreSym.eq_zero_iff p x).2 hx0
      have hxz : x = 0 := by
        have := (mod_eq_of_zmod (p := p) (a := x) (x := 0) (by omega) (by omega)).2 (by rw [hx0, Int.cast_zero])
        rwa [Int.emod_eq_of_lt h0 hxp] at this
      refine ⟨0, ?_, by omega, by omega, by rw [hxz]; simp⟩
      rw [hstart 0 hj, if_neg (by decide), if_pos rfl, zero_of]
    · have hj : jacobiSym x p = 1 := by
        rw [← jacobiSym.legendreSym.to_jacobiSym]; exact (legendreSym.eq_one_iff p hx0).2 hsq
      have hcop : Int.gcd x p = 1 := by
        by_contra hc
        exact absurd ((jacobiSym.eq_zero_iff_not_coprime (b := p)).2 hc) (by rw [hj]; decide)
      obtain ⟨a, ha⟩ := FiniteField.exists_nonsquare (F := ZMod p) (by rw [ZMod.ringChar_zmod_n]; omega)
      have ha0 : a ≠ 0 := by rintro rfl; exact ha ⟨0, by simp⟩
      have ha1 : a ≠ 1 := by rintro rfl; exact ha ⟨1, by simp⟩
      have hav : 2 ≤ a.val := by
        by_contra hc
        have : a.val = 0 ∨ a.val = 1 := by omega
        rcases this with h | h
        · exact ha0 ((ZMod.val_eq_zero a).1 h)
        · exact ha1 (by rw [← ZMod.natCast_zmod_val a, h]; simp)
      have hal := ZMod.val_lt a
      have hja : jacobiSym (2 + ((a.val - 2 : Nat) : Int)) p = -1 := by
        rw [show (2 + ((a.val - 2 : Nat) : Int)) = ((a.val : Nat) : Int) by omega, ← jacobiSym.legendreSym.to_jacobiSym,
          legendreSym.eq_neg_one_iff]
        rw [Int.cast_natCast, ZMod.natCast_zmod_val]
        exact ha
      obtain ⟨n, hs, hjn⟩ := search_of hp (a.val - 2) fuel 2 hja (by omega)
      obtain ⟨he, hm, ho⟩ := split_pred hp h1
      have hs0 := sqrtm0_start fuel x hp h1 hj
      rw [hs, R.ok_bind, powm_nat_of _ _ (by omega), R.lift_ok, R.ok_bind] at hs0
      have hhalf : (p - 1) / 2 ^ mpz_ctz (mpz_of ((p - 1 : Nat) : Int)) * 2 ^ (mpz_ctz (mpz_of ((p - 1 : Nat) : Int)) - 1) = p / 2 := by
        obtain ⟨e', he'⟩ : ∃ e', mpz_ctz (mpz_of ((p - 1 : Nat) : Int)) = e' + 1 := ⟨_, (Nat.sub_add_cancel he).symm⟩
        rw [he'] at hm ⊢
        rw [Nat.add_sub_cancel]
        rw [pow_succ 2 e'] at hm
        rw [pow_succ 2 e']
        have : (p - 1) / (2 ^ e' * 2) * 2 ^ e' * 2 = p - 1 := by rw [Nat.mul_assoc]; exact hm
        omega
      have hlog : mpz_ctz (mpz_of ((p - 1 : Nat) : Int)) ≤ fuel := by
        have h2 : 2 ^ mpz_ctz (mpz_of ((p - 1 : Nat) : Int)) ∣ p - 1 := ⟨_, by rw [Nat.mul_comm]; exact hm.symm⟩
        have h3 := Nat.le_of_dvd (by omega) h2
        have h4 := Nat.lt_two_pow_self (n := mpz_ctz (mpz_of ((p - 1 : Nat) : Int)))
        omega
      obtain ⟨z, hz⟩ := loop_complete (p := p) fuel fuel
        (x ^ (((p - 1) / 2 ^ mpz_ctz (mpz_of ((p - 1 : Nat) : Int)) + 1) / 2) % p)
        (x ^ ((p - 1) / 2 ^ mpz_ctz (mpz_of ((p - 1 : Nat) : Int))) % p)
        (n ^ ((p - 1) / 2 ^ mpz_ctz (mpz_of ((p - 1 : Nat) : Int))) % p) (mpz_ctz (mpz_of ((p - 1 : Nat) : Int)))
        (Int.emod_nonneg _ (by omega)) (Int.emod_lt_of_pos _ (by omega))
        (Int.emod_nonneg _ (by omega)) (Int.emod_lt_of_pos _ (by omega)) he hlog hlog
        (by rw [zmod_mod, Int.cast_pow, ← pow_mul, hhalf]; exact (ZMod.euler_criterion p hx0).1 hsq)
        (by
          rw [zmod_mod, Int.cast_pow, ← pow_mul, hhalf, ← legendreSym.eq_pow, jacobiSym.legendreSym.to_jacobiSym, hjn]
          simp)
      rw [hz] at hs0
      obtain ⟨r, hr, h2, h3, h4⟩ := sqrtm0_sound fuel hp hcop hs0 z rfl
      exact ⟨r, by rw [hs0, hr], h2, h3, h4⟩
  · intro hns
    have hj : jacobiSym x p = -1 := by
      rw [← jacobiSym.legendreSym.to_jacobiSym, legendreSym.eq_neg_one_iff]; exact hns
    rw [hstart _ hj, if_pos rfl]

/-- The dispatch of `mpz_sqrtm`. -/
theorem sqrtm_of (fuel : Nat) (i : Int) {p : Nat} (hp : p % 2 = 1) :
    mpz_sqrtm fuel (mpz_of i) (mpz_of p) = ((if p % 4 = 3 then R.lift (mpz_sqrtm_3mod4 (mpz_of (i % p)) (mpz_of p))
      else if p % 8 = 5 then R.lift (mpz_sqrtm_5mod8 (mpz_of (i % p)) (mpz_of p))
      else mpz_sqrtm_0 fuel (mpz_of (i % p)) (mpz_of p)) >>= fun z => .ok (match z with
        | some z => (z, true)
        | none => (⟨false, []⟩, false))) := by
  have hp0 : 0 < p := by omega
  obtain ⟨a, ea, ha⟩ := limb0_rep (of_rep (p : Int)) (by omega)
  unfold mpz_sqrtm
  have hsz : ¬ (mpz_of (p : Int)).size ≤ 0 := fun h => by
    rcases lt_or_eq_of_le h with h | h
    · have := (size_neg_of (p : Int)).1 h; omega
    · have := (size_zero_of (p : Int)).1 h; omega
  rw [R.liftM_eq, even_rep (of_rep (p : Int)), R.lift_ok, R.ok_bind,
    if_neg (by rintro (h | h); exacts [hsz h, absurd (of_decide_eq_true h) (by omega)])]
  rw [R.liftM_eq, mod_nat_of _ hp0, R.lift_ok, R.ok_bind, R.liftM_eq, ea, R.lift_ok, R.ok_bind]
  have h3 : a &&& 3 = 3 ↔ p % 4 = 3 := by
    rw [BitVec.toNat_eq, BitVec.toNat_and, ha, show (3 : Limb).toNat = 2 ^ 2 - 1 from rfl, Nat.and_two_pow_sub_one_eq_mod]
    simp only [Int.natAbs_natCast]
    omega
  have h5 : a &&& 7 = 5 ↔ p % 8 = 5 := by
    rw [BitVec.toNat_eq, BitVec.toNat_and, ha, show (7 : Limb).toNat = 2 ^ 3 - 1 from rfl, Nat.and_two_pow_sub_one_eq_mod,
      show (5 : Limb).toNat = 5 from rfl]
    simp only [Int.natAbs_natCast]
    omega
  simp only [h3, h5]
  congr 1

theorem sqrtm_prime {p : Nat} [Fact p.Prime] (hp : p % 2 = 1) {fuel : Nat} (hf : p ≤ fuel) (i : Int) :
    (IsSquare (i : ZMod p) → ∃ r : Int, mpz_sqrtm fuel (mpz_of i) (mpz_of p) = .ok (mpz_of r, true) ∧ 0 ≤ r ∧ r < p ∧
      (r : ZMod p) * r = i) ∧
    (¬ IsSquare (i : ZMod p) → mpz_sqrtm fuel (mpz_of i) (mpz_of p) = .ok (mpz_of 0, false)) := by
  rw [sqrtm_of fuel i hp]
  have hp0 : (0 : Int) < p := by omega
  have hx0 : 0 ≤ i % p := Int.emod_nonneg _ (by omega)
  have hx1 : i % p < p := Int.emod_lt_of_pos _ hp0
  rw [← zmod_mod p i]
  generalize i % p = x at *
  have key : ∀ b : Int, (b * b % p = x ↔ (b : ZMod p) * b = x) := fun b => by
    rw [mod_eq_of_zmod hx0 hx1, Int.cast_mul]
  by_cases h3 : p % 4 = 3
  · rw [if_pos h3, sqrtm3_of x (by omega), R.lift_ok, R.ok_bind]
    refine ⟨fun hs => ⟨root3 x p, ?_, Int.emod_nonneg _ (by omega), Int.emod_lt_of_pos _ hp0, root3_sq h3 hs⟩, fun hs => ?_⟩
    · rw [if_pos ((key _).2 (root3_sq h3 hs))]
    · rw [if_neg fun h => hs ⟨_, ((key _).1 h).symm⟩, zero_of]
  rw [if_neg h3]
  by_cases h5 : p % 8 = 5
  · rw [if_pos h5, sqrtm5_of x (by omega), R.lift_ok, R.ok_bind]
    refine ⟨fun hs => ⟨root5 x p, ?_, Int.emod_nonneg _ (by omega), Int.emod_lt_of_pos _ hp0, root5_sq h5 hs⟩, fun hs => ?_⟩
    · rw [if_pos ((key _).2 (root5_sq h5 hs))]
    · rw [if_neg fun h => hs ⟨_, ((key _).1 h).symm⟩, zero_of]
  rw [if_neg h5]
  obtain ⟨ha, hb⟩ := sqrtm0_prime hp hf hx0 hx1
  refine ⟨fun hs => ?_, fun hs => by rw [hb hs, R.ok_bind, zero_of]⟩
  obtain ⟨r, e, h⟩ := ha hs
  exact ⟨r, by rw [e, R.ok_bind], h⟩

theorem sqrtm_sound (fuel : Nat) {i : Int} {p : Nat} (hp : p % 2 = 1) (hc : p % 8 = 1 → Int.gcd i p = 1) {z : Mpz}
    (h : mpz_sqrtm fuel (mpz_of i) (mpz_of p) = .ok (z, true)) :
    ∃ r : Int, z = mpz_of r ∧ 0 ≤ r ∧ r < p ∧ (r : ZMod p) * r = i := by
  rw [sqrtm_of fuel i hp] at h
  have hp0 : (0 : Int) < p := by omega
  have hx0 : 0 ≤ i % p := Int.emod_nonneg _ (by omega)
  have hx1 : i % p < p := Int.emod_lt_of_pos _ hp0
  have hg : p % 8 = 1 → Int.gcd (i % p) p = 1 := fun h => by rw [Int.gcd_emod]; exact hc h
  rw [← zmod_mod p i]
  generalize i % p = x at *
  have key : ∀ b : Int, (b * b % p = x ↔ (b : ZMod p) * b = x) := fun b => by
    rw [mod_eq_of_zmod hx0 hx1, Int.cast_mul]
  by_cases h3 : p % 4 = 3
  · rw [if_pos h3, sqrtm3_of x (by omega), R.lift_ok, R.ok_bind] at h
    split at h
    · rename_i hs
      cases h
      split at hs
      · rename_i hs2
        cases hs
        exact ⟨root3 x p, rfl, Int.emod_nonneg _ (by omega), Int.emod_lt_of_pos _ hp0, (key _).1 hs2⟩
      · cases hs
    · cases h
  rw [if_neg h3] at h
  by_cases h5 : p % 8 = 5
  · rw [if_pos h5, sqrtm5_of x (by omega), R.lift_ok, R.ok_bind] at h
    split at h
    · rename_i hs
      cases h
      split at hs
      · rename_i hs2
        cases hs
        exact ⟨root5 x p, rfl, Int.emod_nonneg _ (by omega), Int.emod_lt_of_pos _ hp0, (key _).1 hs2⟩
      · cases hs
    · cases h
  rw [if_neg h5] at h
  cases ho : mpz_sqrtm_0 fuel (mpz_of x) (mpz_of p) with
  | ok o =>
    rw [ho, R.ok_bind] at h
    cases o with
    | some w =>
      cases h
      exact sqrtm0_sound fuel hp (hg (by omega)) ho z rfl
    | none => cases h
  | fail => rw [ho] at h; cases h
  | spin => rw [ho] at h; cases h
  | abort => rw [ho] at h; cases h
  | ub => rw [ho] at h; cases h

/-- Modulo the square of an odd number there is no non-residue to be found. -/
theorem sqrtm_spin (fuel : Nat) {q : Nat} (hq : q % 2 = 1) (h1 : q ≠ 1) {i : Int} (hc : Int.gcd i q = 1) :
    mpz_sqrtm fuel (mpz_of i) (mpz_of (q * q : Nat)) = .spin := by
  have ho : q * q % 2 = 1 := by rw [Nat.mul_mod, hq]
  have h8 : q * q % 8 = 1 := by
    have : q % 8 = 1 ∨ q % 8 = 3 ∨ q % 8 = 5 ∨ q % 8 = 7 := by omega
    rw [Nat.mul_mod]
    rcases this with h | h | h | h <;> rw [h]
  have hne : q * q ≠ 1 := fun h => h1 (Nat.eq_one_of_mul_eq_one_right h)
  have hj : ∀ n : Int, jacobiSym n (q * q) = jacobiSym n q ^ 2 := fun n => by
    have : NeZero q := ⟨by omega⟩
    rw [jacobiSym.mul_right, pow_two]
  rw [sqrtm_of fuel i ho, if_neg (by omega), if_neg (by omega)]
  have hg : Int.gcd (i % (q * q : Nat)) q = 1 := by
    rw [← Int.gcd_emod, Int.emod_emod_of_dvd _ (by push_cast; exact dvd_mul_right (q : Int) q), Int.gcd_emod]
    exact hc
  have hj1 : jacobiSym (i % (q * q : Nat)) (q * q) = 1 := by
    rw [hj]
    exact jacobiSym.sq_one hg
  rw [sqrtm0_start fuel _ ho hne hj1]
  rcases search_outcome ho fuel 2 with hs | ⟨n, -, hs⟩
  · rw [hs]; rfl
  · rw [hj] at hs
    have := sq_nonneg (jacobiSym n q)
    omega

theorem sqrtpq_combine {fuel : Nat} {i a b : Int} {p q : Nat} (hp : 0 < p) (hq : 0 < q) (hpq : Nat.Coprime p q)
    (ea : mpz_sqrtm fuel (mpz_of i) (mpz_of p) = .ok (mpz_of a, true))
    (eb : mpz_sqrtm fuel (mpz_of i) (mpz_of q) = .ok (mpz_of b, true)) :
    ∃ r : Int, mpz_sqrtpq fuel (mpz_of i) (mpz_of p) (mpz_of q) = .ok (some (mpz_of r)) ∧ 0 ≤ r ∧ r < (p * q : Nat) ∧
      (p : Int) ∣ r - a ∧ (q : Int) ∣ r - b := by
  obtain ⟨g, s, t, c, d, eg, -, hs, ht, hb⟩ := gcdext_rep (of_rep (p : Int)) (of_rep (q : Int))
  rw [show Int.gcd (p : Int) q = 1 by rw [Int.gcd_natCast_natCast]; exact hpq] at hb
  have hn : 0 < p * q := Nat.mul_pos hp hq
  unfold mpz_sqrtpq
  rw [ea, R.ok_bind, if_neg (by simp), eb, R.ok_bind, if_neg (by simp), R.liftM_eq, eg, R.lift_ok, R.ok_bind, rep_of hs,
    rep_of ht]
  simp only [R.liftM_eq, mul_of, R.lift_ok, R.ok_bind]
  rw [show (p : Int) * q = ((p * q : Nat) : Int) by push_cast; rfl]
  simp only [mod_nat_of _ hn, R.lift_ok, R.ok_bind, mul_of, add_of]
  refine ⟨_, rfl, Int.emod_nonneg _ (by omega), Int.emod_lt_of_pos _ (by omega), ?_, ?_⟩
  · have hd : (p : Int) ∣ ((p * q : Nat) : Int) := by push_cast; exact dvd_mul_right _ _
    have h : ∀ x : Int, (p : Int) ∣ x % ((p * q : Nat) : Int) - x := fun x => by
      rw [Int.emod_def]
      exact (dvd_mul_of_dvd_left hd (x / ((p * q : Nat) : Int))).neg_right.trans (by rw [show x - ((p * q : Nat) : Int) * (x / ((p * q : Nat) : Int)) - x = -(((p * q : Nat) : Int) * (x / ((p * q : Nat) : Int))) by ring])
    obtain ⟨k1, h1⟩ := h (b * c)
    obtain ⟨k2, h2⟩ := h (b * c % ((p * q : Nat) : Int) * p)
    obtain ⟨k3, h3⟩ := h (a * d)
    obtain ⟨k4, h4⟩ := h (a * d % ((p * q : Nat) : Int) * q)
    obtain ⟨k5, h5⟩ := h (b * c % ((p * q : Nat) : Int) * p % ((p * q : Nat) : Int) + a * d % ((p * q : Nat) : Int) * q % ((p * q : Nat) : Int))
    refine ⟨k5 + k2 + k4 + b * c % ((p * q : Nat) : Int) + k3 * q - a * c, ?_⟩
    push_cast at hb
    linear_combination h5 + h2 + h4 + q * h3 + a * hb
  · have hd : (q : Int) ∣ ((p * q : Nat) : Int) := by push_cast; exact dvd_mul_left _ _
    have h : ∀ x : Int, (q : Int) ∣ x % ((p * q : Nat) : Int) - x := fun x => by
      rw [Int.emod_def]
      exact (dvd_mul_of_dvd_left hd (x / ((p * q : Nat) : Int))).neg_right.trans (by rw [show x - ((p * q : Nat) : Int) * (x / ((p * q : Nat) : Int)) - x = -(((p * q : Nat) : Int) * (x / ((p * q : Nat) : Int))) by ring])
    obtain ⟨k1, h1⟩ := h (b * c)
    obtain ⟨k2, h2⟩ := h (b * c % ((p * q : Nat) : Int) * p)
    obtain ⟨k3, h3⟩ := h (a * d)
    obtain ⟨k4, h4⟩ := h (a * d % ((p * q : Nat) : Int) * q)
    obtain ⟨k5, h5⟩ := h (b * c % ((p * q : Nat) : Int) * p % ((p * q : Nat) : Int) + a * d % ((p * q : Nat) : Int) * q % ((p * q : Nat) : Int))
    refine ⟨k5 + k2 + k4 + a * d % ((p * q : Nat) : Int) + k1 * p - b * d, ?_⟩
    push_cast at hb
    linear_combination h5 + h2 + h4 + p * h1 + b * hb

end Torsion.Mpi
