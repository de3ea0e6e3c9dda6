import Mathlib.FieldTheory.IsAlgClosed.AlgebraicClosure
import Mathlib.NumberTheory.PrimesCongruentOne
import Verif.Mpi.PrimeMR
import Verif.Mpi.RootLemmas

/-!
# Lemmas: the Lucas test
-/
namespace Torsion.Mpi
open Torsion.Spec

/-! ### The sequences -/

theorem lucasV_succ (P : Int) (k : Nat) : lucasV P (k + 2) = P * lucasV P (k + 1) - lucasV P k := by rw [lucasV]

theorem lucasU_succ (P : Int) (k : Nat) : lucasU P (k + 2) = P * lucasU P (k + 1) - lucasU P k := by rw [lucasU]

theorem lucasV_inv (P : Int) : ∀ k, lucasV P k ^ 2 + lucasV P (k + 1) ^ 2 - P * lucasV P k * lucasV P (k + 1) = 4 - P ^ 2
  | 0 => by show 2 ^ 2 + P ^ 2 - P * 2 * P = 4 - P ^ 2; ring
  | k + 1 => by
    have := lucasV_inv P k
    rw [lucasV_succ]
    linear_combination this

theorem lucasV_double (P : Int) : ∀ k, lucasV P (2 * k) = lucasV P k ^ 2 - 2 ∧
    lucasV P (2 * k + 1) = lucasV P k * lucasV P (k + 1) - P
  | 0 => ⟨by show (2 : Int) = 2 ^ 2 - 2; norm_num, by show P = 2 * P - P; ring⟩
  | k + 1 => by
    obtain ⟨h1, h2⟩ := lucasV_double P k
    have hi := lucasV_inv P k
    have h3 : lucasV P (2 * (k + 1)) = lucasV P (k + 1) ^ 2 - 2 := by
      rw [show 2 * (k + 1) = 2 * k + 2 from rfl, lucasV_succ, h1, h2]
      linear_combination -hi
    refine ⟨h3, ?_⟩
    rw [show 2 * (k + 1) + 1 = (2 * k + 1) + 2 from rfl, lucasV_succ, show 2 * k + 1 + 1 = 2 * (k + 1) from rfl, h3, h2, lucasV_succ]
    ring

theorem lucasU_V (P : Int) : ∀ k, (P ^ 2 - 4) * lucasU P k = 2 * lucasV P (k + 1) - P * lucasV P k ∧
    (P ^ 2 - 4) * lucasU P (k + 1) = 2 * lucasV P (k + 2) - P * lucasV P (k + 1)
  | 0 => ⟨by show (P ^ 2 - 4) * 0 = 2 * P - P * 2; ring, by show (P ^ 2 - 4) * 1 = 2 * (P * P - 2) - P * P; ring⟩
  | k + 1 => by
    obtain ⟨h1, h2⟩ := lucasU_V P k
    refine ⟨h2, ?_⟩
    rw [lucasU_succ, lucasV_succ P (k + 1)]
    rw [lucasV_succ] at h2 ⊢
    linear_combination P * h2 - h1

/-! ### The ladder -/

theorem ladder_of {n : Nat} (hn : 0 < n) (s : Nat) (p : Limb) : ∀ (i : Nat) (a b : Int),
    (a : ZMod n) = lucasV p.toNat (s / 2 ^ i) → (b : ZMod n) = lucasV p.toNat (s / 2 ^ i + 1) →
    ∃ c d, mpz_lucas_ladder (mpz_of n) (mpz_of s) p i (mpz_of a) (mpz_of b) = .ok (mpz_of c, mpz_of d) ∧
      (c : ZMod n) = lucasV p.toNat s ∧ (d : ZMod n) = lucasV p.toNat (s + 1) ∧ (0 < i → 0 ≤ c ∧ c < n)
  | 0, a, b, ha, hb => ⟨a, b, rfl, by simpa using ha, by simpa using hb, fun h => absurd h (by omega)⟩
  | i + 1, a, b, ha, hb => by
    unfold mpz_lucas_ladder
    rw [tstbit_rep i (of_rep (s : Int)), C.ok_bind, bit_nonneg]
    have hbit : s.testBit i = decide (s / 2 ^ i % 2 = 1) := Nat.testBit_eq_decide_div_mod_eq
    have hdd : s / 2 ^ (i + 1) = s / 2 ^ i / 2 := by rw [pow_succ, Nat.div_div_eq_div_mul]
    obtain ⟨h1, h2⟩ := lucasV_double p.toNat (s / 2 ^ (i + 1))
    obtain ⟨h3, -⟩ := lucasV_double p.toNat (s / 2 ^ (i + 1) + 1)
    have r0 : ∀ x : Int, 0 ≤ x % (n : Int) := fun x => Int.emod_nonneg _ (by omega)
    have r1 : ∀ x : Int, x % (n : Int) < n := fun x => Int.emod_lt_of_pos _ (by omega)
    by_cases ho : s / 2 ^ i % 2 = 1
    · have hs : s / 2 ^ i = 2 * (s / 2 ^ (i + 1)) + 1 := by omega
      rw [if_pos (by rw [hbit]; exact decide_eq_true ho)]
      simp only [mul_of, sqr_of, sub_ui_of, C.ok_bind, mod_nat_of _ hn]
      obtain ⟨c, d, e, hc, hd, hr⟩ := ladder_of hn s p i ((a * b - (p.toNat : Int)) % (n : Int)) ((b * b - ((2 : Limb).toNat : Int)) % (n : Int))
        (by
          rw [zmod_mod, hs, h2]
          push_cast
          rw [ha, hb])
        (by
          rw [zmod_mod, hs, show 2 * (s / 2 ^ (i + 1)) + 1 + 1 = 2 * (s / 2 ^ (i + 1) + 1) from rfl, h3,
            show (2 : Limb).toNat = 2 from rfl]
          push_cast
          rw [hb]
          ring)
      refine ⟨c, d, e, hc, hd, fun _ => ?_⟩
      cases i with
      | zero =>
        unfold mpz_lucas_ladder at e
        have := of_inj.1 (Prod.ext_iff.1 (C.ok.inj e)).1
        exact this ▸ ⟨r0 _, r1 _⟩
      | succ i => exact hr (by omega)
    · have hs : s / 2 ^ i = 2 * (s / 2 ^ (i + 1)) := by omega
      rw [if_neg (by rw [hbit, decide_eq_true_iff]; exact ho)]
      simp only [mul_of, sqr_of, sub_ui_of, C.ok_bind, mod_nat_of _ hn]
      obtain ⟨c, d, e, hc, hd, hr⟩ := ladder_of hn s p i ((a * a - ((2 : Limb).toNat : Int)) % (n : Int)) ((b * a - (p.toNat : Int)) % (n : Int))
        (by
          rw [zmod_mod, hs, h1, show (2 : Limb).toNat = 2 from rfl]
          push_cast
          rw [ha]
          ring)
        (by
          rw [zmod_mod, hs, h2]
          push_cast
          rw [ha, hb]
          ring)
      refine ⟨c, d, e, hc, hd, fun _ => ?_⟩
      cases i with
      | zero =>
        unfold mpz_lucas_ladder at e
        have := of_inj.1 (Prod.ext_iff.1 (C.ok.inj e)).1
        exact this ▸ ⟨r0 _, r1 _⟩
      | succ i => exact hr (by omega)

theorem two_ne_zero_mod {n : Nat} (hn : 2 < n) : (2 : ZMod n) ≠ 0 := by
  intro h
  have h2 : ((2 : Nat) : ZMod n) = 0 := by push_cast; exact h
  have := Nat.le_of_dvd (by omega) ((ZMod.natCast_eq_zero_iff 2 n).1 h2)
  omega

theorem lucas_zero_of {n : Nat} (hn : 2 < n) (P : Int) : ∀ (c m : Nat) (v : Int), 0 ≤ v → v < n → (v : ZMod n) = lucasV P m →
    ∃ b, mpz_lucas_zero (mpz_of n) c (mpz_of v) = .ok b ∧ (b = true ↔ ∃ t < c, ((lucasV P (2 ^ t * m) : Int) : ZMod n) = 0)
  | 0, m, v, _, _, _ => ⟨false, rfl, by simp⟩
  | c + 1, m, v, h0, h1, hv => by
    unfold mpz_lucas_zero
    by_cases hz : v = 0
    · rw [if_pos ((size_zero_of v).2 hz)]
      exact ⟨true, rfl, fun _ => ⟨0, by omega, by rw [pow_zero, Nat.one_mul, ← hv, hz, Int.cast_zero]⟩, fun _ => rfl⟩
    rw [if_neg fun h => hz ((size_zero_of v).1 h)]
    have hVne : ((lucasV P m : Int) : ZMod n) ≠ 0 := fun h => hz ((reduced_eq h0 h1 (le_refl 0) (by omega)).2 (by rw [hv, h, Int.cast_zero]))
    by_cases h2 : v = 2
    · rw [if_pos ((cmp_ui_zero_of _ _).2 h2)]
      have hall : ∀ t, ((lucasV P (2 ^ t * m) : Int) : ZMod n) = 2 := by
        intro t
        induction t with
        | zero => rw [pow_zero, Nat.one_mul, ← hv, h2, Int.cast_ofNat]
        | succ t ih =>
          rw [pow_succ', Nat.mul_assoc, (lucasV_double P _).1]
          push_cast
          rw [ih]
          norm_num
      refine ⟨false, rfl, fun h => absurd h (by decide), ?_⟩
      rintro ⟨t, -, ht⟩
      rw [hall] at ht
      exact absurd ht (two_ne_zero_mod hn)
    rw [if_neg fun h => h2 ((cmp_ui_zero_of _ _).1 h), sqr_of, C.ok_bind, sub_ui_of, C.ok_bind, mod_nat_of _ (by omega), C.ok_bind]
    obtain ⟨b, e, hb⟩ := lucas_zero_of hn P c (2 * m) ((v * v - ((2 : Limb).toNat : Int)) % (n : Int)) (Int.emod_nonneg _ (by omega))
      (Int.emod_lt_of_pos _ (by omega))
      (by
        rw [zmod_mod, (lucasV_double P m).1, show (2 : Limb).toNat = 2 from rfl]
        push_cast
        rw [hv]
        ring)
    refine ⟨b, e, hb.trans ?_⟩
    have hp : ∀ t, 2 ^ t * (2 * m) = 2 ^ (t + 1) * m := fun t => by rw [pow_succ]; ring
    constructor
    · rintro ⟨t, ht, h⟩
      exact ⟨t + 1, by omega, by rw [← hp]; exact h⟩
    · rintro ⟨t, ht, h⟩
      cases t with
      | zero => exact absurd (by simpa using h) hVne
      | succ t => exact ⟨t, by omega, by rw [hp]; exact h⟩

/-- The factors of `n + 1`. -/
theorem split_succ {n : Nat} (hn : n % 2 = 1) :
    1 ≤ mpz_ctz (mpz_of ((n + 1 : Nat) : Int)) ∧
    2 ^ mpz_ctz (mpz_of ((n + 1 : Nat) : Int)) * ((n + 1) / 2 ^ mpz_ctz (mpz_of ((n + 1 : Nat) : Int))) = n + 1 ∧
    (n + 1) / 2 ^ mpz_ctz (mpz_of ((n + 1 : Nat) : Int)) % 2 = 1 := by
  have := split_pred (p := n + 2) (by omega) (by omega)
  rw [show n + 2 - 1 = n + 1 from rfl] at this
  exact ⟨this.1, by rw [Nat.mul_comm]; exact this.2.1, this.2.2⟩

theorem extra_strong_iff {n p r s : Nat} (h : n + 1 = 2 ^ r * s) (hs : s % 2 = 1) :
    ExtraStrongLucas n p ↔ (((lucasU p s : Int) : ZMod n) = 0 ∧ (((lucasV p s : Int) : ZMod n) = 2 ∨ ((lucasV p s : Int) : ZMod n) = -2)) ∨
      ∃ t < r - 1, ((lucasV p (2 ^ t * s) : Int) : ZMod n) = 0 := by
  have hd : ∀ x : Int, (n : Int) ∣ x ↔ (x : ZMod n) = 0 := fun x => (ZMod.intCast_zmod_eq_zero_iff_dvd x n).symm
  have h2 : ∀ x : ZMod n, x - 2 = 0 ↔ x = 2 := fun x => sub_eq_zero
  have h3 : ∀ x : ZMod n, x + 2 = 0 ↔ x = -2 := fun x => add_eq_zero_iff_eq_neg
  unfold ExtraStrongLucas
  simp only [hd, Int.cast_sub, Int.cast_add, Int.cast_ofNat, h2, h3]
  constructor
  · rintro ⟨r', s', h1, h2, h3⟩
    obtain ⟨rfl, rfl⟩ := two_odd_unique h2 hs (h1.symm.trans h)
    rcases h3 with h3 | ⟨t, ht, h3⟩
    · exact Or.inl h3
    · exact Or.inr ⟨t, by omega, h3⟩
  · rintro (h3 | ⟨t, ht, h3⟩)
    · exact ⟨r, s, h, hs, Or.inl h3⟩
    · exact ⟨r, s, h, hs, Or.inr ⟨t, by omega, h3⟩⟩

theorem lucas_check_of {n : Nat} (ho : n % 2 = 1) (hn : 7 < n) (p : Limb) (hj : jacobiSym ((p.toNat : Int) ^ 2 - 4) n = -1) :
    ∃ b, mpz_lucas_check (mpz_of n) p = .ok b ∧ (b = true ↔ ExtraStrongLucas n p.toNat) := by
  obtain ⟨hr, hm, hs⟩ := split_succ ho
  rw [extra_strong_iff hm.symm hs]
  unfold mpz_lucas_check
  rw [add_1_of, C.ok_bind, show (n : Int) + 1 = ((n + 1 : Nat) : Int) by push_cast; rfl]
  generalize hr' : mpz_ctz (mpz_of ((n + 1 : Nat) : Int)) = r at *
  dsimp only
  rw [quo_2exp_of, C.ok_bind, shift_nat, sub_ui_of, C.ok_bind, bitlen_of, C.ok_bind, set_ui_of, set_ui_of]
  generalize (n + 1) / 2 ^ r = s at *
  have hsz : s / 2 ^ ((s : Int).natAbs.size + 1) = 0 := by
    rw [Int.natAbs_natCast]
    exact Nat.div_eq_of_lt (lt_of_lt_of_le (Nat.lt_size_self s) (Nat.pow_le_pow_right (by omega) (by omega)))
  obtain ⟨c, d, e, hc, hd, hred⟩ := ladder_of (show 0 < n by omega) s p ((s : Int).natAbs.size + 1) ((2 : Limb).toNat : Int) (p.toNat : Int)
    (by rw [hsz]; rfl) (by rw [hsz]; rfl)
  obtain ⟨c0, c1⟩ := hred (by omega)
  rw [e, C.ok_bind]
  have hunit : IsUnit ((((p.toNat : Int) ^ 2 - 4 : Int)) : ZMod n) := by
    have hg : Int.gcd ((p.toNat : Int) ^ 2 - 4) n = 1 := by
      by_contra hg
      have : NeZero n := ⟨by omega⟩
      have := (jacobiSym.eq_zero_iff_not_coprime (a := (p.toNat : Int) ^ 2 - 4) (b := n)).2 hg
      omega
    exact (ZMod.coe_int_isUnit_iff_isCoprime _ _).2 (Int.isCoprime_iff_gcd_eq_one.2 (by rw [Int.gcd_comm]; exact hg))
  have hU : (((lucasU p.toNat s : Int)) : ZMod n) = 0 ↔ (c : ZMod n) * (p.toNat : ZMod n) - d * 2 = 0 := by
    have h1 := congrArg (Int.cast : Int → ZMod n) (lucasU_V p.toNat s).1
    rw [Int.cast_mul] at h1
    have h2 : (c : ZMod n) * (p.toNat : ZMod n) - d * 2 = -(((((p.toNat : Int) ^ 2 - 4 : Int)) : ZMod n) * ((lucasU p.toNat s : Int) : ZMod n)) := by
      rw [h1, hc, hd]
      push_cast
      ring
    rw [h2, neg_eq_zero, hunit.mul_right_eq_zero]
  obtain ⟨bz, ez, hz⟩ := lucas_zero_of (show 2 < n by omega) p.toNat (r - 1) s c c0 c1 hc
  have hv2 : c = ((2 : Limb).toNat : Int) ↔ ((lucasV p.toNat s : Int) : ZMod n) = 2 := by
    rw [reduced_eq c0 c1 (by omega) (by show ((2 : Nat) : Int) < n; omega), hc, show (2 : Limb).toNat = 2 from rfl]
    push_cast
    rfl
  have hvm : c = (n : Int) - ((2 : Limb).toNat : Int) ↔ ((lucasV p.toNat s : Int) : ZMod n) = -2 := by
    rw [show (2 : Limb).toNat = 2 from rfl, reduced_eq c0 c1 (by omega) (by omega), hc]
    push_cast
    rw [ZMod.natCast_self, zero_sub]
  simp only [cmp_ui_zero_of, cmp_zero_of]
  by_cases hv : c = ((2 : Limb).toNat : Int) ∨ c = (n : Int) - ((2 : Limb).toNat : Int)
  · rw [if_pos hv, mul_ui_of, C.ok_bind, mul_2exp_of, C.ok_bind, sub_of, C.ok_bind, mod_nat_of _ (by omega), C.ok_bind, C.ok_bind]
    have ht : (mpz_of ((c * (p.toNat : Int) - d * 2 ^ 1) % (n : Int))).size = 0 ↔ ((lucasU p.toNat s : Int) : ZMod n) = 0 := by
      rw [size_zero_of, hU, ← Int.dvd_iff_emod_eq_zero, ← ZMod.intCast_zmod_eq_zero_iff_dvd]
      push_cast
      rfl
    by_cases hu : ((lucasU p.toNat s : Int) : ZMod n) = 0
    · rw [if_pos (decide_eq_true (ht.2 hu))]
      refine ⟨true, rfl, fun _ => Or.inl ⟨hu, ?_⟩, fun _ => rfl⟩
      rcases hv with h | h
      · exact Or.inl (hv2.1 h)
      · exact Or.inr (hvm.1 h)
    · rw [if_neg (by rw [decide_eq_true_iff, ht]; exact hu)]
      refine ⟨bz, ez, hz.trans ⟨Or.inr, ?_⟩⟩
      rintro (h | h)
      · exact absurd h.1 hu
      · exact h
  · rw [if_neg hv, C.ok_bind, if_neg (by decide)]
    refine ⟨bz, ez, hz.trans ⟨Or.inr, ?_⟩⟩
    rintro (⟨-, h⟩ | h)
    · rw [← hv2, ← hvm] at h
      exact absurd h hv
    · exact h

/-! ### The parameter -/

theorem first_unique {n p q : Nat} (hp : FirstParam n p) (hq : FirstParam n q) : p = q := by
  rcases Nat.lt_trichotomy p q with h | h | h
  · exact absurd (hq.2.2 p hp.1 h) hp.2.1
  · exact h
  · exact absurd (hp.2.2 q hq.1 h) hq.2.1

theorem square_params {n : Nat} (ho : n % 2 = 1) (hn : 7 < n) (h : ∃ a : Int, a * a = n) {p : Nat} (hp : FirstParam n p) :
    jacobiSym ((p : Int) ^ 2 - 4) n ≠ -1 ∧ n ≠ p + 2 := by
  obtain ⟨a, ha⟩ := h
  have hm : a.natAbs * a.natAbs = n := by
    zify
    rw [← ha]
    exact abs_mul_abs_self a
  generalize a.natAbs = m at hm
  subst hm
  have hm0 : NeZero m := ⟨by rintro rfl; omega⟩
  have hmm : 3 ≤ m := by
    by_contra hc
    have : m = 0 ∨ m = 1 ∨ m = 2 := by omega
    rcases this with rfl | rfl | rfl <;> omega
  constructor
  · rw [jacobiSym.mul_right]
    intro h
    have := mul_self_nonneg (jacobiSym ((p : Int) ^ 2 - 4) m)
    omega
  · have hz : jacobiSym (((m + 2 : Nat) : Int) ^ 2 - 4) (m * m) = 0 := by
      have : NeZero (m * m) := ⟨by omega⟩
      rw [jacobiSym.eq_zero_iff_not_coprime]
      intro h
      have hd : (m : Int) ∣ (Int.gcd (((m + 2 : Nat) : Int) ^ 2 - 4) ((m * m : Nat) : Int) : Nat) :=
        Int.dvd_coe_gcd ⟨(m : Int) + 4, by push_cast; ring⟩ ⟨m, by push_cast; rfl⟩
      rw [h] at hd
      have := Int.le_of_dvd (by decide) hd
      push_cast at this
      omega
    have hle : p ≤ m + 2 := by
      by_contra hc
      have := hp.2.2 (m + 2) (by omega) (by omega)
      omega
    nlinarith

theorem jacobi_at_end {n : Nat} (hn : 7 < n) {p : Nat} (h : n = p + 2) : jacobiSym ((p : Int) ^ 2 - 4) n = 0 := by
  have : NeZero n := ⟨by omega⟩
  rw [jacobiSym.eq_zero_iff_not_coprime]
  intro hg
  have hd : (n : Int) ∣ (Int.gcd ((p : Int) ^ 2 - 4) (n : Int) : Nat) :=
    Int.dvd_coe_gcd ⟨(p : Int) - 2, by rw [h]; push_cast; ring⟩ (dvd_refl _)
  rw [hg] at hd
  have := Int.le_of_dvd (by decide) hd
  push_cast at this
  omega

/-- The largest parameter tried. -/
def lucasBound (limit : Limb) : Nat := if limit = 0 then 10000 else min 10000 limit.toNat

theorem param_of {n : Nat} (ho : n % 2 = 1) (hn : 7 < n) (limit : Limb) : ∀ (f m : Nat) (p : Limb), p.toNat = m → 3 ≤ m →
    m + f = 10002 → m ≤ 10001 → (∀ p', 3 ≤ p' → p' < m → jacobiSym ((p' : Int) ^ 2 - 4) n = 1) → (40 < m → ¬ ∃ a : Int, a * a = n) →
    ∃ p' o, mpz_lucas_param (mpz_of n) limit f p = .ok (p', o) ∧
      (o = none → FirstParam n p'.toNat ∧ p'.toNat ≤ lucasBound limit ∧ jacobiSym ((p'.toNat : Int) ^ 2 - 4) n = -1) ∧
      (∀ b, o = some b → (b = true ↔ ∃ p, FirstParam n p ∧ p ≤ lucasBound limit ∧ n = p + 2) ∧
        ¬ ∃ p, FirstParam n p ∧ p ≤ lucasBound limit ∧ jacobiSym ((p : Int) ^ 2 - 4) n = -1)
  | 0, m, p, hp, h3, hf, hm0, hall, hsq => absurd hf (by omega)
  | f + 1, m, p, hp, h3, hf, hm0, hall, hsq => by
    unfold mpz_lucas_param
    have hbound : ∀ {p}, FirstParam n p → m ≤ p := fun {p} h => by
      by_contra hc
      exact h.2.1 (hall p h.1 (by omega))
    have hb1 : lucasBound limit ≤ 10000 := by
      unfold lucasBound
      split
      · exact le_refl _
      · exact Nat.min_le_left _ _
    have none_left : lucasBound limit < m → ∀ b, some false = some b →
        (b = true ↔ ∃ p, FirstParam n p ∧ p ≤ lucasBound limit ∧ n = p + 2) ∧
        ¬ ∃ p, FirstParam n p ∧ p ≤ lucasBound limit ∧ jacobiSym ((p : Int) ^ 2 - 4) n = -1 := by
      rintro hlt b hb
      cases hb
      refine ⟨⟨fun h => absurd h (by decide), ?_⟩, ?_⟩
      · rintro ⟨q, hq, hle, -⟩
        have := hbound hq
        omega
      · rintro ⟨q, hq, hle, -⟩
        have := hbound hq
        omega
    by_cases h1 : p > 10000
    · have : 10000 < m := by rw [← hp]; exact BitVec.lt_def.1 h1
      rw [if_pos h1]
      exact ⟨_, _, rfl, fun h => (by cases h), none_left (by omega)⟩
    rw [if_neg h1]
    have hm : m ≤ 10000 := by rw [← hp]; exact Nat.not_lt.1 fun h => h1 (BitVec.lt_def.2 h)
    by_cases h2 : limit ≠ 0 ∧ p > limit
    · rw [if_pos h2]
      refine ⟨_, _, rfl, fun h => (by cases h), none_left ?_⟩
      unfold lucasBound
      rw [if_neg h2.1]
      have : limit.toNat < m := by rw [← hp]; exact BitVec.lt_def.1 h2.2
      exact lt_of_le_of_lt (Nat.min_le_right _ _) this
    rw [if_neg h2]
    have hle : m ≤ lucasBound limit := by
      unfold lucasBound
      split
      · exact hm
      · rename_i h0
        refine le_min hm ?_
        rw [← hp]
        exact Nat.not_lt.1 fun h => h2 ⟨h0, BitVec.lt_def.2 h⟩
    have hmm : m * m ≤ 10000 * 10000 := Nat.mul_le_mul hm hm
    have hmm4 : 3 * 3 ≤ m * m := Nat.mul_le_mul h3 h3
    have hpp : (p * p).toNat = m * m := by rw [BitVec.toNat_mul, hp, Nat.mod_eq_of_lt (by omega)]
    have hd : ((p * p - 4).toNat : Int) = (m : Int) ^ 2 - 4 := by
      rw [BitVec.toNat_sub_of_le (show (4 : Limb).toNat ≤ (p * p).toNat by rw [hpp]; show 4 ≤ m * m; omega), hpp,
        show (4 : Limb).toNat = 4 from rfl]
      push_cast [show 4 ≤ m * m by omega]
      ring
    have hp2 : (p + 2).toNat = m + 2 := by
      rw [BitVec.toNat_add, hp, show (2 : Limb).toNat = 2 from rfl, Nat.mod_eq_of_lt (by omega)]
    have hp1 : (p + 1).toNat = m + 1 := by
      rw [BitVec.toNat_add, hp, show (1 : Limb).toNat = 1 from rfl, Nat.mod_eq_of_lt (by omega)]
    rw [set_ui_of, hd, jacobi_of _ ho, C.ok_bind]
    by_cases hj1 : jacobiSym ((m : Int) ^ 2 - 4) n = -1
    · rw [if_pos hj1]
      refine ⟨p, none, rfl, fun _ => ?_, fun b hb => (by cases hb)⟩
      rw [hp]
      exact ⟨⟨h3, by rw [hj1]; decide, hall⟩, hle, hj1⟩
    rw [if_neg hj1]
    by_cases hj0 : jacobiSym ((m : Int) ^ 2 - 4) n = 0
    · rw [if_pos hj0]
      have hfirst : FirstParam n m := ⟨h3, by rw [hj0]; decide, hall⟩
      refine ⟨p, _, rfl, fun h => (by cases h), fun b hb => ?_⟩
      cases hb
      refine ⟨?_, ?_⟩
      · rw [decide_eq_true_iff, cmp_ui_zero_of, hp2]
        constructor
        · intro h
          exact ⟨m, hfirst, hle, by exact_mod_cast h⟩
        · rintro ⟨q, hq, -, h⟩
          rw [first_unique hfirst hq, h]
      · rintro ⟨q, hq, -, h⟩
        rw [← first_unique hfirst hq] at h
        exact hj1 h
    rw [if_neg hj0]
    have hj : jacobiSym ((m : Int) ^ 2 - 4) n = 1 := by
      rcases jacobiSym.trichotomy ((m : Int) ^ 2 - 4) n with h | h | h
      · exact absurd h hj0
      · exact h
      · exact absurd h hj1
    have hall' : ∀ p', 3 ≤ p' → p' < m + 1 → jacobiSym ((p' : Int) ^ 2 - 4) n = 1 := fun p' h h' => by
      rcases Nat.lt_succ_iff_lt_or_eq.1 h' with h' | rfl
      · exact hall p' h h'
      · exact hj
    have h40 : p = 40 ↔ m = 40 := by
      rw [BitVec.toNat_eq, hp]
      exact Iff.rfl
    by_cases hc : m = 40
    · rw [if_pos (h40.2 hc)]
      obtain ⟨b, e, hb⟩ := perfect_square_val (of_rep (n : Int))
      rw [e, C.ok_bind]
      cases b with
      | true =>
        rw [if_pos rfl]
        refine ⟨_, _, rfl, fun h => (by cases h), fun b hb' => ?_⟩
        cases hb'
        have hs := hb.1 rfl
        refine ⟨⟨fun h => absurd h (by decide), ?_⟩, ?_⟩
        · rintro ⟨q, hq, -, h⟩
          exact absurd h (square_params ho hn hs hq).2
        · rintro ⟨q, hq, -, h⟩
          exact absurd h (square_params ho hn hs hq).1
      | false =>
        rw [if_neg (by decide)]
        exact param_of ho hn limit f (m + 1) (p + 1) hp1 (by omega) (by omega) (by omega) hall' fun _ h => absurd (hb.2 h) (by decide)
    · rw [if_neg (fun h => hc (h40.1 h)), C.ok_bind, if_neg (by decide)]
      exact param_of ho hn limit f (m + 1) (p + 1) hp1 (by omega) (by omega) (by omega) hall' fun h => hsq (by omega)

theorem lucas_of {n : Nat} (ho : n % 2 = 1) (hn : 7 < n) (limit : Limb) :
    ∃ b, mpz_lucas_prime_p (mpz_of n) limit = .ok b ∧ (b = true ↔ LucasTest n (lucasBound limit)) := by
  unfold mpz_lucas_prime_p
  rw [if_neg (by rw [cmp_ui_neg_of]; show ¬ ((n : Int) < (2 : Nat)); omega), even_of, C.ok_bind,
    if_neg (by rw [decide_eq_true_iff]; omega), if_neg (by rw [cmp_ui_nonpos_of]; show ¬ ((n : Int) ≤ (7 : Nat)); omega)]
  obtain ⟨p, o, e, h1, h2⟩ := param_of ho hn limit 9999 3 3 rfl (by omega) (by omega) (by omega) (fun p' h h' => by omega) (fun h => by omega)
  rw [e, C.ok_bind]
  unfold LucasTest
  cases o with
  | some b =>
    obtain ⟨h3, h4⟩ := h2 b rfl
    refine ⟨b, rfl, h3.trans ⟨?_, ?_⟩⟩
    · rintro ⟨q, hq, hl, h⟩
      exact ⟨q, hq, hl, Or.inr h⟩
    · rintro ⟨q, hq, hl, h | h⟩
      · exact absurd ⟨q, hq, hl, h.1⟩ h4
      · exact ⟨q, hq, hl, h⟩
  | none =>
    obtain ⟨h3, h4, h5⟩ := h1 rfl
    obtain ⟨b, eb, hb⟩ := lucas_check_of ho hn p h5
    refine ⟨b, eb, hb.trans ⟨fun h => ⟨_, h3, h4, Or.inl ⟨h5, h⟩⟩, ?_⟩⟩
    rintro ⟨q, hq, hl, h | h⟩
    · rw [first_unique h3 hq]; exact h.2
    · rw [first_unique h3 hq, jacobi_at_end hn h] at h5
      exact absurd h5 (by decide)

theorem lucas_small {i : Int} (h : i ≤ 7 ∨ i % 2 = 0) (limit : Limb) :
    mpz_lucas_prime_p (mpz_of i) limit = .ok (decide (i = 2 ∨ i = 3 ∨ i = 5 ∨ i = 7)) := by
  unfold mpz_lucas_prime_p
  by_cases h2 : i < 2
  · rw [if_pos ((cmp_ui_neg_of _ _).2 h2), decide_eq_false (by omega)]
  · rw [if_neg (by rw [cmp_ui_neg_of]; exact h2), even_of, C.ok_bind]
    by_cases he : i % 2 = 0
    · rw [if_pos (by rw [decide_eq_true_iff]; exact he)]
      congr 1
      rw [decide_eq_decide, cmp_ui_zero_of]
      show i = (2 : Nat) ↔ _
      omega
    · rw [if_neg (by rw [decide_eq_true_iff]; exact he), if_pos ((cmp_ui_nonpos_of _ _).2 (show i ≤ (7 : Nat) by omega)),
        decide_eq_true (by omega)]

/-! ### Primes -/

theorem lucasV_roots {K : Type} [Field K] {α β : K} {P : Int} (hs : α + β = P) (hp : α * β = 1) :
    ∀ k, ((lucasV P k : Int) : K) = α ^ k + β ^ k ∧ ((lucasV P (k + 1) : Int) : K) = α ^ (k + 1) + β ^ (k + 1)
  | 0 => ⟨by show ((2 : Int) : K) = _; rw [pow_zero, pow_zero]; norm_num, by show (P : K) = _; rw [← hs]; ring⟩
  | k + 1 => by
    obtain ⟨h1, h2⟩ := lucasV_roots hs hp k
    refine ⟨h2, ?_⟩
    rw [lucasV_succ, Int.cast_sub, Int.cast_mul, h1, h2, ← hs]
    linear_combination (α ^ k + β ^ k) * hp

theorem lucasU_roots {K : Type} [Field K] {α β : K} {P : Int} (hs : α + β = P) (hp : α * β = 1) :
    ∀ k, ((lucasU P k : Int) : K) * (α - β) = α ^ k - β ^ k ∧
      ((lucasU P (k + 1) : Int) : K) * (α - β) = α ^ (k + 1) - β ^ (k + 1)
  | 0 => ⟨by show ((0 : Int) : K) * (α - β) = _; simp, by show ((1 : Int) : K) * (α - β) = _; simp⟩
  | k + 1 => by
    obtain ⟨h1, h2⟩ := lucasU_roots hs hp k
    refine ⟨h2, ?_⟩
    rw [lucasU_succ, Int.cast_sub, Int.cast_mul, sub_mul, mul_assoc, h1, h2, ← hs]
    linear_combination (α ^ k - β ^ k) * hp

theorem half_roots {K : Type} [Field K] (h2 : (2 : K) ≠ 0) {P δ : K} (hδ : δ ^ 2 = P ^ 2 - 4) :
    ∃ α β : K, α + β = P ∧ α * β = 1 ∧ α - β = δ ∧ 2 * α = P + δ ∧ 2 * β = P - δ := by
  refine ⟨(P + δ) / 2, (P - δ) / 2, ?_, ?_, ?_, ?_, ?_⟩
  · field_simp; ring
  · field_simp; linear_combination -hδ
  · field_simp; ring
  · field_simp
  · field_simp

theorem extra_strong_roots {K : Type} [Field K] {n : Nat} [CharP K n] {p r s : Nat} {α β : K} (hs : α + β = (p : Int)) (hp : α * β = 1)
    (hne : α - β ≠ 0) (hm : 2 ^ r * s = n + 1) (ho : s % 2 = 1) (hn : α ^ n = β) : ExtraStrongLucas n p := by
  have hd : ∀ x : Int, (n : Int) ∣ x ↔ (x : K) = 0 := fun x => (CharP.intCast_eq_zero_iff K n x).symm
  have hone : (α ^ s) ^ 2 ^ r = 1 := by rw [← pow_mul, Nat.mul_comm, hm, pow_succ, hn, mul_comm]; exact hp
  have hbs : α ^ s * β ^ s = 1 := by rw [← mul_pow, hp, one_pow]
  have hU := (lucasU_roots hs hp s).1
  have hV := (lucasV_roots hs hp s).1
  refine ⟨r, s, hm.symm, ho, ?_⟩
  simp only [hd, Int.cast_sub, Int.cast_add, Int.cast_ofNat]
  rcases two_power_order (α ^ s) r hone with h | ⟨t, ht, h⟩
  · left
    have hb : β ^ s = 1 := by rw [h, one_mul] at hbs; exact hbs
    rw [h, hb] at hU hV
    rw [sub_self] at hU
    exact ⟨(mul_eq_zero.1 hU).resolve_right hne, Or.inl (by rw [hV]; ring)⟩
  · cases t with
    | zero =>
      left
      rw [pow_zero, pow_one] at h
      have hb : β ^ s = -1 := by rw [h] at hbs; linear_combination -hbs
      rw [h, hb] at hU hV
      rw [sub_self] at hU
      exact ⟨(mul_eq_zero.1 hU).resolve_right hne, Or.inr (by rw [hV]; ring)⟩
    | succ t =>
      right
      refine ⟨t, by omega, ?_⟩
      rw [(lucasV_roots hs hp _).1]
      have e1 : α ^ (2 ^ t * s) = (α ^ s) ^ 2 ^ t := by rw [← pow_mul, Nat.mul_comm]
      have e2 : β ^ (2 ^ t * s) = (β ^ s) ^ 2 ^ t := by rw [← pow_mul, Nat.mul_comm]
      have e3 : (α ^ s) ^ 2 ^ t * (β ^ s) ^ 2 ^ t = 1 := by rw [← mul_pow, hbs, one_pow]
      rw [pow_succ 2 t, pow_mul] at h
      rw [e1, e2]
      generalize (α ^ s) ^ 2 ^ t = x at *
      generalize (β ^ s) ^ 2 ^ t = y at *
      linear_combination -x * e3 + y * h

theorem prime_extra_strong {n p : Nat} (hn : n.Prime) (h7 : 7 < n) (hj : jacobiSym ((p : Int) ^ 2 - 4) n = -1) :
    ExtraStrongLucas n p := by
  have hf : Fact n.Prime := ⟨hn⟩
  have ho : n % 2 = 1 := (hn.eq_two_or_odd).resolve_left (by omega)
  obtain ⟨hr, hm, hs⟩ := split_succ ho
  have hinj : Function.Injective (algebraMap (ZMod n) (AlgebraicClosure (ZMod n))) := (algebraMap (ZMod n) _).injective
  have hchar : CharP (AlgebraicClosure (ZMod n)) n := charP_of_injective_algebraMap hinj n
  have hcast : ∀ x : Int, algebraMap (ZMod n) (AlgebraicClosure (ZMod n)) (x : ZMod n) = (x : AlgebraicClosure (ZMod n)) :=
    fun x => map_intCast _ x
  revert hcast hchar hinj
  generalize algebraMap (ZMod n) (AlgebraicClosure (ZMod n)) = φ
  intro hinj hchar hcast
  have hdvd : ∀ x : Int, (x : AlgebraicClosure (ZMod n)) = 0 ↔ (n : Int) ∣ x := fun x => CharP.intCast_eq_zero_iff _ n x
  have h2 : (2 : AlgebraicClosure (ZMod n)) ≠ 0 := fun h => by
    have := (hdvd 2).1 (by rw [Int.cast_ofNat]; exact h)
    have := Int.le_of_dvd (by decide) this
    omega
  obtain ⟨δ, hδ⟩ := IsAlgClosed.exists_pow_nat_eq (((p : Int) ^ 2 - 4 : Int) : AlgebraicClosure (ZMod n)) (n := 2) (by omega)
  have hDne : ((((p : Int) ^ 2 - 4 : Int)) : ZMod n) ≠ 0 := fun h => by
    rw [← jacobiSym.legendreSym.to_jacobiSym, (legendreSym.eq_zero_iff n _).2 h] at hj
    exact absurd hj (by decide)
  have hδ0 : δ ≠ 0 := fun h => hDne (hinj (by rw [hcast, ← hδ, h, map_zero, zero_pow (by decide)]))
  have hδn : δ ^ n = -δ := by
    have e : n = 2 * (n / 2) + 1 := by omega
    have : δ ^ n = δ ^ (2 * (n / 2) + 1) := congrArg (fun m => δ ^ m) e
    rw [this, pow_succ, pow_mul, hδ, ← hcast, ← map_pow, ← legendreSym.eq_pow, jacobiSym.legendreSym.to_jacobiSym, hj, hcast,
      Int.cast_neg, Int.cast_one, neg_one_mul]
  have hpn : ∀ m : Int, (m : AlgebraicClosure (ZMod n)) ^ n = m := fun m => by
    rw [← hcast, ← map_pow, ZMod.pow_card]
  rw [Int.cast_sub, Int.cast_pow, Int.cast_ofNat] at hδ
  obtain ⟨α, β, h1, h3, h4, h5, h6⟩ := half_roots h2 hδ
  refine extra_strong_roots h1 h3 (by rw [h4]; exact hδ0) hm hs ?_
  have h7 : (2 * α) ^ n = 2 * β := by
    rw [h5, add_pow_char, hpn, hδn, h6, sub_eq_add_neg]
  rw [mul_pow, show (2 : AlgebraicClosure (ZMod n)) ^ n = 2 by have := hpn 2; rw [Int.cast_ofNat] at this; exact this] at h7
  exact mul_left_cancel₀ h2 h7

theorem prime_lucas {n : Nat} (hn : n.Prime) (h7 : 7 < n) (bound : Nat) :
    LucasTest n bound ↔ ∃ p, 3 ≤ p ∧ p ≤ bound ∧ jacobiSym ((p : Int) ^ 2 - 4) n ≠ 1 := by
  constructor
  · rintro ⟨p, hp, hl, -⟩
    exact ⟨p, hp.1, hl, hp.2.1⟩
  · intro h
    classical
    obtain ⟨h3, hl, hj⟩ := Nat.find_spec h
    have hmin : ∀ p', 3 ≤ p' → p' < Nat.find h → jacobiSym ((p' : Int) ^ 2 - 4) n = 1 := fun p' h' hlt => by
      by_contra hc
      exact Nat.find_min h hlt ⟨h', by omega, hc⟩
    generalize Nat.find h = p at *
    refine ⟨p, ⟨h3, hj, hmin⟩, hl, ?_⟩
    rcases jacobiSym.trichotomy ((p : Int) ^ 2 - 4) n with h0 | h0 | h0
    · right
      have hle : p ≤ n - 2 := by
        by_contra hc
        have := hmin (n - 2) (by omega) (by omega)
        rw [jacobi_at_end h7 (show n = (n - 2) + 2 by omega)] at this
        exact absurd this (by decide)
      have hf : Fact n.Prime := ⟨hn⟩
      rw [← jacobiSym.legendreSym.to_jacobiSym, legendreSym.eq_zero_iff, ZMod.intCast_zmod_eq_zero_iff_dvd] at h0
      have h1 : (n : Int) ∣ ((p - 2 : Nat) : Int) * ((p + 2 : Nat) : Int) := by
        push_cast [show 2 ≤ p by omega]
        exact h0.trans (dvd_of_eq (by ring))
      rcases (hn.dvd_mul).1 (by exact_mod_cast h1) with h | h
      · have := Nat.le_of_dvd (by omega) h
        omega
      · have := Nat.le_of_dvd (by omega) h
        omega
    · exact absurd h0 hj
    · exact Or.inl ⟨h0, prime_extra_strong hn h7 h0⟩

/-- There are primes for which all small numbers are squares. -/
theorem exists_bad_prime (N M : Nat) : ∃ n : Nat, n.Prime ∧ M < n ∧ ∀ a : Nat, 0 < a → a ≤ N → jacobiSym a n = 1 := by
  obtain ⟨n, hn, hM, hk⟩ := Nat.exists_prime_gt_modEq_one (k := 8 * N.factorial) (max M 8) (by positivity)
  have hM' : M < n := lt_of_le_of_lt (le_max_left _ _) hM
  have h8' : 8 < n := lt_of_le_of_lt (le_max_right _ _) hM
  have h8 : n % 8 = 1 := by
    have := hk.of_mul_right N.factorial
    exact this
  have ho : Odd n := Nat.odd_iff.2 (by omega)
  have h2 : jacobiSym 2 n = 1 := by
    rw [jacobiSym.at_two ho, ZMod.χ₈_nat_eq_if_mod_eight]
    rw [if_neg (by omega), if_pos (Or.inl h8)]
  refine ⟨n, hn, hM', fun a => ?_⟩
  induction a using Nat.strong_induction_on with
  | _ a ih =>
    intro ha haN
    rcases Nat.even_or_odd a with he | hodd
    · obtain ⟨c, rfl⟩ := he
      have := ih c (by omega) (by omega) (by omega)
      rw [← two_mul]
      push_cast
      rw [jacobiSym.mul_left, h2, this, one_mul]
    · rw [jacobiSym.quadratic_reciprocity_one_mod_four' hodd (by omega)]
      have hd : n ≡ 1 [MOD a] := hk.of_dvd ((Nat.dvd_factorial ha haN).trans (dvd_mul_left _ _))
      rw [jacobiSym.mod_left' (a₂ := 1), jacobiSym.one_left]
      have : n % a = 1 % a := hd
      exact_mod_cast this

end Torsion.Mpi
