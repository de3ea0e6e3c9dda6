import Verif.Ecc.MontMulLemmas
import Verif.Ecc.CurveCert
import Verif.Dsa.Example
import Mathlib.NumberTheory.LegendreSymbol.QuadraticChar.Basic

/-!
Certificates for concrete Montgomery curves: multiples of a point by its abscissa over the natural numbers, non-squares, and the
number of points of a curve and of its twist.
-/
namespace Torsion.Ecc

open Torsion.Spec (montCurve MPt montAffine montX MontXZ MontGood MontOk)
open WeierstrassCurve.Affine (Point)

/-! ### Multiples -/

/-- The ladder from bit `i - 1` of `k` downwards. -/
def natLadder (p a u k : Nat) : Nat → Nat → Nat → Nat → Nat → Nat × Nat
  | 0, X2, Z2, _, _ => (X2, Z2)
  | i + 1, X2, Z2, X3, Z3 =>
    force (4 * (nsub p (X2 * X3) (Z2 * Z3) * nsub p (X2 * X3) (Z2 * Z3)) % p) fun X5 =>
    force (4 * u * (nsub p (X3 * Z2) (X2 * Z3) * nsub p (X3 * Z2) (X2 * Z3)) % p) fun Z5 =>
    if k / 2 ^ i % 2 = 1 then
      force (nsub p (X3 * X3) (Z3 * Z3) * nsub p (X3 * X3) (Z3 * Z3) % p) fun X4 =>
      force (4 * X3 * Z3 * (X3 * X3 + a * X3 * Z3 + Z3 * Z3) % p) fun Z4 =>
      natLadder p a u k i X5 Z5 X4 Z4
    else
      force (nsub p (X2 * X2) (Z2 * Z2) * nsub p (X2 * X2) (Z2 * Z2) % p) fun X4 =>
      force (4 * X2 * Z2 * (X2 * X2 + a * X2 * Z2 + Z2 * Z2) % p) fun Z4 =>
      natLadder p a u k i X4 Z4 X5 Z5

section
variable {p : Nat} [Fact p.Prime]

theorem natLadder_xz {a : Nat} {b : ZMod p} (g : MontGood (a : ZMod p) b) {u : Nat} {P : MPt (a : ZMod p) b} (hP : montX P = some (u : ZMod p))
    (hu : (u : ZMod p) ≠ 0) (k : Nat) : ∀ (i X2 Z2 X3 Z3 m : Nat), MontXZ ⟨(X2 : ZMod p), (Z2 : ZMod p)⟩ (m • P) →
      MontXZ ⟨(X3 : ZMod p), (Z3 : ZMod p)⟩ ((m + 1) • P) →
      MontXZ ⟨((natLadder p a u k i X2 Z2 X3 Z3).1 : ZMod p), ((natLadder p a u k i X2 Z2 X3 Z3).2 : ZMod p)⟩ ((m * 2 ^ i + k % 2 ^ i) • P)
  | 0, X2, Z2, X3, Z3, m, h2, _ => by simpa [natLadder, Nat.mod_one] using h2
  | i + 1, X2, Z2, X3, Z3, m, h2, h3 => by
    have h1 : MontXZ ⟨(u : ZMod p), 1⟩ P := by rw [MontXZ, hP]; exact ⟨one_ne_zero, by simp⟩
    rw [natLadder]
    simp only [force_eq]
    have hs := mx_add g (P := m • P) (Q := (m + 1) • P) (D := P) (by rw [add_nsmul, one_nsmul]; abel) h1 hu one_ne_zero h2 h3
    by_cases hb : k / 2 ^ i % 2 = 1
    · rw [if_pos hb]
      have hd := mx_dbl g h3
      have := natLadder_xz g hP hu k i (m := m + m + 1)
        (X2 := 4 * (nsub p (X2 * X3) (Z2 * Z3) * nsub p (X2 * X3) (Z2 * Z3)) % p)
        (Z2 := 4 * u * (nsub p (X3 * Z2) (X2 * Z3) * nsub p (X3 * Z2) (X2 * Z3)) % p)
        (X3 := nsub p (X3 * X3) (Z3 * Z3) * nsub p (X3 * X3) (Z3 * Z3) % p)
        (Z3 := 4 * X3 * Z3 * (X3 * X3 + a * X3 * Z3 + Z3 * Z3) % p) (by
          rw [show m + m + 1 = m + (m + 1) by ring, add_nsmul]
          convert hs using 2 <;> simp only [cast_mod_dvd (dvd_refl p), cast_nsub, Nat.cast_mul, Nat.cast_ofNat] <;> ring) (by
          rw [show m + m + 1 + 1 = (m + 1) + (m + 1) by ring, add_nsmul]
          convert hd using 2 <;> simp only [cast_mod_dvd (dvd_refl p), cast_nsub, Nat.cast_mul, Nat.cast_add, Nat.cast_ofNat] <;> ring)
      rw [show m * 2 ^ (i + 1) + k % 2 ^ (i + 1) = (m + m + 1) * 2 ^ i + k % 2 ^ i by
        rw [Nat.pow_succ, Nat.mod_mul, hb]; ring]
      exact this
    · rw [if_neg hb]
      have hd := mx_dbl g h2
      have := natLadder_xz g hP hu k i (m := m + m)
        (X2 := nsub p (X2 * X2) (Z2 * Z2) * nsub p (X2 * X2) (Z2 * Z2) % p)
        (Z2 := 4 * X2 * Z2 * (X2 * X2 + a * X2 * Z2 + Z2 * Z2) % p)
        (X3 := 4 * (nsub p (X2 * X3) (Z2 * Z3) * nsub p (X2 * X3) (Z2 * Z3)) % p)
        (Z3 := 4 * u * (nsub p (X3 * Z2) (X2 * Z3) * nsub p (X3 * Z2) (X2 * Z3)) % p) (by
          rw [add_nsmul]
          convert hd using 2 <;> simp only [cast_mod_dvd (dvd_refl p), cast_nsub, Nat.cast_mul, Nat.cast_add, Nat.cast_ofNat] <;> ring) (by
          rw [show m + m + 1 = m + (m + 1) by ring, add_nsmul]
          convert hs using 2 <;> simp only [cast_mod_dvd (dvd_refl p), cast_nsub, Nat.cast_mul, Nat.cast_ofNat] <;> ring)
      rw [show m * 2 ^ (i + 1) + k % 2 ^ (i + 1) = (m + m) * 2 ^ i + k % 2 ^ i by
        rw [Nat.pow_succ, Nat.mod_mul, show k / 2 ^ i % 2 = 0 by omega]; ring]
      exact this

/-- `k` times the point with the abscissa `u`. -/
def ladderZ (p a u k : Nat) : Nat := (natLadder p a u k k.size 1 0 u 1).2 % p

theorem ladderZ_iff {a : Nat} {b : ZMod p} (g : MontGood (a : ZMod p) b) {u : Nat} {P : MPt (a : ZMod p) b} (hP : montX P = some (u : ZMod p))
    (hu : (u : ZMod p) ≠ 0) (k : Nat) : ladderZ p a u k = 0 ↔ k • P = 0 := by
  have := natLadder_xz g hP hu k k.size 1 0 u 1 0 (by rw [zero_nsmul]; exact ⟨by simp, by simp⟩)
    (by rw [zero_add, one_nsmul, MontXZ, hP]; exact ⟨by simp, by simp⟩)
  rw [Nat.zero_mul, Nat.zero_add, Nat.mod_eq_of_lt (Nat.lt_size_self k)] at this
  rw [ladderZ, ← Nat.dvd_iff_mod_eq_zero, ← ZMod.natCast_eq_zero_iff, ← mx_none]
  unfold MontXZ at this
  cases h : montX (k • P) with
  | none => rw [h] at this; exact ⟨fun _ => rfl, fun _ => this.1⟩
  | some x => rw [h] at this; exact ⟨fun e => absurd e this.1, fun e => by simp at e⟩

/-! ### Squares -/

/-- Euler's criterion. -/
def eulerCheck (p x : Nat) : Bool := Dsa.powMod p.size x ((p - 1) / 2) p == p - 1

theorem eulerCheck_spec (h2 : 2 < p) {x : Nat} (h : eulerCheck p x = true) : ¬ IsSquare (x : ZMod p) := by
  unfold eulerCheck at h
  have hlt : (p - 1) / 2 < 2 ^ p.size := lt_of_le_of_lt ((Nat.div_le_self _ _).trans (Nat.sub_le _ _)) (Nat.lt_size_self p)
  rw [beq_iff_eq, Dsa.powMod_eq _ _ _ _ hlt] at h
  have hodd : p % 2 = 1 := (Nat.Prime.eq_two_or_odd Fact.out).resolve_left (by omega)
  rintro ⟨y, hy⟩
  have e : (x : ZMod p) ^ ((p - 1) / 2) = -1 := by
    have := congrArg (Nat.cast (R := ZMod p)) h
    rw [cast_mod_dvd (dvd_refl p), Nat.cast_sub (by omega), ZMod.natCast_self] at this
    push_cast at this
    rw [this]; ring
  have hy0 : y ≠ 0 := by
    rintro rfl
    rw [hy, mul_zero, zero_pow (by omega)] at e
    exact neg_ne_zero.2 one_ne_zero e.symm
  rw [hy, ← pow_two, ← pow_mul, show 2 * ((p - 1) / 2) = p - 1 by omega, ZMod.pow_card_sub_one_eq_one hy0] at e
  have : (2 : ZMod p) = 0 := by linear_combination e
  have h3 : ((2 : Nat) : ZMod p) = 0 := by exact_mod_cast this
  rw [ZMod.natCast_eq_zero_iff] at h3
  exact absurd (Nat.le_of_dvd (by omega) h3) (by omega)

/-! ### The number of points -/

theorem m_card_aux {a c : ZMod p} (g : MontGood a c) :
    Nat.card (MPt a c) = 1 + ∑ x : ZMod p, ((Finset.univ : Finset (ZMod p)).filter fun y => y ^ 2 = (x ^ 3 + a * x ^ 2 + x) / c).card := by
  have hc := g.b0
  let e : MPt a c ≃ Option (Σ x : ZMod p, {y : ZMod p // y ∈ (Finset.univ : Finset (ZMod p)).filter fun y => y ^ 2 = (x ^ 3 + a * x ^ 2 + x) / c}) :=
    { toFun := fun P => match P with
        | .zero => none
        | .some x y h => some ⟨c * x, c * y, by
            rw [Finset.mem_filter]
            refine ⟨Finset.mem_univ _, ?_⟩
            rw [mul_pow, m_eqn h]
            field_simp⟩
      invFun := fun o => match o with
        | none => .zero
        | some ⟨x, y, h⟩ => .some (x / c) (y / c) (m_nonsing g (by
            have := (Finset.mem_filter.1 h).2
            rw [div_pow, this]
            field_simp))
      left_inv := by
        intro P
        rcases P with _ | ⟨x, y, h⟩
        · rfl
        · simp only [Point.some.injEq]
          constructor <;> field_simp
      right_inv := by
        intro o
        rcases o with _ | ⟨x, y, h⟩
        · rfl
        · have e1 : c * (x / c) = x := by field_simp
          have e2 : c * (y / c) = y := by field_simp
          have : ∀ x' y' h', x' = x → y' = y → (some ⟨x', y', h'⟩ : Option (Σ x : ZMod p,
              {y : ZMod p // y ∈ (Finset.univ : Finset (ZMod p)).filter fun y => y ^ 2 = (x ^ 3 + a * x ^ 2 + x) / c})) = some ⟨x, y, h⟩ := by
            rintro _ _ _ rfl rfl; rfl
          exact this _ _ _ e1 e2 }
  rw [Nat.card_congr e, Nat.card_eq_fintype_card, Fintype.card_option, Fintype.card_sigma, add_comm]
  congr 1
  refine Finset.sum_congr rfl fun x _ => ?_
  rw [Fintype.card_coe]

/-- The points of a curve and of its twist. -/
theorem m_card_twist (h2 : 2 < p) {a b c : ZMod p} (g : MontGood a b) (hc : ¬ IsSquare c) :
    Nat.card (MPt a b) + Nat.card (MPt a (b * c)) = 2 * p + 2 := by
  have hc0 : c ≠ 0 := by rintro rfl; exact hc (IsSquare.zero)
  have g2 : MontGood a (b * c) := ⟨g.two, mul_ne_zero g.b0 hc0, g.disc⟩
  have hch : ringChar (ZMod p) ≠ 2 := by
    rw [ZMod.ringChar_zmod_n]; omega
  rw [m_card_aux g, m_card_aux g2]
  have key : ∀ x : ZMod p, ((Finset.univ : Finset (ZMod p)).filter fun y => y ^ 2 = (x ^ 3 + a * x ^ 2 + x) / b).card +
      ((Finset.univ : Finset (ZMod p)).filter fun y => y ^ 2 = (x ^ 3 + a * x ^ 2 + x) / (b * c)).card = 2 := by
    intro x
    have q1 := quadraticChar_card_sqrts hch ((x ^ 3 + a * x ^ 2 + x) / b)
    have q2 := quadraticChar_card_sqrts hch ((x ^ 3 + a * x ^ 2 + x) / (b * c))
    have hcc : quadraticChar (ZMod p) c = -1 := quadraticChar_neg_one_iff_not_isSquare.2 hc
    have hci : quadraticChar (ZMod p) c⁻¹ = -1 := by
      rw [quadraticChar_neg_one_iff_not_isSquare, isSquare_inv]; exact hc
    rw [show (x ^ 3 + a * x ^ 2 + x) / (b * c) = (x ^ 3 + a * x ^ 2 + x) / b * c⁻¹ by
      rw [div_mul_eq_div_div, div_eq_mul_inv _ c], map_mul, hci] at q2
    have s1 : (Finset.univ.filter fun y : ZMod p => y ^ 2 = (x ^ 3 + a * x ^ 2 + x) / b)
        = {y : ZMod p | y ^ 2 = (x ^ 3 + a * x ^ 2 + x) / b}.toFinset := by
      ext y; simp
    have s2 : (Finset.univ.filter fun y : ZMod p => y ^ 2 = (x ^ 3 + a * x ^ 2 + x) / (b * c))
        = {y : ZMod p | y ^ 2 = (x ^ 3 + a * x ^ 2 + x) / b * c⁻¹}.toFinset := by
      ext y
      rw [div_mul_eq_div_div, div_eq_mul_inv _ c]
      simp
    rw [s1, s2]
    have : (({y : ZMod p | y ^ 2 = (x ^ 3 + a * x ^ 2 + x) / b}.toFinset.card : Nat) : ℤ) +
        (({y : ZMod p | y ^ 2 = (x ^ 3 + a * x ^ 2 + x) / b * c⁻¹}.toFinset.card : Nat) : ℤ) = 2 := by
      rw [q1, q2]; ring
    exact_mod_cast this
  have hs := Finset.sum_congr (rfl : (Finset.univ : Finset (ZMod p)) = Finset.univ) fun x _ => key x
  rw [Finset.sum_add_distrib, Finset.sum_const, Finset.card_univ, ZMod.card, smul_eq_mul] at hs
  omega

instance m_finite {a b : ZMod p} [h : Fact (MontGood a b)] : Finite (MPt a b) := by
  apply Nat.finite_of_card_ne_zero
  rw [m_card_aux h.out]
  omega

end

end Torsion.Ecc
