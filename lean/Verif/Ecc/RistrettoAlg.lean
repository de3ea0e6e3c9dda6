import Verif.Ecc.RistrettoSpec
import Verif.Ecc.MontKeyLemmas
import Verif.Ecc.MontElligLemmas

/-! The algebra of the Ristretto encoding: the points of small order, the doubled points, and the number of a class. -/
set_option linter.unusedSectionVars false

namespace Torsion.Ecc

open Torsion.Spec

section
variable {F : Type} [Field F] [DecidableEq F] {a d : F} [g : EdGood a d]

/-- The curve equation as a product. -/
theorem ed_prod (P : EPt a d) : (1 - P.y ^ 2) * (1 - a * P.x ^ 2) = (a - d) * P.x ^ 2 * P.y ^ 2 := by
  linear_combination -P.on

theorem ed_den_x (P : EPt a d) : 1 - d * P.x ^ 2 ≠ 0 := by
  intro h
  have hx : P.x ≠ 0 := by rintro e; rw [e] at h; simp at h
  exact g.nsq ⟨1 / P.x, by field_simp; linear_combination -h⟩

theorem ed_ysq (P : EPt a d) : P.y ^ 2 * (1 - d * P.x ^ 2) = 1 - a * P.x ^ 2 := by linear_combination P.on

theorem two_nsmul_x (P : EPt a d) : (2 • P).x = 2 * P.x * P.y / (1 + d * P.x * P.x * P.y * P.y) := by
  rw [two_nsmul, ed_add_x]; ring

theorem ed_two_iff (P : EPt a d) : 2 • P = 0 ↔ P.x = 0 := by
  rw [two_nsmul, ← eq_neg_iff_add_eq_zero]
  constructor
  · intro h
    have := congrArg EPt.x h
    rw [ed_neg_x] at this
    have h2 : 2 * P.x = 0 := by linear_combination this
    exact (mul_eq_zero.1 h2).resolve_left g.two
  · intro h
    ext
    · rw [ed_neg_x, h, neg_zero]
    · rw [ed_neg_y]

theorem ed_four_iff (P : EPt a d) : 4 • P = 0 ↔ P.x = 0 ∨ P.y = 0 := by
  rw [show (4 : ℕ) = 2 * 2 by norm_num, mul_nsmul', ed_two_iff, two_nsmul_x]
  have h := (ed_ne (a := a) (d := d) P.on P.on).1
  rw [div_eq_zero_iff, mul_eq_zero, mul_eq_zero]
  simp only [g.two, false_or, h, or_false]

/-- Half the cofactor kills a point if and only if a coordinate is zero. -/
theorem ed_half_iff {h : Nat} (hh : h = 4 ∨ h = 8) (P : EPt a d) : (h / 2) • P = 0 ↔ P.x = 0 ∨ (h = 8 ∧ P.y = 0) := by
  rcases hh with rfl | rfl
  · rw [show 4 / 2 = 2 by norm_num, ed_two_iff]; simp
  · rw [show 8 / 2 = 4 by norm_num, ed_four_iff]; simp

theorem ed_sub_x (P Q : EPt a d) : (P - Q).x = 0 ↔ P.x * Q.y = P.y * Q.x := by
  rw [sub_eq_add_neg, ed_add_x, ed_neg_x, ed_neg_y, div_eq_zero_iff]
  have h := (ed_ne (a := a) (d := d) P.on (-Q).on).1
  rw [ed_neg_x, ed_neg_y] at h
  simp only [h, or_false]
  constructor <;> intro h <;> linear_combination h

theorem ed_sub_y (P Q : EPt a d) : (P - Q).y = 0 ↔ P.y * Q.y + a * P.x * Q.x = 0 := by
  rw [sub_eq_add_neg, ed_add_y, ed_neg_x, ed_neg_y, div_eq_zero_iff]
  have h := (ed_ne (a := a) (d := d) P.on (-Q).on).2
  rw [ed_neg_x, ed_neg_y] at h
  simp only [h, or_false]
  constructor <;> intro h <;> linear_combination h

theorem ed_y_of_x0 (P : EPt a d) (hx : P.x = 0) : P.y = 1 ∨ P.y = -1 := (ed_x0 P.on).1 hx

/-- Points with the same ordinate are equal up to the sign. -/
theorem ed_same_y {P Q : EPt a d} (h : P.y = Q.y) : P = Q ∨ P = -Q := by
  have h1 := P.on
  have h2 := Q.on
  rw [h] at h1
  have e : (a - d * Q.y ^ 2) * (P.x ^ 2 - Q.x ^ 2) = 0 := by linear_combination h1 - h2
  have e' := (mul_eq_zero.1 e).resolve_left (ed_e Q.y)
  rcases sq_eq_sq_iff_eq_or_eq_neg.1 (sub_eq_zero.1 e') with h' | h'
  · left; exact EPt.ext h' h
  · right; exact EPt.ext (by rw [h', ed_neg_x]) (by rw [h, ed_neg_y])

/-- The ordinate of a doubled point, as a quotient. -/
theorem rist_dbl_y (Q : EPt a d) : (1 - (Q + Q).y) * (1 - a * Q.x ^ 2) = (1 + (Q + Q).y) * (1 - Q.y ^ 2) := by
  have h := (ed_ne (a := a) (d := d) Q.on Q.on).2
  have e : (Q + Q).y * (2 - a * Q.x ^ 2 - Q.y ^ 2) = Q.y ^ 2 - a * Q.x ^ 2 := by
    rw [ed_add_y, div_mul_eq_mul_div, div_eq_iff h]
    linear_combination (Q.y ^ 2 - a * Q.x ^ 2) * -Q.on
  linear_combination -e

/-- The number of a doubled point is a square. -/
theorem even_sq {k : F} (ha : a ^ 2 = 1) (hk : k ^ 2 = a * d - 1) (Q : EPt a d) (h1 : 1 + (Q + Q).y ≠ 0) :
    ∃ s, s ^ 2 * (1 + (Q + Q).y) = -a * (1 - (Q + Q).y) := by
  have hd := ed_den_x Q
  have hy := ed_ysq Q
  have hq := rist_dbl_y Q
  have hY : Q.y ≠ 0 := by
    intro e
    rw [e] at hq hy
    have h0 : 1 - a * Q.x ^ 2 = 0 := by linear_combination -hy
    rw [h0] at hq
    exact h1 (by linear_combination -hq)
  have hne : 1 - a * Q.x ^ 2 ≠ 0 := by
    rw [← hy]; exact mul_ne_zero (pow_ne_zero _ hY) hd
  refine ⟨k * Q.x / (Q.y * (1 - d * Q.x ^ 2)), ?_⟩
  have hp := ed_prod Q
  apply mul_left_cancel₀ hne
  have e1 : (k * Q.x / (Q.y * (1 - d * Q.x ^ 2))) ^ 2 * (1 - a * Q.x ^ 2) = -a * (1 - Q.y ^ 2) := by
    rw [div_pow, div_mul_eq_mul_div, div_eq_iff (pow_ne_zero _ (mul_ne_zero hY hd))]
    have e2 : (1 - Q.y ^ 2) * (1 - d * Q.x ^ 2) = (a - d) * Q.x ^ 2 := by linear_combination -hy
    have e3 : -a * (a - d) = k ^ 2 := by rw [hk]; linear_combination -ha
    rw [mul_pow, mul_pow, ← hy]
    linear_combination (-(Q.x ^ 2 * Q.y ^ 2 * (1 - d * Q.x ^ 2))) * e3 + (a * Q.y ^ 2 * (1 - d * Q.x ^ 2)) * e2
  linear_combination (1 + (Q + Q).y) * e1 + a * hq

end

section
variable {fe : FieldCode} [Fact fe.p.Prime] {a d : ZMod fe.p} [g : EdGood a d]

theorem rist_disc {F : Type} [Field F] {a d s : F} (ha : a ^ 2 = 1) :
    (a * d - 1) * (a * d * (1 + a * s ^ 2) ^ 2 - (1 - a * s ^ 2) ^ 2) = ((a + d) * s ^ 2 + (a * d - 1)) ^ 2 - 4 * a * d * s ^ 4 := by
  rcases (sq_eq_sq_iff_eq_or_eq_neg.1 (ha.trans (one_pow 2).symm)) with h | h <;> rw [h] <;> ring

/-- A point with such a number is a doubled point. -/
theorem even_of {k s : ZMod fe.p} (ha : a ^ 2 = 1) (hk : k ^ 2 = a * d - 1) {P : EPt a d} (hx : P.x ≠ 0)
    (hs : s ^ 2 * (1 + P.y) = -a * (1 - P.y)) : ∃ Q : EPt a d, P = Q + Q := by
  have h2 := g.two
  have hd0 := ed_d0 (a := a) (d := d)
  have ha0 := g.a0
  have hk0 : k ^ 2 ≠ 0 := by
    rw [hk]; intro e
    exact ed_ad (a := a) (d := d) (by linear_combination (-a) * e + d * ha)
  have hxn : ¬ (P.y = 1 ∨ P.y = -1) := fun h => hx ((ed_x0 P.on).2 h)
  have h1 : 1 + P.y ≠ 0 := fun h => hxn (Or.inr (by linear_combination h))
  have h1' : 1 - P.y ≠ 0 := fun h => hxn (Or.inl (by linear_combination -h))
  have hs0 : s ≠ 0 := by
    rintro rfl
    have : a * (1 - P.y) = 0 := by linear_combination hs
    exact mul_ne_zero ha0 h1' this
  -- the value under the root
  have hV : P.x ^ 2 * (a * d * (1 + a * s ^ 2) ^ 2 - (1 - a * s ^ 2) ^ 2) = 4 * s ^ 2 := by
    have hw : a * s ^ 2 * (1 + P.y) = -(1 - P.y) := by linear_combination a * hs - (1 - P.y) * ha
    have e1 : (1 + a * s ^ 2) * (1 + P.y) = 2 * P.y := by linear_combination hw
    have e2 : (1 - a * s ^ 2) * (1 + P.y) = 2 := by linear_combination -hw
    apply mul_left_cancel₀ (pow_ne_zero 2 h1)
    have e3 : (1 + P.y) ^ 2 * (P.x ^ 2 * (a * d * (1 + a * s ^ 2) ^ 2 - (1 - a * s ^ 2) ^ 2)) =
        P.x ^ 2 * (a * d * ((1 + a * s ^ 2) * (1 + P.y)) ^ 2 - ((1 - a * s ^ 2) * (1 + P.y)) ^ 2) := by ring
    rw [e3, e1, e2]
    linear_combination (-4 * a) * P.on + (4 * P.x ^ 2) * ha - 4 * (1 + P.y) * hs
  -- the two roots of the quadratic equation
  have key : ∀ e : ZMod fe.p, e ^ 2 = 1 → IsSquare (((a + d) * s ^ 2 + k ^ 2 + e * (2 * k * s / P.x)) / (2 * a * d * s ^ 2)) →
      ∃ Q : EPt a d, P = Q + Q := by
    rintro e he ⟨X, hX⟩
    have hq : a * d * s ^ 2 * (X ^ 2) ^ 2 - ((a + d) * s ^ 2 + k ^ 2) * X ^ 2 + s ^ 2 = 0 := by
      have hden : 2 * a * d * s ^ 2 ≠ 0 := mul_ne_zero (mul_ne_zero (mul_ne_zero h2 ha0) hd0) (pow_ne_zero _ hs0)
      have hw : X ^ 2 * (2 * a * d * s ^ 2) = (a + d) * s ^ 2 + k ^ 2 + e * (2 * k * s / P.x) := by
        rw [pow_two, ← hX, div_mul_cancel₀ _ hden]
      have hD : (e * (2 * k * s / P.x)) ^ 2 = ((a + d) * s ^ 2 + k ^ 2) ^ 2 - 4 * a * d * s ^ 4 := by
        have : (2 * k * s / P.x) ^ 2 = k ^ 2 * (a * d * (1 + a * s ^ 2) ^ 2 - (1 - a * s ^ 2) ^ 2) := by
          rw [div_pow, div_eq_iff (pow_ne_zero _ hx)]
          linear_combination (-k ^ 2) * hV
        rw [mul_pow, he, this, hk, one_mul]
        exact rist_disc ha
      have h4 : (4 : ZMod fe.p) * (a * d * s ^ 2) ≠ 0 := by
        rw [show (4 : ZMod fe.p) * (a * d * s ^ 2) = 2 * (2 * a * d * s ^ 2) by ring]
        exact mul_ne_zero h2 hden
      apply (mul_eq_zero.1 (?_ : (4 : ZMod fe.p) * (a * d * s ^ 2) * _ = 0)).resolve_left h4
      have e1 : X ^ 2 * (2 * a * d * s ^ 2) - ((a + d) * s ^ 2 + k ^ 2) = e * (2 * k * s / P.x) := by rw [hw]; ring
      rw [← e1] at hD
      linear_combination hD
    have hX0 : X ≠ 0 := by
      rintro rfl
      have : s ^ 2 = 0 := by linear_combination hq
      exact pow_ne_zero 2 hs0 this
    have hq' : (1 - a * X ^ 2) * (1 - d * X ^ 2) * s ^ 2 = k ^ 2 * X ^ 2 := by linear_combination hq
    have hdx : 1 - d * X ^ 2 ≠ 0 := by
      intro h
      rw [h] at hq'
      exact mul_ne_zero hk0 (pow_ne_zero 2 hX0) (by linear_combination -hq')
    have hax : 1 - a * X ^ 2 ≠ 0 := by
      intro h
      rw [h] at hq'
      exact mul_ne_zero hk0 (pow_ne_zero 2 hX0) (by linear_combination -hq')
    have hon : a * X ^ 2 + (k * X / (s * (1 - d * X ^ 2))) ^ 2 = 1 + d * X ^ 2 * (k * X / (s * (1 - d * X ^ 2))) ^ 2 := by
      have : (k * X / (s * (1 - d * X ^ 2))) ^ 2 * (1 - d * X ^ 2) = 1 - a * X ^ 2 := by
        rw [div_pow, div_mul_eq_mul_div, div_eq_iff (pow_ne_zero _ (mul_ne_zero hs0 hdx))]
        linear_combination (-(1 - d * X ^ 2)) * hq'
      linear_combination this
    have hQ : ∃ Q : EPt a d, Q.x = X := ⟨⟨X, _, hon⟩, rfl⟩
    obtain ⟨Q, hQx⟩ := hQ
    have hy := ed_ysq Q
    have hdb := rist_dbl_y Q
    rw [hQx] at hy hdb
    -- the ordinates agree
    have hyy : P.y = (Q + Q).y := by
      have e2 : (1 - Q.y ^ 2) * (1 - d * X ^ 2) = (a - d) * X ^ 2 := by linear_combination -hy
      have e3 : k ^ 2 = -a * (a - d) := by rw [hk]; linear_combination ha
      have e4 : (1 - P.y) * (1 - a * X ^ 2) = (1 + P.y) * (1 - Q.y ^ 2) := by
        apply mul_left_cancel₀ hdx
        apply mul_left_cancel₀ ha0
        have : a * (a - d) * X ^ 2 = - ((1 - a * X ^ 2) * (1 - d * X ^ 2) * s ^ 2) := by rw [hq', e3]; ring
        linear_combination ((1 - a * X ^ 2) * (1 - d * X ^ 2)) * hs - (1 + P.y) * this - a * (1 + P.y) * e2
      have e5 : (P.y - (Q + Q).y) * (2 - a * X ^ 2 - Q.y ^ 2) = 0 := by linear_combination hdb - e4
      have e6 : 2 - a * X ^ 2 - Q.y ^ 2 ≠ 0 := by
        have := (ed_ne (a := a) (d := d) Q.on Q.on).2
        intro h
        apply this
        rw [hQx]
        linear_combination h + Q.on - (-d * Q.y^2 * X - d * Q.y ^2 * Q.x + a * (X + Q.x)) * hQx
      exact sub_eq_zero.1 ((mul_eq_zero.1 e5).resolve_right e6)
    rcases ed_same_y hyy with h | h
    · exact ⟨Q, h⟩
    · exact ⟨-Q, by rw [h, neg_add]⟩
  by_cases hsq : IsSquare (((a + d) * s ^ 2 + k ^ 2 + 1 * (2 * k * s / P.x)) / (2 * a * d * s ^ 2))
  · exact key 1 (by ring) hsq
  · by_contra hno
    have hsq' : ¬ IsSquare (((a + d) * s ^ 2 + k ^ 2 + (-1) * (2 * k * s / P.x)) / (2 * a * d * s ^ 2)) :=
      fun h => hno (key (-1) (by ring) h)
    obtain ⟨r, hr⟩ := non_mul h2 hsq hsq'
    obtain ⟨b, hb⟩ := g.sq
    have hden : 2 * a * d * s ^ 2 ≠ 0 := mul_ne_zero (mul_ne_zero (mul_ne_zero h2 ha0) hd0) (pow_ne_zero _ hs0)
    have hD : (2 * k * s / P.x) ^ 2 = ((a + d) * s ^ 2 + k ^ 2) ^ 2 - 4 * a * d * s ^ 4 := by
      have : (2 * k * s / P.x) ^ 2 = k ^ 2 * (a * d * (1 + a * s ^ 2) ^ 2 - (1 - a * s ^ 2) ^ 2) := by
        rw [div_pow, div_eq_iff (pow_ne_zero _ hx)]
        linear_combination (-k ^ 2) * hV
      rw [this, hk]
      exact rist_disc ha
    rw [div_mul_div_comm, div_eq_iff (mul_ne_zero hden hden)] at hr
    have e : r ^ 2 * (a * d) = 1 := by
      apply mul_left_cancel₀ (mul_ne_zero hden hden)
      have h4 : (2 * a * d * s ^ 2) * (2 * a * d * s ^ 2) * 1 = a * d * (4 * a * d * s ^ 4) := by ring
      rw [h4]
      linear_combination (a * d) * (-1) * hr + (- a * d) * hD
    have hr0 : r ≠ 0 := by rintro rfl; simp at e
    have hb0 : b ≠ 0 := by rintro rfl; apply ha0; rw [hb]; ring
    apply g.nsq
    refine ⟨1 / (r * b), ?_⟩
    rw [div_mul_div_comm, eq_div_iff (mul_ne_zero (mul_ne_zero hr0 hb0) (mul_ne_zero hr0 hb0))]
    rw [hb] at e
    linear_combination e

end

end Torsion.Ecc
