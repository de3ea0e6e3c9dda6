import Mathlib.Algebra.Field.Basic
import Mathlib.Algebra.Group.Even
import Mathlib.Tactic.LinearCombination
import Mathlib.Tactic.FieldSimp
import Mathlib.Tactic.Ring

/-! Algebra of twisted Edwards curves `a x^2 + y^2 = 1 + d x^2 y^2`. -/
namespace Torsion.Spec

/-- What makes the addition law complete. -/
class EdGood {F : Type} [Field F] (a d : F) : Prop where
  two : (2 : F) ≠ 0
  a0 : a ≠ 0
  sq : IsSquare a
  nsq : ¬ IsSquare d

end Torsion.Spec

namespace Torsion.Ecc

open Torsion.Spec (EdGood)

section
variable {F : Type} [Field F] {a d : F}

theorem ed_d0 [g : EdGood a d] : d ≠ 0 := by
  rintro rfl
  exact g.nsq IsSquare.zero

theorem ed_ad [g : EdGood a d] : a - d ≠ 0 := by
  intro h
  rw [sub_eq_zero] at h
  exact g.nsq (h ▸ g.sq)

theorem ed_e [g : EdGood a d] (y : F) : a - d * y ^ 2 ≠ 0 := by
  intro h
  by_cases hy : y = 0
  · rw [hy] at h
    exact g.a0 (by simpa using h)
  · obtain ⟨r, hr⟩ := g.sq
    refine g.nsq ⟨r / y, ?_⟩
    rw [div_mul_div_comm, ← hr, eq_div_iff (mul_ne_zero hy hy)]
    linear_combination -h

variable {x1 y1 x2 y2 : F}

theorem ed_ne_aux [g : EdGood a d] (h1 : a * x1 ^ 2 + y1 ^ 2 = 1 + d * x1 ^ 2 * y1 ^ 2)
    (h2 : a * x2 ^ 2 + y2 ^ 2 = 1 + d * x2 ^ 2 * y2 ^ 2) {e : F} (he : e ^ 2 = 1) : d * x1 * x2 * y1 * y2 ≠ e := by
  intro h
  have he0 : e ≠ 0 := by rintro rfl; simp at he
  obtain ⟨r, hr⟩ := g.sq
  have hx1 : x1 ≠ 0 := by rintro rfl; apply he0; rw [← h]; ring
  have hy1 : y1 ≠ 0 := by rintro rfl; apply he0; rw [← h]; ring
  have hy2 : y2 ≠ 0 := by rintro rfl; apply he0; rw [← h]; ring
  have key : ∀ s : F, s ^ 2 = 1 → (r * x1 + s * e * y1) ^ 2 = d * (x1 * y1 * (r * x2 + s * y2)) ^ 2 := by
    intro s hs
    linear_combination (y1 ^ 2 * e ^ 2) * hs + h1 - d * x1 ^ 2 * y1 ^ 2 * h2 + (-x1 ^ 2 + d * x1 ^ 2 * y1 ^ 2 * x2 ^ 2) * hr
      + (-(d * x1 * x2 * y1 * y2) - e - 2 * s * r * x1 * y1) * h - d * x1 ^ 2 * y1 ^ 2 * y2 ^ 2 * hs + he * (y1 ^ 2 - 1)
  have sq : ∀ s : F, s ^ 2 = 1 → r * x2 + s * y2 = 0 := by
    intro s hs
    by_contra hne
    refine g.nsq ⟨(r * x1 + s * e * y1) / (x1 * y1 * (r * x2 + s * y2)), ?_⟩
    have h0 := mul_ne_zero (mul_ne_zero hx1 hy1) hne
    rw [div_mul_div_comm, eq_div_iff (mul_ne_zero h0 h0)]
    linear_combination -key s hs
  have s1 := sq 1 (by ring)
  have s2 := sq (-1) (by ring)
  have : 2 * y2 = 0 := by linear_combination s1 - s2
  exact hy2 ((mul_eq_zero.1 this).resolve_left g.two)

/-- The denominators of the addition law do not vanish. -/
theorem ed_ne [g : EdGood a d] (h1 : a * x1 ^ 2 + y1 ^ 2 = 1 + d * x1 ^ 2 * y1 ^ 2)
    (h2 : a * x2 ^ 2 + y2 ^ 2 = 1 + d * x2 ^ 2 * y2 ^ 2) :
    1 + d * x1 * x2 * y1 * y2 ≠ 0 ∧ 1 - d * x1 * x2 * y1 * y2 ≠ 0 := by
  refine ⟨fun h => ed_ne_aux h1 h2 (e := -1) (by ring) (by linear_combination h),
    fun h => ed_ne_aux h1 h2 (e := 1) (by ring) (by linear_combination -h)⟩

/-- The sum is on the curve. -/
theorem ed_closed [g : EdGood a d] (h1 : a * x1 ^ 2 + y1 ^ 2 = 1 + d * x1 ^ 2 * y1 ^ 2)
    (h2 : a * x2 ^ 2 + y2 ^ 2 = 1 + d * x2 ^ 2 * y2 ^ 2) :
    a * ((x1 * y2 + x2 * y1) / (1 + d * x1 * x2 * y1 * y2)) ^ 2 + ((y1 * y2 - a * x1 * x2) / (1 - d * x1 * x2 * y1 * y2)) ^ 2
      = 1 + d * ((x1 * y2 + x2 * y1) / (1 + d * x1 * x2 * y1 * y2)) ^ 2 * ((y1 * y2 - a * x1 * x2) / (1 - d * x1 * x2 * y1 * y2)) ^ 2 := by
  obtain ⟨n1, n2⟩ := ed_ne h1 h2
  have key : a * (x1 * y2 + x2 * y1) ^ 2 * (1 - d * x1 * x2 * y1 * y2) ^ 2 + (y1 * y2 - a * x1 * x2) ^ 2 * (1 + d * x1 * x2 * y1 * y2) ^ 2
      - (1 + d * x1 * x2 * y1 * y2) ^ 2 * (1 - d * x1 * x2 * y1 * y2) ^ 2 - d * (x1 * y2 + x2 * y1) ^ 2 * (y1 * y2 - a * x1 * x2) ^ 2 = 0 := by
    have h : (a - d * y1 ^ 2) ^ 2 * (a - d * y2 ^ 2) ^ 2 * (a * (x1 * y2 + x2 * y1) ^ 2 * (1 - d * x1 * x2 * y1 * y2) ^ 2
      + (y1 * y2 - a * x1 * x2) ^ 2 * (1 + d * x1 * x2 * y1 * y2) ^ 2
      - (1 + d * x1 * x2 * y1 * y2) ^ 2 * (1 - d * x1 * x2 * y1 * y2) ^ 2 - d * (x1 * y2 + x2 * y1) ^ 2 * (y1 * y2 - a * x1 * x2) ^ 2) = 0 := by
      linear_combination (a - d * y2 ^ 2) ^ 2 * (a^3*d^2*x1^2*y1^2*x2^4*y2^2 - a^3*d*x1^2*x2^2*y2^2 - a^3*d*y1^2*x2^4 + a^3*x2^2 - a^2*d^3*x1^2*y1^4*x2^4*y2^2
      + a^2*d^2*x1^2*y1^2*x2^2*y2^4 + a^2*d^2*x1^2*y1^2*x2^2*y2^2 + a^2*d^2*y1^4*x2^4 + a^2*d^2*y1^2*x2^4*y2^2 - 3*a^2*d*y1^2*x2^2*y2^2
      - a^2*d*y1^2*x2^2 - a^2*d*x2^2*y2^2 + a^2*y2^2 - a*d^4*x1^2*y1^4*x2^4*y2^4 - a*d^3*x1^2*y1^4*x2^2*y2^4 - a*d^3*y1^6*x2^4*y2^2
      + 4*a*d^2*y1^4*x2^2*y2^2 + a*d^2*y1^2*x2^2*y2^4 + 2*a*d^2*y1^2*x2^2*y2^2 - a*d*y1^2*y2^4 - a*d*y1^2*y2^2 + d^5*x1^2*y1^6*x2^4*y2^4
      + d^4*y1^6*x2^4*y2^4 - d^4*y1^4*x2^4*y2^4 - d^3*y1^6*x2^2*y2^4 - 2*d^3*y1^4*x2^2*y2^2 + d^2*y1^4*y2^4) * h1 +
      (a^4*d*y1^4*x2^2 - a^4*d*y1^2*x2^2 + a^4 - a^3*d^2*y1^6*x2^2 - 2*a^3*d^2*y1^4*x2^2*y2^2 + a^3*d^2*y1^4*x2^2
      + 2*a^3*d^2*y1^2*x2^2*y2^2 + a^3*d*y1^4*y2^2 - a^3*d*y1^2*y2^2 - 2*a^3*d*y1^2 - 2*a^3*d*y2^2 + a^2*d^3*y1^8*x2^2*y2^2
      + a^2*d^3*y1^4*x2^2*y2^4 - a^2*d^3*y1^4*x2^2*y2^2 - a^2*d^3*y1^2*x2^2*y2^4 - a^2*d^2*y1^6*y2^2 - 2*a^2*d^2*y1^4*y2^4
      + a^2*d^2*y1^4*y2^2 + a^2*d^2*y1^4 + 2*a^2*d^2*y1^2*y2^4 + 4*a^2*d^2*y1^2*y2^2 + a^2*d^2*y2^4 - 2*a*d^4*y1^8*x2^2*y2^4
      + 3*a*d^4*y1^6*x2^2*y2^4 - a*d^4*y1^4*x2^2*y2^4 + 2*a*d^3*y1^6*y2^4 + a*d^3*y1^4*y2^6 - 2*a*d^3*y1^4*y2^4 - 2*a*d^3*y1^4*y2^2
      - a*d^3*y1^2*y2^6 - 2*a*d^3*y1^2*y2^4 + d^5*y1^8*x2^2*y2^6 - 2*d^5*y1^6*x2^2*y2^6 + d^5*y1^4*x2^2*y2^6 - d^4*y1^6*y2^6
      + d^4*y1^4*y2^6 + d^4*y1^4*y2^4) * h2
    exact (mul_eq_zero.1 h).resolve_left (mul_ne_zero (pow_ne_zero _ (ed_e _)) (pow_ne_zero _ (ed_e _)))
  have gen : ∀ S T p q : F, p ≠ 0 → q ≠ 0 → a * S ^ 2 * q ^ 2 + T ^ 2 * p ^ 2 - p ^ 2 * q ^ 2 - d * S ^ 2 * T ^ 2 = 0 →
      a * (S / p) ^ 2 + (T / q) ^ 2 = 1 + d * (S / p) ^ 2 * (T / q) ^ 2 := by
    intro S T p q hp hq h
    field_simp
    linear_combination h
  exact gen _ _ _ _ n1 n2 key

/-- The abscissa of the image of the sum on the Montgomery curve, for different ordinates. -/
theorem ed_mont_u [g : EdGood a d] (h1 : a * x1 ^ 2 + y1 ^ 2 = 1 + d * x1 ^ 2 * y1 ^ 2)
    (h2 : a * x2 ^ 2 + y2 ^ 2 = 1 + d * x2 ^ 2 * y2 ^ 2) :
    (a - d * y1 ^ 2) * (a - d * y2 ^ 2) * (x2 - x1) ^ 2 * (1 - d * x1 * x2 * y1 * y2 - y1 * y2 + a * x1 * x2)
      = (a - d) * (y2 - y1) ^ 2 * (1 - d * x1 * x2 * y1 * y2 + y1 * y2 - a * x1 * x2) := by
  have h : (a - d * y1 ^ 2) ^ 2 * (a - d * y2 ^ 2) ^ 2 * ((a - d * y1 ^ 2) * (a - d * y2 ^ 2) * (x2 - x1) ^ 2
      * (1 - d * x1 * x2 * y1 * y2 - y1 * y2 + a * x1 * x2)
      - (a - d) * (y2 - y1) ^ 2 * (1 - d * x1 * x2 * y1 * y2 + y1 * y2 - a * x1 * x2)) = 0 := by
    linear_combination (a - d * y2 ^ 2) ^ 2 * (a^4*x1*x2 - 2*a^4*x2^2 - 2*a^3*d*x1*y1^2*x2 - a^3*d*x1*y1*x2*y2 - a^3*d*x1*x2*y2^2 + 4*a^3*d*y1^2*x2^2 + 2*a^3*d*y1*x2^2*y2
      + 2*a^3*d*x2^2*y2^2 - a^3*y1*y2 + a^3 + a^2*d^2*x1*y1^4*x2 + 2*a^2*d^2*x1*y1^3*x2*y2 + 2*a^2*d^2*x1*y1^2*x2*y2^2
      + a^2*d^2*x1*y1*x2*y2^3 - 2*a^2*d^2*y1^4*x2^2 - 4*a^2*d^2*y1^3*x2^2*y2 - 4*a^2*d^2*y1^2*x2^2*y2^2 - 2*a^2*d^2*y1*x2^2*y2^3
      + 2*a^2*d*y1^3*y2 - 2*a^2*d*y1^2 + a^2*d*y1*y2^3 - a^2*d*y2^2 - a*d^3*x1*y1^5*x2*y2 - a*d^3*x1*y1^4*x2*y2^2
      - 2*a*d^3*x1*y1^3*x2*y2^3 + 2*a*d^3*y1^5*x2^2*y2 + 2*a*d^3*y1^4*x2^2*y2^2 + 4*a*d^3*y1^3*x2^2*y2^3 - a*d^2*y1^5*y2 + a*d^2*y1^4
      - 2*a*d^2*y1^3*y2^3 + 2*a*d^2*y1^2*y2^2 + d^4*x1*y1^5*x2*y2^3 - 2*d^4*y1^5*x2^2*y2^3 + d^3*y1^5*y2^3 - d^3*y1^4*y2^2) * h1 +
      (a^6*x1*x2 - 3*a^5*d*x1*y1^2*x2 - a^5*d*x1*y1*x2*y2 - 2*a^5*d*x1*x2*y2^2 + 2*a^5*y1^2 - a^5*y1*y2 - a^5 + 3*a^4*d^2*x1*y1^4*x2
      + 3*a^4*d^2*x1*y1^3*x2*y2 + 6*a^4*d^2*x1*y1^2*x2*y2^2 + 2*a^4*d^2*x1*y1*x2*y2^3 + a^4*d^2*x1*x2*y2^4 - 4*a^4*d*y1^4 + a^4*d*y1^3*y2
      - 4*a^4*d*y1^2*y2^2 + a^4*d*y1^2 + 2*a^4*d*y1*y2^3 + 2*a^4*d*y1*y2 + 2*a^4*d*y2^2 - a^3*d^3*x1*y1^6*x2 - 3*a^3*d^3*x1*y1^5*x2*y2
      - 6*a^3*d^3*x1*y1^4*x2*y2^2 - 6*a^3*d^3*x1*y1^3*x2*y2^3 - 3*a^3*d^3*x1*y1^2*x2*y2^4 - a^3*d^3*x1*y1*x2*y2^5 + 2*a^3*d^2*y1^6
      + a^3*d^2*y1^5*y2 + 8*a^3*d^2*y1^4*y2^2 + a^3*d^2*y1^4 - 2*a^3*d^2*y1^3*y2^3 - 4*a^3*d^2*y1^3*y2 + 2*a^3*d^2*y1^2*y2^4
      - 2*a^3*d^2*y1^2*y2^2 - a^3*d^2*y1*y2^5 - 4*a^3*d^2*y1*y2^3 - a^3*d^2*y2^4 + a^2*d^4*x1*y1^7*x2*y2 + 2*a^2*d^4*x1*y1^6*x2*y2^2
      + 6*a^2*d^4*x1*y1^5*x2*y2^3 + 3*a^2*d^4*x1*y1^4*x2*y2^4 + 3*a^2*d^4*x1*y1^3*x2*y2^5 - a^2*d^3*y1^7*y2 - 4*a^2*d^3*y1^6*y2^2
      - a^2*d^3*y1^6 - 2*a^2*d^3*y1^5*y2^3 + 2*a^2*d^3*y1^5*y2 - 4*a^2*d^3*y1^4*y2^4 - 2*a^2*d^3*y1^4*y2^2 + a^2*d^3*y1^3*y2^5
      + 8*a^2*d^3*y1^3*y2^3 + a^2*d^3*y1^2*y2^4 + 2*a^2*d^3*y1*y2^5 - 2*a*d^5*x1*y1^7*x2*y2^3 - a*d^5*x1*y1^6*x2*y2^4
      - 3*a*d^5*x1*y1^5*x2*y2^5 + 2*a*d^4*y1^7*y2^3 + 2*a*d^4*y1^6*y2^4 + 2*a*d^4*y1^6*y2^2 + a*d^4*y1^5*y2^5 - 4*a*d^4*y1^5*y2^3
      + a*d^4*y1^4*y2^4 - 4*a*d^4*y1^3*y2^5 + d^6*x1*y1^7*x2*y2^5 - d^5*y1^7*y2^5 - d^5*y1^6*y2^4 + 2*d^5*y1^5*y2^5) * h2
  have := (mul_eq_zero.1 h).resolve_left (mul_ne_zero (pow_ne_zero _ (ed_e _)) (pow_ne_zero _ (ed_e _)))
  linear_combination this

/-- And the ordinate. -/
theorem ed_mont_v [g : EdGood a d] (h1 : a * x1 ^ 2 + y1 ^ 2 = 1 + d * x1 ^ 2 * y1 ^ 2)
    (h2 : a * x2 ^ 2 + y2 ^ 2 = 1 + d * x2 ^ 2 * y2 ^ 2) :
    (1 - d * x1 * x2 * y1 * y2 + y1 * y2 - a * x1 * x2) * (1 + d * x1 * x2 * y1 * y2) * (y2 - y1) * (x1 * x2)
      = (x1 * y2 + x2 * y1) * (x1 * (1 + y2) * (a * x1 * x2 - y1 * y2 + y1 - y1 * (d * x1 * x2 * y1 * y2))
        - x2 * (1 + y1) * (a * x1 * x2 - y1 * y2 + y2 - y2 * (d * x1 * x2 * y1 * y2))) := by
  have h : (a - d * y1 ^ 2) ^ 2 * (a - d * y2 ^ 2) ^ 2 *
      ((1 - d * x1 * x2 * y1 * y2 + y1 * y2 - a * x1 * x2) * (1 + d * x1 * x2 * y1 * y2) * (y2 - y1) * (x1 * x2)
      - (x1 * y2 + x2 * y1) * (x1 * (1 + y2) * (a * x1 * x2 - y1 * y2 + y1 - y1 * (d * x1 * x2 * y1 * y2))
        - x2 * (1 + y1) * (a * x1 * x2 - y1 * y2 + y2 - y2 * (d * x1 * x2 * y1 * y2)))) = 0 := by
    linear_combination (a - d * y2 ^ 2) ^ 2 * (a^2*d*x1*y1^2*x2^3*y2 - a^2*d*x1*y1*x2^3*y2^2 - a^2*x1*x2*y2^2 - a^2*x1*x2*y2 - a*d^2*x1*y1^4*x2^3*y2 + 2*a*d^2*x1*y1^3*x2^3*y2^2
      - a*d^2*x1*y1^2*x2^3*y2^3 + a*d*x1*y1^2*x2*y2^3 + 2*a*d*x1*y1^2*x2*y2^2 + a*d*x1*y1^2*x2*y2 + a*d*y1^3*x2^2*y2 - a*d*y1*x2^2*y2^3
      + a*y1*y2^3 - a*y1*y2 - d^3*x1*y1^5*x2^3*y2^2 + d^3*x1*y1^4*x2^3*y2^3 - d^2*x1*y1^4*x2*y2^3 - d^2*x1*y1^4*x2*y2^2
      - d^2*y1^5*x2^2*y2 + d^2*y1^3*x2^2*y2^3 - d*y1^3*y2^3 + d*y1^3*y2) * h1 +
      (a^4*x1*y1^2*x2 + a^4*x1*y1*x2 - a^3*d*x1*y1^4*x2*y2 - 2*a^3*d*x1*y1^4*x2 - 2*a^3*d*x1*y1^3*x2 - 2*a^3*d*x1*y1^2*x2*y2^2
      + a^3*d*x1*y1^2*x2*y2 - 2*a^3*d*x1*y1*x2*y2^2 - a^3*y1^3*y2 + a^3*y1*y2 + a^2*d^2*x1*y1^6*x2*y2 + a^2*d^2*x1*y1^6*x2
      + a^2*d^2*x1*y1^5*x2 + 2*a^2*d^2*x1*y1^4*x2*y2^3 + 4*a^2*d^2*x1*y1^4*x2*y2^2 - a^2*d^2*x1*y1^4*x2*y2 + 4*a^2*d^2*x1*y1^3*x2*y2^2
      + a^2*d^2*x1*y1^2*x2*y2^4 - 2*a^2*d^2*x1*y1^2*x2*y2^3 + a^2*d^2*x1*y1*x2*y2^4 + a^2*d*y1^5*y2 + 2*a^2*d*y1^3*y2^3 - a^2*d*y1^3*y2
      - 2*a^2*d*y1*y2^3 - 2*a*d^3*x1*y1^6*x2*y2^3 - 2*a*d^3*x1*y1^6*x2*y2^2 - 2*a*d^3*x1*y1^5*x2*y2^2 - a*d^3*x1*y1^4*x2*y2^5
      - 2*a*d^3*x1*y1^4*x2*y2^4 + 2*a*d^3*x1*y1^4*x2*y2^3 - 2*a*d^3*x1*y1^3*x2*y2^4 + a*d^3*x1*y1^2*x2*y2^5 - 2*a*d^2*y1^5*y2^3
      - a*d^2*y1^3*y2^5 + 2*a*d^2*y1^3*y2^3 + a*d^2*y1*y2^5 + d^4*x1*y1^6*x2*y2^5 + d^4*x1*y1^6*x2*y2^4 + d^4*x1*y1^5*x2*y2^4
      - d^4*x1*y1^4*x2*y2^5 + d^3*y1^5*y2^5 - d^3*y1^3*y2^5) * h2
  have := (mul_eq_zero.1 h).resolve_left (mul_ne_zero (pow_ne_zero _ (ed_e _)) (pow_ne_zero _ (ed_e _)))
  linear_combination this

end
end Torsion.Ecc
