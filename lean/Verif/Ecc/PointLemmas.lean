import Verif.Ecc.PointSpec
import Mathlib.Tactic.LinearCombination
import Mathlib.Tactic.FieldSimp
import Mathlib.Tactic.Ring

/-! Lemmas on the points of short Weierstrass curves. -/
namespace Torsion.Ecc

open Torsion.Spec (affine Jac Good weier Pt)
open WeierstrassCurve.Affine (Point)

variable {F : Type} [Field F] [DecidableEq F] {ec : Curve F}

theorem eqn {x y : F} (h : (weier ec.a ec.b).Nonsingular x y) : y ^ 2 = x ^ 3 + ec.a * x + ec.b := by
  have := ((weier ec.a ec.b).equation_iff x y).1 h.1
  simpa [weier] using this

theorem negY_eq (x y : F) : (weier ec.a ec.b).negY x y = -y := by simp [WeierstrassCurve.Affine.negY, weier]

theorem aff_zero : affine (0 : Pt ec) = ⟨0, 0, true⟩ := rfl

theorem aff_some {x y : F} (h : (weier ec.a ec.b).Nonsingular x y) :
    affine (Point.some x y h : Pt ec) = ⟨x, y, false⟩ := rfl

theorem aff_inj {P Q : Pt ec} (h : affine P = affine Q) : P = Q := by
  rcases P with _ | ⟨x, y, hp⟩ <;> rcases Q with _ | ⟨x', y', hq⟩ <;> simp_all [affine]

/-- Opposite points. -/
theorem add_opp {x1 y1 x2 y2 : F} (h1 : (weier ec.a ec.b).Nonsingular x1 y1)
    (h2 : (weier ec.a ec.b).Nonsingular x2 y2) (hx : x1 = x2) (hy : y1 = -y2) :
    (Point.some x1 y1 h1 + Point.some x2 y2 h2 : Pt ec) = 0 :=
  Point.add_of_Y_eq hx (by rw [negY_eq]; exact hy)

/-- The chord. -/
theorem aff_chord {x1 y1 x2 y2 l : F} (h1 : (weier ec.a ec.b).Nonsingular x1 y1)
    (h2 : (weier ec.a ec.b).Nonsingular x2 y2) (hx : x1 ≠ x2) (hl : l * (x1 - x2) = y1 - y2) :
    affine (Point.some x1 y1 h1 + Point.some x2 y2 h2 : Pt ec)
      = ⟨l ^ 2 - x1 - x2, l * (x1 - (l ^ 2 - x1 - x2)) - y1, false⟩ := by
  rw [Point.add_of_X_ne hx]
  have hs : (weier ec.a ec.b).slope x1 x2 y1 y2 = l := by
    rw [WeierstrassCurve.Affine.slope_of_X_ne hx, div_eq_iff (sub_ne_zero.2 hx), hl]
  simp only [aff_some, hs, WeierstrassCurve.Affine.addX, WeierstrassCurve.Affine.addY,
    WeierstrassCurve.Affine.negAddY, WeierstrassCurve.Affine.negY, Wge.mk.injEq, and_true]
  simp only [weier]
  constructor <;> ring

/-- The tangent. -/
theorem aff_tangent {x y l : F} (h2 : (2 : F) ≠ 0) (h : (weier ec.a ec.b).Nonsingular x y) (hy : y ≠ 0)
    (hl : l * (2 * y) = 3 * x ^ 2 + ec.a) :
    affine (Point.some x y h + Point.some x y h : Pt ec)
      = ⟨l ^ 2 - x - x, l * (x - (l ^ 2 - x - x)) - y, false⟩ := by
  have hn : y ≠ (weier ec.a ec.b).negY x y := by
    rw [negY_eq]; intro e
    apply hy
    have : 2 * y = 0 := by linear_combination e
    exact (mul_eq_zero.1 this).resolve_left h2
  rw [Point.add_self_of_Y_ne hn]
  have hs : (weier ec.a ec.b).slope x x y y = l := by
    rw [WeierstrassCurve.Affine.slope_of_Y_ne rfl hn, div_eq_iff (by rw [sub_ne_zero]; exact hn), negY_eq]
    simp only [weier]
    linear_combination -hl
  simp only [aff_some, hs, WeierstrassCurve.Affine.addX, WeierstrassCurve.Affine.addY,
    WeierstrassCurve.Affine.negAddY, WeierstrassCurve.Affine.negY, Wge.mk.injEq, and_true]
  simp only [weier]
  constructor <;> ring

/-- Points with the same `x` are equal or opposite. -/
theorem y_cases {x y1 y2 : F} (h1 : (weier ec.a ec.b).Nonsingular x y1)
    (h2 : (weier ec.a ec.b).Nonsingular x y2) : y1 = y2 ∨ y1 = -y2 := by
  have e1 := eqn h1
  have e2 := eqn h2
  exact sq_eq_sq_iff_eq_or_eq_neg.1 (by rw [e1, e2])

theorem y_ne (g : Good ec) {x y : F} (h : (weier ec.a ec.b).Nonsingular x y) (hh : ec.h ≤ 1) : y ≠ 0 := by
  rintro rfl
  exact g.odd hh x (by rw [← eqn h]; ring)

/-- Doubling of a point of order two. -/
theorem dbl_two {x : F} (h : (weier ec.a ec.b).Nonsingular x 0) :
    (Point.some x 0 h + Point.some x 0 h : Pt ec) = 0 := add_opp h h rfl (by simp)

theorem mul_a (ec : Curve F) (x : F) : wei_mul_a ec x = ec.a * x := by
  unfold wei_mul_a Curve.zero_a Curve.three_a
  by_cases h0 : ec.a = 0
  · simp [h0]
  · by_cases h3 : ec.a = -3
    · simp only [h3, decide_true, if_true]
      split
      · rename_i h; simp only [decide_eq_true_eq] at h; rw [h]; ring
      · ring
    · simp [h0, h3, mul_comm]

theorem solve_y2 (ec : Curve F) (x : F) : wei_solve_y2 ec x = x ^ 3 + ec.a * x + ec.b := by
  unfold wei_solve_y2
  simp only [mul_a]
  ring

/-! ### Affine points -/

theorem dbl_var_aff (g : Good ec) (P : Pt ec) : wge_dbl_var ec (affine P) = .ok (affine (P + P)) := by
  rcases P with _ | ⟨x, y, h⟩
  · rfl
  · rw [aff_some]
    unfold wge_dbl_var
    simp only [Bool.false_eq_true, if_false]
    by_cases hy : y = 0
    · subst hy
      have : 1 < ec.h := by
        by_contra hh
        exact y_ne g h (by omega) rfl
      simp only [fe_is_zero, decide_true, Bool.and_true, decide_eq_true_eq]
      rw [if_pos this]
      rw [dbl_two h]; rfl
    · have e : (decide (ec.h > 1) && fe_is_zero y) = false := by simp [fe_is_zero, hy]
      have h2y : y + y ≠ 0 := by
        rw [← two_mul]; exact mul_ne_zero g.two hy
      rw [e]
      simp only [Bool.false_eq_true, if_false, fe_invert_var, h2y, C.ok_bind]
      change C.ok _ = _
      rw [aff_tangent (l := (3 * (x * x) + ec.a) * (y + y)⁻¹) g.two h hy
        (by rw [two_mul, inv_mul_cancel_right₀ h2y]; ring)]
      congr 2 <;> ring

theorem add_var_aff (g : Good ec) (P Q : Pt ec) : wge_add_var ec (affine P) (affine Q) = .ok (affine (P + Q)) := by
  rcases P with _ | ⟨x1, y1, h1⟩
  · rw [← Point.zero_def, zero_add]; rfl
  rcases Q with _ | ⟨x2, y2, h2⟩
  · rw [← Point.zero_def, add_zero]; rfl
  rw [aff_some, aff_some]
  unfold wge_add_var
  simp only [Bool.false_eq_true, if_false, fe_equal, decide_eq_true_eq]
  by_cases hx : x1 = x2
  · subst hx
    rw [if_pos rfl]
    by_cases hy : y1 = y2
    · subst hy
      rw [if_pos rfl]
      have := dbl_var_aff g (Point.some x1 y1 h1)
      rw [aff_some] at this
      rw [this]
    · rw [if_neg hy, add_opp h1 h2 rfl ((y_cases h1 h2).resolve_left hy)]; rfl
  · rw [if_neg hx]
    by_cases hy : y1 = y2
    · rw [if_pos hy, aff_chord (l := 0) h1 h2 hx (by rw [hy]; ring)]
      change C.ok _ = _
      congr 2 <;> ring
    · rw [if_neg hy]
      have hd : x1 - x2 ≠ 0 := sub_ne_zero.2 hx
      simp only [fe_invert_var, hd, if_false, C.ok_bind]
      change C.ok _ = _
      rw [aff_chord (l := (y1 - y2) * (x1 - x2)⁻¹) h1 h2 hx (by field_simp)]
      congr 2 <;> ring

theorem neg_aff (P : Pt ec) : wge_neg (affine P) = affine (-P) := by
  rcases P with _ | ⟨x, y, h⟩
  · rw [← Point.zero_def, Point.neg_zero]; simp [wge_neg, aff_zero]
  · rw [Point.neg_some, aff_some, aff_some, negY_eq]; rfl

theorem dbl_aff (g : Good ec) (P : Pt ec) : wge_dbl ec (affine P) = affine (P + P) := by
  rcases P with _ | ⟨x, y, h⟩
  · rw [← Point.zero_def, add_zero]; simp [wge_dbl, aff_zero, fe_select]
  · by_cases hy : y = 0
    · subst hy
      have : 1 < ec.h := by
        by_contra hh
        exact y_ne g h (by omega) rfl
      rw [dbl_two h]
      simp [wge_dbl, aff_some, aff_zero, fe_is_zero, this, fe_select]
    · have h2y : y + y ≠ 0 := by
        rw [← two_mul]; exact mul_ne_zero g.two hy
      rw [aff_tangent (l := (3 * (x * x) + ec.a) * (y + y)⁻¹) g.two h hy
        (by rw [two_mul, inv_mul_cancel_right₀ h2y]; ring)]
      rw [aff_some]
      simp only [wge_dbl, fe_is_zero, hy, fe_invert, fe_select, decide_false, Bool.and_false,
        Bool.or_false, Bool.false_eq_true, if_false]
      congr 1 <;> ring

theorem add_aff (g : Good ec) (P Q : Pt ec) : wge_add ec (affine P) (affine Q) = affine (P + Q) := by
  rcases P with _ | ⟨x1, y1, h1⟩
  · rw [← Point.zero_def, zero_add]
    rcases Q with _ | ⟨x2, y2, h2⟩ <;> simp [wge_add, affine, fe_select]
  rcases Q with _ | ⟨x2, y2, h2⟩
  · rw [← Point.zero_def, add_zero]
    simp [wge_add, affine, fe_select]
  have e1 := eqn h1
  have e2 := eqn h2
  rw [aff_some, aff_some]
  simp only [wge_add, fe_is_zero, fe_invert, fe_select, Bool.or_self, Bool.not_false, Bool.and_true,
    Bool.and_self, Bool.or_false, Bool.false_eq_true, if_false, inv_eq_zero, Bool.and_eq_true,
    decide_eq_true_eq, Bool.not_not]
  by_cases hm : y1 + y2 = 0
  · have hy : y1 = -y2 := by linear_combination hm
    have hk : (x1 - x2) * ((x1 + x2) * (x1 + x2) - x1 * x2 + ec.a) = 0 := by
      linear_combination e2 - e1 + (y1 - y2) * hm
    by_cases hr : (x1 + x2) * (x1 + x2) - x1 * x2 + ec.a = 0
    · simp only [hm, hr, and_self, if_true, sub_eq_zero]
      by_cases hx : x1 = x2
      · rw [add_opp h1 h2 hx hy]
        simp only [hx, if_true]; rfl
      · simp only [hx, if_false]
        have hd : x1 - x2 ≠ 0 := sub_ne_zero.2 hx
        rw [aff_chord (l := (y1 + y1) * (x1 - x2)⁻¹) h1 h2 hx
          (by field_simp; linear_combination hm)]
        congr 1 <;> ring
    · have hx : x1 = x2 := by
        rcases mul_eq_zero.1 hk with h | h
        · exact sub_eq_zero.1 h
        · exact absurd h hr
      simp only [hm, hr, and_false, if_false, if_true]
      rw [add_opp h1 h2 hx hy]; rfl
  · simp only [hm, false_and, if_false]
    by_cases hx : x1 = x2
    · have hy : y1 = y2 := by
        subst hx
        exact (y_cases h1 h2).resolve_right fun h => hm (by rw [h]; ring)
      subst hx; subst hy
      have hy0 : y1 ≠ 0 := fun h => hm (by rw [h]; ring)
      rw [aff_tangent (l := ((x1 + x1) * (x1 + x1) - x1 * x1 + ec.a) * (y1 + y1)⁻¹) g.two h1 hy0
        (by rw [two_mul, inv_mul_cancel_right₀ hm]; ring)]
      congr 1 <;> ring
    · have hd : x1 - x2 ≠ 0 := sub_ne_zero.2 hx
      rw [aff_chord (l := ((x1 + x2) * (x1 + x2) - x1 * x2 + ec.a) * (y1 + y2)⁻¹) h1 h2 hx
        (by field_simp; linear_combination e2 - e1)]
      congr 1 <;> ring

/-! ### Jacobian points -/

theorem jac_zero {j : Jge F} : Jac j (0 : Pt ec) ↔ j = ⟨1, 1, 0, true, false⟩ := Iff.rfl

theorem jac_zero' : Jac (jge_zero : Jge F) (0 : Pt ec) := rfl

/-- A finite point, from its affine form. -/
theorem jac_fin {P : Pt ec} {x y : F} (h : affine P = ⟨x, y, false⟩) (j : Jge F) :
    Jac j P ↔ j.inf = false ∧ j.z ≠ 0 ∧ j.x = x * j.z ^ 2 ∧ j.y = y * j.z ^ 3 ∧ (j.aff = true → j.z = 1) := by
  rcases P with _ | ⟨x', y', hp⟩
  · simp [affine] at h
  · rw [aff_some] at h
    injection h with e1 e2
    subst e1; subst e2
    rfl

theorem jac_inf {j : Jge F} {P : Pt ec} (h : Jac j P) : j.inf = (affine P).inf := by
  rcases P with _ | ⟨x, y, hp⟩
  · rw [← Point.zero_def, jac_zero] at h; rw [h]; rfl
  · exact h.1

/-- The doubling formulas agree up to the curve coefficient. -/
theorem dbl_raw (ec : Curve F) (j : Jge F) (g3 : ec.a = 0 ∨ ec.a = -3 ∨ True) :
    (if ec.zero_a then jge_dbl0 j else if ec.three_a then jge_dbl3 j else jge_dblj ec j)
      = ((3 * j.x ^ 2 + ec.a * j.z ^ 4) ^ 2 - 8 * j.x * j.y ^ 2,
         (3 * j.x ^ 2 + ec.a * j.z ^ 4) * (4 * j.x * j.y ^ 2 - ((3 * j.x ^ 2 + ec.a * j.z ^ 4) ^ 2 - 8 * j.x * j.y ^ 2))
           - 8 * j.y ^ 4,
         2 * j.y * j.z) := by
  unfold Curve.zero_a Curve.three_a
  by_cases h0 : ec.a = 0
  · simp only [h0, decide_true, if_true, jge_dbl0]
    refine Prod.ext ?_ (Prod.ext ?_ ?_) <;> dsimp only <;> ring
  · by_cases h3 : ec.a = -3
    · have h30 : (-3 : F) ≠ 0 := h3 ▸ h0
      simp only [h3, h30, decide_true, decide_false, if_true, Bool.false_eq_true, if_false, jge_dbl3]
      refine Prod.ext ?_ (Prod.ext ?_ ?_) <;> dsimp only <;> ring
    · simp only [h0, h3, decide_false, Bool.false_eq_true, if_false, jge_dblj]
      refine Prod.ext ?_ (Prod.ext ?_ ?_) <;> dsimp only <;> ring

theorem jac_dbl_raw (g : Good ec) {x y : F} (h : (weier ec.a ec.b).Nonsingular x y) (hy : y ≠ 0)
    {j r : Jge F} (hj : Jac j (Point.some x y h : Pt ec)) (hi : r.inf = false) (ha : r.aff = false)
    (hr : (r.x, r.y, r.z) =
      (if ec.zero_a then jge_dbl0 j else if ec.three_a then jge_dbl3 j else jge_dblj ec j)) :
    Jac r (Point.some x y h + Point.some x y h : Pt ec) := by
  obtain ⟨_, hz, ex, ey, _⟩ := hj
  rw [dbl_raw ec j (Or.inr (Or.inr trivial))] at hr
  simp only [Prod.mk.injEq] at hr
  obtain ⟨rx, ry, rz⟩ := hr
  have h2y : 2 * y ≠ 0 := mul_ne_zero g.two hy
  set l := (3 * x ^ 2 + ec.a) * (2 * y)⁻¹ with hl
  have hl' : l * (2 * y) = 3 * x ^ 2 + ec.a := by rw [hl, inv_mul_cancel_right₀ h2y]
  rw [jac_fin (aff_tangent (l := l) g.two h hy hl')]
  have e3 : r.z = (2 * y) * j.z ^ 4 := by rw [rz, ey]; ring
  have em : 3 * j.x ^ 2 + ec.a * j.z ^ 4 = l * (2 * y) * j.z ^ 4 := by rw [hl', ex]; ring
  refine ⟨hi, ?_, ?_, ?_, by simp [ha]⟩
  · rw [e3]; exact mul_ne_zero h2y (pow_ne_zero _ hz)
  · rw [rx, e3, em, ex, ey]; ring
  · rw [ry, e3, em, ex, ey]; ring

theorem dbl_var_jac (g : Good ec) {P : Pt ec} {j : Jge F} (hj : Jac j P) : Jac (jge_dbl_var ec j) (P + P) := by
  rcases P with _ | ⟨x, y, h⟩
  · rw [← Point.zero_def] at hj ⊢
    rw [jac_zero] at hj
    rw [hj, add_zero]; rfl
  · have hj' := hj
    obtain ⟨hi, hz, ex, ey, ha⟩ := hj'
    unfold jge_dbl_var
    rw [hi]
    simp only [Bool.false_eq_true, if_false]
    by_cases hy : y = 0
    · subst hy
      have : 1 < ec.h := by
        by_contra hh
        exact y_ne g h (by omega) rfl
      have e0 : j.y = 0 := by rw [ey]; ring
      rw [e0, dbl_two h]
      simp only [fe_is_zero, decide_true, Bool.and_true, decide_eq_true_eq]
      rw [if_pos this]
      exact jac_zero'
    · have e0 : j.y ≠ 0 := by rw [ey]; exact mul_ne_zero hy (pow_ne_zero _ hz)
      simp only [fe_is_zero, e0, decide_false, Bool.and_false, Bool.false_eq_true, if_false]
      exact jac_dbl_raw g h hy hj rfl rfl rfl

theorem dbl_jac (g : Good ec) {P : Pt ec} {j : Jge F} (hj : Jac j P) : Jac (jge_dbl ec j) (P + P) := by
  rcases P with _ | ⟨x, y, h⟩
  · rw [← Point.zero_def] at hj ⊢
    rw [jac_zero] at hj
    rw [hj, add_zero, jac_zero]
    unfold jge_dbl
    simp only [dbl_raw ec _ (Or.inr (Or.inr trivial)), fe_select, Bool.true_or, if_true]
    split
    · rfl
    · simp only [Jge.mk.injEq, and_true]
      refine ⟨?_, ?_, ?_⟩ <;> ring
  · have hj' := hj
    obtain ⟨hi, hz, ex, ey, ha⟩ := hj'
    unfold jge_dbl
    rw [hi]
    by_cases hy : y = 0
    · subst hy
      have : 1 < ec.h := by
        by_contra hh
        exact y_ne g h (by omega) rfl
      have e0 : j.y = 0 := by rw [ey]; ring
      rw [e0, dbl_two h]
      simp only [fe_is_zero, decide_true, Bool.and_true, Bool.false_or, this, if_true, fe_select, gt_iff_lt]
      exact jac_zero'
    · have e0 : j.y ≠ 0 := by rw [ey]; exact mul_ne_zero hy (pow_ne_zero _ hz)
      simp only [fe_is_zero, e0, decide_false, Bool.and_false, Bool.false_or, fe_select, Bool.false_eq_true,
        if_false, ite_self]
      exact jac_dbl_raw g h hy hj rfl rfl rfl

theorem neg_jac {P : Pt ec} {j : Jge F} (hj : Jac j P) : Jac (jge_neg j) (-P) := by
  rcases P with _ | ⟨x, y, h⟩
  · rw [← Point.zero_def] at hj ⊢
    rw [jac_zero] at hj
    rw [hj, Point.neg_zero]
    exact jac_zero'
  · obtain ⟨hi, hz, ex, ey, ha⟩ := hj
    have e : affine (-(Point.some x y h) : Pt ec) = ⟨x, -y, false⟩ := by
      rw [Point.neg_some, aff_some, negY_eq]
    rw [jac_fin e]
    refine ⟨hi, hz, ex, ?_, ha⟩
    simp only [jge_neg, hi, fe_select, Bool.false_eq_true, if_false, ey]
    ring

theorem neg_cond_jac {P : Pt ec} {j : Jge F} (hj : Jac j P) (c : Bool) :
    Jac (jge_neg_cond j c) (if c then -P else P) := by
  cases c
  · have : jge_neg_cond j false = j := by
      rcases P with _ | ⟨x, y, h⟩
      · rw [← Point.zero_def, jac_zero] at hj; rw [hj]; rfl
      · have := hj.1
        rcases j with ⟨a, b, c, i, f⟩
        simp only at this
        subst this
        simp [jge_neg_cond, fe_neg_cond, fe_select]
    rw [this]; exact hj
  · have : jge_neg_cond j true = jge_neg j := by simp [jge_neg_cond, jge_neg, fe_neg_cond, fe_select]
    rw [this]; exact neg_jac hj

theorem set_wge_jac (P : Pt ec) : Jac (jge_set_wge (affine P)) P := by
  rcases P with _ | ⟨x, y, h⟩
  · exact jac_zero'
  · simp [jge_set_wge, aff_some, fe_select, Jac]

/-- The chord in Jacobian coordinates: any common denominator `d` with `r / d` the slope. -/
theorem jac_chord {x1 y1 x2 y2 : F} (h1 : (weier ec.a ec.b).Nonsingular x1 y1)
    (h2 : (weier ec.a ec.b).Nonsingular x2 y2) (hx : x1 ≠ x2) {j : Jge F} {l : F}
    (hl : l * (x1 - x2) = y1 - y2) (hi : j.inf = false) (ha : j.aff = false) (hz : j.z ≠ 0)
    (ex : j.x = (l ^ 2 - x1 - x2) * j.z ^ 2) (ey : j.y = (l * (x1 - (l ^ 2 - x1 - x2)) - y1) * j.z ^ 3) :
    Jac j (Point.some x1 y1 h1 + Point.some x2 y2 h2 : Pt ec) := by
  rw [jac_fin (aff_chord h1 h2 hx hl)]
  exact ⟨hi, hz, ex, ey, by simp [ha]⟩

theorem addsub_jac (g : Good ec) {x1 y1 x2 y2 : F} {h1 : (weier ec.a ec.b).Nonsingular x1 y1}
    {h2 : (weier ec.a ec.b).Nonsingular x2 y2} {j1 j2 : Jge F} (s : Bool)
    (hj1 : Jac j1 (Point.some x1 y1 h1 : Pt ec)) (hj2 : Jac j2 (Point.some x2 y2 h2 : Pt ec)) :
    Jac (jge_addsub_var ec j1 j2 s)
      (Point.some x1 y1 h1 + (if s then Point.some x2 y2 h2 else -Point.some x2 y2 h2) : Pt ec) := by
  -- subtraction is addition of the opposite point
  obtain ⟨y3, h3, ep, e3⟩ : ∃ y3, ∃ h3 : (weier ec.a ec.b).Nonsingular x2 y3,
      (if s then Point.some x2 y2 h2 else -Point.some x2 y2 h2 : Pt ec) = Point.some x2 y3 h3 ∧
      y3 = if s then y2 else -y2 := by
    cases s
    · refine ⟨-y2, ?_, ?_, by simp⟩
      · have := ((weier ec.a ec.b).nonsingular_neg x2 y2).2 h2
        rwa [negY_eq] at this
      · simp only [Bool.false_eq_true, if_false, Point.neg_some, negY_eq]
    · exact ⟨y2, h2, by simp, by simp⟩
  rw [ep]
  have hj1' := hj1
  obtain ⟨i1, z1, ex1, ey1, a1⟩ := hj1'
  obtain ⟨i2, z2, ex2, ey2, a2⟩ := hj2
  have hzz : j1.z * j2.z ≠ 0 := mul_ne_zero z1 z2
  have eh : j2.x * (j1.z * j1.z) - j1.x * (j2.z * j2.z) = (x2 - x1) * (j1.z * j2.z) ^ 2 := by
    rw [ex1, ex2]; ring
  unfold jge_addsub_var
  simp only [fe_is_zero, eh, mul_eq_zero, sub_eq_zero, pow_eq_zero_iff, hzz, or_false, ne_eq,
    OfNat.ofNat_ne_zero, not_false_eq_true, decide_eq_true_eq]
  have er : (if s then j2.y * j1.z * (j1.z * j1.z) - j1.y * j2.z * (j2.z * j2.z)
      else j2.y * j1.z * (j1.z * j1.z) + j1.y * j2.z * (j2.z * j2.z))
      = (if s then 1 else -1) * ((y3 - y1) * (j1.z * j2.z) ^ 3) := by
    rw [ey1, ey2, e3]; cases s <;> simp <;> ring
  have es : ((if s then 1 else -1 : F)) ≠ 0 := by cases s <;> simp
  have es2 : ((if s then 1 else -1 : F)) ^ 2 = 1 := by cases s <;> simp
  rw [er]
  by_cases hx : x2 = x1
  · subst hx
    rw [if_pos rfl]
    have hr0 : (if s then 1 else -1 : F) * ((y3 - y1) * (j1.z * j2.z) ^ 3) = 0 ↔ y3 = y1 := by
      rw [mul_eq_zero, mul_eq_zero, pow_eq_zero_iff (by decide), sub_eq_zero]
      tauto
    by_cases hy : y3 = y1
    · rw [if_pos (hr0.2 hy)]
      subst hy
      exact dbl_var_jac g hj1
    · rw [if_neg (mt hr0.1 hy), add_opp h1 h3 rfl ((y_cases h1 h3).resolve_left (Ne.symm hy))]
      exact jac_zero'
  · rw [if_neg hx]
    have hd : x1 - x2 ≠ 0 := sub_ne_zero.2 (Ne.symm hx)
    have hd' : x2 - x1 ≠ 0 := sub_ne_zero.2 hx
    set l := (y1 - y3) * (x1 - x2)⁻¹ with hl
    have hl' : l * (x1 - x2) = y1 - y3 := by rw [hl, inv_mul_cancel_right₀ hd]
    have hy3 : y3 = y1 - l * (x1 - x2) := by rw [hl']; ring
    refine jac_chord h1 h3 (Ne.symm hx) hl' rfl rfl ?_ ?_ ?_
    · exact mul_ne_zero hzz (mul_ne_zero hd' (pow_ne_zero _ hzz))
    · dsimp only
      rw [ex1, hy3]
      linear_combination ((y1 - l * (x1 - x2) - y1) * (j1.z * j2.z) ^ 3) ^ 2 * es2
    · dsimp only
      rw [ex1, ey1, hy3]
      cases s <;> simp only [Bool.false_eq_true, if_false, if_true] <;> ring

theorem mixed_addsub_jac (g : Good ec) {x1 y1 x2 y2 : F} {h1 : (weier ec.a ec.b).Nonsingular x1 y1}
    {h2 : (weier ec.a ec.b).Nonsingular x2 y2} {j1 : Jge F} (s : Bool)
    (hj1 : Jac j1 (Point.some x1 y1 h1 : Pt ec)) :
    Jac (jge_mixed_addsub_var ec j1 x2 y2 s)
      (Point.some x1 y1 h1 + (if s then Point.some x2 y2 h2 else -Point.some x2 y2 h2) : Pt ec) := by
  obtain ⟨y3, h3, ep, e3⟩ : ∃ y3, ∃ h3 : (weier ec.a ec.b).Nonsingular x2 y3,
      (if s then Point.some x2 y2 h2 else -Point.some x2 y2 h2 : Pt ec) = Point.some x2 y3 h3 ∧
      y3 = if s then y2 else -y2 := by
    cases s
    · refine ⟨-y2, ?_, ?_, by simp⟩
      · have := ((weier ec.a ec.b).nonsingular_neg x2 y2).2 h2
        rwa [negY_eq] at this
      · simp only [Bool.false_eq_true, if_false, Point.neg_some, negY_eq]
    · exact ⟨y2, h2, by simp, by simp⟩
  rw [ep]
  have hj1' := hj1
  obtain ⟨i1, z1, ex1, ey1, a1⟩ := hj1'
  have eh : x2 * (j1.z * j1.z) - j1.x = (x2 - x1) * j1.z ^ 2 := by
    rw [ex1]; ring
  unfold jge_mixed_addsub_var
  simp only [fe_is_zero, eh, mul_eq_zero, sub_eq_zero, pow_eq_zero_iff, z1, or_false, ne_eq,
    OfNat.ofNat_ne_zero, not_false_eq_true, decide_eq_true_eq]
  have er : (if s then y2 * j1.z * (j1.z * j1.z) - j1.y
      else y2 * j1.z * (j1.z * j1.z) + j1.y)
      = (if s then 1 else -1) * ((y3 - y1) * j1.z ^ 3) := by
    rw [ey1, e3]; cases s <;> simp <;> ring
  have es : ((if s then 1 else -1 : F)) ≠ 0 := by cases s <;> simp
  have es2 : ((if s then 1 else -1 : F)) ^ 2 = 1 := by cases s <;> simp
  rw [er]
  by_cases hx : x2 = x1
  · subst hx
    rw [if_pos rfl]
    simp only [es, z1, pow_eq_zero_iff, ne_eq, OfNat.ofNat_ne_zero, not_false_eq_true, or_false, false_or,
      sub_eq_zero, mul_eq_zero]
    by_cases hy : y3 = y1
    · subst hy
      rw [if_pos rfl]
      exact dbl_var_jac g hj1
    · rw [if_neg hy, add_opp h1 h3 rfl ((y_cases h1 h3).resolve_left (Ne.symm hy))]
      exact jac_zero'
  · rw [if_neg hx]
    have hd : x1 - x2 ≠ 0 := sub_ne_zero.2 (Ne.symm hx)
    have hd' : x2 - x1 ≠ 0 := sub_ne_zero.2 hx
    set l := (y1 - y3) * (x1 - x2)⁻¹ with hl
    have hl' : l * (x1 - x2) = y1 - y3 := by rw [hl, inv_mul_cancel_right₀ hd]
    have hy3 : y3 = y1 - l * (x1 - x2) := by rw [hl']; ring
    refine jac_chord h1 h3 (Ne.symm hx) hl' rfl rfl ?_ ?_ ?_
    · dsimp only
      rw [← two_mul]
      exact mul_ne_zero z1 (mul_ne_zero g.two (mul_ne_zero hd' (pow_ne_zero _ z1)))
    · dsimp only
      rw [ex1, hy3]
      linear_combination (2 * ((y1 - l * (x1 - x2) - y1) * j1.z ^ 3)) ^ 2 * es2
    · dsimp only
      rw [ex1, ey1, hy3]
      cases s <;> simp only [Bool.false_eq_true, if_false, if_true] <;> ring

theorem add_var_jac (g : Good ec) {P Q : Pt ec} {j k : Jge F} (hj : Jac j P) (hk : Jac k Q) :
    Jac (jge_add_var ec j k) (P + Q) := by
  unfold jge_add_var
  rcases P with _ | ⟨x1, y1, h1⟩
  · rw [← Point.zero_def, jac_zero] at hj
    rw [hj, ← Point.zero_def, zero_add]; simpa using hk
  rcases Q with _ | ⟨x2, y2, h2⟩
  · rw [← Point.zero_def, jac_zero] at hk
    rw [hk, ← Point.zero_def, add_zero]
    simpa [hj.1] using hj
  rw [hj.1, hk.1]
  simp only [Bool.false_eq_true, if_false]
  split
  · rename_i ha
    obtain ⟨_, _, ex, ey, az⟩ := hk
    rw [ex, ey, az ha]
    simpa using mixed_addsub_jac (h2 := h2) g true hj
  · simpa using addsub_jac g true hj hk

theorem sub_var_jac (g : Good ec) {P Q : Pt ec} {j k : Jge F} (hj : Jac j P) (hk : Jac k Q) :
    Jac (jge_sub_var ec j k) (P - Q) := by
  unfold jge_sub_var
  rw [sub_eq_add_neg]
  rcases P with _ | ⟨x1, y1, h1⟩
  · rw [← Point.zero_def, jac_zero] at hj
    rw [hj, ← Point.zero_def, zero_add]; simpa using neg_jac hk
  rcases Q with _ | ⟨x2, y2, h2⟩
  · rw [← Point.zero_def, jac_zero] at hk
    rw [hk, ← Point.zero_def, Point.neg_zero, add_zero]
    simpa [hj.1] using hj
  rw [hj.1, hk.1]
  simp only [Bool.false_eq_true, if_false]
  split
  · rename_i ha
    obtain ⟨_, _, ex, ey, az⟩ := hk
    rw [ex, ey, az ha]
    simpa using mixed_addsub_jac (h2 := h2) g false hj
  · simpa using addsub_jac g false hj hk

theorem mixed_add_var_jac (g : Good ec) {P : Pt ec} (Q : Pt ec) {j : Jge F} (hj : Jac j P) :
    Jac (jge_mixed_add_var ec j (affine Q)) (P + Q) := by
  unfold jge_mixed_add_var
  rcases P with _ | ⟨x1, y1, h1⟩
  · rw [← Point.zero_def, jac_zero] at hj
    rw [hj, ← Point.zero_def, zero_add]; simpa using set_wge_jac Q
  rcases Q with _ | ⟨x2, y2, h2⟩
  · rw [← Point.zero_def, add_zero, aff_zero]
    simpa [hj.1] using hj
  rw [hj.1, aff_some]
  simpa using mixed_addsub_jac (h2 := h2) g true hj

theorem mixed_sub_var_jac (g : Good ec) {P : Pt ec} (Q : Pt ec) {j : Jge F} (hj : Jac j P) :
    Jac (jge_mixed_sub_var ec j (affine Q)) (P - Q) := by
  unfold jge_mixed_sub_var
  rw [sub_eq_add_neg]
  rcases P with _ | ⟨x1, y1, h1⟩
  · rw [← Point.zero_def, jac_zero] at hj
    rw [hj, ← Point.zero_def, zero_add]; simpa using neg_jac (set_wge_jac Q)
  rcases Q with _ | ⟨x2, y2, h2⟩
  · rw [← Point.zero_def, Point.neg_zero, add_zero, aff_zero]
    simpa [hj.1] using hj
  rw [hj.1, aff_some]
  simpa using mixed_addsub_jac (h2 := h2) g false hj

end Torsion.Ecc
