import Verif.Ecc.JacLemmas

/-! Lemmas: the map `(x, y) ↦ (β x, y)` on `y^2 = x^3 + b`, membership tests. -/
namespace Torsion.Ecc

open Torsion.Spec (affine Jac Good weier Pt)
open WeierstrassCurve.Affine (Point)

variable {F : Type} [Field F] [DecidableEq F] {ec : Curve F}

omit [DecidableEq F] in
/-- On a curve with non-zero discriminant every solution of the equation is a point. -/
theorem nonsing (h2 : (2 : F) ≠ 0) (hd : 4 * ec.a ^ 3 + 27 * ec.b ^ 2 ≠ 0) {x y : F}
    (h : y ^ 2 = x ^ 3 + ec.a * x + ec.b) : (weier ec.a ec.b).Nonsingular x y := by
  have hΔ : (weier ec.a ec.b).Δ ≠ 0 := by
    have e : (weier ec.a ec.b).Δ = -(2 ^ 4 * (4 * ec.a ^ 3 + 27 * ec.b ^ 2)) := by
      simp only [weier, WeierstrassCurve.Δ, WeierstrassCurve.b₂, WeierstrassCurve.b₄, WeierstrassCurve.b₆,
        WeierstrassCurve.b₈]
      ring
    rw [e, neg_ne_zero]
    exact mul_ne_zero (pow_ne_zero _ h2) hd
  rw [← WeierstrassCurve.Affine.equation_iff_nonsingular_of_Δ_ne_zero hΔ,
    WeierstrassCurve.Affine.equation_iff]
  simpa [weier] using h

theorem nonsing_mul {b : F} (ha : ec.a = 0) (hb : b ^ 3 = 1) {x y : F}
    (h : (weier ec.a ec.b).Nonsingular x y) : (weier ec.a ec.b).Nonsingular (x * b) y := by
  have hb0 : b ≠ 0 := by rintro rfl; simp at hb
  have e := eqn h
  rw [WeierstrassCurve.Affine.nonsingular_iff, WeierstrassCurve.Affine.equation_iff] at h ⊢
  simp only [weier, ha, zero_mul, add_zero, mul_zero, sub_zero, zero_add] at h e ⊢
  refine ⟨?_, ?_⟩
  · rw [e, mul_pow, hb, mul_one]
  · rcases h.2 with h' | h'
    · left
      intro h0
      apply h'
      have : x ^ 2 * b ^ 2 * 3 = 0 := by linear_combination -h0
      have h3 : x ^ 2 * 3 = 0 := by
        rcases mul_eq_zero.1 this with h4 | h4
        · rcases mul_eq_zero.1 h4 with h5 | h5
          · rw [h5, zero_mul]
          · exact absurd h5 (pow_ne_zero 2 hb0)
        · rw [h4, mul_zero]
      linear_combination -h3
    · right
      exact h'

/-- `(x, y) ↦ (β x, y)`. -/
def endoPt (b : F) (ha : ec.a = 0) (hb : b ^ 3 = 1) : Pt ec → Pt ec
  | .zero => 0
  | .some x y h => .some (x * b) y (nonsing_mul ha hb h)

theorem endo_aff (b : F) (ha : ec.a = 0) (hb : b ^ 3 = 1) (P : Pt ec) :
    affine (endoPt b ha hb P) = wge_endo_beta b (affine P) := by
  rcases P with _ | ⟨x, y, h⟩
  · rw [← Point.zero_def, aff_zero]
    simp [endoPt, wge_endo_beta, aff_zero]
  · rfl

theorem endo_jac {b : F} (ha : ec.a = 0) (hb : b ^ 3 = 1) {P : Pt ec} {j : Jge F} (hj : Jac j P) :
    Jac (jge_endo_beta b j) (endoPt b ha hb P) := by
  rcases P with _ | ⟨x, y, h⟩
  · rw [← Point.zero_def, jac_zero] at hj
    rw [hj]
    exact jac_zero'
  · obtain ⟨hi, hz, ex, ey, h1⟩ := hj
    refine ⟨hi, hz, ?_, ey, h1⟩
    simp only [jge_endo_beta, fe_select, hi, Bool.false_eq_true, if_false, ex]
    ring

theorem endo_add (g : Good ec) {b : F} (ha : ec.a = 0) (hb : b ^ 3 = 1) (P Q : Pt ec) :
    endoPt b ha hb (P + Q) = endoPt b ha hb P + endoPt b ha hb Q := by
  have hb0 : b ≠ 0 := by rintro rfl; simp at hb
  rcases P with _ | ⟨x1, y1, h1⟩
  · rw [← Point.zero_def, zero_add]
    change _ = (0 : Pt ec) + _
    rw [zero_add]
  rcases Q with _ | ⟨x2, y2, h2⟩
  · rw [← Point.zero_def, add_zero]
    change _ = _ + (0 : Pt ec)
    rw [add_zero]
  have fin : ∀ {x y : F} {R : Pt ec}, affine R = ⟨x, y, false⟩ →
      affine (endoPt b ha hb R) = ⟨x * b, y, false⟩ := by
    intro x y R h
    rw [endo_aff, h]; rfl
  apply aff_inj
  by_cases hx : x1 = x2
  · subst hx
    rcases y_cases h1 h2 with hy | hy
    · subst hy
      by_cases hy0 : y1 = 0
      · subst hy0
        rw [dbl_two h1]
        change affine (0 : Pt ec) = affine (Point.some _ _ _ + Point.some _ _ _)
        rw [dbl_two]
      · have h2y : 2 * y1 ≠ 0 := mul_ne_zero g.two hy0
        set l := (3 * x1 ^ 2 + ec.a) * (2 * y1)⁻¹ with hl
        have hl' : l * (2 * y1) = 3 * x1 ^ 2 + ec.a := by rw [hl, inv_mul_cancel_right₀ h2y]
        rw [fin (aff_tangent g.two h1 hy0 hl')]
        change _ = affine (Point.some _ _ _ + Point.some _ _ _)
        rw [aff_tangent (l := l * b ^ 2) g.two _ hy0 (by
          rw [ha] at hl' ⊢
          linear_combination b ^ 2 * hl')]
        congr 1
        · linear_combination (-l ^ 2 * b) * hb
        · linear_combination (-(3 * x1 * l) + l ^ 3 * (b ^ 3 + 1)) * hb
    · rw [add_opp h1 h2 rfl hy]
      change affine (0 : Pt ec) = affine (Point.some _ _ _ + Point.some _ _ _)
      rw [add_opp _ _ rfl hy]
  · have hxs := sub_ne_zero.2 hx
    set l := (y1 - y2) * (x1 - x2)⁻¹ with hl
    have hl' : l * (x1 - x2) = y1 - y2 := by rw [hl, inv_mul_cancel_right₀ hxs]
    rw [fin (aff_chord h1 h2 hx hl')]
    change _ = affine (Point.some _ _ _ + Point.some _ _ _)
    rw [aff_chord (l := l * b ^ 2) _ _ (fun e => hx (mul_right_cancel₀ hb0 e)) (by
      linear_combination b ^ 3 * hl' + (y1 - y2) * hb)]
    congr 1
    · linear_combination (-l ^ 2 * b) * hb
    · linear_combination (-(2 * x1 + x2) * l + l ^ 3 * (b ^ 3 + 1)) * hb

/-- On the multiples of a point the map is multiplication by a number as soon as it is so on that point. -/
theorem endo_smul (g : Good ec) {b : F} (ha : ec.a = 0) (hb : b ^ 3 = 1) {P : Pt ec} {l : Nat}
    (h : endoPt b ha hb P = l • P) (k : Nat) : endoPt b ha hb (k • P) = l • (k • P) := by
  induction k with
  | zero => simp [endoPt]
  | succ k ih => rw [succ_nsmul, endo_add g, ih, h, nsmul_add]

theorem jsf_endo_jac (g : Good ec) {b : F} (ha : ec.a = 0) (hb : b ^ 3 = 1) (P : Pt ec) :
    ∃ t, jge_jsf_points_endo_var ec b (affine P) = .ok t ∧
      List.Forall₂ Jac t [P, P + endoPt b ha hb P, P - endoPt b ha hb P, endoPt b ha hb P] := by
  unfold jge_jsf_points_endo_var
  rw [← endo_aff b ha hb P]
  dsimp only
  rw [add_var_aff g, C.ok_bind]
  exact ⟨_, rfl, .cons (set_wge_jac P) (.cons (set_wge_jac _)
    (.cons (mixed_sub_var_jac g _ (set_wge_jac P)) (.cons (set_wge_jac _) .nil)))⟩

end Torsion.Ecc
