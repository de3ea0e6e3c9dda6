import Verif.Ecc.Endo
import Mathlib.Algebra.Field.ZMod

/-!
# Properties: points of short Weierstrass curves (C51)

Every formula of the library for points of `y^2 = x^3 + a x + b` gives the struct of the sum in the group of the
curve, for every pair of points: equal, opposite, of order two, with `y1 = -y2` and different `x`, or infinity.
The variable-time functions never abort.
-/
namespace Torsion

open Torsion.Spec (affine Jac Good weier Pt)
open WeierstrassCurve.Affine (Point)

variable {F : Type} [Field F] [DecidableEq F] {ec : Curve F}

/-- Affine doubling, both versions. -/
theorem wge_dbl_exact (g : Good ec) (P : Pt ec) :
    wge_dbl_var ec (affine P) = .ok (affine (P + P)) ∧ wge_dbl ec (affine P) = affine (P + P) :=
  ⟨Ecc.dbl_var_aff g P, Ecc.dbl_aff g P⟩

/-- Affine addition, both versions. -/
theorem wge_add_exact (g : Good ec) (P Q : Pt ec) :
    wge_add_var ec (affine P) (affine Q) = .ok (affine (P + Q)) ∧
      wge_add ec (affine P) (affine Q) = affine (P + Q) :=
  ⟨Ecc.add_var_aff g P Q, Ecc.add_aff g P Q⟩

/-- Affine subtraction, both versions. -/
theorem wge_sub_exact (g : Good ec) (P Q : Pt ec) :
    wge_sub_var ec (affine P) (affine Q) = .ok (affine (P - Q)) ∧
      wge_sub ec (affine P) (affine Q) = affine (P - Q) := by
  rw [sub_eq_add_neg, wge_sub_var, wge_sub, Ecc.neg_aff]
  exact wge_add_exact g P (-Q)

/-- Negation. -/
theorem wge_neg_exact (P : Pt ec) (flag : Bool) :
    wge_neg (affine P) = affine (-P) ∧ wge_neg_cond (affine P) flag = affine (if flag then -P else P) := by
  refine ⟨Ecc.neg_aff P, ?_⟩
  cases flag
  · rfl
  · rw [if_pos rfl, ← Ecc.neg_aff]; rfl

/-- Jacobian doubling, both versions. -/
theorem jge_dbl_exact (g : Good ec) {P : Pt ec} {j : Jge F} (hj : Jac j P) :
    Jac (jge_dbl_var ec j) (P + P) ∧ Jac (jge_dbl ec j) (P + P) :=
  ⟨Ecc.dbl_var_jac g hj, Ecc.dbl_jac g hj⟩

/-- Jacobian addition, both versions. -/
theorem jge_add_exact (g : Good ec) {P Q : Pt ec} {j k : Jge F} (hj : Jac j P) (hk : Jac k Q) :
    Jac (jge_add_var ec j k) (P + Q) ∧ Jac (jge_add ec j k) (P + Q) :=
  ⟨Ecc.add_var_jac g hj hk, Ecc.add_jac g hj hk⟩

/-- Jacobian subtraction, both versions. -/
theorem jge_sub_exact (g : Good ec) {P Q : Pt ec} {j k : Jge F} (hj : Jac j P) (hk : Jac k Q) :
    Jac (jge_sub_var ec j k) (P - Q) ∧ Jac (jge_sub ec j k) (P - Q) :=
  ⟨Ecc.sub_var_jac g hj hk, Ecc.sub_jac g hj hk⟩

/-- Addition of an affine point, both versions. -/
theorem jge_mixed_add_exact (g : Good ec) {P : Pt ec} (Q : Pt ec) {j : Jge F} (hj : Jac j P) :
    Jac (jge_mixed_add_var ec j (affine Q)) (P + Q) ∧ Jac (jge_mixed_add ec j (affine Q)) (P + Q) :=
  ⟨Ecc.mixed_add_var_jac g Q hj, Ecc.mixed_add_jac g Q hj⟩

/-- Subtraction of an affine point, both versions. -/
theorem jge_mixed_sub_exact (g : Good ec) {P : Pt ec} (Q : Pt ec) {j : Jge F} (hj : Jac j P) :
    Jac (jge_mixed_sub_var ec j (affine Q)) (P - Q) ∧ Jac (jge_mixed_sub ec j (affine Q)) (P - Q) :=
  ⟨Ecc.mixed_sub_var_jac g Q hj, Ecc.mixed_sub_jac g Q hj⟩

/-- Negation. -/
theorem jge_neg_exact {P : Pt ec} {j : Jge F} (hj : Jac j P) (flag : Bool) :
    Jac (jge_neg j) (-P) ∧ Jac (jge_neg_cond j flag) (if flag then -P else P) :=
  ⟨Ecc.neg_jac hj, Ecc.neg_cond_jac hj flag⟩

/-- Conversions between the coordinates. -/
theorem jge_convert_exact (P : Pt ec) :
    Jac (jge_set_wge (affine P)) P ∧ Jac (jge_zero : Jge F) (0 : Pt ec) ∧
    ∀ j, Jac j P → wge_set_jge j = affine P ∧ wge_set_jge_var j = .ok (affine P) :=
  ⟨Ecc.set_wge_jac P, Ecc.jac_zero', fun _ hj => ⟨Ecc.set_jge_aff hj, Ecc.set_jge_var_aff hj⟩⟩

/-- The simultaneous conversion with a single inversion. -/
theorem wge_set_jge_all_exact {js : List (Jge F)} {Ps : List (Pt ec)} (h : List.Forall₂ Jac js Ps) :
    wge_set_jge_all_var js = .ok (Ps.map affine) := Ecc.set_all_aff h

/-- Comparison of points, whatever the denominators. -/
theorem jge_equal_exact {P Q : Pt ec} {j k : Jge F} (hj : Jac j P) (hk : Jac k Q) :
    jge_equal j k = decide (P = Q) ∧ wge_equal (affine P) (affine Q) = decide (P = Q) :=
  ⟨Ecc.jac_eq hj hk, Ecc.aff_eq P Q⟩

/-- Comparison of the abscissa. -/
theorem jge_equal_x_exact {P : Pt ec} {j : Jge F} (hj : Jac j P) (x : F) :
    jge_equal_x j x = true ↔ P ≠ 0 ∧ (affine P).x = x := by
  rw [Ecc.jac_eq_x hj, decide_eq_true_iff]

/-- Selection. -/
theorem jge_select_exact {P Q : Pt ec} {j k : Jge F} (hj : Jac j P) (hk : Jac k Q) (flag : Bool) :
    Jac (jge_select j k flag) (if flag then Q else P) := Ecc.select_jac hj hk flag

/-- The structs which pass the check are those of the points. -/
theorem wge_validate_exact (h2 : (2 : F) ≠ 0) (hd : 4 * ec.a ^ 3 + 27 * ec.b ^ 2 ≠ 0) (p : Wge F)
    (hp : p.inf = true → p.x = 0 ∧ p.y = 0) : wge_validate ec p = true ↔ ∃ P : Pt ec, p = affine P := by
  rcases p with ⟨x, y, i⟩
  cases i
  · simp only [wge_validate, wei_validate_xy, fe_equal, Ecc.solve_y2, Bool.or_false, decide_eq_true_eq]
    constructor
    · intro h
      exact ⟨.some x y (Ecc.nonsing h2 hd (by rw [← h]; ring)), rfl⟩
    · rintro ⟨P, h⟩
      rcases P with _ | ⟨x', y', hP⟩
      · cases h
      · rw [Ecc.aff_some] at h
        injection h with e1 e2
        subst e1; subst e2
        rw [← Ecc.eqn hP]; ring
  · obtain ⟨h0, h1⟩ := hp rfl
    simp only at h0 h1
    subst h0; subst h1
    simp only [wge_validate, Bool.or_true, true_iff]
    exact ⟨0, rfl⟩

/-- `wge_set_xy` succeeds exactly for the coordinates of a point, and gives this point. -/
theorem wge_set_xy_exact (h2 : (2 : F) ≠ 0) (hd : 4 * ec.a ^ 3 + 27 * ec.b ^ 2 ≠ 0) (x y : F) :
    wge_set_xy ec x y = if y ^ 2 = x ^ 3 + ec.a * x + ec.b then (⟨x, y, false⟩, true) else (wge_zero, false) := by
  simp only [wge_set_xy, wei_validate_xy, fe_equal, Ecc.solve_y2, ← pow_two]
  split <;> rename_i h <;> simp [h, fe_select, wge_zero]

/-- The Jacobian triples which pass the check are those of the points. -/
theorem jge_validate_exact (h2 : (2 : F) ≠ 0) (hd : 4 * ec.a ^ 3 + 27 * ec.b ^ 2 ≠ 0) (j : Jge F)
    (hi : j.inf = false) (hz : j.z ≠ 0) (ha : j.aff = true → j.z = 1) :
    jge_validate ec j = true ↔ ∃ P : Pt ec, Jac j P := by
  simp only [jge_validate, fe_equal, Ecc.mul_a, decide_eq_true_eq]
  constructor
  · intro h
    refine ⟨.some (j.x / j.z ^ 2) (j.y / j.z ^ 3) (Ecc.nonsing h2 hd ?_), hi, hz, ?_, ?_, ha⟩
    · field_simp
      linear_combination h
    · field_simp
    · field_simp
  · rintro ⟨P, hP⟩
    rcases P with _ | ⟨x, y, hp⟩
    · rw [← Point.zero_def, Ecc.jac_zero] at hP
      rw [hP] at hi; cases hi
    · obtain ⟨_, _, ex, ey, _⟩ := hP
      have e := Ecc.eqn hp
      rw [ex, ey]
      linear_combination j.z ^ 6 * e

/-- The table of the generator: all `i * 16^w` multiples with `i < 16`, one window after the other. -/
theorem wge_fixed_points_exact (g : Good ec) (bits : Nat) (P : Pt ec) :
    wge_fixed_points_var ec bits (affine P) = .ok (((List.range ((bits + 3) / 4)).flatMap fun w =>
      (List.range 16).map fun i => (i * 16 ^ w) • P).map affine) :=
  Ecc.set_all_aff (Ecc.windows_jac g _ (Ecc.set_wge_jac P))

/-- The tables of odd multiples. -/
theorem naf_points_exact (g : Good ec) (P : Pt ec) (width : Nat) :
    List.Forall₂ Jac (jge_naf_points_var ec (affine P) width)
      ((List.range (2 ^ (width - 2))).map fun i => (2 * i + 1) • P) ∧
    wge_naf_points_var ec (affine P) width
      = .ok (((List.range (2 ^ (width - 2))).map fun i => (2 * i + 1) • P).map affine) :=
  ⟨Ecc.naf_points_jac g P width, Ecc.set_all_aff (Ecc.naf_points_jac g P width)⟩

/-- The tables for joint sparse forms. -/
theorem jsf_points_exact (g : Good ec) (P Q : Pt ec) :
    List.Forall₂ Jac (jge_jsf_points_var ec (affine P) (affine Q)) [P, P + Q, P - Q, Q] :=
  Ecc.jsf_points_jac g P Q

/-- On `y^2 = x^3 + b`, multiplying the abscissa by a cube root of unity is an endomorphism `φ`; if
`φ(P) = l P` then it multiplies every multiple of `P` by `l`. -/
theorem endo_beta_exact (g : Good ec) {b : F} (ha : ec.a = 0) (hb : b ^ 3 = 1) :
    ∃ φ : Pt ec → Pt ec, (∀ P, affine (φ P) = wge_endo_beta b (affine P)) ∧
      (∀ P j, Jac j P → Jac (jge_endo_beta b j) (φ P)) ∧ (∀ P Q, φ (P + Q) = φ P + φ Q) ∧
      (∀ P (l : Nat), φ P = l • P → ∀ k : Nat, φ (k • P) = l • k • P) ∧
      ∀ P, ∃ t, jge_jsf_points_endo_var ec b (affine P) = .ok t ∧ List.Forall₂ Jac t [P, P + φ P, P - φ P, φ P] :=
  ⟨Ecc.endoPt b ha hb, Ecc.endo_aff b ha hb, fun _ _ hj => Ecc.endo_jac ha hb hj, Ecc.endo_add g ha hb,
    fun _ _ h k => Ecc.endo_smul g ha hb h k, Ecc.jsf_endo_jac g ha hb⟩

/-! ### A curve of each kind, and points in every special position -/

section
local instance : Fact (Nat.Prime 7) := ⟨by decide⟩
local instance : Fact (Nat.Prime 13) := ⟨by decide⟩

/-- `y^2 = x^3 + 3` over 13 elements: 9 points, none of order two, `φ` with `β = 3`. -/
example : Good (⟨0, 3, 1⟩ : Curve (ZMod 13)) := ⟨by decide, fun _ => by decide⟩
example : (3 : ZMod 13) ^ 3 = 1 := by decide
example : 4 * (0 : ZMod 13) ^ 3 + 27 * 3 ^ 2 ≠ 0 := by decide

/-- `y^2 = x^3 + x + 1` over 7 elements; all doubling formulas: `a = 0`, `a = -3` and others. -/
example : Good (⟨1, 1, 1⟩ : Curve (ZMod 7)) := ⟨by decide, fun _ => by decide⟩
example : Good (⟨-3, 1, 1⟩ : Curve (ZMod 7)) := ⟨by decide, fun _ => by decide⟩

/-- `y^2 = x^3 - 1` over 7 elements has points of order two: `(1, 0)`. -/
example : Good (⟨0, -1, 4⟩ : Curve (ZMod 7)) := ⟨by decide, fun h => absurd h (by decide)⟩
example : (0 : ZMod 7) ^ 2 = 1 ^ 3 + 0 * 1 + -1 := by decide

/-- The degenerate case of the unified formulas: `y1 = -y2` and `x1 ≠ x2`, at `(1, 2)` and `(3, -2)`. -/
example : (2 : ZMod 13) ^ 2 = 1 ^ 3 + 0 * 1 + 3 ∧ (-2 : ZMod 13) ^ 2 = 3 ^ 3 + 0 * 3 + 3 := by decide

/-- Opposite points with different denominators give infinity; a point and itself gives its double. -/
example : jge_add (⟨0, 3, 1⟩ : Curve (ZMod 13)) ⟨1, 2, 1, false, true⟩ ⟨4, -16, 2, false, false⟩ = jge_zero := by
  decide
example : jge_equal (jge_add (⟨0, 3, 1⟩ : Curve (ZMod 13)) ⟨1, 2, 1, false, true⟩ ⟨12, -16, 2, false, false⟩)
    ⟨0, -4, 1, false, true⟩ = true := by decide
end

end Torsion
