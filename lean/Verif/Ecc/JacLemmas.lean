import Verif.Ecc.PointLemmas

/-! Lemmas on Jacobian points: the constant-time formulas, conversions, comparisons and tables. -/
namespace Torsion.Ecc

open Torsion.Spec (affine Jac Good weier Pt)
open WeierstrassCurve.Affine (Point)

variable {F : Type} [Field F] [DecidableEq F] {ec : Curve F}

/-- The unified formulas with a non-zero denominator. -/
theorem unified_core (g : Good ec) {x1 y1 x2 y2 l Z M R t LL : F} {P : Pt ec} {j : Jge F}
    (hP : affine P = ⟨l ^ 2 - x1 - x2, l * (x1 - (l ^ 2 - x1 - x2)) - y1, false⟩)
    (hl : l * (x1 - x2) = y1 - y2) (hZ : Z ≠ 0) (hM : M ≠ 0) (hR : R = l * Z * M) (ht : t = (x1 + x2) * Z ^ 2)
    (hLL : LL = (y1 + y2) * Z ^ 3 * M ^ 3) (hi : j.inf = false) (ha : j.aff = false)
    (ex : j.x = 4 * (R * R - t * (M * M)))
    (ey : j.y = 4 * ((t * (M * M) - (R * R - t * (M * M)) - (R * R - t * (M * M))) * R - LL))
    (ez : j.z = Z * M + Z * M) : Jac j P := by
  rw [jac_fin hP]
  refine ⟨hi, ?_, ?_, ?_, by simp [ha]⟩
  · rw [ez, ← two_mul]
    exact mul_ne_zero g.two (mul_ne_zero hZ hM)
  · rw [ex, ez, hR, ht]; ring
  · rw [ey, ez, hR, ht, hLL]
    linear_combination (-4) * Z ^ 3 * M ^ 3 * hl

theorem unified_jac (g : Good ec) {x1 y1 x2 y2 Z t m r du ds : F} (h1 : (weier ec.a ec.b).Nonsingular x1 y1)
    (h2 : (weier ec.a ec.b).Nonsingular x2 y2) (hZ : Z ≠ 0) (ht : t = (x1 + x2) * Z ^ 2)
    (hm : m = (y1 + y2) * Z ^ 3) (hr : r = (x1 ^ 2 + x1 * x2 + x2 ^ 2 + ec.a) * Z ^ 4)
    (hdu : du = (x1 - x2) * Z ^ 2) (hds : ds = 2 * y1 * Z ^ 3) :
    ((jge_unified Z t m r du ds).2.2 = 0 ∧ (Point.some x1 y1 h1 + Point.some x2 y2 h2 : Pt ec) = 0) ∨
    ((jge_unified Z t m r du ds).2.2 ≠ 0 ∧
      Jac ⟨(jge_unified Z t m r du ds).1, (jge_unified Z t m r du ds).2.1, (jge_unified Z t m r du ds).2.2,
        false, false⟩ (Point.some x1 y1 h1 + Point.some x2 y2 h2 : Pt ec)) := by
  have e1 := eqn h1
  have e2 := eqn h2
  have h20 := g.two
  have key : (x1 ^ 2 + x1 * x2 + x2 ^ 2 + ec.a) * (x1 - x2) = (y1 + y2) * (y1 - y2) := by
    linear_combination e2 - e1
  by_cases hy : y1 + y2 = 0
  · have hm0 : m = 0 := by rw [hm, hy, zero_mul]
    have hy' : y1 = -y2 := by linear_combination hy
    by_cases hx : x1 = x2
    · -- opposite points
      left
      refine ⟨?_, add_opp h1 h2 hx hy'⟩
      have hdu0 : du = 0 := by rw [hdu, hx]; ring
      simp only [jge_unified, hm0, hdu0, fe_select, ite_self]
      ring
    · -- the degenerate case
      have hxs := sub_ne_zero.2 hx
      have hr0 : r = 0 := by
        have : (x1 ^ 2 + x1 * x2 + x2 ^ 2 + ec.a) = 0 := by
          rw [hy, zero_mul, mul_eq_zero] at key
          exact key.resolve_right hxs
        rw [hr, this, zero_mul]
      have hdu0 : du ≠ 0 := by rw [hdu]; exact mul_ne_zero hxs (pow_ne_zero _ hZ)
      set l := (y1 - y2) * (x1 - x2)⁻¹ with hl
      have hl' : l * (x1 - x2) = y1 - y2 := by rw [hl, inv_mul_cancel_right₀ hxs]
      have hq : jge_unified Z t m r du ds = (4 * (ds * ds - t * (du * du)),
          4 * ((t * (du * du) - (ds * ds - t * (du * du)) - (ds * ds - t * (du * du))) * ds - 0),
          Z * du + Z * du) := by
        simp only [jge_unified, hm0, hr0, fe_is_zero, decide_true, Bool.and_self, fe_select, if_true]
      right
      rw [hq]
      refine ⟨?_, ?_⟩
      · dsimp only
        rw [← two_mul]
        exact mul_ne_zero g.two (mul_ne_zero hZ hdu0)
      · refine unified_core g (aff_chord h1 h2 hx hl') hl' hZ hdu0 ?_ ht (LL := 0) (by rw [hy]; ring) rfl rfl
          rfl rfl rfl
        rw [hds, hdu]
        linear_combination (-Z ^ 3) * hl' + Z ^ 3 * hy
  · have hm0 : m ≠ 0 := by rw [hm]; exact mul_ne_zero hy (pow_ne_zero _ hZ)
    have hq : jge_unified Z t m r du ds = (4 * (r * r - t * (m * m)),
          4 * ((t * (m * m) - (r * r - t * (m * m)) - (r * r - t * (m * m))) * r - m * m * (m * m)),
          Z * m + Z * m) := by
      simp only [jge_unified, hm0, fe_is_zero, decide_false, Bool.false_and, fe_select, Bool.false_eq_true,
        if_false]
    set l := (x1 ^ 2 + x1 * x2 + x2 ^ 2 + ec.a) * (y1 + y2)⁻¹ with hl
    have hl' : l * (y1 + y2) = x1 ^ 2 + x1 * x2 + x2 ^ 2 + ec.a := by rw [hl, inv_mul_cancel_right₀ hy]
    have hlx : l * (x1 - x2) = y1 - y2 := by
      apply mul_left_cancel₀ hy
      rw [← key, ← hl']; ring
    have hP : affine (Point.some x1 y1 h1 + Point.some x2 y2 h2 : Pt ec)
        = ⟨l ^ 2 - x1 - x2, l * (x1 - (l ^ 2 - x1 - x2)) - y1, false⟩ := by
      by_cases hx : x1 = x2
      · subst hx
        have : y1 = y2 := (y_cases h1 h2).resolve_right (fun e => hy (by rw [e]; ring))
        subst this
        have hy0 : y1 ≠ 0 := fun e => hy (by rw [e]; ring)
        exact aff_tangent g.two h1 hy0 (by linear_combination hl')
      · exact aff_chord h1 h2 hx hlx
    right
    rw [hq]
    refine ⟨?_, ?_⟩
    · dsimp only
      rw [← two_mul]
      exact mul_ne_zero g.two (mul_ne_zero hZ hm0)
    · refine unified_core g hP hlx hZ hm0 ?_ ht (LL := m * m * (m * m)) (by rw [hm]; ring) rfl rfl rfl rfl rfl
      rw [hr, hm]
      linear_combination (-Z ^ 4) * hl'

theorem zero_a_iff (ec : Curve F) (r l : F) :
    (if (!ec.zero_a) = true then r + wei_mul_a ec l else r) = r + ec.a * l := by
  rw [mul_a]
  unfold Curve.zero_a
  by_cases h : ec.a = 0 <;> simp [h]

theorem add_jac (g : Good ec) {P Q : Pt ec} {j k : Jge F} (hj : Jac j P) (hk : Jac k Q) :
    Jac (jge_add ec j k) (P + Q) := by
  rcases P with _ | ⟨x1, y1, h1⟩
  · rw [← Point.zero_def, jac_zero] at hj
    rw [← Point.zero_def, zero_add]
    rcases Q with _ | ⟨x2, y2, h2⟩
    · rw [← Point.zero_def, jac_zero] at hk
      rw [hj, hk, ← Point.zero_def, jac_zero]
      simp [jge_add, fe_select]
    · obtain ⟨i2, z2, ex2, ey2, a2⟩ := hk
      rw [hj]
      simp only [jge_add, i2, fe_select, if_true, Bool.true_or, Bool.not_true, Bool.and_false,
        Bool.false_eq_true, if_false, Bool.or_self]
      exact ⟨rfl, z2, ex2, ey2, by simp⟩
  rcases Q with _ | ⟨x2, y2, h2⟩
  · rw [← Point.zero_def, jac_zero] at hk
    rw [← Point.zero_def, add_zero]
    obtain ⟨i2, z2, ex2, ey2, a2⟩ := hj
    rw [hk]
    simp only [jge_add, i2, fe_select, if_true, Bool.or_true, Bool.not_true, Bool.and_false,
      Bool.false_eq_true, if_false, Bool.or_self, Bool.false_and]
    exact ⟨rfl, z2, ex2, ey2, by simp⟩
  obtain ⟨i1, z1, ex1, ey1, a1⟩ := hj
  obtain ⟨i2, z2, ex2, ey2, a2⟩ := hk
  have hZ : j.z * k.z ≠ 0 := mul_ne_zero z1 z2
  have key := unified_jac g h1 h2 hZ (t := j.x * (k.z * k.z) + k.x * (j.z * j.z))
    (m := j.y * (k.z * k.z) * k.z + k.y * (j.z * j.z) * j.z)
    (r := (j.x * (k.z * k.z) + k.x * (j.z * j.z)) * (j.x * (k.z * k.z) + k.x * (j.z * j.z))
      - j.x * (k.z * k.z) * (k.x * (j.z * j.z)) + ec.a * (j.z * k.z * (j.z * k.z) * (j.z * k.z * (j.z * k.z))))
    (du := j.x * (k.z * k.z) - k.x * (j.z * j.z))
    (ds := j.y * (k.z * k.z) * k.z + j.y * (k.z * k.z) * k.z)
    (by rw [ex1, ex2]; ring) (by rw [ey1, ey2]; ring) (by rw [ex1, ex2]; ring) (by rw [ex1, ex2]; ring)
    (by rw [ey1]; ring)
  unfold jge_add
  simp only [zero_a_iff, i1, i2, fe_select, Bool.or_self, Bool.false_eq_true, if_false, Bool.not_false,
    Bool.and_true, Bool.and_self, Bool.or_false, fe_is_zero]
  rcases key with ⟨e, e'⟩ | ⟨e, e'⟩
  · rw [e, e']
    simp only [decide_true, if_true]
    exact jac_zero'
  · simp only [e, decide_false, Bool.false_eq_true, if_false]
    exact e'

theorem sub_jac (g : Good ec) {P Q : Pt ec} {j k : Jge F} (hj : Jac j P) (hk : Jac k Q) :
    Jac (jge_sub ec j k) (P - Q) := by
  rw [sub_eq_add_neg]
  exact add_jac g hj (neg_jac hk)

theorem mixed_add_jac (g : Good ec) {P : Pt ec} (Q : Pt ec) {j : Jge F} (hj : Jac j P) :
    Jac (jge_mixed_add ec j (affine Q)) (P + Q) := by
  rcases P with _ | ⟨x1, y1, h1⟩
  · rw [← Point.zero_def, jac_zero] at hj
    rw [← Point.zero_def, zero_add]
    rcases Q with _ | ⟨x2, y2, h2⟩
    · rw [hj, ← Point.zero_def, aff_zero, jac_zero]
      simp [jge_mixed_add, fe_select]
    · rw [hj, aff_some]
      simp only [jge_mixed_add, fe_select, if_true, Bool.true_or, Bool.not_true, Bool.and_false,
        Bool.false_eq_true, if_false, Bool.or_self]
      exact ⟨rfl, one_ne_zero, by simp, by simp, by simp⟩
  rcases Q with _ | ⟨x2, y2, h2⟩
  · rw [← Point.zero_def, add_zero, aff_zero]
    obtain ⟨i2, z2, ex2, ey2, a2⟩ := hj
    simp only [jge_mixed_add, i2, fe_select, if_true, Bool.or_true, Bool.not_true, Bool.and_false,
      Bool.false_eq_true, if_false, Bool.or_self, Bool.false_and]
    exact ⟨rfl, z2, ex2, ey2, by simp⟩
  obtain ⟨i1, z1, ex1, ey1, a1⟩ := hj
  rw [aff_some]
  have key := unified_jac g h1 h2 z1 (t := j.x + x2 * (j.z * j.z))
    (m := j.y + y2 * (j.z * j.z) * j.z)
    (r := (j.x + x2 * (j.z * j.z)) * (j.x + x2 * (j.z * j.z))
      - j.x * (x2 * (j.z * j.z)) + ec.a * (j.z * j.z * (j.z * j.z)))
    (du := j.x - x2 * (j.z * j.z)) (ds := j.y + j.y)
    (by rw [ex1]; ring) (by rw [ey1]; ring) (by rw [ex1]; ring) (by rw [ex1]; ring)
    (by rw [ey1]; ring)
  unfold jge_mixed_add
  simp only [zero_a_iff, i1, fe_select, Bool.or_self, Bool.false_eq_true, if_false, Bool.not_false,
    Bool.and_true, Bool.and_self, Bool.or_false, fe_is_zero]
  rcases key with ⟨e, e'⟩ | ⟨e, e'⟩
  · rw [e, e']
    simp only [decide_true, if_true]
    exact jac_zero'
  · simp only [e, decide_false, Bool.false_eq_true, if_false]
    exact e'

theorem mixed_sub_jac (g : Good ec) {P : Pt ec} (Q : Pt ec) {j : Jge F} (hj : Jac j P) :
    Jac (jge_mixed_sub ec j (affine Q)) (P - Q) := by
  rw [sub_eq_add_neg, jge_mixed_sub, neg_aff]
  exact mixed_add_jac g _ hj

/-! ### Conversions and comparisons -/

theorem set_jge_aff {P : Pt ec} {j : Jge F} (hj : Jac j P) : wge_set_jge j = affine P := by
  rcases P with _ | ⟨x, y, h⟩
  · rw [← Point.zero_def, jac_zero] at hj
    rw [hj, ← Point.zero_def, aff_zero]
    simp [wge_set_jge, fe_invert]
  · obtain ⟨hi, hz, ex, ey, ha⟩ := hj
    rw [aff_some]
    simp only [wge_set_jge, fe_invert, hi, ex, ey, Wge.mk.injEq, and_true]
    constructor <;> field_simp

theorem set_jge_var_aff {P : Pt ec} {j : Jge F} (hj : Jac j P) : wge_set_jge_var j = .ok (affine P) := by
  rcases P with _ | ⟨x, y, h⟩
  · rw [← Point.zero_def, jac_zero] at hj
    rw [hj, ← Point.zero_def, aff_zero]
    rfl
  · obtain ⟨hi, hz, ex, ey, ha⟩ := hj
    rw [aff_some]
    unfold wge_set_jge_var
    rw [hi]
    simp only [Bool.false_eq_true, if_false, fe_invert_var, hz]
    split
    · rename_i hh
      rw [ex, ey, ha hh]
      change C.ok _ = _
      simp
    · change C.ok _ = _
      rw [ex, ey]
      congr 2 <;> field_simp

theorem jac_eq {P Q : Pt ec} {j k : Jge F} (hj : Jac j P) (hk : Jac k Q) : jge_equal j k = decide (P = Q) := by
  rcases P with _ | ⟨x1, y1, h1⟩ <;> rcases Q with _ | ⟨x2, y2, h2⟩
  · rw [← Point.zero_def, jac_zero] at hj hk
    rw [hj, hk]
    simp [jge_equal]
  · rw [← Point.zero_def, jac_zero] at hj
    rw [hj]
    simp [jge_equal, hk.1]
  · rw [← Point.zero_def, jac_zero] at hk
    rw [hk]
    simp [jge_equal, hj.1]
  · obtain ⟨i1, z1, ex1, ey1, a1⟩ := hj
    obtain ⟨i2, z2, ex2, ey2, a2⟩ := hk
    have hz : j.z * k.z ≠ 0 := mul_ne_zero z1 z2
    have e1 : j.x * (k.z * k.z) = k.x * (j.z * j.z) ↔ x1 = x2 := by
      rw [ex1, ex2]
      constructor
      · intro e
        exact mul_right_cancel₀ (pow_ne_zero 2 hz) (by linear_combination e)
      · rintro rfl; ring
    have e2 : j.y * (k.z * k.z * k.z) = k.y * (j.z * j.z * j.z) ↔ y1 = y2 := by
      rw [ey1, ey2]
      constructor
      · intro e
        exact mul_right_cancel₀ (pow_ne_zero 3 hz) (by linear_combination e)
      · rintro rfl; ring
    simp [jge_equal, i1, i2, fe_equal, e1, e2]

theorem jac_eq_x {P : Pt ec} {j : Jge F} (hj : Jac j P) (x : F) :
    jge_equal_x j x = decide (P ≠ 0 ∧ (affine P).x = x) := by
  rcases P with _ | ⟨x1, y1, h1⟩
  · rw [← Point.zero_def, jac_zero] at hj
    rw [hj, ← Point.zero_def]
    simp [jge_equal_x]
  · obtain ⟨i1, z1, ex1, ey1, a1⟩ := hj
    have e1 : j.x = j.z * j.z * x ↔ x1 = x := by
      rw [ex1]
      constructor
      · intro e
        exact mul_right_cancel₀ (pow_ne_zero 2 z1) (by linear_combination e)
      · rintro rfl; ring
    rw [aff_some]
    simp [jge_equal_x, i1, fe_equal, e1]

theorem aff_eq (P Q : Pt ec) : wge_equal (affine P) (affine Q) = decide (P = Q) := by
  rcases P with _ | ⟨x1, y1, h1⟩ <;> rcases Q with _ | ⟨x2, y2, h2⟩
  · simp [wge_equal, affine]
  · simp [wge_equal, affine]
  · simp [wge_equal, affine]
  · rw [aff_some, aff_some]
    simp [wge_equal, fe_equal]

omit [DecidableEq F] in
theorem select_jac {P Q : Pt ec} {j k : Jge F} (hj : Jac j P) (hk : Jac k Q) (c : Bool) :
    Jac (jge_select j k c) (if c then Q else P) := by
  cases c
  · have : jge_select j k false = j := by simp [jge_select, fe_select]
    rw [this]; exact hj
  · have : jge_select j k true = k := by simp [jge_select, fe_select]
    rw [this]; exact hk

/-! ### Simultaneous conversion -/

theorem set_all_aux (ps : List (Jge F)) (Ps : List (Pt ec)) (h : List.Forall₂ Jac ps Ps) (acc : F)
    (ha : acc ≠ 0) :
    (set_all_prefix acc ps).2 ≠ 0 ∧ ∃ r,
      set_all_invert (set_all_prefix acc ps).2⁻¹ (ps.zip (set_all_prefix acc ps).1) = (r, acc⁻¹) ∧
      List.zipWith set_all_scale ps r = Ps.map affine := by
  induction h generalizing acc with
  | nil => exact ⟨ha, [], rfl, rfl⟩
  | @cons j P ps Ps hj _ ih =>
    rcases P with _ | ⟨x, y, hp⟩
    · rw [← Point.zero_def, jac_zero] at hj
      obtain ⟨h1, r, h2, h3⟩ := ih acc ha
      have hpre : set_all_prefix acc (j :: ps) = (0 :: (set_all_prefix acc ps).1, (set_all_prefix acc ps).2) := by
        simp [set_all_prefix, hj]
      rw [hpre]
      refine ⟨h1, 0 :: r, ?_, ?_⟩
      · simp only [List.zip_cons_cons, set_all_invert, h2]
        simp [hj]
      · rw [List.zipWith_cons_cons, h3, List.map_cons]
        simp [set_all_scale, hj, wge_zero, affine]
    · obtain ⟨hi, hz, ex, ey, _⟩ := hj
      obtain ⟨h1, r, h2, h3⟩ := ih (acc * j.z) (mul_ne_zero ha hz)
      have hpre : set_all_prefix acc (j :: ps)
          = (acc :: (set_all_prefix (acc * j.z) ps).1, (set_all_prefix (acc * j.z) ps).2) := by
        simp [set_all_prefix, hi]
      rw [hpre]
      refine ⟨h1, j.z⁻¹ :: r, ?_, ?_⟩
      · simp only [List.zip_cons_cons, set_all_invert, h2, hi, Bool.false_eq_true, if_false]
        have e1 : acc * (acc * j.z)⁻¹ = j.z⁻¹ := by field_simp
        have e2 : (acc * j.z)⁻¹ * j.z = acc⁻¹ := by field_simp
        rw [e1, e2]
      · rw [List.zipWith_cons_cons, h3, List.map_cons, aff_some]
        congr 1
        simp only [set_all_scale, hi, Bool.false_eq_true, if_false, ex, ey, Wge.mk.injEq, and_true]
        constructor <;> field_simp

theorem set_all_aff {ps : List (Jge F)} {Ps : List (Pt ec)} (h : List.Forall₂ Jac ps Ps) :
    wge_set_jge_all_var ps = .ok (Ps.map affine) := by
  obtain ⟨h1, r, h2, h3⟩ := set_all_aux ps Ps h 1 one_ne_zero
  unfold wge_set_jge_all_var
  simp only [fe_invert_var, h1, if_false]
  change C.ok _ = _
  rw [h2, h3]

/-! ### Tables -/

theorem window_jac (g : Good ec) {G : Pt ec} {jg : Jge F} (hg : Jac jg G) (n : Nat) {P : Pt ec} {j : Jge F}
    (hj : Jac j P) :
    List.Forall₂ Jac (fixed_window ec jg n j) ((List.range n).map fun i => P + i • G) := by
  induction n generalizing P j with
  | zero => exact .nil
  | succ n ih =>
    rw [List.range_succ_eq_map, List.map_cons, List.map_map, fixed_window]
    refine .cons (by simpa using hj) ?_
    have := ih (add_var_jac g hj hg)
    convert this using 2
    funext i
    simp only [Function.comp, Nat.succ_eq_add_one, succ_nsmul]
    abel

theorem dbl_iter (g : Good ec) (n : Nat) {P : Pt ec} {j : Jge F} (hj : Jac j P) :
    Jac ((jge_dbl_var ec)^[n] j) (2 ^ n • P) := by
  induction n with
  | zero => simpa using hj
  | succ n ih =>
    rw [Function.iterate_succ_apply', pow_succ, mul_nsmul, two_nsmul]
    exact dbl_var_jac g ih

theorem windows_jac (g : Good ec) (n : Nat) {G : Pt ec} {jg : Jge F} (hg : Jac jg G) :
    List.Forall₂ Jac (fixed_windows ec n jg)
      ((List.range n).flatMap fun w => (List.range 16).map fun i => (i * 16 ^ w) • G) := by
  induction n generalizing G jg with
  | zero => exact .nil
  | succ n ih =>
    rw [List.range_succ_eq_map (n := n), List.flatMap_cons, List.flatMap_map, fixed_windows]
    refine List.rel_append ?_ ?_
    · have := window_jac g hg 16 (jac_zero' (ec := ec))
      simpa using this
    · have := ih (dbl_iter g 4 hg)
      convert this using 3
      congr 1
      funext i
      rw [← mul_nsmul']
      congr 1
      rw [Nat.succ_eq_add_one, pow_succ]
      ring

theorem naf_points_jac (g : Good ec) (P : Pt ec) (w : Nat) :
    List.Forall₂ Jac (jge_naf_points_var ec (affine P) w)
      ((List.range (2 ^ (w - 2))).map fun i => (2 * i + 1) • P) := by
  have := window_jac g (dbl_var_jac g (set_wge_jac P)) (2 ^ (w - 2)) (set_wge_jac P)
  unfold jge_naf_points_var
  convert this using 2
  funext i
  rw [← two_nsmul, ← mul_nsmul, add_nsmul, one_nsmul]
  abel

theorem jsf_points_jac (g : Good ec) (P Q : Pt ec) :
    List.Forall₂ Jac (jge_jsf_points_var ec (affine P) (affine Q)) [P, P + Q, P - Q, Q] :=
  .cons (set_wge_jac P) (.cons (mixed_add_var_jac g Q (set_wge_jac P))
    (.cons (mixed_sub_var_jac g Q (set_wge_jac P)) (.cons (set_wge_jac Q) .nil)))

end Torsion.Ecc
