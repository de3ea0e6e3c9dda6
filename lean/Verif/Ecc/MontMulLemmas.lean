import Verif.Ecc.MontLemmas

/-! The operations on points of Montgomery curves and the ladder: lemmas. -/
namespace Torsion.Ecc

open Torsion.Spec (montCurve MPt montAffine montX MontXZ MontGood MontOk)
open WeierstrassCurve.Affine (Point)

variable {F : Type} [Field F] [DecidableEq F] {ec : Mont F} {b : F}

theorem m_mul_a24 (ok : MontOk ec) (x : F) : mont_mul_a24 ec x = x * ec.a24 := by
  unfold mont_mul_a24
  cases h : ec.scmul with
  | none => rfl
  | some k => rw [ok.scmul k h]

theorem m_mul_b (ec : Mont F) (x : F) : mont_mul_b ec x = x * ec.b := by
  unfold mont_mul_b Mont.b_one fe_equal
  split
  · rename_i h; rw [decide_eq_true_eq] at h; rw [h, mul_one]
  · rfl

theorem m_div_b (ok : MontOk ec) (x : F) : mont_div_b ec x = x / ec.b := by
  unfold mont_div_b Mont.b_one fe_equal
  split
  · rename_i h; rw [decide_eq_true_eq] at h; rw [h, div_one]
  · rw [eq_div_iff ok.good.b0, mul_assoc, ok.bi, mul_one]

theorem m_bi (ok : MontOk ec) : ec.bi = 1 / ec.b := by rw [eq_div_iff ok.good.b0, ok.bi]
theorem m_a0 (ok : MontOk ec) : ec.a0 = ec.a / ec.b := by rw [eq_div_iff ok.good.b0, ok.a0]
theorem m_b0 (ok : MontOk ec) : ec.b0 = 1 / ec.b ^ 2 := by rw [eq_div_iff (pow_ne_zero _ ok.good.b0), ok.b0]

theorem m_good (ok : MontOk ec) (hb : b ≠ 0) : MontGood ec.a b := ⟨ok.good.two, hb, ok.good.disc⟩

theorem m_four (ok : MontOk ec) : (4 : F) ≠ 0 := by
  rw [show (4 : F) = 2 * 2 by norm_num]; exact mul_ne_zero ok.good.two ok.good.two

/-! ### The abscissa only -/

theorem xz_neg {p : Pge F} {P : MPt ec.a b} (h : MontXZ p P) : MontXZ p (-P) := by
  unfold MontXZ at h ⊢; rwa [mx_neg]

theorem xz_inf {p : Pge F} {P : MPt ec.a b} (h : MontXZ p P) : pge_is_zero p = true ↔ P = 0 := by
  rw [← mx_none, pge_is_zero, fe_is_zero, decide_eq_true_eq]
  unfold MontXZ at h
  cases hm : montX P with
  | none => rw [hm] at h; exact ⟨fun _ => rfl, fun _ => h.1⟩
  | some x => rw [hm] at h; exact ⟨fun e => absurd e h.1, fun e => by simp at e⟩

theorem xz_one {x : F} {P : MPt ec.a b} (h : montX P = some x) : MontXZ ⟨x, 1⟩ P := by
  rw [MontXZ, h]; exact ⟨one_ne_zero, by simp⟩

/-- The point at infinity may be written with any non-zero first coordinate. -/
theorem xz_sel {p : Pge F} {P : MPt ec.a b} (h : MontXZ p P) : MontXZ ⟨fe_select p.x 1 (fe_is_zero p.z), p.z⟩ P := by
  unfold MontXZ at h ⊢
  cases hm : montX P with
  | none =>
    rw [hm] at h
    have e : fe_is_zero p.z = true := by rw [fe_is_zero, decide_eq_true_eq]; exact h.1
    rw [e]
    exact ⟨h.1, one_ne_zero⟩
  | some x =>
    rw [hm] at h
    have e : fe_is_zero p.z = false := by rw [fe_is_zero, decide_eq_false_iff_not]; exact h.1
    rw [e]
    exact h

theorem dbl_coords (ok : MontOk ec) (X Z : F) :
    (mont_mul_a24 ec ((X + Z) * (X + Z) - (X - Z) * (X - Z)) + (X - Z) * (X - Z)) * ((X + Z) * (X + Z) - (X - Z) * (X - Z))
      = 4 * X * Z * (X ^ 2 + ec.a * X * Z + Z ^ 2) := by
  rw [m_mul_a24 ok]
  linear_combination 4 * X ^ 2 * Z ^ 2 * ok.a24

theorem pge_dbl_xz (ok : MontOk ec) (hb : b ≠ 0) {p : Pge F} {P : MPt ec.a b} (h : MontXZ p P) : MontXZ (pge_dbl ec p) (P + P) := by
  have := mx_dbl (m_good ok hb) (X := p.x) (Z := p.z) h
  have h2 := xz_sel (p := ⟨(p.x + p.z) * (p.x + p.z) * ((p.x - p.z) * (p.x - p.z)),
    (mont_mul_a24 ec ((p.x + p.z) * (p.x + p.z) - (p.x - p.z) * (p.x - p.z)) + (p.x - p.z) * (p.x - p.z))
      * ((p.x + p.z) * (p.x + p.z) - (p.x - p.z) * (p.x - p.z))⟩) (by
    convert this using 2
    · ring
    · exact dbl_coords ok _ _)
  exact h2

theorem pge_ladder_xz (ok : MontOk ec) (hb : b ≠ 0) {p1 p2 p3 : Pge F} {P Q D : MPt ec.a b} (hD : Q - P = D) (h1 : MontXZ p1 D)
    (hx : p1.x ≠ 0) (hz : p1.z ≠ 0) (h2 : MontXZ p2 P) (h3 : MontXZ p3 Q) {affine : Bool} (ha : affine = true → p1.z = 1) :
    MontXZ (pge_ladder ec p1 p2 p3 affine).1 (P + P) ∧ MontXZ (pge_ladder ec p1 p2 p3 affine).2 (P + Q) := by
  have g := m_good ok hb
  constructor
  · have := mx_dbl g (X := p2.x) (Z := p2.z) h2
    unfold pge_ladder
    dsimp only
    convert this using 2
    · ring
    · exact dbl_coords ok _ _
  · have := mx_add g hD (X1 := p1.x) (Z1 := p1.z) h1 hx hz (X2 := p2.x) (Z2 := p2.z) h2 (X3 := p3.x) (Z3 := p3.z) h3
    unfold pge_ladder
    dsimp only
    convert this using 2
    · cases affine
      · simp only [Bool.false_eq_true, if_false]; ring
      · rw [ha rfl]; simp only [if_true]; ring
    · ring

theorem mont_mul_loop_xz (ok : MontOk ec) (hb : b ≠ 0) {p : Pge F} {P : MPt ec.a b} (h1 : MontXZ p P)
    (hx : p.x ≠ 0) (hz : p.z ≠ 0) {affine : Bool} (ha : affine = true → p.z = 1) (k : Nat) :
    ∀ i swap r s m, MontXZ (pge_swap r s swap).1 (m • P) → MontXZ (pge_swap r s swap).2 ((m + 1) • P) →
      MontXZ (pge_swap (mont_mul_loop ec p k affine i swap r s).2.1 (mont_mul_loop ec p k affine i swap r s).2.2
        (mont_mul_loop ec p k affine i swap r s).1).1 ((m * 2 ^ i + k % 2 ^ i) • P)
  | 0, swap, r, s, m, h2, _ => by
    simpa [mont_mul_loop, Nat.mod_one] using h2
  | i + 1, swap, r, s, m, h2, h3 => by
    rw [mont_mul_loop]
    have hb2 : k % 2 ^ (i + 1) = (if k.testBit i then 1 else 0) * 2 ^ i + k % 2 ^ i := by
      rw [Nat.pow_succ, Nat.mod_mul, Nat.testBit_eq_decide_div_mod_eq]
      rcases Nat.mod_two_eq_zero_or_one (k / 2 ^ i) with h | h <;> simp [h] <;> ring
    cases hbit : k.testBit i
    · rw [hbit] at hb2
      have e : pge_swap r s (swap ^^ false) = pge_swap r s swap := by rw [Bool.xor_false]
      rw [e]
      have hl := pge_ladder_xz ok hb (p1 := p) (P := m • P) (Q := (m + 1) • P) (D := P)
        (by rw [add_nsmul, one_nsmul]; abel) h1 hx hz h2 h3 ha
      have := mont_mul_loop_xz ok hb h1 hx hz ha k i false _ _ (m + m)
        (by rw [add_nsmul]; exact hl.1) (by rw [show m + m + 1 = m + (m + 1) by ring, add_nsmul]; exact hl.2)
      rw [hb2, show m * 2 ^ (i + 1) + ((if false = true then 1 else 0) * 2 ^ i + k % 2 ^ i) = (m + m) * 2 ^ i + k % 2 ^ i by
        simp only [Bool.false_eq_true, if_false]; ring]
      exact this
    · rw [hbit] at hb2
      have e : pge_swap r s (swap ^^ true) = ((pge_swap r s swap).2, (pge_swap r s swap).1) := by
        cases swap <;> rfl
      rw [e]
      have hl := pge_ladder_xz ok hb (p1 := p) (P := (m + 1) • P) (Q := m • P) (D := -P)
        (by rw [add_nsmul, one_nsmul]; abel) (xz_neg h1) hx hz h3 h2 ha
      have := mont_mul_loop_xz ok hb h1 hx hz ha k i true _ _ (m + m + 1)
        (by rw [show m + m + 1 = (m + 1) + m by ring, add_nsmul]; exact hl.2)
        (by rw [show m + m + 1 + 1 = (m + 1) + (m + 1) by ring, add_nsmul]; exact hl.1)
      rw [hb2, show m * 2 ^ (i + 1) + ((if true = true then 1 else 0) * 2 ^ i + k % 2 ^ i) = (m + m + 1) * 2 ^ i + k % 2 ^ i by
        simp only [if_true]; ring]
      exact this

theorem mont_mul_xz (ok : MontOk ec) (hb : b ≠ 0) {p : Pge F} {P : MPt ec.a b} (h1 : MontXZ p P)
    (hx : p.x ≠ 0) (hz : p.z ≠ 0) {affine : Bool} (ha : affine = true → p.z = 1) (k : Nat) :
    MontXZ (mont_mul ec p k affine) ((k % 2 ^ ec.bits) • P) := by
  have := mont_mul_loop_xz ok hb h1 hx hz ha k ec.bits false pge_zero p 0
    (by rw [zero_nsmul]; exact ⟨rfl, one_ne_zero⟩) (by rw [zero_add, one_nsmul]; exact h1)
  rw [Nat.zero_mul, Nat.zero_add] at this
  exact xz_sel this

theorem ladder_x0 (ok : MontOk ec) {p r s : Pge F} (hp : p.x = 0) (affine : Bool) :
    (r.z = 0 → (pge_ladder ec p r s affine).1.z = 0) ∧ (r.x = 0 → (pge_ladder ec p r s affine).1.z = 0) ∧
      (pge_ladder ec p r s affine).2.z = 0 := by
  unfold pge_ladder
  dsimp only
  refine ⟨fun h => ?_, fun h => ?_, by rw [hp, mul_zero]⟩ <;>
  · have := dbl_coords ok r.x r.z
    rw [h] at this ⊢
    rw [this]; ring

theorem mont_mul_loop_x0 (ok : MontOk ec) {p : Pge F} (hp : p.x = 0) (k : Nat) (affine : Bool) : ∀ i swap r s,
    (r.z = 0 ∨ r.x = 0) → (s.z = 0 ∨ s.x = 0) → (i = 0 → r.z = 0 ∧ s.z = 0) →
    (mont_mul_loop ec p k affine i swap r s).2.1.z = 0 ∧ (mont_mul_loop ec p k affine i swap r s).2.2.z = 0
  | 0, swap, r, s, _, _, h => h rfl
  | i + 1, swap, r, s, h1, h2, _ => by
    rw [mont_mul_loop]
    have key : (pge_ladder ec p (pge_swap r s (swap ^^ k.testBit i)).1 (pge_swap r s (swap ^^ k.testBit i)).2 affine).1.z = 0 := by
      have hh := ladder_x0 ok (r := (pge_swap r s (swap ^^ k.testBit i)).1) (s := (pge_swap r s (swap ^^ k.testBit i)).2) hp affine
      have h3 : (pge_swap r s (swap ^^ k.testBit i)).1.z = 0 ∨ (pge_swap r s (swap ^^ k.testBit i)).1.x = 0 := by
        cases (swap ^^ k.testBit i)
        · exact h1
        · exact h2
      exact h3.elim hh.1 hh.2.1
    have k2 := (ladder_x0 ok (r := (pge_swap r s (swap ^^ k.testBit i)).1) (s := (pge_swap r s (swap ^^ k.testBit i)).2) hp affine).2.2
    exact mont_mul_loop_x0 ok hp k affine i _ _ _ (Or.inl key) (Or.inl k2) (fun _ => ⟨key, k2⟩)

/-- With the abscissa zero the ladder always ends at infinity. -/
theorem mont_mul_x0 (ok : MontOk ec) (hbits : 0 < ec.bits) {p : Pge F} (hp : p.x = 0) (k : Nat) (affine : Bool) :
    mont_mul ec p k affine = ⟨1, 0⟩ := by
  have h := mont_mul_loop_x0 ok hp k affine ec.bits false pge_zero p (Or.inl rfl) (Or.inr hp) (by omega)
  unfold mont_mul
  dsimp only
  have : (pge_swap (mont_mul_loop ec p k affine ec.bits false pge_zero p).2.1 (mont_mul_loop ec p k affine ec.bits false pge_zero p).2.2
      (mont_mul_loop ec p k affine ec.bits false pge_zero p).1).1.z = 0 := by
    cases (mont_mul_loop ec p k affine ec.bits false pge_zero p).1
    · exact h.1
    · exact h.2
  rw [this]
  simp [fe_select, fe_is_zero]

/-- A point with the abscissa zero has order two. -/
theorem mx_order_two {a : F} (g : MontGood a b) {P : MPt a b} (h : montX P = some 0) : P + P = 0 := by
  rcases P with _ | ⟨x, y, hp⟩
  · simp [montX] at h
  · simp only [montX, Option.some.injEq, mul_eq_zero, g.b0, false_or] at h
    subst h
    have hy := m_eqn hp
    have hy : y = 0 := by
      apply pow_eq_zero_iff two_ne_zero |>.1
      rw [hy]; ring
    subst hy
    exact m_opp hp hp rfl (by simp)

/-- The ladder for an even multiple, or a point with a non-zero abscissa. -/
theorem mont_mul_exact (ok : MontOk ec) (hb : b ≠ 0) (hbits : 0 < ec.bits) {u : F} {P : MPt ec.a b} (h1 : montX P = some u)
    {k : Nat} (hk : k < 2 ^ ec.bits) (h : u ≠ 0 ∨ k % 2 = 0) (affine : Bool) : MontXZ (mont_mul ec ⟨u, 1⟩ k affine) (k • P) := by
  by_cases hu : u = 0
  · subst hu
    have hk2 := h.resolve_left (fun h => h rfl)
    rw [mont_mul_x0 ok hbits rfl]
    have : k • P = 0 := by
      rw [show k = (k / 2) * 2 by omega, mul_nsmul', two_nsmul, mx_order_two (m_good ok hb) h1, nsmul_zero]
    rw [this]
    exact ⟨rfl, one_ne_zero⟩
  · have := mont_mul_xz ok hb (xz_one h1) hu one_ne_zero (affine := affine) (fun _ => rfl) k
    rwa [Nat.mod_eq_of_lt hk] at this

/-! ### Affine points -/

theorem inv_ne {x : F} (h : x ≠ 0) : fe_invert x = (x⁻¹, true) := by simp [fe_invert, fe_is_zero, h]
theorem inv_zero' : fe_invert (0 : F) = (0, false) := by simp [fe_invert, fe_is_zero]

theorem m_slope {a x y : F} (h2 : (2 : F) ≠ 0) (hb : b ≠ 0) (hy : y ≠ 0) :
    (3 * (b * x * (b * x)) + (b * x + b * x) * a + 1) * ((b * y + b * y) * b)⁻¹ * (2 * y)
      = 3 * x ^ 2 + 2 * (a / b) * x + 1 / b ^ 2 := by
  rw [← two_mul (b * y), ← two_mul (b * x)]
  field_simp

theorem m_solve_y2 (ok : MontOk ec) (x : F) : mont_solve_y2 ec x = (x ^ 3 + ec.a * x ^ 2 + x) / ec.b := by
  unfold mont_solve_y2
  rw [m_div_b ok]
  ring

theorem m_validate_xy (ok : MontOk ec) (x y : F) :
    mont_validate_xy ec x y = true ↔ ∃ P : MPt ec.a ec.b, montAffine P = ⟨x, y, false⟩ := by
  have hb := ok.good.b0
  rw [mont_validate_xy, fe_equal, decide_eq_true_eq, m_solve_y2 ok]
  constructor
  · intro h
    refine ⟨.some (x / ec.b) (y / ec.b) (m_nonsing ok.good ?_), ?_⟩
    · field_simp at h ⊢
      linear_combination h
    · rw [m_aff_some]
      congr 1 <;> field_simp
  · rintro ⟨P, h⟩
    rcases P with _ | ⟨x', y', hp⟩
    · simp [montAffine] at h
    · simp only [montAffine, Mge.mk.injEq, and_true] at h
      obtain ⟨rfl, rfl⟩ := h
      have := m_eqn hp
      rw [show ec.b * y' * (ec.b * y') = ec.b ^ 2 * y' ^ 2 by ring, this]
      field_simp

theorem mge_add_aff (ok : MontOk ec) (P Q : MPt ec.a ec.b) : mge_add ec (montAffine P) (montAffine Q) = montAffine (P + Q) := by
  have hb := ok.good.b0
  have h2 := ok.good.two
  rcases P with _ | ⟨x1, y1, hp⟩
  · rw [← Point.zero_def, zero_add, m_aff_zero]
    rcases Q with _ | ⟨x2, y2, hq⟩
    · rw [← Point.zero_def, m_aff_zero]
      simp [mge_add, fe_select]
    · rw [m_aff_some]
      simp [mge_add, fe_select]
  rcases Q with _ | ⟨x2, y2, hq⟩
  · rw [← Point.zero_def, add_zero, m_aff_zero, m_aff_some]
    simp [mge_add, fe_select]
  rw [m_aff_some, m_aff_some]
  unfold mge_add
  simp only [Bool.or_self, Bool.and_self, Bool.not_false, Bool.and_true, Bool.or_false, fe_select, Bool.false_eq_true, if_false, m_mul_b]
  by_cases hx : x1 = x2
  · subst hx
    rcases m_y_cases hp hq with hy | hy
    · subst hy
      have e : (fe_is_zero (ec.b * x1 - ec.b * x1) && fe_is_zero (ec.b * y1 - ec.b * y1)) = true := by simp [fe_is_zero]
      rw [e]
      simp only [if_true]
      by_cases hy0 : y1 = 0
      · subst hy0
        rw [m_opp hp hp rfl (by simp), m_aff_zero]
        simp [inv_zero']
      · have hz : (ec.b * y1 + ec.b * y1) * ec.b ≠ 0 := by
          rw [← two_mul]
          exact mul_ne_zero (mul_ne_zero h2 (mul_ne_zero hb hy0)) hb
        obtain ⟨h', e2⟩ := m_tangent (l := (3 * (ec.b * x1 * (ec.b * x1)) + (ec.b * x1 + ec.b * x1) * ec.a + 1)
            * ((ec.b * y1 + ec.b * y1) * ec.b)⁻¹) h2 hp hy0 (m_slope h2 hb hy0)
        rw [e2, m_aff_some]
        rw [inv_ne hz]
        simp only [Bool.not_true, Bool.false_eq_true, if_false, Mge.mk.injEq, and_true]
        constructor
        · field_simp
        · field_simp
    · by_cases hy0 : y1 = 0
      · have hy2 : y2 = 0 := by rw [hy0] at hy; exact neg_eq_zero.1 hy.symm
        subst hy0 hy2
        rw [m_opp hp hp rfl (by simp), m_aff_zero]
        simp [inv_zero', fe_is_zero]
      · rw [m_opp hp hq rfl hy, m_aff_zero]
        have hne : ec.b * y2 - ec.b * y1 ≠ 0 := by
          rw [hy]
          intro h
          have : ec.b * (2 * y2) = 0 := by linear_combination h
          have := (mul_eq_zero.1 ((mul_eq_zero.1 this).resolve_left hb)).resolve_left h2
          rw [this, neg_zero] at hy
          exact hy0 hy
        have e : (fe_is_zero (ec.b * x1 - ec.b * x1) && fe_is_zero (ec.b * y2 - ec.b * y1)) = false := by
          simp only [fe_is_zero, hne, decide_false, Bool.and_false]
        rw [e]
        simp [inv_zero']
  · have hd : x2 - x1 ≠ 0 := sub_ne_zero.2 (Ne.symm hx)
    have hd' : x1 - x2 ≠ 0 := sub_ne_zero.2 hx
    have hne : ec.b * x2 - ec.b * x1 ≠ 0 := by rw [← mul_sub]; exact mul_ne_zero hb hd
    have e : (fe_is_zero (ec.b * x2 - ec.b * x1) && fe_is_zero (ec.b * y2 - ec.b * y1)) = false := by
      simp only [fe_is_zero, hne, decide_false, Bool.false_and]
    rw [e]
    have hl : (ec.b * y2 - ec.b * y1) * (ec.b * x2 - ec.b * x1)⁻¹ = (y2 - y1) / (x2 - x1) := by
      rw [← mul_sub, ← mul_sub]; field_simp
    obtain ⟨h', e2⟩ := m_chord (l := (y2 - y1) / (x2 - x1)) hp hq hx (by field_simp; ring)
    rw [e2, m_aff_some]
    simp only [Bool.false_eq_true, if_false]
    rw [inv_ne hne, hl]
    simp only [Bool.not_true, Bool.false_eq_true, if_false]
    generalize (y2 - y1) / (x2 - x1) = l
    simp only [Mge.mk.injEq, and_true]
    constructor
    · field_simp
    · field_simp

theorem mge_neg_aff (P : MPt ec.a ec.b) : mge_neg (montAffine P) = montAffine (-P) := by
  rcases P with _ | ⟨x, y, h⟩
  · rw [← Point.zero_def, neg_zero, m_aff_zero]; simp [mge_neg]
  · obtain ⟨h', e⟩ := m_neg h
    rw [e, m_aff_some, m_aff_some]
    simp [mge_neg]

theorem mge_sub_aff (ok : MontOk ec) (P Q : MPt ec.a ec.b) : mge_sub ec (montAffine P) (montAffine Q) = montAffine (P - Q) := by
  rw [mge_sub, mge_neg_aff, mge_add_aff ok, sub_eq_add_neg]

theorem mge_dbl_aff (ok : MontOk ec) (P : MPt ec.a ec.b) : mge_dbl ec (montAffine P) = montAffine (P + P) := by
  have hb := ok.good.b0
  have h2 := ok.good.two
  rcases P with _ | ⟨x1, y1, hp⟩
  · rw [← Point.zero_def, zero_add, m_aff_zero]
    simp [mge_dbl, fe_select]
  rw [m_aff_some]
  unfold mge_dbl
  simp only [Bool.false_or, fe_select, m_mul_b, fe_is_zero]
  by_cases hy0 : y1 = 0
  · subst hy0
    rw [m_opp hp hp rfl (by simp), m_aff_zero]
    simp
  · have hz : (ec.b * y1 + ec.b * y1) * ec.b ≠ 0 := by
      rw [← two_mul]
      exact mul_ne_zero (mul_ne_zero h2 (mul_ne_zero hb hy0)) hb
    obtain ⟨h', e2⟩ := m_tangent (l := (3 * (ec.b * x1 * (ec.b * x1)) + (ec.b * x1 + ec.b * x1) * ec.a + 1)
        * ((ec.b * y1 + ec.b * y1) * ec.b)⁻¹) h2 hp hy0 (m_slope h2 hb hy0)
    rw [e2, m_aff_some]
    have e3 : decide (ec.b * y1 = 0) = false := by simp [hb, hy0]
    rw [e3, inv_ne hz]
    simp only [Bool.false_eq_true, if_false, Mge.mk.injEq, and_true]
    constructor
    · field_simp
    · field_simp

theorem pge_set_mge_xz (P : MPt ec.a ec.b) : MontXZ (pge_set_mge (montAffine P)) P := by
  rcases P with _ | ⟨x, y, h⟩
  · rw [← Point.zero_def, MontXZ, mx_zero, m_aff_zero]; simp [pge_set_mge, fe_select]
  · rw [MontXZ, mx_some, m_aff_some]; simp [pge_set_mge, fe_select]

theorem pge_mulh_loop_xz (ok : MontOk ec) (hb : b ≠ 0) : ∀ i fuel {p : Pge F} {P : MPt ec.a b}, i ≤ fuel → MontXZ p P →
    MontXZ (pge_mulh_loop ec fuel (2 ^ i / 2) p) (2 ^ i • P)
  | 0, 0, p, P, _, h => by simpa [pge_mulh_loop] using h
  | 0, fuel + 1, p, P, _, h => by simpa [pge_mulh_loop] using h
  | i + 1, 0, _, _, h, _ => by omega
  | i + 1, fuel + 1, p, P, hi, h => by
    rw [Nat.pow_succ, Nat.mul_div_cancel _ (by omega), pge_mulh_loop, if_neg (by positivity), mul_nsmul', two_nsmul]
    exact pge_mulh_loop_xz ok hb i fuel (by omega) (pge_dbl_xz ok hb h)

theorem pge_mulh_xz (ok : MontOk ec) (hb : b ≠ 0) {i : Nat} (hi : i ≤ 32) (hh : ec.h = 2 ^ i) {p : Pge F} {P : MPt ec.a b} (h : MontXZ p P) :
    ∃ r, pge_mulh ec p = .ok r ∧ MontXZ r (ec.h • P) := by
  refine ⟨pge_mulh_loop ec 32 (2 ^ i / 2) p, ?_, ?_⟩
  · unfold pge_mulh
    rw [hh]
    have : (2 ^ i != 0 && 2 ^ i &&& (2 ^ i - 1) == 0) = true := by
      rw [Bool.and_eq_true]
      exact ⟨by simp, by rw [beq_iff_eq]; exact Nat.and_two_pow_sub_one_eq_mod .. |>.trans (Nat.mod_self _)⟩
    rw [this]
    rfl
  · rw [hh]
    exact pge_mulh_loop_xz ok hb i 32 hi h

end Torsion.Ecc
