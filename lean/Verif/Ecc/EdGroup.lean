import Verif.Ecc.EdwardsSpec
import Verif.Ecc.MontCurveLemmas

/-! The addition law of twisted Edwards curves is the law of an abelian group: the map to the Montgomery curve is an injective
homomorphism. -/
set_option linter.unusedSectionVars false

namespace Torsion.Ecc

open Torsion.Spec (EdGood EPt MPt montAffine montX MontGood)

section
variable {F : Type} [Field F] [DecidableEq F] {a d : F}

/-! ### The Montgomery curve in its own coordinates -/

theorem m_aff_chord {A B u1 v1 u2 v2 l : F} (hB : B ≠ 0) {P Q : MPt A B} (hP : montAffine P = ⟨u1, v1, false⟩)
    (hQ : montAffine Q = ⟨u2, v2, false⟩) (hu : u1 ≠ u2) (hl : l * (u1 - u2) = v1 - v2) :
    montAffine (P + Q) = ⟨B * l ^ 2 - A - u1 - u2, l * (u1 - (B * l ^ 2 - A - u1 - u2)) - v1, false⟩ := by
  rcases P with _ | ⟨x1, y1, h1⟩
  · simp [montAffine] at hP
  rcases Q with _ | ⟨x2, y2, h2⟩
  · simp [montAffine] at hQ
  rw [m_aff_some] at hP hQ
  injection hP with p1 p2
  injection hQ with q1 q2
  subst p1 p2 q1 q2
  obtain ⟨h', e⟩ := m_chord (l := l) h1 h2 (fun e => hu (by rw [e])) (by
    apply mul_left_cancel₀ hB; linear_combination hl)
  rw [e, m_aff_some]
  have e1 : B * (l ^ 2 - A / B - x1 - x2) = B * l ^ 2 - A - B * x1 - B * x2 := by field_simp
  congr 1
  rw [← e1]; ring

theorem m_aff_tangent {A B u v l : F} (h2 : (2 : F) ≠ 0) (hB : B ≠ 0) {P : MPt A B} (hP : montAffine P = ⟨u, v, false⟩)
    (hv : v ≠ 0) (hl : l * (2 * B * v) = 3 * u ^ 2 + 2 * A * u + 1) :
    montAffine (P + P) = ⟨B * l ^ 2 - A - u - u, l * (u - (B * l ^ 2 - A - u - u)) - v, false⟩ := by
  rcases P with _ | ⟨x1, y1, h1⟩
  · simp [montAffine] at hP
  rw [m_aff_some] at hP
  injection hP with p1 p2
  subst p1 p2
  obtain ⟨h', e⟩ := m_tangent (l := l) h2 h1 (fun e => hv (by rw [e, mul_zero])) (by
    field_simp; linear_combination hl)
  rw [e, m_aff_some]
  have e1 : B * (l ^ 2 - A / B - x1 - x1) = B * l ^ 2 - A - B * x1 - B * x1 := by field_simp
  congr 1
  rw [← e1]; ring

theorem m_aff_neg {A B u v : F} {P : MPt A B} (hP : montAffine P = ⟨u, v, false⟩) : montAffine (-P) = ⟨u, -v, false⟩ := by
  rcases P with _ | ⟨x1, y1, h1⟩
  · simp [montAffine] at hP
  rw [m_aff_some] at hP
  injection hP with p1 p2
  subst p1 p2
  obtain ⟨h', e⟩ := m_neg h1
  rw [e, m_aff_some, mul_neg]

theorem m_u3 {A B u1 v1 u2 v2 l : F} (c1 : B * v1 ^ 2 = u1 ^ 3 + A * u1 ^ 2 + u1) (c2 : B * v2 ^ 2 = u2 ^ 3 + A * u2 ^ 2 + u2)
    (hl : l * (u1 - u2) = v1 - v2) :
    (B * l ^ 2 - A - u1 - u2) * (u1 * u2 * (u1 - u2) ^ 2) = B * (u2 * v1 - u1 * v2) ^ 2 := by
  linear_combination (u1 * u2 - u2 ^ 2) * c1 + (u1 * u2 - u1 ^ 2) * c2 + (B * u1 * u2 * (l * (u1 - u2) + v1 - v2)) * hl

/-! ### The map -/

/-- The coefficients of the Montgomery curve. -/
def edA (a d : F) : F := 2 * (a + d) / (a - d)
def edB (a d : F) : F := 4 / (a - d)

theorem ed_four [g : EdGood a d] : (4 : F) ≠ 0 := by
  rw [show (4 : F) = 2 * 2 by norm_num]; exact mul_ne_zero g.two g.two

theorem ed_mont [g : EdGood a d] : MontGood (edA a d) (edB a d) := by
  have h := ed_ad (a := a) (d := d)
  refine ⟨g.two, div_ne_zero (ed_four (a := a) (d := d)) h, ?_⟩
  rw [edA, div_pow, ne_eq, div_eq_iff (pow_ne_zero _ h)]
  intro e
  have : 4 * 4 * (a * d) = 0 := by linear_combination e
  exact mul_ne_zero (mul_ne_zero (ed_four (a := a) (d := d)) (ed_four (a := a) (d := d))) (mul_ne_zero g.a0 (ed_d0 (a := a))) this

/-- The coordinates on the Montgomery curve. -/
def edMge (x y : F) : Mge F :=
  if x = 0 then (if y = 1 then ⟨0, 0, true⟩ else ⟨0, 0, false⟩) else ⟨(1 + y) / (1 - y), (1 + y) / (1 - y) / x, false⟩

theorem ed_x0 [g : EdGood a d] {x y : F} (h : a * x ^ 2 + y ^ 2 = 1 + d * x ^ 2 * y ^ 2) : x = 0 ↔ y = 1 ∨ y = -1 := by
  constructor
  · rintro rfl
    exact sq_eq_one_iff_of_ne_zero' h
  · intro hy
    have hy2 : y ^ 2 = 1 := by rcases hy with rfl | rfl <;> ring
    have : (a - d * y ^ 2) * x ^ 2 = 0 := by linear_combination h - hy2
    exact pow_eq_zero_iff two_ne_zero |>.1 ((mul_eq_zero.1 this).resolve_left (ed_e y))
where
  sq_eq_one_iff_of_ne_zero' {y : F} (h : a * 0 ^ 2 + y ^ 2 = 1 + d * 0 ^ 2 * y ^ 2) : y = 1 ∨ y = -1 := by
    have : (y - 1) * (y + 1) = 0 := by linear_combination h
    rcases mul_eq_zero.1 this with e | e
    · left; linear_combination e
    · right; linear_combination e

theorem ed_xne [g : EdGood a d] {x y : F} (h : a * x ^ 2 + y ^ 2 = 1 + d * x ^ 2 * y ^ 2) (hx : x ≠ 0) :
    1 - y ≠ 0 ∧ 1 + y ≠ 0 := by
  constructor
  · intro e; exact hx ((ed_x0 h).2 (Or.inl (by linear_combination -e)))
  · intro e; exact hx ((ed_x0 h).2 (Or.inr (by linear_combination e)))

theorem ed_mge_on [g : EdGood a d] (P : EPt a d) : ∃ M : MPt (edA a d) (edB a d), montAffine M = edMge P.x P.y := by
  unfold edMge
  split
  · split
    · exact ⟨0, rfl⟩
    · exact m_mk ed_mont (by ring)
  · rename_i hx
    obtain ⟨h1, h2⟩ := ed_xne P.on hx
    refine m_mk ed_mont ?_
    have h := ed_ad (a := a) (d := d)
    rw [edA, edB]
    field_simp
    have := P.on
    linear_combination (-4) * this

/-- The map. -/
noncomputable def toM [EdGood a d] (P : EPt a d) : MPt (edA a d) (edB a d) := (ed_mge_on P).choose

theorem toM_aff [EdGood a d] (P : EPt a d) : montAffine (toM P) = edMge P.x P.y := (ed_mge_on P).choose_spec

theorem toM_inj [g : EdGood a d] : Function.Injective (toM (a := a) (d := d)) := by
  intro P Q h
  have h := congrArg montAffine h
  rw [toM_aff, toM_aff] at h
  unfold edMge at h
  by_cases hp : P.x = 0 <;> by_cases hq : Q.x = 0
  · rw [if_pos hp, if_pos hq] at h
    have e1 := (ed_x0 P.on).1 hp
    have e2 := (ed_x0 Q.on).1 hq
    ext
    · rw [hp, hq]
    · by_cases h1 : P.y = 1 <;> by_cases h2 : Q.y = 1
      · rw [h1, h2]
      · rw [if_pos h1, if_neg h2] at h; simp at h
      · rw [if_neg h1, if_pos h2] at h; simp at h
      · rw [e1.resolve_left h1, e2.resolve_left h2]
  · rw [if_pos hp, if_neg hq] at h
    obtain ⟨n1, n2⟩ := ed_xne Q.on hq
    exfalso
    by_cases h1 : P.y = 1
    · rw [if_pos h1] at h; simp at h
    · rw [if_neg h1] at h
      injection h with h _ _
      exact div_ne_zero n2 n1 h.symm
  · rw [if_neg hp, if_pos hq] at h
    obtain ⟨n1, n2⟩ := ed_xne P.on hp
    exfalso
    by_cases h1 : Q.y = 1
    · rw [if_pos h1] at h; simp at h
    · rw [if_neg h1] at h
      injection h with h _ _
      exact div_ne_zero n2 n1 h
  · rw [if_neg hp, if_neg hq] at h
    obtain ⟨n1, n2⟩ := ed_xne P.on hp
    obtain ⟨n3, n4⟩ := ed_xne Q.on hq
    injection h with h1 h2 _
    have ey : P.y = Q.y := by
      rw [div_eq_div_iff n1 n3] at h1
      have : 2 * (P.y - Q.y) = 0 := by linear_combination h1
      have := (mul_eq_zero.1 this).resolve_left g.two
      linear_combination this
    rw [ey] at h2
    ext
    · rw [div_eq_div_iff hp hq] at h2
      exact (mul_left_cancel₀ (div_ne_zero n4 n3) h2).symm
    · exact ey

theorem ed_add_x [EdGood a d] (P Q : EPt a d) : (P + Q).x = (P.x * Q.y + Q.x * P.y) / (1 + d * P.x * Q.x * P.y * Q.y) := rfl
theorem ed_add_y [EdGood a d] (P Q : EPt a d) : (P + Q).y = (P.y * Q.y - a * P.x * Q.x) / (1 - d * P.x * Q.x * P.y * Q.y) := rfl
theorem ed_zero_x : (0 : EPt a d).x = 0 := rfl
theorem ed_zero_y : (0 : EPt a d).y = 1 := rfl
theorem ed_neg_x (P : EPt a d) : (-P).x = -P.x := rfl
theorem ed_neg_y (P : EPt a d) : (-P).y = P.y := rfl

theorem ed_add_comm [EdGood a d] (P Q : EPt a d) : P + Q = Q + P := by
  ext
  · rw [ed_add_x, ed_add_x]; congr 1 <;> ring
  · rw [ed_add_y, ed_add_y]; congr 1 <;> ring

theorem ed_zero_add [EdGood a d] (P : EPt a d) : 0 + P = P := by
  ext
  · rw [ed_add_x, ed_zero_x, ed_zero_y]; simp
  · rw [ed_add_y, ed_zero_x, ed_zero_y]; simp

theorem toM_zero [EdGood a d] : toM (0 : EPt a d) = 0 := by
  apply m_aff_inj ed_mont.b0
  rw [toM_aff, ed_zero_x, ed_zero_y, edMge, if_pos rfl, if_pos rfl]
  rfl

theorem toM_neg [EdGood a d] (P : EPt a d) : toM (-P) = -toM P := by
  apply m_aff_inj ed_mont.b0
  rw [toM_aff, ed_neg_x, ed_neg_y]
  by_cases hx : P.x = 0
  · have h := toM_aff P
    rw [edMge, if_pos hx] at h
    rw [edMge, if_pos (by rw [hx, neg_zero])]
    by_cases hy : P.y = 1
    · rw [if_pos hy] at h ⊢
      have : toM P = 0 := m_aff_inj ed_mont.b0 h
      rw [this, neg_zero]; rfl
    · rw [if_neg hy] at h ⊢
      rw [m_aff_neg h, neg_zero]
  · have h := toM_aff P
    rw [edMge, if_neg hx] at h
    rw [edMge, if_neg (neg_ne_zero.2 hx), m_aff_neg h, div_neg]

/-- Different ordinates. -/
theorem toM_add_ne [g : EdGood a d] {P Q : EPt a d} (hp : P.x ≠ 0) (hq : Q.x ≠ 0) (hy : P.y ≠ Q.y) :
    toM (P + Q) = toM P + toM Q := by
  apply m_aff_inj ed_mont.b0
  have hP := toM_aff P
  have hQ := toM_aff Q
  rw [edMge, if_neg hp] at hP
  rw [edMge, if_neg hq] at hQ
  obtain ⟨n1, n2⟩ := ed_xne P.on hp
  obtain ⟨n3, n4⟩ := ed_xne Q.on hq
  have hR := (P + Q).on
  rw [toM_aff, ed_add_x, ed_add_y]
  rw [ed_add_x, ed_add_y] at hR
  have eu := ed_mont_u P.on Q.on
  have ev := ed_mont_v P.on Q.on
  obtain ⟨d1, d2⟩ := ed_ne P.on Q.on
  have hP' := P.on
  have hQ' := Q.on
  generalize P.x = x1 at *
  generalize P.y = y1 at *
  generalize Q.x = x2 at *
  generalize Q.y = y2 at *
  have had := ed_ad (a := a) (d := d)
  have h4 := ed_four (a := a) (d := d)
  have hyy : y2 - y1 ≠ 0 := sub_ne_zero.2 (Ne.symm hy)
  obtain ⟨M, hM⟩ : ∃ M, M = 1 - d * x1 * x2 * y1 * y2 - y1 * y2 + a * x1 * x2 := ⟨_, rfl⟩
  obtain ⟨N, hN⟩ : ∃ N, N = 1 - d * x1 * x2 * y1 * y2 + y1 * y2 - a * x1 * x2 := ⟨_, rfl⟩
  rw [← hM, ← hN] at eu
  rw [← hN] at ev
  have M0 : M ≠ 0 := by
    intro h0
    rw [h0, mul_zero] at eu
    have hN0 := (mul_eq_zero.1 eu.symm).resolve_left (mul_ne_zero had (pow_ne_zero _ hyy))
    have : 2 * (1 - d * x1 * x2 * y1 * y2) = 0 := by linear_combination h0 + hN0 - hM - hN
    exact mul_ne_zero g.two d2 this
  have hu : (1 + y1) / (1 - y1) ≠ (1 + y2) / (1 - y2) := by
    rw [ne_eq, div_eq_div_iff n1 n3]
    intro e
    have : 2 * (y2 - y1) = 0 := by linear_combination -e
    exact mul_ne_zero g.two hyy this
  obtain ⟨l, hl⟩ : ∃ l, l = ((1 + y2) * (1 - y1) * x1 - (1 + y1) * (1 - y2) * x2) / (2 * x1 * x2 * (y2 - y1)) := ⟨_, rfl⟩
  have hl' : l * (2 * x1 * x2 * (y2 - y1)) = (1 + y2) * (1 - y1) * x1 - (1 + y1) * (1 - y2) * x2 := by
    rw [hl, div_mul_cancel₀]
    exact mul_ne_zero (mul_ne_zero (mul_ne_zero g.two hp) hq) hyy
  have hs := m_aff_chord (l := l) ed_mont.b0 hP hQ hu (by
    field_simp
    linear_combination -hl')
  have hu3 : edB a d * l ^ 2 - edA a d - (1 + y1) / (1 - y1) - (1 + y2) / (1 - y2) = N / M := by
    have c1 := m_aff_eqn ed_mont.b0 hP
    have c2 := m_aff_eqn ed_mont.b0 hQ
    have hl2 : l * ((1 + y1) / (1 - y1) - (1 + y2) / (1 - y2)) = (1 + y1) / (1 - y1) / x1 - (1 + y2) / (1 - y2) / x2 := by
      field_simp
      linear_combination -hl'
    have k := m_u3 c1 c2 hl2
    have u0 : (1 + y1) / (1 - y1) * ((1 + y2) / (1 - y2)) * ((1 + y1) / (1 - y1) - (1 + y2) / (1 - y2)) ^ 2 ≠ 0 :=
      mul_ne_zero (mul_ne_zero (div_ne_zero n2 n1) (div_ne_zero n4 n3)) (pow_ne_zero _ (sub_ne_zero.2 hu))
    apply mul_right_cancel₀ u0
    rw [k, edB]
    have f1 : (1 - y1) * (1 + y1) = x1 ^ 2 * (a - d * y1 ^ 2) := by linear_combination -hP'
    have f2 : (1 - y2) * (1 + y2) = x2 ^ 2 * (a - d * y2 ^ 2) := by linear_combination -hQ'
    clear hs k u0 c1 c2 hl2 hM hN
    generalize a - d * y1 ^ 2 = E1 at *
    generalize a - d * y2 ^ 2 = E2 at *
    generalize a - d = D at *
    field_simp
    linear_combination (4 * x1 ^ 2 * x2 ^ 2) * eu + 4 * (x2 - x1) ^ 2 * M * ((1 - y2) * (1 + y2) * f1 + x1 ^ 2 * E1 * f2)
  rw [hu3] at hs
  have e3 : (1 + (y1 * y2 - a * x1 * x2) / (1 - d * x1 * x2 * y1 * y2)) / (1 - (y1 * y2 - a * x1 * x2) / (1 - d * x1 * x2 * y1 * y2)) = N / M := by
    rw [hN, hM]
    rw [hM] at M0
    rw [show 1 + (y1 * y2 - a * x1 * x2) / (1 - d * x1 * x2 * y1 * y2) = (1 - d * x1 * x2 * y1 * y2 + y1 * y2 - a * x1 * x2) / (1 - d * x1 * x2 * y1 * y2) by
      rw [eq_div_iff d2, add_mul, div_mul_cancel₀ _ d2]; ring,
      show 1 - (y1 * y2 - a * x1 * x2) / (1 - d * x1 * x2 * y1 * y2) = (1 - d * x1 * x2 * y1 * y2 - y1 * y2 + a * x1 * x2) / (1 - d * x1 * x2 * y1 * y2) by
      rw [eq_div_iff d2, sub_mul, div_mul_cancel₀ _ d2]; ring]
    rw [div_div_div_cancel_right₀ d2]
  by_cases hS : x1 * y2 + x2 * y1 = 0
  · have y3 : (y1 * y2 - a * x1 * x2) / (1 - d * x1 * x2 * y1 * y2) ≠ 1 := by
      rw [ne_eq, div_eq_one_iff_eq d2]
      intro e
      apply M0
      rw [hM]; linear_combination -e
    have y3' : (y1 * y2 - a * x1 * x2) / (1 - d * x1 * x2 * y1 * y2) = -1 :=
      ((ed_x0 hR).1 (by rw [hS, zero_div])).resolve_left y3
    rw [y3', add_neg_cancel, zero_div] at e3
    rw [edMge, if_pos (by rw [hS, zero_div]), if_neg y3]
    rw [← e3] at hs
    have := m_aff_eqn ed_mont.b0 hs
    have hv : (l * ((1 + y1) / (1 - y1) - 0) - (1 + y1) / (1 - y1) / x1) ^ 2 = 0 := by
      apply mul_left_cancel₀ (ed_mont (a := a) (d := d)).b0
      rw [this]; ring
    rw [hs, pow_eq_zero_iff two_ne_zero |>.1 hv]
  · rw [edMge, if_neg (div_ne_zero hS d1), hs, e3]
    congr 1
    have k1 : N / M / ((x1 * y2 + x2 * y1) / (1 + d * x1 * x2 * y1 * y2))
        = (x1 * (1 + y2) * (a * x1 * x2 - y1 * y2 + y1 - y1 * (d * x1 * x2 * y1 * y2))
            - x2 * (1 + y1) * (a * x1 * x2 - y1 * y2 + y2 - y2 * (d * x1 * x2 * y1 * y2))) / (M * (y2 - y1) * (x1 * x2)) := by
      rw [div_div_div_eq, div_eq_div_iff (mul_ne_zero M0 hS) (mul_ne_zero (mul_ne_zero M0 hyy) (mul_ne_zero hp hq))]
      linear_combination M * ev
    rw [k1, hl]
    have g2 := g.two
    clear hs hu3 e3 k1 hl hl' ev eu hR
    field_simp
    rw [hM, hN]
    ring

theorem ed_add_neg [g : EdGood a d] (P : EPt a d) : P + -P = 0 := by
  obtain ⟨d1, d2⟩ := ed_ne P.on (-P).on
  ext
  · rw [ed_add_x, ed_neg_x, ed_neg_y, ed_zero_x]
    rw [show P.x * P.y + -P.x * P.y = 0 by ring, zero_div]
  · rw [ed_add_y, ed_zero_y, div_eq_one_iff_eq d2, ed_neg_x, ed_neg_y]
    linear_combination P.on

/-- Adding the point of order two. -/
theorem toM_add_two [g : EdGood a d] {P Q : EPt a d} (hp : P.x = 0) (hp' : P.y = -1) (hq : Q.x ≠ 0) :
    toM (P + Q) = toM P + toM Q := by
  apply m_aff_inj ed_mont.b0
  have hP := toM_aff P
  have hQ := toM_aff Q
  have h1 : (-1 : F) ≠ 1 := by
    intro e
    exact g.two (by linear_combination -e)
  rw [edMge, if_pos hp, hp', if_neg h1] at hP
  rw [edMge, if_neg hq] at hQ
  obtain ⟨n3, n4⟩ := ed_xne Q.on hq
  rw [toM_aff, ed_add_x, ed_add_y, hp, hp']
  have c2 := m_aff_eqn ed_mont.b0 hQ
  generalize Q.x = x at *
  generalize Q.y = y at *
  have hs := m_aff_chord (l := 1 / x) ed_mont.b0 hP hQ (Ne.symm (div_ne_zero n4 n3)) (by ring)
  have hu : edB a d * (1 / x) ^ 2 - edA a d - 0 - (1 + y) / (1 - y) = (1 - y) / (1 + y) := by
    clear hs hP hQ
    generalize edA a d = A at *
    generalize edB a d = B at *
    have u0 := pow_ne_zero 2 (div_ne_zero n4 n3)
    apply mul_right_cancel₀ u0
    rw [show (1 - y) / (1 + y) = ((1 + y) / (1 - y))⁻¹ by rw [inv_div]]
    have u0' := div_ne_zero n4 n3
    generalize (1 + y) / (1 - y) = u at *
    field_simp
    field_simp at c2
    linear_combination c2
  rw [hs, hu]
  have hx : (0 * y + x * (-1 : F)) / (1 + d * 0 * x * -1 * y) = -x := by simp
  have hy : (-1 * y - a * 0 * x) / (1 - d * 0 * x * -1 * y) = -y := by simp
  rw [hx, hy, edMge, if_neg (neg_ne_zero.2 hq)]
  congr 1
  · rw [sub_neg_eq_add, ← sub_eq_add_neg]
  · rw [sub_neg_eq_add, ← sub_eq_add_neg]
    field_simp
    ring

/-- Doubling. -/
theorem toM_dbl [g : EdGood a d] {P : EPt a d} (hp : P.x ≠ 0) : toM (P + P) = toM P + toM P := by
  apply m_aff_inj ed_mont.b0
  have hP := toM_aff P
  rw [edMge, if_neg hp] at hP
  obtain ⟨n1, n2⟩ := ed_xne P.on hp
  obtain ⟨d1, d2⟩ := ed_ne P.on P.on
  rw [toM_aff, ed_add_x, ed_add_y]
  have hP' := P.on
  have had := ed_ad (a := a) (d := d)
  have g2 := g.two
  have g4 := ed_four (a := a) (d := d)
  generalize P.x = x at *
  generalize P.y = y at *
  have hB := (ed_mont (a := a) (d := d)).b0
  obtain ⟨l, hl⟩ : ∃ l, l = (3 * ((1 + y) / (1 - y)) ^ 2 + 2 * edA a d * ((1 + y) / (1 - y)) + 1) / (2 * edB a d * ((1 + y) / (1 - y) / x)) := ⟨_, rfl⟩
  have v0 : (1 + y) / (1 - y) / x ≠ 0 := div_ne_zero (div_ne_zero n2 n1) hp
  have hs := m_aff_tangent (l := l) g2 hB hP v0 (by
    rw [hl, div_mul_cancel₀]
    exact mul_ne_zero (mul_ne_zero g2 hB) v0)
  rw [hs]
  by_cases hy : y = 0
  · subst hy
    have hax : a * x ^ 2 = 1 := by linear_combination hP'
    have hxx : (x * 0 + x * 0) / (1 + d * x * x * 0 * 0) = 0 := by simp
    have hyy : (0 * 0 - a * x * x) / (1 - d * x * x * 0 * 0) = -1 := by simp; linear_combination hax
    have hl' : l = 1 / x := by
      rw [hl, edA, edB]
      field_simp
      linear_combination 8 * hax
    have hu : edB a d * l ^ 2 - edA a d - (1 + 0) / (1 - 0) - (1 + 0) / (1 - 0) = 0 := by
      rw [hl', edA, edB]
      field_simp
      linear_combination -4 * hax
    rw [hu, hxx, hyy, edMge, if_pos rfl, if_neg, hl']
    · congr 1
      simp
    · intro e
      exact g2 (by linear_combination -e)
  · have hd : d = (a * x ^ 2 + y ^ 2 - 1) / (x ^ 2 * y ^ 2) := by
      rw [eq_div_iff (mul_ne_zero (pow_ne_zero _ hp) (pow_ne_zero _ hy))]
      linear_combination -hP'
    have had' : a - d = (1 - y) * (1 + y) * (1 - a * x ^ 2) / (x ^ 2 * y ^ 2) := by
      rw [hd]; field_simp; ring
    have n3 : 1 - a * x ^ 2 ≠ 0 := by
      intro e
      rw [e, mul_zero, zero_div] at had'
      exact had had'
    have hapd : a + d = (a * x ^ 2 * y ^ 2 + a * x ^ 2 + y ^ 2 - 1) / (x ^ 2 * y ^ 2) := by
      rw [hd]; field_simp; ring
    have d1' : 1 + d * x * x * y * y = a * x ^ 2 + y ^ 2 := by linear_combination -hP'
    have d2' : 1 - d * x * x * y * y = 2 - a * x ^ 2 - y ^ 2 := by linear_combination hP'
    rw [d1'] at d1
    rw [d2'] at d2
    have hA : edA a d = 2 * (a * x ^ 2 * y ^ 2 + a * x ^ 2 + y ^ 2 - 1) / ((1 - y) * (1 + y) * (1 - a * x ^ 2)) := by
      rw [edA, had', hapd]; field_simp
    have hB' : edB a d = 4 * (x ^ 2 * y ^ 2) / ((1 - y) * (1 + y) * (1 - a * x ^ 2)) := by
      rw [edB, had']; field_simp
    have hl' : l = (1 + 2 * y - a * x ^ 2) / (2 * x * y) := by
      rw [hl, hA, hB']
      field_simp
      ring
    have hu : edB a d * l ^ 2 - edA a d - (1 + y) / (1 - y) - (1 + y) / (1 - y) = (1 - a * x ^ 2) / ((1 - y) * (1 + y)) := by
      rw [hl', hA, hB']
      clear hs hA hB' hl' had' hapd hP'
      generalize a * x ^ 2 = w at *
      field_simp
      ring
    rw [d1', d2', hu, edMge, if_neg]
    · have e3 : (1 + (y * y - a * x * x) / (2 - a * x ^ 2 - y ^ 2)) / (1 - (y * y - a * x * x) / (2 - a * x ^ 2 - y ^ 2))
          = (1 - a * x ^ 2) / ((1 - y) * (1 + y)) := by
        rw [show 1 + (y * y - a * x * x) / (2 - a * x ^ 2 - y ^ 2) = 2 * (1 - a * x ^ 2) / (2 - a * x ^ 2 - y ^ 2) by
          rw [eq_div_iff d2, add_mul, div_mul_cancel₀ _ d2]; ring,
          show 1 - (y * y - a * x * x) / (2 - a * x ^ 2 - y ^ 2) = 2 * ((1 - y) * (1 + y)) / (2 - a * x ^ 2 - y ^ 2) by
          rw [eq_div_iff d2, sub_mul, div_mul_cancel₀ _ d2]; ring]
        rw [div_div_div_cancel_right₀ d2, mul_div_mul_left _ _ g2]
      rw [e3, hl']
      congr 1
      rw [show x * y + x * y = 2 * (x * y) by ring]
      have hxy : 2 * (x * y) ≠ 0 := mul_ne_zero g2 (mul_ne_zero hp hy)
      field_simp
      ring
    · refine div_ne_zero ?_ d1
      rw [show x * y + x * y = 2 * (x * y) by ring]
      exact mul_ne_zero g2 (mul_ne_zero hp hy)

theorem toM_add [g : EdGood a d] (P Q : EPt a d) : toM (P + Q) = toM P + toM Q := by
  have hz : ∀ P : EPt a d, P.x = 0 → P.y = 1 → P = 0 := fun P h1 h2 => by ext; exacts [h1, h2]
  have hn : ∀ P : EPt a d, toM (P + -P) = toM P + toM (-P) := fun P => by
    rw [ed_add_neg, toM_zero, toM_neg, add_neg_cancel]
  have hself : ∀ P : EPt a d, P.x = 0 → P = -P := fun P h => by
    ext
    · rw [ed_neg_x, h, neg_zero]
    · rw [ed_neg_y]
  by_cases hp : P.x = 0
  · rcases (ed_x0 P.on).1 hp with h1 | h1
    · rw [hz P hp h1, toM_zero, zero_add, ed_zero_add]
    · by_cases hq : Q.x = 0
      · rcases (ed_x0 Q.on).1 hq with h2 | h2
        · rw [hz Q hq h2, toM_zero, add_zero, ed_add_comm, ed_zero_add]
        · have : Q = -P := by
            rw [← hself P hp]
            ext
            · rw [hq, hp]
            · rw [h1, h2]
          rw [this]; exact hn P
      · exact toM_add_two hp h1 hq
  · by_cases hq : Q.x = 0
    · rcases (ed_x0 Q.on).1 hq with h2 | h2
      · rw [hz Q hq h2, toM_zero, add_zero, ed_add_comm, ed_zero_add]
      · rw [ed_add_comm, toM_add_two hq h2 hp, add_comm]
    · by_cases hy : P.y = Q.y
      · have : (P.x - Q.x) * (P.x + Q.x) = 0 := by
          have h1 := P.on
          have h2 := Q.on
          rw [hy] at h1
          apply (mul_eq_zero.1 (show (a - d * Q.y ^ 2) * ((P.x - Q.x) * (P.x + Q.x)) = 0 by linear_combination h1 - h2)).resolve_left
          exact ed_e _
        rcases mul_eq_zero.1 this with e | e
        · have : Q = P := by
            ext
            · linear_combination -e
            · exact hy.symm
          rw [this]; exact toM_dbl hp
        · have : Q = -P := by
            ext
            · rw [ed_neg_x]; linear_combination e
            · exact hy.symm
          rw [this]; exact hn P
      · exact toM_add_ne hp hq hy

end

variable {F : Type} [Field F] {a d : F}

theorem ed_add_assoc [g : EdGood a d] (P Q S : EPt a d) : P + Q + S = P + (Q + S) := by
  classical
  exact toM_inj (by rw [toM_add, toM_add, toM_add, toM_add, add_assoc])

/-- The points of a twisted Edwards curve are an abelian group. -/
instance [EdGood a d] : AddCommGroup (EPt a d) where
  add_assoc := ed_add_assoc
  zero_add P := by classical exact ed_zero_add P
  add_zero P := by classical rw [ed_add_comm, ed_zero_add]
  nsmul := nsmulRec
  zsmul := zsmulRec
  neg_add_cancel P := by classical rw [ed_add_comm, ed_add_neg]
  add_comm P Q := by classical exact ed_add_comm P Q

/-- The map to the Montgomery curve, as a homomorphism. -/
noncomputable def toMHom [DecidableEq F] [EdGood a d] : EPt a d →+ MPt (edA a d) (edB a d) where
  toFun := toM
  map_zero' := toM_zero
  map_add' := toM_add

end Torsion.Ecc
