import Verif.Ecc.MontSpec
import Mathlib.Tactic.LinearCombination
import Mathlib.Tactic.FieldSimp
import Mathlib.Tactic.Ring

/-! Lemmas on the points of Montgomery curves. -/
namespace Torsion.Ecc

open Torsion.Spec (montCurve MPt montAffine montX MontXZ MontGood MontOk)
open WeierstrassCurve.Affine (Point)

variable {F : Type} [Field F] [DecidableEq F] {a b : F}

theorem m_eqn {x y : F} (h : (montCurve a b).Nonsingular x y) : y ^ 2 = x ^ 3 + a / b * x ^ 2 + 1 / b ^ 2 * x := by
  have := ((montCurve a b).equation_iff x y).1 h.1
  simpa [montCurve] using this

theorem m_negY (x y : F) : (montCurve a b).negY x y = -y := by simp [WeierstrassCurve.Affine.negY, montCurve]

theorem m_aff_zero : montAffine (0 : MPt a b) = ⟨0, 0, true⟩ := rfl

theorem m_aff_some {x y : F} (h : (montCurve a b).Nonsingular x y) :
    montAffine (Point.some x y h : MPt a b) = ⟨b * x, b * y, false⟩ := rfl

theorem m_aff_inj (hb : b ≠ 0) {P Q : MPt a b} (h : montAffine P = montAffine Q) : P = Q := by
  rcases P with _ | ⟨x, y, hp⟩ <;> rcases Q with _ | ⟨x', y', hq⟩ <;> simp_all [montAffine]

theorem m_nonsing (g : MontGood a b) {x y : F} (h : y ^ 2 = x ^ 3 + a / b * x ^ 2 + 1 / b ^ 2 * x) :
    (montCurve a b).Nonsingular x y := by
  have hb := g.b0
  rw [WeierstrassCurve.Affine.nonsingular_iff]
  refine ⟨?_, ?_⟩
  · rw [WeierstrassCurve.Affine.equation_iff]
    simp only [montCurve]
    linear_combination h
  · simp only [montCurve]
    by_cases hy : y = 0
    · left
      subst hy
      intro h'
      have e1 : x * (b ^ 2 * x ^ 2 + a * b * x + 1) = 0 := by
        field_simp at h
        linear_combination -h
      have e2 : 3 * b ^ 2 * x ^ 2 + 2 * a * b * x + 1 = 0 := by
        field_simp at h'
        linear_combination -h'
      rcases mul_eq_zero.1 e1 with e | e
      · rw [e] at e2; simp at e2
      · have e3 : b * x * (2 * (b * x) + a) = 0 := by linear_combination e2 - e
        have hx : b * x ≠ 0 := by
          intro h0
          rw [show b ^ 2 * x ^ 2 + a * b * x + 1 = (b * x) ^ 2 + a * (b * x) + 1 by ring, h0] at e
          simp at e
        have e4 := (mul_eq_zero.1 e3).resolve_left hx
        apply g.disc
        linear_combination (a + 2 * (b * x)) * e4 - 4 * e
    · right
      intro h'
      exact hy ((mul_eq_zero.1 (show 2 * y = 0 by linear_combination h')).resolve_left g.two)

/-- Opposite points. -/
theorem m_opp {x1 y1 x2 y2 : F} (h1 : (montCurve a b).Nonsingular x1 y1)
    (h2 : (montCurve a b).Nonsingular x2 y2) (hx : x1 = x2) (hy : y1 = -y2) :
    (Point.some x1 y1 h1 + Point.some x2 y2 h2 : MPt a b) = 0 :=
  Point.add_of_Y_eq hx (by rw [m_negY]; exact hy)

theorem m_some {x y x' y' : F} (hx : x = x') (hy : y = y') (h : (montCurve a b).Nonsingular x y) :
    ∃ h', (Point.some x y h : MPt a b) = Point.some x' y' h' := by
  subst hx hy
  exact ⟨h, rfl⟩

theorem m_neg {x y : F} (h : (montCurve a b).Nonsingular x y) :
    ∃ h', (-Point.some x y h : MPt a b) = Point.some x (-y) h' := by
  rw [Point.neg_some]
  exact m_some rfl (m_negY _ _) _

/-- The chord. -/
theorem m_chord {x1 y1 x2 y2 l : F} (h1 : (montCurve a b).Nonsingular x1 y1)
    (h2 : (montCurve a b).Nonsingular x2 y2) (hx : x1 ≠ x2) (hl : l * (x1 - x2) = y1 - y2) :
    ∃ h', (Point.some x1 y1 h1 + Point.some x2 y2 h2 : MPt a b)
      = Point.some (l ^ 2 - a / b - x1 - x2) (l * (x1 - (l ^ 2 - a / b - x1 - x2)) - y1) h' := by
  have hs : (montCurve a b).slope x1 x2 y1 y2 = l := by
    rw [WeierstrassCurve.Affine.slope_of_X_ne hx, div_eq_iff (sub_ne_zero.2 hx), hl]
  have e1 : (montCurve a b).addX x1 x2 ((montCurve a b).slope x1 x2 y1 y2) = l ^ 2 - a / b - x1 - x2 := by
    rw [hs]
    simp only [WeierstrassCurve.Affine.addX, montCurve]
    ring
  have e2 : (montCurve a b).addY x1 x2 y1 ((montCurve a b).slope x1 x2 y1 y2) = l * (x1 - (l ^ 2 - a / b - x1 - x2)) - y1 := by
    rw [hs]
    simp only [WeierstrassCurve.Affine.addX, WeierstrassCurve.Affine.addY,
      WeierstrassCurve.Affine.negAddY, WeierstrassCurve.Affine.negY, montCurve]
    ring
  rw [Point.add_of_X_ne hx]
  exact m_some e1 e2 _

/-- The tangent. -/
theorem m_tangent {x y l : F} (h2 : (2 : F) ≠ 0) (h : (montCurve a b).Nonsingular x y) (hy : y ≠ 0)
    (hl : l * (2 * y) = 3 * x ^ 2 + 2 * (a / b) * x + 1 / b ^ 2) :
    ∃ h', (Point.some x y h + Point.some x y h : MPt a b)
      = Point.some (l ^ 2 - a / b - x - x) (l * (x - (l ^ 2 - a / b - x - x)) - y) h' := by
  have hn : y ≠ (montCurve a b).negY x y := by
    rw [m_negY]; intro e
    apply hy
    have : 2 * y = 0 := by linear_combination e
    exact (mul_eq_zero.1 this).resolve_left h2
  have hs : (montCurve a b).slope x x y y = l := by
    rw [WeierstrassCurve.Affine.slope_of_Y_ne rfl hn, div_eq_iff (by rw [sub_ne_zero]; exact hn), m_negY]
    simp only [montCurve]
    linear_combination -hl
  have e1 : (montCurve a b).addX x x ((montCurve a b).slope x x y y) = l ^ 2 - a / b - x - x := by
    rw [hs]
    simp only [WeierstrassCurve.Affine.addX, montCurve]
    ring
  have e2 : (montCurve a b).addY x x y ((montCurve a b).slope x x y y) = l * (x - (l ^ 2 - a / b - x - x)) - y := by
    rw [hs]
    simp only [WeierstrassCurve.Affine.addX, WeierstrassCurve.Affine.addY,
      WeierstrassCurve.Affine.negAddY, WeierstrassCurve.Affine.negY, montCurve]
    ring
  rw [Point.add_self_of_Y_ne hn]
  exact m_some e1 e2 _

theorem m_y_cases {x y1 y2 : F} (h1 : (montCurve a b).Nonsingular x y1)
    (h2 : (montCurve a b).Nonsingular x y2) : y1 = y2 ∨ y1 = -y2 :=
  sq_eq_sq_iff_eq_or_eq_neg.1 (by rw [m_eqn h1, m_eqn h2])

/-! ### The abscissa -/

theorem mx_zero : montX (0 : MPt a b) = none := rfl
theorem mx_some {x y : F} (h : (montCurve a b).Nonsingular x y) : montX (Point.some x y h : MPt a b) = some (b * x) := rfl

theorem mx_neg (P : MPt a b) : montX (-P) = montX P := by
  rcases P with _ | ⟨x, y, h⟩
  · rfl
  · obtain ⟨h', e⟩ := m_neg h
    rw [e]; rfl

theorem mx_none {P : MPt a b} : montX P = none ↔ P = 0 := by
  rcases P with _ | ⟨x, y, h⟩
  · exact ⟨fun _ => rfl, fun _ => rfl⟩
  · exact ⟨fun e => by simp [montX] at e, fun e => absurd e (Point.some_ne_zero h)⟩

/-- Points with the same abscissa are equal or opposite. -/
theorem mx_eq (hb : b ≠ 0) {P Q : MPt a b} (h : montX P = montX Q) : P = Q ∨ P = -Q := by
  rcases P with _ | ⟨x, y, hp⟩
  · left; exact (mx_none.1 h.symm).symm
  rcases Q with _ | ⟨x', y', hq⟩
  · simp [montX] at h
  · simp only [montX, Option.some.injEq, mul_eq_mul_left_iff, hb, or_false] at h
    subst h
    rcases m_y_cases hp hq with rfl | rfl
    · left; rfl
    · right
      obtain ⟨h', e⟩ := m_neg hq
      rw [e]

theorem mx_nsmul (hb : b ≠ 0) {P Q : MPt a b} (h : montX P = montX Q) (k : Nat) : montX (k • P) = montX (k • Q) := by
  rcases mx_eq hb h with rfl | rfl
  · rfl
  · rw [neg_nsmul, mx_neg]

/-- The double of a point. -/
theorem mx_dbl (g : MontGood a b) {P : MPt a b} {X Z : F} (h : MontXZ ⟨X, Z⟩ P) :
    MontXZ ⟨(X ^ 2 - Z ^ 2) ^ 2, 4 * X * Z * (X ^ 2 + a * X * Z + Z ^ 2)⟩ (P + P) := by
  have hb := g.b0
  have h4 : (4 : F) ≠ 0 := by
    rw [show (4 : F) = 2 * 2 by norm_num]; exact mul_ne_zero g.two g.two
  rcases P with _ | ⟨x, y, hp⟩
  · rw [← Point.zero_def] at h ⊢
    rw [add_zero]
    simp only [MontXZ, mx_zero] at h ⊢
    obtain ⟨rfl, hx⟩ := h
    simp [hx]
  · simp only [MontXZ, mx_some] at h
    obtain ⟨hz, rfl⟩ := h
    have he := m_eqn hp
    have hzz : 4 * (b * x * Z) * Z * ((b * x * Z) ^ 2 + a * (b * x * Z) * Z + Z ^ 2) = 4 * b ^ 3 * Z ^ 4 * y ^ 2 := by
      rw [he]; field_simp
    by_cases hy : y = 0
    · subst hy
      rw [m_opp hp hp rfl (by simp)]
      simp only [MontXZ, mx_zero]
      rw [hzz]
      refine ⟨by simp, ?_⟩
      intro h0
      have h1 : (b * x) ^ 2 - 1 = 0 := by
        have : Z ^ 2 * ((b * x) ^ 2 - 1) = 0 := by linear_combination pow_eq_zero_iff two_ne_zero |>.1 h0
        exact (mul_eq_zero.1 this).resolve_left (pow_ne_zero _ hz)
      have hx : b * x ≠ 0 := by
        intro h0; rw [h0] at h1; simp at h1
      have h2 : b * x * ((b * x) ^ 2 + a * (b * x) + 1) = 0 := by
        field_simp at he
        linear_combination -b * he
      have h3 := (mul_eq_zero.1 h2).resolve_left hx
      apply g.disc
      have h4 : a * (b * x) = -2 := by linear_combination h3 - h1
      linear_combination (a * (b * x) - 2) * h4 - a ^ 2 * h1
    · obtain ⟨l, hl⟩ : ∃ l, l * (2 * y) = 3 * x ^ 2 + 2 * (a / b) * x + 1 / b ^ 2 :=
        ⟨(3 * x ^ 2 + 2 * (a / b) * x + 1 / b ^ 2) / (2 * y), by field_simp [g.two]⟩
      obtain ⟨h', e⟩ := m_tangent g.two hp hy hl
      rw [e]
      simp only [MontXZ, mx_some]
      rw [hzz]
      refine ⟨mul_ne_zero (mul_ne_zero (mul_ne_zero h4 (pow_ne_zero _ hb)) (pow_ne_zero _ hz)) (pow_ne_zero _ hy), ?_⟩
      have h5 : (l * (2 * y)) ^ 2 = (3 * x ^ 2 + 2 * (a / b) * x + 1 / b ^ 2) ^ 2 := by rw [hl]
      rw [show b * (l ^ 2 - a / b - x - x) * (4 * b ^ 3 * Z ^ 4 * y ^ 2)
        = b ^ 4 * Z ^ 4 * ((l * (2 * y)) ^ 2 - 4 * (a / b + x + x) * y ^ 2) by ring, h5, he]
      field_simp
      ring

/-- Differential addition: the sum of two points whose difference has a known non-zero abscissa. -/
theorem mx_add (g : MontGood a b) {P Q D : MPt a b} (hD : Q - P = D) {X1 Z1 X2 Z2 X3 Z3 : F} (h1 : MontXZ ⟨X1, Z1⟩ D)
    (hx1 : X1 ≠ 0) (hz1 : Z1 ≠ 0) (h2 : MontXZ ⟨X2, Z2⟩ P) (h3 : MontXZ ⟨X3, Z3⟩ Q) :
    MontXZ ⟨4 * Z1 * (X2 * X3 - Z2 * Z3) ^ 2, 4 * X1 * (X3 * Z2 - X2 * Z3) ^ 2⟩ (P + Q) := by
  have hb := g.b0
  have h4 : (4 : F) ≠ 0 := by
    rw [show (4 : F) = 2 * 2 by norm_num]; exact mul_ne_zero g.two g.two
  subst hD
  rcases P with _ | ⟨x2, y2, hp⟩
  · rw [← Point.zero_def] at h1 h2 ⊢
    rw [sub_zero] at h1
    rw [zero_add]
    rcases Q with _ | ⟨x3, y3, hq⟩
    · rw [← Point.zero_def] at h1
      simp only [MontXZ, mx_zero] at h1
      exact absurd h1.1 hz1
    · simp only [MontXZ, mx_some, mx_zero] at h1 h2 h3 ⊢
      obtain ⟨-, rfl⟩ := h1
      obtain ⟨rfl, hx2⟩ := h2
      obtain ⟨hz3, rfl⟩ := h3
      refine ⟨mul_ne_zero (mul_ne_zero h4 hx1) (pow_ne_zero _ ?_), by ring⟩
      rw [mul_zero, zero_sub, neg_ne_zero]
      exact mul_ne_zero hx2 hz3
  rcases Q with _ | ⟨x3, y3, hq⟩
  · rw [← Point.zero_def] at h1 h3 ⊢
    rw [zero_sub] at h1
    rw [add_zero]
    have h1' : MontXZ ⟨X1, Z1⟩ (Point.some x2 y2 hp : MPt a b) := by
      unfold MontXZ at h1 ⊢
      rwa [mx_neg] at h1
    simp only [MontXZ, mx_some, mx_zero] at h1' h2 h3 ⊢
    obtain ⟨-, rfl⟩ := h1'
    obtain ⟨hz2, rfl⟩ := h2
    obtain ⟨rfl, hx3⟩ := h3
    refine ⟨mul_ne_zero (mul_ne_zero h4 hx1) (pow_ne_zero _ ?_), by ring⟩
    rw [mul_zero, sub_zero]
    exact mul_ne_zero hx3 hz2
  have e2 := m_eqn hp
  have e3 := m_eqn hq
  obtain ⟨hn, en⟩ := m_neg hp
  rw [sub_eq_add_neg, en] at h1
  rw [MontXZ, mx_some] at h2 h3
  obtain ⟨hz2, h2⟩ := h2
  obtain ⟨hz3, h3⟩ := h3
  dsimp only at hz2 h2 hz3 h3
  by_cases hx : x2 = x3
  · subst hx
    rcases m_y_cases hp hq with hy | hy
    · subst hy
      rw [m_opp hq hn rfl (by ring)] at h1
      simp only [MontXZ, mx_zero] at h1
      exact absurd h1.1 hz1
    · rw [m_opp hp hq rfl hy]
      simp only [MontXZ, mx_zero]
      rw [h2, h3]
      refine ⟨by ring, mul_ne_zero (mul_ne_zero h4 hz1) (pow_ne_zero _ ?_)⟩
      intro h0
      have hy2 : -y2 = y3 := by rw [hy]; ring
      simp only [hy2] at h1
      have hd := mx_dbl g (P := Point.some x2 y3 hq) (X := b * x2) (Z := 1) (by
        rw [MontXZ, mx_some]; exact ⟨one_ne_zero, by simp⟩)
      have hz0 : (b * x2) ^ 2 - 1 = 0 := by
        have : Z2 * Z3 * ((b * x2) ^ 2 - 1) = 0 := by linear_combination h0
        exact (mul_eq_zero.1 this).resolve_left (mul_ne_zero hz2 hz3)
      rw [MontXZ] at h1 hd
      cases hm : montX (Point.some x2 y3 hq + Point.some x2 y3 hq : MPt a b) with
      | none =>
        rw [hm] at h1
        exact hz1 h1.1
      | some u =>
        rw [hm] at h1 hd
        dsimp only at h1 hd
        have hu : u = 0 := by
          have := hd.2
          rw [show (b * x2) ^ 2 - 1 ^ 2 = 0 by linear_combination hz0, zero_pow two_ne_zero] at this
          exact (mul_eq_zero.1 this.symm).resolve_right hd.1
        rw [hu, zero_mul] at h1
        exact hx1 h1.2
  · have hd : x3 - x2 ≠ 0 := sub_ne_zero.2 (Ne.symm hx)
    obtain ⟨k1, c1⟩ := m_chord (l := (y3 + y2) / (x3 - x2)) hq hn (Ne.symm hx) (by field_simp; ring)
    obtain ⟨k2, c2⟩ := m_chord (l := (y3 - y2) / (x3 - x2)) hq hp (Ne.symm hx) (by field_simp)
    rw [c1, MontXZ, mx_some] at h1
    rw [add_comm, c2, MontXZ, mx_some]
    obtain ⟨-, h1⟩ := h1
    dsimp only at h1 ⊢
    rw [h2, h3]
    refine ⟨mul_ne_zero (mul_ne_zero h4 hx1) (pow_ne_zero _ ?_), ?_⟩
    · rw [show b * x3 * Z3 * Z2 - b * x2 * Z2 * Z3 = b * Z2 * Z3 * (x3 - x2) by ring]
      exact mul_ne_zero (mul_ne_zero (mul_ne_zero hb hz2) hz3) hd
    · rw [h1]
      have key : (((y3 + y2) / (x3 - x2)) ^ 2 - a / b - x3 - x2) * (((y3 - y2) / (x3 - x2)) ^ 2 - a / b - x3 - x2) * (x3 - x2) ^ 2
          = (x2 * x3 - 1 / b ^ 2) ^ 2 := by
        have : (((y3 + y2) / (x3 - x2)) ^ 2 - a / b - x3 - x2) * (((y3 - y2) / (x3 - x2)) ^ 2 - a / b - x3 - x2) * (x3 - x2) ^ 2
            = ((y3 ^ 2 - y2 ^ 2) ^ 2 - 2 * (a / b + x3 + x2) * (x3 - x2) ^ 2 * (y3 ^ 2 + y2 ^ 2)
              + (a / b + x3 + x2) ^ 2 * (x3 - x2) ^ 4) / (x3 - x2) ^ 2 := by
          field_simp
          ring
        rw [this, e2, e3, div_eq_iff (pow_ne_zero _ hd)]
        field_simp
        ring
      have : (b * x2 * Z2 * (b * x3 * Z3) - Z2 * Z3) ^ 2 = b ^ 4 * Z2 ^ 2 * Z3 ^ 2 * (x2 * x3 - 1 / b ^ 2) ^ 2 := by
        field_simp
      rw [this, ← key]
      ring

end Torsion.Ecc
