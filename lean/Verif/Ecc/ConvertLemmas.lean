import Verif.Ecc.Convert
import Verif.Ecc.ConvertSpec
import Verif.Ecc.EdElligLemmas

/-! Lemmas on the conversion between Montgomery and Edwards keys: the maps. -/
set_option linter.unusedSectionVars false

namespace Torsion.Ecc

open Torsion.Spec

section
variable {F : Type} [Field F] [DecidableEq F] {A b d : F}

/-! ### The isogeny -/

theorem xz_scale {M : MPt A b} {X Z s : F} (hs : s ≠ 0) : MontXZ ⟨s * X, s * Z⟩ M ↔ MontXZ ⟨X, Z⟩ M := by
  unfold MontXZ
  cases montX M with
  | none => simp [hs]
  | some x =>
    dsimp only
    refine and_congr (by simp [hs]) ⟨fun h => mul_left_cancel₀ hs (by rw [h]; ring), fun h => by rw [h]; ring⟩

theorem xz_iso {P : EPt (1 : F) d} {M : MPt A b} : MontXZ ⟨P.y ^ 2, P.x ^ 2⟩ M ↔ montX M = isoU P := by
  unfold MontXZ isoU
  by_cases hx : P.x = 0
  · have hy : P.y ^ 2 = 1 := by
      have := P.on
      rw [hx] at this
      linear_combination this
    rw [if_pos hx, hx, hy]
    cases montX M <;> simp
  · rw [if_neg hx]
    cases montX M with
    | none => simp [hx]
    | some x =>
      simp only [ne_eq, pow_eq_zero_iff two_ne_zero, hx, not_false_eq_true, true_and, Option.some.injEq]
      rw [eq_div_iff (pow_ne_zero _ hx)]
      exact eq_comm

variable [g : EdGood (1 : F) d]

theorem iso_mont (hA : A = 2 - 4 * d) (hb : b ≠ 0) : MontGood A b := by
  refine ⟨g.two, hb, ?_⟩
  intro e
  have h4 := ed_four (a := (1 : F)) (d := d)
  have : d * (d - 1) = 0 := by
    apply (mul_eq_zero.1 (show (4 * 4) * (d * (d - 1)) = 0 by rw [hA] at e; linear_combination e)).resolve_left (mul_ne_zero h4 h4)
  rcases mul_eq_zero.1 this with h | h
  · exact g.nsq (by rw [h]; exact IsSquare.zero)
  · exact g.nsq (by rw [sub_eq_zero.1 h]; exact IsSquare.one)

theorem iso_dbl (hA : A = 2 - 4 * d) (hb : b ≠ 0) {P : EPt (1 : F) d} {M : MPt A b} (h : MontXZ ⟨P.y ^ 2, P.x ^ 2⟩ M) :
    MontXZ ⟨(P + P).y ^ 2, (P + P).x ^ 2⟩ (M + M) := by
  have h2 := mx_dbl (iso_mont hA hb) h
  have n := ed_ne P.on P.on
  have hon := P.on
  rw [ed_add_x, ed_add_y]
  generalize P.x = x at *
  generalize P.y = y at *
  obtain ⟨n1, n2⟩ := n
  rw [← xz_scale (mul_ne_zero (pow_ne_zero 2 n1) (pow_ne_zero 2 n2))]
  have e1 : 1 + d * x * x * y * y = x ^ 2 + y ^ 2 := by linear_combination -hon
  have e2 : (1 - d * x * x * y * y) ^ 2 = (y ^ 2) ^ 2 + A * y ^ 2 * x ^ 2 + (x ^ 2) ^ 2 := by
    rw [hA]
    linear_combination (-1 - d * x ^ 2 * y ^ 2 - x ^ 2 - y ^ 2) * hon
  rw [← e2] at h2
  rw [e1] at n1 ⊢
  generalize 1 - d * x * x * y * y = v at *
  convert h2 using 2
  · field_simp
    ring
  · field_simp
    ring

theorem iso_add (hA : A = 2 - 4 * d) (hb : b ≠ 0) {P Q D : EPt (1 : F) d} {M N K : MPt A b} (hD : Q - P = D) (hK : N - M = K)
    (hx : D.x ≠ 0) (hy : D.y ≠ 0) (h1 : MontXZ ⟨D.y ^ 2, D.x ^ 2⟩ K)
    (h2 : MontXZ ⟨P.y ^ 2, P.x ^ 2⟩ M) (h3 : MontXZ ⟨Q.y ^ 2, Q.x ^ 2⟩ N) :
    MontXZ ⟨(P + Q).y ^ 2, (P + Q).x ^ 2⟩ (M + N) := by
  have h4 := mx_add (iso_mont hA hb) hK h1 (pow_ne_zero 2 hy) (pow_ne_zero 2 hx) h2 h3
  have four := ed_four (a := (1 : F)) (d := d)
  obtain ⟨n1, n2⟩ := ed_ne P.on Q.on
  have ex : D.x * (1 - d * P.x * Q.x * P.y * Q.y) = Q.x * P.y - P.x * Q.y := by
    rw [← hD, sub_eq_add_neg, ed_add_x, ed_neg_x, ed_neg_y]
    have : 1 + d * Q.x * -P.x * Q.y * P.y = 1 - d * P.x * Q.x * P.y * Q.y := by ring
    rw [this, div_mul_cancel₀ _ n2]
    ring
  have ey : D.y * (1 + d * P.x * Q.x * P.y * Q.y) = P.y * Q.y + P.x * Q.x := by
    rw [← hD, sub_eq_add_neg, ed_add_y, ed_neg_x, ed_neg_y]
    have : 1 - d * Q.x * -P.x * Q.y * P.y = 1 + d * P.x * Q.x * P.y * Q.y := by ring
    rw [this, div_mul_cancel₀ _ n1]
    ring
  rw [ed_add_x, ed_add_y]
  rw [← xz_scale (mul_ne_zero (mul_ne_zero four (mul_ne_zero (pow_ne_zero 2 hx) (pow_ne_zero 2 hy))) (mul_ne_zero (pow_ne_zero 2 n1) (pow_ne_zero 2 n2)))]
  generalize D.x = xd at *
  generalize D.y = yd at *
  generalize P.x = x1 at *
  generalize P.y = y1 at *
  generalize Q.x = x2 at *
  generalize Q.y = y2 at *
  have e1 : y1 ^ 2 * y2 ^ 2 - x1 ^ 2 * x2 ^ 2 = (y1 * y2 - 1 * x1 * x2) * (yd * (1 + d * x1 * x2 * y1 * y2)) := by rw [ey]; ring
  have e2 : y2 ^ 2 * x1 ^ 2 - y1 ^ 2 * x2 ^ 2 = -(x1 * y2 + x2 * y1) * (xd * (1 - d * x1 * x2 * y1 * y2)) := by rw [ex]; ring
  rw [e1, e2] at h4
  generalize hu : 1 + d * x1 * x2 * y1 * y2 = u at *
  generalize hv : 1 - d * x1 * x2 * y1 * y2 = v at *
  convert h4 using 2
  · field_simp
  · field_simp

theorem iso_ladder (hA : A = 2 - 4 * d) (hb : b ≠ 0) {P : EPt (1 : F) d} {M : MPt A b} (hx : P.x ≠ 0) (hy : P.y ≠ 0)
    (h : MontXZ ⟨P.y ^ 2, P.x ^ 2⟩ M) : ∀ k : Nat, MontXZ ⟨(k • P).y ^ 2, (k • P).x ^ 2⟩ (k • M) ∧
      MontXZ ⟨((k + 1) • P).y ^ 2, ((k + 1) • P).x ^ 2⟩ ((k + 1) • M) := by
  intro k
  induction k using Nat.strong_induction_on with
  | _ k ih =>
    rcases Nat.eq_zero_or_pos k with rfl | hk
    · rw [zero_nsmul, zero_nsmul, zero_add, one_nsmul, one_nsmul, ed_zero_x, ed_zero_y]
      exact ⟨⟨by simp, by simp⟩, h⟩
    · obtain ⟨h1, h2⟩ := ih (k / 2) (by omega)
      generalize hm : k / 2 = m at *
      have dP : (m + 1) • P - m • P = P := by rw [add_nsmul, one_nsmul]; abel
      have dM : (m + 1) • M - m • M = M := by rw [add_nsmul, one_nsmul]; abel
      have h3 := iso_add hA hb dP dM hx hy h h1 h2
      rw [← add_nsmul, ← add_nsmul] at h3
      rcases Nat.mod_two_eq_zero_or_one k with e | e
      · have h4 := iso_dbl hA hb h1
        rw [← add_nsmul, ← add_nsmul] at h4
        rw [show k = m + m by omega]
        exact ⟨h4, h3⟩
      · have h4 := iso_dbl hA hb h2
        rw [← add_nsmul, ← add_nsmul] at h4
        rw [show k = m + (m + 1) by omega, show m + (m + 1) + 1 = m + 1 + (m + 1) by omega]
        exact ⟨h3, h4⟩

theorem iso_x0_add {P Q : EPt (1 : F) d} (hp : P.x = 0) (hq : Q.x = 0) : (P + Q).x = 0 := by
  rw [ed_add_x, hp, hq]; simp

theorem iso_x0_mul {P : EPt (1 : F) d} (hp : P.x = 0) (k : Nat) : (k • P).x = 0 := by
  induction k with
  | zero => rw [zero_nsmul]; rfl
  | succ k ih => rw [succ_nsmul]; exact iso_x0_add ih hp

/-- Abscissas of multiples. -/
theorem iso_mul (hA : A = 2 - 4 * d) (hb : b ≠ 0) {P : EPt (1 : F) d} {M : MPt A b} (h : montX M = isoU P) (k : Nat) :
    montX (k • M) = isoU (k • P) := by
  by_cases hx : P.x = 0
  · have : M = 0 := mx_none.1 (by rw [h, isoU, if_pos hx])
    rw [this, nsmul_zero, isoU, if_pos (iso_x0_mul hx k)]
    rfl
  by_cases hy : P.y = 0
  · have h0 : montX M = some 0 := by rw [h, isoU, if_neg hx, hy]; simp
    have h2 : M + M = 0 := mx_order_two (iso_mont hA hb) h0
    have hP2 : (P + P).x = 0 := by rw [ed_add_x, hy]; simp
    have ev : ∀ m : Nat, ((m + m) • P).x = 0 := fun m => by
      rw [← two_mul, mul_nsmul, two_nsmul]; exact iso_x0_mul hP2 m
    have evM : ∀ m : Nat, (m + m) • M = 0 := fun m => by rw [← two_mul, mul_nsmul, two_nsmul, h2, nsmul_zero]
    rcases Nat.mod_two_eq_zero_or_one k with e | e
    · rw [show k = k / 2 + k / 2 by omega, evM, isoU, if_pos (ev _)]; rfl
    · have e1 : k • P = (k / 2 + k / 2) • P + P := by rw [← succ_nsmul]; congr 1; omega
      have e2 : k • M = M := by
        have : k • M = (k / 2 + k / 2) • M + M := by rw [← succ_nsmul]; congr 1; omega
        rw [this, evM, zero_add]
      have hz := ev (k / 2)
      have hyz : ((k / 2 + k / 2) • P).y ≠ 0 := by
        intro h
        have := ((k / 2 + k / 2) • P).on
        rw [hz, h] at this; simp at this
      have ex : (k • P).x ≠ 0 := by
        rw [e1, ed_add_x, hz, hy]
        simp [hx, hyz]
      have ey : (k • P).y = 0 := by
        rw [e1, ed_add_y, hz, hy]
        simp
      rw [e2, h0, isoU, if_neg ex, ey]; simp
  · exact xz_iso.1 (iso_ladder hA hb hx hy (xz_iso.2 h) k).1

/-- Points with the same image are equal or opposite up to the kernel. -/
theorem iso_eq {P Q : EPt (1 : F) d} (h : isoU P = isoU Q) : (P - Q).x = 0 ∨ (P + Q).x = 0 := by
  have key : P.x * Q.y - Q.x * P.y = 0 ∨ P.x * Q.y + Q.x * P.y = 0 := by
    rw [← mul_eq_zero]
    unfold isoU at h
    split at h <;> split at h
    · rename_i h1 h2
      rw [h1, h2]; ring
    · simp at h
    · simp at h
    · rename_i h1 h2
      rw [Option.some.injEq, div_eq_div_iff (pow_ne_zero _ h1) (pow_ne_zero _ h2)] at h
      linear_combination -h
  rcases key with k | k
  · left
    rw [sub_eq_add_neg, ed_add_x, ed_neg_x, ed_neg_y, show P.x * Q.y + -Q.x * P.y = P.x * Q.y - Q.x * P.y by ring, k, zero_div]
  · right
    rw [ed_add_x, k, zero_div]

theorem iso_unique {n : Nat} (hn : n % 2 = 1) {P Q : EPt (1 : F) d} (hP : n • P = 0) (hQ : n • Q = 0) (h : isoU P = isoU Q) : P = Q ∨ P = -Q := by
  have key : ∀ S : EPt (1 : F) d, n • S = 0 → S.x = 0 → S = 0 := by
    intro S h1 h2
    have h3 : S + S = 0 := by
      have hy : S.y ^ 2 = 1 := by
        have := S.on
        rw [h2] at this
        linear_combination this
      ext
      · rw [ed_add_x, h2, ed_zero_x]; simp
      · rw [ed_add_y, h2, ed_zero_y]
        have : S.y * S.y = 1 := by linear_combination hy
        simp [this]
    have h4 : n • S = S := by
      rw [show n = 2 * (n / 2) + 1 by omega, add_nsmul, mul_nsmul, two_nsmul, h3, nsmul_zero, zero_add, one_nsmul]
    rw [← h4, h1]
  rcases iso_eq h with h | h
  · left
    exact sub_eq_zero.1 (key _ (by rw [nsmul_sub, hP, hQ, sub_zero]) h)
  · right
    exact eq_neg_of_add_eq_zero_left (key _ (by rw [nsmul_add, hP, hQ, add_zero]) h)

/-! ### The dual isogeny -/

/-- The values from which `mont_to_edwards` with the isogeny is made. -/
theorem dual_values {u v : F} (hv : v ^ 2 = u ^ 3 + A * u ^ 2 + u) :
    mont_to_edwards_isogeny (⟨u, v, false⟩ : Mge F) = (4 * v * (u ^ 2 - 1), (u ^ 2 - 1) ^ 2 + 4 * v ^ 2, u * (4 * v ^ 2 - (u ^ 2 - 1) ^ 2),
      u * ((u ^ 2 - 1) ^ 2 - 2 * (u ^ 2 + A * u + 1) * (u ^ 2 + 1))) := by
  unfold mont_to_edwards_isogeny
  simp only [Prod.mk.injEq]
  refine ⟨by ring, by ring, by ring, ?_⟩
  linear_combination (-2 * u ^ 2 - 2) * hv

theorem dual_den {u v : F} (hv : v ^ 2 = u ^ 3 + A * u ^ 2 + u) : ((u ^ 2 - 1) ^ 2 - 2 * (u ^ 2 + A * u + 1) * (u ^ 2 + 1)) ^ 2 =
    ((u ^ 2 - 1) ^ 2) ^ 2 + A * (u ^ 2 - 1) ^ 2 * (4 * v ^ 2) + (4 * v ^ 2) ^ 2 := by
  rw [hv]; ring

/-- The point to which a point of the Montgomery curve is sent. -/
structure Dual {a d : F} (A : F) (u v : F) (P : EPt a d) : Prop where
  nx : (u ^ 2 - 1) ^ 2 + 4 * v ^ 2 ≠ 0
  ny : (u ^ 2 - 1) ^ 2 - 2 * (u ^ 2 + A * u + 1) * (u ^ 2 + 1) ≠ 0
  x : P.x * ((u ^ 2 - 1) ^ 2 + 4 * v ^ 2) = 4 * v * (u ^ 2 - 1)
  y : P.y * ((u ^ 2 - 1) ^ 2 - 2 * (u ^ 2 + A * u + 1) * (u ^ 2 + 1)) = 4 * v ^ 2 - (u ^ 2 - 1) ^ 2

theorem dual_exists (hA : A = 2 - 4 * d) (hs : ¬ IsSquare (A ^ 2 - 4)) {u v : F} (hv : v ^ 2 = u ^ 3 + A * u ^ 2 + u) (hu : u ≠ 0) :
    ∃ P : EPt (1 : F) d, Dual A u v P := by
  have h4 := ed_four (a := (1 : F)) (d := d)
  have hv0 : v ≠ 0 := by
    rintro rfl
    apply hs
    have : u ^ 2 + A * u + 1 = 0 := (mul_eq_zero.1 (show u * (u ^ 2 + A * u + 1) = 0 by linear_combination -hv)).resolve_left hu
    exact ⟨2 * u + A, by linear_combination -4 * this⟩
  have nx : (u ^ 2 - 1) ^ 2 + 4 * v ^ 2 ≠ 0 := by
    intro h
    apply g.nsq
    refine ⟨(u + 1) ^ 2 / (4 * u), ?_⟩
    rw [div_mul_div_comm, eq_div_iff (mul_ne_zero (mul_ne_zero h4 hu) (mul_ne_zero h4 hu))]
    rw [hv, hA] at h
    linear_combination -h
  have ny : (u ^ 2 - 1) ^ 2 - 2 * (u ^ 2 + A * u + 1) * (u ^ 2 + 1) ≠ 0 := by
    intro h
    have e := dual_den hv
    rw [h] at e
    apply hs
    refine ⟨(2 * (u ^ 2 - 1) ^ 2 + A * (4 * v ^ 2)) / (4 * v ^ 2), ?_⟩
    have n4 : 4 * v ^ 2 ≠ 0 := mul_ne_zero h4 (pow_ne_zero _ hv0)
    rw [div_mul_div_comm, eq_div_iff (mul_ne_zero n4 n4)]
    linear_combination 4 * e
  refine ⟨⟨4 * v * (u ^ 2 - 1) / ((u ^ 2 - 1) ^ 2 + 4 * v ^ 2),
    (4 * v ^ 2 - (u ^ 2 - 1) ^ 2) / ((u ^ 2 - 1) ^ 2 - 2 * (u ^ 2 + A * u + 1) * (u ^ 2 + 1)), ?_⟩, nx, ny, ?_, ?_⟩
  · have e := dual_den hv
    generalize hD : (u ^ 2 - 1) ^ 2 - 2 * (u ^ 2 + A * u + 1) * (u ^ 2 + 1) = D at *
    generalize u ^ 2 - 1 = w at *
    rw [hA] at e
    field_simp
    linear_combination (-(w ^ 2 - 4 * v ^ 2) ^ 2) * e
  · exact div_mul_cancel₀ _ nx
  · exact div_mul_cancel₀ _ ny

theorem dual_ext {u v : F} (hv : v ^ 2 = u ^ 3 + A * u ^ 2 + u) (hu : u ≠ 0) {P : EPt (1 : F) d} (h : Dual A u v P) (c : F) (inv : Bool) :
    Ext (mont_to_edwards 448 ⟨u, v, false⟩ c inv true) P := by
  have e : mont_to_edwards 448 (⟨u, v, false⟩ : Mge F) c inv true =
      (let q := mont_to_edwards_isogeny (⟨u, v, false⟩ : Mge F); ⟨q.1 * q.2.2.2, q.2.2.1 * q.2.1, q.2.1 * q.2.2.2, q.1 * q.2.2.1⟩) := by
    simp [mont_to_edwards, fe_select, fe_is_zero, hu]
  rw [e, dual_values hv]
  obtain ⟨nx, ny, hx, hy⟩ := h
  refine ⟨mul_ne_zero nx (mul_ne_zero hu ny), ?_, ?_, ?_⟩ <;> dsimp only
  · rw [← hx]; ring
  · rw [← hy]; ring
  · rw [← hx, ← hy]; ring

theorem dual_zero (u v c : F) (inv : Bool) : Ext (mont_to_edwards 448 ⟨u, v, true⟩ c inv true) (0 : EPt (1 : F) d) := by
  simp only [mont_to_edwards, fe_select, Bool.true_or, BEq.rfl, Bool.and_true, if_true]
  exact ⟨one_ne_zero, by rw [ed_zero_x]; ring, by rw [ed_zero_y]; ring, by rw [ed_zero_x]; ring⟩

/-- The composition of the isogenies is the multiplication by four. -/
theorem dual_iso (hA : A = 2 - 4 * d) (hb : b ≠ 0) {u v : F} (hv : v ^ 2 = u ^ 3 + A * u ^ 2 + u) {M : MPt A b} (hM : montX M = some u)
    {P : EPt (1 : F) d} (h : Dual A u v P) : montX (4 • M) = isoU P := by
  have gm := iso_mont hA hb
  have h1 : MontXZ ⟨u, 1⟩ M := by rw [MontXZ, hM]; exact ⟨one_ne_zero, by simp⟩
  have h2 := mx_dbl gm h1
  rw [show (u ^ 2 - 1 ^ 2) ^ 2 = (u ^ 2 - 1) ^ 2 by ring, show 4 * u * 1 * (u ^ 2 + A * u * 1 + 1 ^ 2) = 4 * v ^ 2 by rw [hv]; ring] at h2
  have h3 := mx_dbl gm h2
  rw [← two_nsmul, ← two_nsmul, ← mul_nsmul'] at h3
  rw [show 4 * (u ^ 2 - 1) ^ 2 * (4 * v ^ 2) * (((u ^ 2 - 1) ^ 2) ^ 2 + A * (u ^ 2 - 1) ^ 2 * (4 * v ^ 2) + (4 * v ^ 2) ^ 2)
    = 4 * (u ^ 2 - 1) ^ 2 * (4 * v ^ 2) * ((u ^ 2 - 1) ^ 2 - 2 * (u ^ 2 + A * u + 1) * (u ^ 2 + 1)) ^ 2 by rw [dual_den hv]] at h3
  rw [← xz_iso]
  obtain ⟨nx, ny, hx, hy⟩ := h
  rw [← xz_scale (pow_ne_zero 2 (mul_ne_zero nx ny))]
  convert h3 using 2
  · rw [show ∀ a b c : F, (a * b) ^ 2 * c ^ 2 = a ^ 2 * (c * b) ^ 2 by intros; ring, hy]; ring
  · rw [show ∀ a b c : F, (a * b) ^ 2 * c ^ 2 = b ^ 2 * (c * a) ^ 2 by intros; ring, hx]; ring

/-- The dual isogeny and doubling, up to the sign. -/
theorem dual_dbl (hA : A = 2 - 4 * d) (hb : b ≠ 0) {u v u' v' : F} (hv : v ^ 2 = u ^ 3 + A * u ^ 2 + u) (hv' : v' ^ 2 = u' ^ 3 + A * u' ^ 2 + u')
    {M : MPt A b} (hM : montX M = some u) (hM2 : montX (M + M) = some u') {P P' : EPt (1 : F) d} (h : Dual A u v P) (h' : Dual A u' v' P') :
    P' = P + P ∨ P' = -(P + P) := by
  have gm := iso_mont hA hb
  have h1 : MontXZ ⟨u, 1⟩ M := by rw [MontXZ, hM]; exact ⟨one_ne_zero, by simp⟩
  have h2 := mx_dbl gm h1
  rw [show (u ^ 2 - 1 ^ 2) ^ 2 = (u ^ 2 - 1) ^ 2 by ring, show 4 * u * 1 * (u ^ 2 + A * u * 1 + 1 ^ 2) = 4 * v ^ 2 by rw [hv]; ring,
    MontXZ, hM2] at h2
  obtain ⟨ht, hs⟩ := h2
  dsimp only at ht hs
  have hW := dual_den hv
  obtain ⟨nx, ny, hx, hy⟩ := h
  obtain ⟨nx', ny', hx', hy'⟩ := h'
  obtain ⟨n1, n2⟩ := ed_ne P.on P.on
  have key : P'.y = (P + P).y := by
    rw [ed_add_y]
    have hon := P.on
    have e1 : 1 - d * P.x * P.x * P.y * P.y = 2 - P.x ^ 2 - P.y ^ 2 := by linear_combination hon
    rw [e1] at n2 ⊢
    rw [eq_div_iff n2]
    rw [hv'] at hy'
    set D := (u ^ 2 - 1) ^ 2 - 2 * (u ^ 2 + A * u + 1) * (u ^ 2 + 1) with hD
    generalize (u ^ 2 - 1) = w at *
    have hx2 : P.x ^ 2 * (w ^ 2 + 4 * v ^ 2) ^ 2 = 4 * w ^ 2 * (4 * v ^ 2) := by
      linear_combination (P.x * (w ^ 2 + 4 * v ^ 2) + 4 * v * w) * hx
    have hy2 : P.y ^ 2 * D ^ 2 = (4 * v ^ 2 - w ^ 2) ^ 2 := by
      linear_combination (P.y * D + (4 * v ^ 2 - w ^ 2)) * hy
    generalize 4 * v ^ 2 = t at *
    generalize w ^ 2 = s at *
    generalize P.x = x at *
    generalize P.y = y at *
    apply mul_left_cancel₀ ny'
    apply mul_left_cancel₀ (pow_ne_zero 4 ht)
    apply mul_left_cancel₀ (pow_ne_zero 2 nx)
    apply mul_left_cancel₀ (pow_ne_zero 2 ny)
    have f1 : t ^ 4 * ((u' ^ 2 - 1) ^ 2 - 2 * (u' ^ 2 + A * u' + 1) * (u' ^ 2 + 1)) = (s ^ 2 - t ^ 2) ^ 2 - 2 * D ^ 2 * (s ^ 2 + t ^ 2) := by
      rw [hW, hs]; ring
    have f2 : t ^ 4 * (4 * (u' ^ 3 + A * u' ^ 2 + u') - (u' ^ 2 - 1) ^ 2) = 4 * s * t * D ^ 2 - (s ^ 2 - t ^ 2) ^ 2 := by
      rw [hW, hs]; ring
    have f3 : D ^ 2 * (s + t) ^ 2 * (2 - x ^ 2 - y ^ 2) = 2 * D ^ 2 * (s ^ 2 + t ^ 2) - (s ^ 2 - t ^ 2) ^ 2 := by
      linear_combination (-D ^ 2) * hx2 - (s + t) ^ 2 * hy2
    have f4 : D ^ 2 * (s + t) ^ 2 * (y * y - 1 * x * x) = (s ^ 2 - t ^ 2) ^ 2 - 4 * s * t * D ^ 2 := by
      linear_combination (-D ^ 2) * hx2 + (s + t) ^ 2 * hy2
    have l : D ^ 2 * ((s + t) ^ 2 * (t ^ 4 * (((u' ^ 2 - 1) ^ 2 - 2 * (u' ^ 2 + A * u' + 1) * (u' ^ 2 + 1)) * (P'.y * (2 - x ^ 2 - y ^ 2)))))
        = (t ^ 4 * (P'.y * ((u' ^ 2 - 1) ^ 2 - 2 * (u' ^ 2 + A * u' + 1) * (u' ^ 2 + 1)))) * (D ^ 2 * (s + t) ^ 2 * (2 - x ^ 2 - y ^ 2)) := by ring
    have r : D ^ 2 * ((s + t) ^ 2 * (t ^ 4 * (((u' ^ 2 - 1) ^ 2 - 2 * (u' ^ 2 + A * u' + 1) * (u' ^ 2 + 1)) * (y * y - 1 * x * x))))
        = (t ^ 4 * ((u' ^ 2 - 1) ^ 2 - 2 * (u' ^ 2 + A * u' + 1) * (u' ^ 2 + 1))) * (D ^ 2 * (s + t) ^ 2 * (y * y - 1 * x * x)) := by ring
    rw [l, r, hy', f1, f2, f3, f4]
    ring
  have hx : P'.x ^ 2 = (P + P).x ^ 2 := by
    have a1 := P'.on
    have a2 := (P + P).on
    rw [key] at a1
    generalize (P + P).y = y at *
    have hy : 1 - d * y ^ 2 ≠ 0 := by
      intro e
      have : y ≠ 0 := by rintro rfl; simp at e
      exact g.nsq ⟨1 / y, by field_simp; linear_combination -e⟩
    apply mul_left_cancel₀ hy
    linear_combination a1 - a2
  rcases sq_eq_sq_iff_eq_or_eq_neg.1 hx with e | e
  · left; exact EPt.ext e key
  · right; exact EPt.ext e key

end

end Torsion.Ecc
