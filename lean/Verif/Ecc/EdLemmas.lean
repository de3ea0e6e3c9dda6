import Verif.Ecc.EdMulSpec

/-! The formulas on Edwards curves compute the group law. -/
set_option linter.unusedSectionVars false

namespace Torsion.Ecc

open Torsion.Spec (EdGood EPt Ext xaff EdConst)

variable {F : Type} [Field F] [DecidableEq F]

theorem ext_aff {a d : F} (P : EPt a d) : Ext (xaff P) P :=
  ⟨one_ne_zero, by simp [xaff], by simp [xaff], by simp [xaff]⟩

theorem ext_zero {a d : F} : Ext xge_zero (0 : EPt a d) :=
  ⟨one_ne_zero, by simp [xge_zero, ed_zero_x], by simp [xge_zero, ed_zero_y], by simp [xge_zero, ed_zero_x]⟩

theorem xaff_zero {a d : F} : xaff (0 : EPt a d) = xge_zero := by
  simp [xaff, xge_zero, ed_zero_x, ed_zero_y]

theorem ext_eq {a d : F} {p : Xge F} {P : EPt a d} (h : Ext p P) (hz : p.z = 1) : p = xaff P := by
  obtain ⟨x, y, z, t⟩ := p
  obtain ⟨_, h2, h3, h4⟩ := h
  simp only at h2 h3 h4 hz
  subst hz
  simp only [mul_one] at h2 h3 h4
  rw [h2, h3, h4, xaff]

theorem ext_inj {a d : F} {p : Xge F} {P Q : EPt a d} (h : Ext p P) (h' : Ext p Q) : P = Q := by
  ext
  · exact mul_right_cancel₀ h.z (h.x.symm.trans h'.x)
  · exact mul_right_cancel₀ h.z (h.y.symm.trans h'.y)

theorem xaff_inj {a d : F} {P Q : EPt a d} (h : xaff P = xaff Q) : P = Q :=
  ext_inj (ext_aff P) (h ▸ ext_aff Q)

theorem mul_a_eq (ec : Edwards F) (x : F) : edwards_mul_a ec x = ec.a * x := by
  simp only [edwards_mul_a, Edwards.mone_a, Edwards.one_a, fe_equal, decide_eq_true_eq]
  split
  · rename_i h; rw [h]; ring
  split
  · rename_i h; rw [h]; ring
  · ring

theorem mul_d_eq {ec : Edwards F} (c : EdConst ec) (x : F) : edwards_mul_d ec x = ec.d * x := by
  rw [edwards_mul_d]
  split
  · rename_i k h; rw [c.scmul k h]; ring
  · ring

/-- A sum from its numerators and denominators. -/
theorem ext_frac {a d e f g h : F} (P : EPt a d) (s : F) (hf : f ≠ 0) (hg : g ≠ 0) (hs : s ≠ 0)
    (h1 : P.x = e / g) (h2 : P.y = h / f) : Ext ⟨s * (e * f), s * (g * h), s * (f * g), s * (e * h)⟩ P := by
  refine ⟨mul_ne_zero hs (mul_ne_zero hf hg), ?_, ?_, ?_⟩ <;> simp only [h1, h2] <;> field_simp

section
variable {ec : Edwards F} [g : EdGood ec.a ec.d]

theorem add_ext (c : EdConst ec) {p q : Xge F} {P Q : EPt ec.a ec.d} (hp : Ext p P) (hq : Ext q Q) (affine : Bool)
    (haff : affine = true → q.z = 1) :
    Ext (if ec.mone_a then xge_add_m1 ec p q affine else xge_add_a ec p q affine) (P + Q) := by
  obtain ⟨n1, n2⟩ := ed_ne P.on Q.on
  obtain ⟨pz, px, py, pt⟩ := hp
  obtain ⟨qz, qx, qy, qt⟩ := hq
  have hD : (if affine = true then p.z else p.z * q.z) = p.z * q.z := by
    split
    · rename_i h; rw [haff h, mul_one]
    · rfl
  have hD2 : (if affine = true then p.z + p.z else (p.z + p.z) * q.z) = 2 * (p.z * q.z) := by
    split
    · rename_i h; rw [haff h]; ring
    · ring
  have hw : p.z * q.z ≠ 0 := mul_ne_zero pz qz
  split
  · rename_i hm
    have ha : ec.a = -1 := by simpa [Edwards.mone_a, fe_equal] using hm
    have k := ext_frac (P + Q) (4 * (p.z * q.z) ^ 2) n2 n1 (mul_ne_zero (ed_four (a := ec.a) (d := ec.d)) (pow_ne_zero _ hw))
      (ed_add_x P Q) (ed_add_y P Q)
    convert k using 1
    rw [xge_add_m1]
    simp only [hD2, c.k, px, py, pt, qx, qy, qt, Xge.mk.injEq, ha]
    refine ⟨?_, ?_, ?_, ?_⟩ <;> ring
  · have k := ext_frac (P + Q) ((p.z * q.z) ^ 2) n2 n1 (pow_ne_zero _ hw) (ed_add_x P Q) (ed_add_y P Q)
    convert k using 1
    rw [xge_add_a]
    simp only [hD, mul_a_eq, mul_d_eq c, px, py, pt, qx, qy, qt, Xge.mk.injEq]
    refine ⟨?_, ?_, ?_, ?_⟩ <;> ring

theorem sub_ext (c : EdConst ec) {p q : Xge F} {P Q : EPt ec.a ec.d} (hp : Ext p P) (hq : Ext q Q) (affine : Bool)
    (haff : affine = true → q.z = 1) :
    Ext (if ec.mone_a then xge_sub_m1 ec p q affine else xge_sub_a ec p q affine) (P - Q) := by
  have hn : Ext (xge_neg q) (-Q) := by
    refine ⟨hq.z, ?_, ?_, ?_⟩ <;> simp only [xge_neg, ed_neg_x, ed_neg_y, hq.x, hq.y, hq.t] <;> ring
  have h := add_ext c hp hn affine haff
  rw [sub_eq_add_neg]
  convert h using 1
  simp only [xge_neg, xge_sub_m1, xge_add_m1, xge_sub_a, xge_add_a, mul_a_eq, mul_d_eq c]
  split <;> simp only [Xge.mk.injEq] <;> refine ⟨?_, ?_, ?_, ?_⟩ <;> ring

theorem xadd (c : EdConst ec) {p q : Xge F} {P Q : EPt ec.a ec.d} (hp : Ext p P) (hq : Ext q Q) :
    Ext (xge_add ec p q) (P + Q) := add_ext c hp hq false (by simp)

theorem xsub (c : EdConst ec) {p q : Xge F} {P Q : EPt ec.a ec.d} (hp : Ext p P) (hq : Ext q Q) :
    Ext (xge_sub ec p q) (P - Q) := sub_ext c hp hq false (by simp)

theorem xmadd (c : EdConst ec) {p : Xge F} {P : EPt ec.a ec.d} (hp : Ext p P) (Q : EPt ec.a ec.d) :
    Ext (xge_mixed_add ec p (xaff Q)) (P + Q) := add_ext c hp (ext_aff Q) true (fun _ => rfl)

theorem xmsub (c : EdConst ec) {p : Xge F} {P : EPt ec.a ec.d} (hp : Ext p P) (Q : EPt ec.a ec.d) :
    Ext (xge_mixed_sub ec p (xaff Q)) (P - Q) := sub_ext c hp (ext_aff Q) true (fun _ => rfl)

theorem xneg {p : Xge F} {P : EPt ec.a ec.d} (hp : Ext p P) : Ext (xge_neg p) (-P) := by
  refine ⟨hp.z, ?_, ?_, ?_⟩ <;> simp only [xge_neg, ed_neg_x, ed_neg_y, hp.x, hp.y, hp.t] <;> ring

theorem xneg_cond {p : Xge F} {P : EPt ec.a ec.d} (hp : Ext p P) (s : Bool) : Ext (xge_neg_cond p s) (if s then -P else P) := by
  cases s
  · simpa [xge_neg_cond, fe_neg_cond, fe_select] using hp
  · simpa [xge_neg_cond, fe_neg_cond, fe_select, xge_neg] using xneg hp

theorem xdbl {p : Xge F} {P : EPt ec.a ec.d} (hp : Ext p P) : Ext (xge_dbl ec p) (P + P) := by
  obtain ⟨n1, n2⟩ := ed_ne P.on P.on
  obtain ⟨pz, px, py, pt⟩ := hp
  have k := ext_frac (P + P) (-(p.z ^ 4)) n2 n1 (neg_ne_zero.2 (pow_ne_zero _ pz)) (ed_add_x P P) (ed_add_y P P)
  convert k using 1
  rw [xge_dbl]
  simp only [mul_a_eq, px, py, Xge.mk.injEq]
  have e1 : ec.a * (P.x * p.z * (P.x * p.z)) + P.y * p.z * (P.y * p.z) = p.z ^ 2 * (1 + ec.d * P.x * P.x * P.y * P.y) := by
    linear_combination p.z ^ 2 * P.on
  have e2 : ec.a * (P.x * p.z * (P.x * p.z)) + P.y * p.z * (P.y * p.z) - (p.z * p.z + p.z * p.z)
      = -(p.z ^ 2) * (1 - ec.d * P.x * P.x * P.y * P.y) := by
    linear_combination p.z ^ 2 * P.on
  refine ⟨?_, ?_, ?_, ?_⟩
  · rw [e2]; ring
  · rw [e1]; ring
  · rw [e2, e1]; ring
  · ring

theorem xdbl_iter (n : Nat) {p : Xge F} {P : EPt ec.a ec.d} (hp : Ext p P) : Ext ((xge_dbl ec)^[n] p) (2 ^ n • P) := by
  induction n with
  | zero => simpa using hp
  | succ n ih =>
    rw [Function.iterate_succ_apply', pow_succ, mul_nsmul, two_nsmul]
    exact xdbl ih

end

theorem is_zero_iff {a d : F} {p : Xge F} {P : EPt a d} (hp : Ext p P) : xge_is_zero p = true ↔ P = 0 := by
  rw [xge_is_zero, fe_is_zero, fe_equal, Bool.and_eq_true, decide_eq_true_eq, decide_eq_true_eq]
  constructor
  · rintro ⟨h1, h2⟩
    ext
    · rw [hp.x] at h1
      exact (mul_eq_zero.1 h1).resolve_right hp.z
    · rw [hp.y] at h2
      exact mul_right_cancel₀ hp.z (h2.trans (one_mul _).symm)
  · rintro rfl
    rw [hp.x, hp.y, ed_zero_x, ed_zero_y]
    exact ⟨zero_mul _, one_mul _⟩

theorem equal_iff {a d : F} {p q : Xge F} {P Q : EPt a d} (hp : Ext p P) (hq : Ext q Q) : xge_equal p q = true ↔ P = Q := by
  rw [xge_equal, fe_equal, fe_equal, Bool.and_eq_true, decide_eq_true_eq, decide_eq_true_eq]
  have hz : p.z * q.z ≠ 0 := mul_ne_zero hp.z hq.z
  constructor
  · rintro ⟨h1, h2⟩
    rw [hp.x, hq.x] at h1
    rw [hp.y, hq.y] at h2
    ext
    · exact mul_right_cancel₀ hz (by linear_combination h1)
    · exact mul_right_cancel₀ hz (by linear_combination h2)
  · rintro rfl
    rw [hp.x, hq.x, hp.y, hq.y]
    exact ⟨by ring, by ring⟩

theorem validate_iff {ec : Edwards F} (c : EdConst ec) (p : Xge F) :
    xge_validate ec p = true ↔ ∃ P : EPt ec.a ec.d, Ext p P := by
  simp only [xge_validate, mul_a_eq, mul_d_eq c, fe_equal, fe_is_zero, Bool.and_eq_true, decide_eq_true_eq, Bool.not_eq_true',
    decide_eq_false_iff_not]
  constructor
  · rintro ⟨⟨h1, h2⟩, hz⟩
    refine ⟨⟨p.x / p.z, p.y / p.z, ?_⟩, hz, ?_, ?_, ?_⟩
    · field_simp
      linear_combination h1
    · simp only; field_simp
    · simp only; field_simp
    · simp only; field_simp; linear_combination h2
  · rintro ⟨P, hz, hx, hy, ht⟩
    refine ⟨⟨?_, ?_⟩, hz⟩
    · rw [hx, hy]; linear_combination p.z ^ 4 * P.on
    · rw [hx, hy, ht]; ring

theorem validate_xy_iff {ec : Edwards F} (c : EdConst ec) (x y : F) :
    edwards_validate_xy ec x y = true ↔ ec.a * x ^ 2 + y ^ 2 = 1 + ec.d * x ^ 2 * y ^ 2 := by
  simp only [edwards_validate_xy, mul_a_eq, mul_d_eq c, fe_equal, decide_eq_true_eq]
  constructor <;> intro h <;> linear_combination h

end Torsion.Ecc
