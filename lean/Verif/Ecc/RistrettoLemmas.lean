import Verif.Ecc.Ristretto
import Verif.Ecc.RistrettoAlg
import Verif.Ecc.EdByteLemmas

/-! Lemmas on the Ristretto encoding: the classes, writing and reading. -/
set_option linter.unusedSectionVars false

namespace Torsion.Ecc

open Torsion.Spec

/-- What the encoding needs of the curve. -/
structure RistH {F : Type} [Field F] (h : Nat) (a d : F) : Prop where
  k : ∃ k, k ^ 2 = a * d - 1
  c : (h = 4 ∧ a = 1 ∧ ¬ IsSquare (-1 : F)) ∨ (h = 8 ∧ a = -1)

theorem RistH.hh {F : Type} [Field F] {h : Nat} {a d : F} (r : RistH h a d) : h = 4 ∨ h = 8 := by
  rcases r.c with h | h
  · exact Or.inl h.1
  · exact Or.inr h.1

theorem RistH.a2 {F : Type} [Field F] {h : Nat} {a d : F} (r : RistH h a d) : a ^ 2 = 1 := by
  rcases r.c with ⟨-, h, -⟩ | ⟨-, h⟩ <;> rw [h] <;> ring

section
variable {fe : FieldCode} [Fact fe.p.Prime] {a d : ZMod fe.p} [g : EdGood a d] {h : Nat}

/-! ### Classes -/

theorem rist_refl (P : EPt a d) : RistEq h P P := by rw [RistEq, sub_self, smul_zero]

theorem rist_symm {P Q : EPt a d} (e : RistEq h P Q) : RistEq h Q P := by
  rw [RistEq] at e ⊢
  rw [← neg_sub, smul_neg, e, neg_zero]

theorem rist_trans {P Q R : EPt a d} (e : RistEq h P Q) (e' : RistEq h Q R) : RistEq h P R := by
  rw [RistEq] at e e' ⊢
  rw [← sub_add_sub_cancel P Q R, smul_add, e, e', add_zero]

theorem rist_add {P Q P' Q' : EPt a d} (e : RistEq h P Q) (e' : RistEq h P' Q') : RistEq h (P + P') (Q + Q') := by
  rw [RistEq] at e e' ⊢
  rw [add_sub_add_comm, smul_add, e, e', add_zero]

theorem rist_neg {P Q : EPt a d} (e : RistEq h P Q) : RistEq h (-P) (-Q) := by
  rw [RistEq] at e ⊢
  rw [← neg_sub', smul_neg, e, neg_zero]

theorem rist_smul {P Q : EPt a d} (k : Nat) (e : RistEq h P Q) : RistEq h (k • P) (k • Q) := by
  rw [RistEq] at e ⊢
  rw [← smul_sub, smul_comm, e, smul_zero]

theorem rist_zero_iff (hh : h = 4 ∨ h = 8) (P : EPt a d) : RistEq h P 0 ↔ P.x = 0 ∨ (h = 8 ∧ P.y = 0) := by
  rw [RistEq, sub_zero, ed_half_iff hh]

theorem rist_eq_iff (hh : h = 4 ∨ h = 8) (P Q : EPt a d) :
    RistEq h P Q ↔ P.x * Q.y = P.y * Q.x ∨ (h = 8 ∧ P.y * Q.y + a * P.x * Q.x = 0) := by
  rw [RistEq, ed_half_iff hh, ed_sub_x, ed_sub_y]

/-- The members of the class of a point. -/
theorem rist_members (r : RistH h a d) {P Q : EPt a d} (e : RistEq h Q P) :
    (Q.x = P.x ∧ Q.y = P.y) ∨ (Q.x = -P.x ∧ Q.y = -P.y) ∨ (h = 8 ∧ ∃ i : ZMod fe.p, i ^ 2 = -1 ∧ Q.x = i * P.y ∧ Q.y = i * P.x) := by
  have hs : Q = P + (Q - P) := by abel
  rw [RistEq, ed_half_iff r.hh] at e
  generalize hT : Q - P = T at e hs
  rcases e with e | ⟨h8, e⟩
  · rcases ed_y_of_x0 T e with hy | hy
    · left
      rw [hs, ed_add_x, ed_add_y, e, hy]; constructor <;> simp
    · right; left
      rw [hs, ed_add_x, ed_add_y, e, hy]; constructor <;> simp
  · right; right
    have ha : a = -1 := by
      rcases r.c with h | h
      · omega
      · exact h.2
    refine ⟨h8, T.x, ?_, ?_⟩
    · have := T.on
      rw [e] at this
      linear_combination (-1) * this + T.x ^ 2 * ha
    · rw [hs, ed_add_x, ed_add_y, e]
      constructor
      · rw [mul_zero, mul_zero, zero_add, add_zero, div_one]
      · rw [mul_zero, mul_zero, zero_sub, sub_zero, div_one]
        linear_combination (-P.x * T.x) * ha

/-- The rotated point. -/
theorem rist_rot (r : RistH 8 a d) {i : ZMod fe.p} (hi : i ^ 2 = -1) (P : EPt a d) : ∃ Q : EPt a d, RistEq 8 Q P ∧ Q.x = i * P.y ∧ Q.y = i * P.x := by
  have ha : a = -1 := by
    rcases r.c with h | h
    · omega
    · exact h.2
  refine ⟨⟨i * P.y, i * P.x, ?_⟩, ?_, rfl, rfl⟩
  · rw [mul_pow, mul_pow, hi]
    linear_combination P.on + (-P.x ^ 2 - P.y ^ 2) * ha
  · rw [rist_eq_iff (Or.inr rfl)]
    right
    refine ⟨rfl, ?_⟩
    show i * P.x * P.y + a * (i * P.y) * P.x = 0
    linear_combination (i * P.y * P.x) * ha

theorem rist_flip (hh : h = 4 ∨ h = 8) (P : EPt a d) : ∃ Q : EPt a d, RistEq h Q P ∧ Q.x = -P.x ∧ Q.y = -P.y := by
  refine ⟨⟨-P.x, -P.y, ?_⟩, ?_, rfl, rfl⟩
  · rw [neg_sq, neg_sq, P.on]
  · rw [rist_eq_iff hh]
    left
    show -P.x * P.y = -P.y * P.x
    ring

theorem rist_even_neg (h2 : (2 : ZMod fe.p) ≠ 0) {x : ZMod fe.p} (hx : x ≠ 0) : (-x).val % 2 = 0 ↔ ¬ x.val % 2 = 0 := by
  have := odd_neg fe (p_odd' h2) hx
  omega

/-! ### Numbers -/

theorem rist_root (h2 : (2 : ZMod fe.p) ≠ 0) {s s' : ZMod fe.p} (e1 : s.val % 2 = 0) (e2 : s'.val % 2 = 0) (e : s ^ 2 = s' ^ 2) : s = s' :=
  root_unique h2 e (by rw [fe_is_odd, fe_is_odd, e1, e2])

/-- A class has one number. -/
theorem rist_num_fun (r : RistH h a d) {P Q : EPt a d} {s s' : ZMod fe.p} (e : RistEq h P Q) (h1 : RistNum h P s) (h2 : RistNum h Q s') : s = s' := by
  obtain ⟨p1, h1⟩ := h1
  obtain ⟨p2, h2⟩ := h2
  rcases h1 with ⟨z1, rfl⟩ | ⟨z1, P', c1, x1, t1, f1⟩
  · rcases h2 with ⟨z2, rfl⟩ | ⟨z2, -⟩
    · rfl
    · exact absurd (rist_trans (rist_symm e) z1) z2
  · rcases h2 with ⟨z2, rfl⟩ | ⟨z2, Q', c2, x2, t2, f2⟩
    · exact absurd (rist_trans e z2) z1
    · have hPQ : RistEq h Q' P' := rist_trans c2 (rist_trans (rist_symm e) (rist_symm c1))
      have hnz : ¬ RistEq h P' 0 := fun hz => z1 (rist_trans (rist_symm c1) hz)
      rw [rist_zero_iff r.hh, not_or] at hnz
      have hy : Q'.y = P'.y := by
        rcases rist_members r hPQ with ⟨-, hy⟩ | ⟨hx, -⟩ | ⟨h8, i, hi, hx, hy⟩
        · exact hy
        · exact absurd x1 ((rist_even_neg g.two hnz.1).1 (hx ▸ x2))
        · have hy0 : P'.y ≠ 0 := fun hy0 => hnz.2 ⟨h8, hy0⟩
          have e1 := t1 h8
          have e2 := t2 h8
          have e3 : Q'.x * Q'.y = -(P'.x * P'.y) := by rw [hx, hy]; linear_combination P'.x * P'.y * hi
          rw [e3] at e2
          exact absurd e1 ((rist_even_neg g.two (mul_ne_zero hnz.1 hy0)).1 e2)
      have h1 : 1 + P'.y ≠ 0 := fun h0 => hnz.1 ((ed_x0 P'.on).2 (Or.inr (by linear_combination h0)))
      rw [hy] at f2
      exact rist_root g.two p1 p2 (mul_right_cancel₀ h1 (f1.trans f2.symm))

theorem rist_num_zero (r : RistH h a d) {P : EPt a d} (h1 : RistNum h P 0) : RistEq h P 0 := by
  obtain ⟨-, ⟨z1, -⟩ | ⟨z1, P', c1, x1, t1, f1⟩⟩ := h1
  · exact z1
  · exfalso
    have hy : 1 - P'.y = 0 := by
      have : a * (1 - P'.y) = 0 := by linear_combination f1
      exact (mul_eq_zero.1 this).resolve_left g.a0
    have hx : P'.x = 0 := (ed_x0 P'.on).2 (Or.inl (by linear_combination -hy))
    exact z1 (rist_trans (rist_symm c1) ((rist_zero_iff r.hh P').2 (Or.inl hx)))

/-- Different classes have different numbers. -/
theorem rist_num_inj (r : RistH h a d) {P Q : EPt a d} {s : ZMod fe.p} (h1 : RistNum h P s) (h2 : RistNum h Q s) : RistEq h P Q := by
  by_cases hs : s = 0
  · rw [hs] at h1 h2
    exact rist_trans (rist_num_zero r h1) (rist_symm (rist_num_zero r h2))
  obtain ⟨-, ⟨-, h0⟩ | ⟨z1, P', c1, x1, t1, f1⟩⟩ := h1
  · exact absurd h0 hs
  obtain ⟨-, ⟨-, h0⟩ | ⟨z2, Q', c2, x2, t2, f2⟩⟩ := h2
  · exact absurd h0 hs
  have hnz : ¬ RistEq h P' 0 := fun hz => z1 (rist_trans (rist_symm c1) hz)
  rw [rist_zero_iff r.hh, not_or] at hnz
  have hy : P'.y = Q'.y := by
    have e1 : (P'.y - Q'.y) * (2 * a) = 0 := by
      linear_combination -(1 + Q'.y) * f1 + (1 + P'.y) * f2
    exact sub_eq_zero.1 ((mul_eq_zero.1 e1).resolve_right (mul_ne_zero g.two g.a0))
  have hPQ : P' = Q' := by
    rcases ed_same_y hy with e | e
    · exact e
    · have hx : Q'.x = -P'.x := by rw [e, ed_neg_x, neg_neg]
      exact absurd x1 ((rist_even_neg g.two hnz.1).1 (hx ▸ x2))
  rw [← hPQ] at c2
  exact rist_trans (rist_symm c1) c2

theorem rist_num_congr {P Q : EPt a d} {s : ZMod fe.p} (e : RistEq h P Q) (h1 : RistNum h P s) : RistNum h Q s := by
  obtain ⟨p1, ⟨z1, h0⟩ | ⟨z1, P', c1, x1, t1, f1⟩⟩ := h1
  · exact ⟨p1, Or.inl ⟨rist_trans (rist_symm e) z1, h0⟩⟩
  · exact ⟨p1, Or.inr ⟨fun hz => z1 (rist_trans e hz), P', rist_trans c1 e, x1, t1, f1⟩⟩

/-! ### Writing -/

theorem rsqrt_ok (hfe : fe ∈ fieldCodes) (z : Nat) (hz : z < 3) (u v : ZMod fe.p) : ∃ r ok, fe_rsqrt fe z u v = .ok (r, ok) ∧
    (ok = true ↔ v ≠ 0 ∧ IsSquare (u / v)) ∧ (ok = true → r ^ 2 * v = u) := by
  obtain ⟨r, ok, h1, h2, h3⟩ := fe_isqrt_exact fe hfe (ZMod.card fe.p) z hz u v
  refine ⟨fe_set_odd fe r false, ok, ?_, h2, ?_⟩
  · rw [fe_rsqrt, h1]; rfl
  · intro e
    rw [set_odd_sq, pow_two, h3 e, div_mul_cancel₀ _ (h2.1 e).1]

theorem rist_core {F : Type} [Field F] {a z y D : F} (ha : a ^ 2 = 1) (h : D ^ 2 * z ^ 2 * (a * (y ^ 2 - 1)) = 1) :
    ((z - y * z) * D) ^ 2 * (1 + y) = -a * (1 - y) := by
  linear_combination -(1 - y) * a * h + D ^ 2 * z ^ 2 * (y ^ 2 - 1) * (1 - y) * ha

theorem even_set_odd (h2 : (2 : ZMod fe.p) ≠ 0) (y : ZMod fe.p) : (fe_set_odd fe y false).val % 2 = 0 := by
  by_cases hy : y = 0
  · rw [hy, set_odd_zero]; simp
  · have := set_odd_parity h2 hy false
    rw [fe_is_odd, beq_eq_false_iff_ne] at this
    omega

theorem is_odd_false {x : ZMod fe.p} : fe_is_odd fe x = false ↔ x.val % 2 = 0 := by
  rw [fe_is_odd, beq_eq_false_iff_ne]; omega

/-- The last steps of writing a point: the sign of the ordinate, and the number. -/
theorem rist_write (hh : h = 4 ∨ h = 8) (ha : a ^ 2 = 1) {P Q : EPt a d} {z zi D : ZMod fe.p} (hz : z * zi = 1) (hc : RistEq h Q P) (hP : ¬ RistEq h P 0)
    (hD : D ^ 2 * z ^ 2 * (a * (Q.y ^ 2 - 1)) = 1) (ht : h = 8 → (Q.x * Q.y).val % 2 = 0) :
    RistNum h P (fe_set_odd fe ((z - fe_neg_cond (Q.y * z) (fe_is_odd fe (Q.x * z * zi))) * D) false) := by
  refine ⟨even_set_odd g.two _, Or.inr ⟨hP, ?_⟩⟩
  have hx0 : Q.x ≠ 0 := fun h0 => hP (rist_trans (rist_symm hc) ((rist_zero_iff hh Q).2 (Or.inl h0)))
  rw [mul_assoc Q.x, hz, mul_one]
  rcases hb : fe_is_odd fe Q.x with _ | _
  · refine ⟨Q, hc, is_odd_false.1 hb, ht, ?_⟩
    rw [set_odd_sq]
    exact rist_core ha hD
  · obtain ⟨Q', c, ex, ey⟩ := rist_flip hh Q
    refine ⟨Q', rist_trans c hc, ?_, ?_, ?_⟩
    · rw [ex, rist_even_neg g.two hx0, ← is_odd_false, hb]; simp
    · rw [ex, ey, neg_mul_neg]; exact ht
    · rw [set_odd_sq, fe_neg_cond, fe_select, if_pos rfl, ← neg_mul, ← ey]
      exact rist_core ha (by rw [ey, neg_sq]; exact hD)

end

section
variable {fe : FieldCode} [Fact fe.p.Prime] {ec : Edwards (ZMod fe.p)} [g : EdGood ec.a ec.d] {rs : Ristretto (ZMod fe.p)}

/-- What writing needs of the constants. -/
def RistAm (ec : Edwards (ZMod fe.p)) (rs : Ristretto (ZMod fe.p)) : Prop :=
  ec.h = 8 → rs.qnr ^ 2 = -1 ∧ rs.amdsi ^ 2 * (ec.a - ec.d) = 1

theorem rist_export (hfe : fe ∈ fieldCodes) (r : RistH ec.h ec.a ec.d) (am : RistAm ec rs) {p : Xge (ZMod fe.p)} {P Q : EPt ec.a ec.d}
    (hp : Ext p P) (hP : P = Q + Q) : ∃ s, rge_export ec rs p = .ok (leBytes (ristLen fe) s.val) ∧ RistNum ec.h P s := by
  obtain ⟨hz, hpx, hpy, hpt⟩ := hp
  obtain ⟨i, ok, e1, e2, e3⟩ := rsqrt_ok hfe 2 (by omega) 1 (p.x * p.y * (p.x * p.y) * edwards_mul_a ec ((p.y + p.z) * (p.y - p.z)))
  unfold rge_export
  dsimp only
  rw [e1, C.ok_bind]
  dsimp only
  rw [C.pure_eq]
  refine ⟨_, rfl, ?_⟩
  have a2 := r.a2
  obtain ⟨k, hk⟩ := r.k
  have hev : 1 + P.y ≠ 0 → ∃ s, s ^ 2 * (1 + P.y) = -ec.a * (1 - P.y) := by
    rw [hP]; exact even_sq a2 hk Q
  by_cases hxy : P.x * P.y = 0
  · -- the neutral class
    have h0 : p.x * p.y = 0 := by rw [hpx, hpy]; linear_combination p.z ^ 2 * hxy
    have hcl : RistEq ec.h P 0 := by
      rw [rist_zero_iff r.hh]
      rcases mul_eq_zero.1 hxy with h | h
      · exact Or.inl h
      · rcases r.c with ⟨-, ha, hns⟩ | ⟨h8, -⟩
        · exfalso
          obtain ⟨s, hs⟩ := hev (by rw [h, add_zero]; exact one_ne_zero)
          rw [h] at hs
          exact hns ⟨s, by linear_combination -hs + ha⟩
        · exact Or.inr ⟨h8, h⟩
    rw [h0]
    simp only [mul_zero, zero_mul]
    have ho : fe_is_odd fe (0 : ZMod fe.p) = false := by rw [is_odd_false]; simp
    rw [ho, Bool.and_false]
    simp only [fe_select, Bool.false_eq_true, if_false]
    rw [mul_zero, set_odd_zero]
    exact ⟨by simp, Or.inl ⟨hcl, rfl⟩⟩
  · have hx0 := left_ne_zero_of_mul hxy
    have hy0 := right_ne_zero_of_mul hxy
    have hcl : ¬ RistEq ec.h P 0 := by
      rw [rist_zero_iff r.hh, not_or]
      exact ⟨hx0, fun h => hy0 h.2⟩
    have hyn : ¬ (P.y = 1 ∨ P.y = -1) := fun h => hx0 ((ed_x0 P.on).2 h)
    have h1 : 1 + P.y ≠ 0 := fun h => hyn (Or.inr (by linear_combination h))
    have h1' : P.y - 1 ≠ 0 := fun h => hyn (Or.inl (by linear_combination h))
    obtain ⟨s, hs⟩ := hev h1
    -- the root exists
    have hu1 : edwards_mul_a ec ((p.y + p.z) * (p.y - p.z)) = ec.a * (P.y ^ 2 - 1) * p.z ^ 2 := by rw [mul_a_eq, hpy]; ring
    have hu2 : p.x * p.y = P.x * P.y * p.z ^ 2 := by rw [hpx, hpy]; ring
    rw [hu1, hu2] at e1 e2 e3 ⊢
    have hA : ec.a * (P.y ^ 2 - 1) = (s * (1 + P.y)) ^ 2 := by linear_combination (-(1 + P.y)) * hs
    have hA0 : ec.a * (P.y ^ 2 - 1) ≠ 0 := by
      have : P.y ^ 2 - 1 = (1 + P.y) * (P.y - 1) := by ring
      rw [this]
      exact mul_ne_zero g.a0 (mul_ne_zero h1 h1')
    have hok : ok = true := by
      rw [e2]
      constructor
      · exact mul_ne_zero (mul_ne_zero (mul_ne_zero hxy (pow_ne_zero _ hz)) (mul_ne_zero hxy (pow_ne_zero _ hz))) (mul_ne_zero hA0 (pow_ne_zero _ hz))
      · refine ⟨1 / (P.x * P.y * p.z ^ 2 * (s * (1 + P.y)) * p.z), ?_⟩
        rw [hA]
        have : s * (1 + P.y) ≠ 0 := by intro h; rw [h] at hA; exact hA0 (by rw [hA]; ring)
        have : s ≠ 0 := left_ne_zero_of_mul this
        field_simp
    have hi := e3 hok
    generalize hAd : ec.a * (P.y ^ 2 - 1) = A at *
    have hzi : A * p.z ^ 2 * i * (P.x * P.y * p.z ^ 2 * i) * p.t = p.z⁻¹ := by
      rw [hpt]
      apply eq_inv_of_mul_eq_one_left
      linear_combination hi
    rw [hzi]
    have hzz : p.z * p.z⁻¹ = 1 := mul_inv_cancel₀ hz
    have htz : p.t * p.z⁻¹ = P.x * P.y := by rw [hpt, mul_assoc, hzz, mul_one]
    rw [htz]
    rcases hrot : (decide (ec.h = 8) && fe_is_odd fe (P.x * P.y)) with _ | _
    · simp only [fe_select, Bool.false_eq_true, if_false]
      have := rist_write (h := ec.h) r.hh a2 (P := P) (Q := P) (D := P.x * P.y * p.z ^ 2 * i) hzz (rist_refl P) hcl
        (by rw [hAd]; linear_combination hi) (by
          intro h8
          rw [h8] at hrot
          exact is_odd_false.1 (by simpa using hrot))
      rw [← hpx, ← hpy] at this
      exact this
    · simp only [fe_select, if_true]
      rw [Bool.and_eq_true, decide_eq_true_iff] at hrot
      obtain ⟨h8, hodd⟩ := hrot
      obtain ⟨q1, q2⟩ := am h8
      rw [h8] at r hcl ⊢
      obtain ⟨Q', c, ex, ey⟩ := rist_rot r q1 P
      have ha : ec.a = -1 := by
        rcases r.c with h | h
        · omega
        · exact h.2
      have hprod := ed_prod P
      have := rist_write (h := 8) (Or.inr rfl) a2 (P := P) (Q := Q') (D := A * p.z ^ 2 * i * rs.amdsi) hzz c hcl
        (by
          have hq : ec.a * (Q'.y ^ 2 - 1) * A = (ec.a - ec.d) * P.x ^ 2 * P.y ^ 2 := by
            rw [ey, ← hAd, ← hprod, mul_pow, q1]
            linear_combination ((-P.x ^ 2 - 1) * (P.y ^ 2 - 1)) * a2 + (P.x ^ 2 * (1 - P.y ^ 2)) * ha
          have e : (A * p.z ^ 2 * i * rs.amdsi) ^ 2 * p.z ^ 2 * (ec.a * (Q'.y ^ 2 - 1)) =
            (i ^ 2 * A * p.z ^ 6 * rs.amdsi ^ 2) * (ec.a * (Q'.y ^ 2 - 1) * A) := by ring
          rw [e, hq]
          linear_combination rs.amdsi ^ 2 * (ec.a - ec.d) * hi + q2)
        (by
          intro _
          have e : Q'.x * Q'.y = -(P.x * P.y) := by rw [ex, ey]; linear_combination P.x * P.y * q1
          rw [e, rist_even_neg g.two hxy, ← is_odd_false, hodd]; simp)
      have e1 : p.y * rs.qnr = Q'.x * p.z := by rw [hpy, ex]; ring
      have e2 : p.x * rs.qnr = Q'.y * p.z := by rw [hpx, ey]; ring
      rw [e1, e2]
      exact this

/-! ### Reading -/

theorem rist_v {F : Type} [Field F] {a d s x y : F} (ha : a ^ 2 = 1) (h1 : 1 + y ≠ 0) (on : a * x ^ 2 + y ^ 2 = 1 + d * x ^ 2 * y ^ 2)
    (hs : s ^ 2 * (1 + y) = -a * (1 - y)) : x ^ 2 * (a * d * (1 + a * s ^ 2) ^ 2 - (1 - a * s ^ 2) ^ 2) = 4 * s ^ 2 ∧
    (1 + a * s ^ 2) * (1 + y) = 2 * y ∧ (1 - a * s ^ 2) * (1 + y) = 2 := by
  have hw : a * s ^ 2 * (1 + y) = -(1 - y) := by linear_combination a * hs - (1 - y) * ha
  have e1 : (1 + a * s ^ 2) * (1 + y) = 2 * y := by linear_combination hw
  have e2 : (1 - a * s ^ 2) * (1 + y) = 2 := by linear_combination -hw
  refine ⟨?_, e1, e2⟩
  apply mul_left_cancel₀ (pow_ne_zero 2 h1)
  have e3 : (1 + y) ^ 2 * (x ^ 2 * (a * d * (1 + a * s ^ 2) ^ 2 - (1 - a * s ^ 2) ^ 2)) =
      x ^ 2 * (a * d * ((1 + a * s ^ 2) * (1 + y)) ^ 2 - ((1 - a * s ^ 2) * (1 + y)) ^ 2) := by ring
  rw [e3, e1, e2]
  linear_combination (-4 * a) * on + (4 * x ^ 2) * ha - 4 * (1 + y) * hs

/-- The point with a number. -/
theorem rist_on {F : Type} [Field F] {a d s x y i v u1 u2 dx : F} (ha : a ^ 2 = 1) (hu1 : u1 = 1 + a * s ^ 2) (hu2 : u2 = 1 - a * s ^ 2)
    (hv : v = a * d * u1 ^ 2 - u2 ^ 2) (hi : i ^ 2 * (v * (u2 * u2)) = 1) (hdx : dx = i * u2) (hx : x ^ 2 = ((s + s) * dx) ^ 2)
    (hy : y = u1 * (i * dx * v)) : a * x ^ 2 + y ^ 2 = 1 + d * x ^ 2 * y ^ 2 ∧ s ^ 2 * (1 + y) = -a * (1 - y) ∧ x ^ 2 * v = 4 * s ^ 2 ∧ y * u2 = u1 := by
  have hv0 : v ≠ 0 := by rintro h; rw [h] at hi; simp at hi
  have hu0 : u2 ≠ 0 := by rintro h; rw [h] at hi; simp at hi
  have e1 : y * u2 = u1 := by rw [hy, hdx]; linear_combination u1 * hi
  have e2 : x ^ 2 * v = 4 * s ^ 2 := by rw [hx, hdx]; linear_combination 4 * s ^ 2 * hi
  refine ⟨?_, ?_, e2, e1⟩
  · apply mul_left_cancel₀ (mul_ne_zero hv0 (pow_ne_zero 2 hu0))
    have l : v * u2 ^ 2 * (a * x ^ 2 + y ^ 2) = a * (x ^ 2 * v) * u2 ^ 2 + (y * u2) ^ 2 * v := by ring
    have r : v * u2 ^ 2 * (1 + d * x ^ 2 * y ^ 2) = v * u2 ^ 2 + d * (x ^ 2 * v) * (y * u2) ^ 2 := by ring
    rw [l, r, e1, e2, hv, hu1, hu2]
    linear_combination (4 * s^2 * d * (1 + a * s^2)^2) * ha
  · apply mul_left_cancel₀ hu0
    have l : u2 * (s ^ 2 * (1 + y)) = s ^ 2 * (u2 + y * u2) := by ring
    have r : u2 * (-a * (1 - y)) = -a * (u2 - y * u2) := by ring
    rw [l, r, e1, hu1, hu2]
    linear_combination (-2 * s ^ 2) * ha

theorem le_take {xs : List Byte} {n v : Nat} (hl : n ≤ xs.length) (hv : v < 256 ^ n) : xs.take n = leBytes n v ↔ leVal (xs.take n) = v := by
  constructor
  · intro h; rw [h, Strm.leVal_leBytes, Nat.mod_eq_of_lt hv]
  · intro h
    apply Torsion.leVal_inj
    · rw [Strm.leBytes_len, List.length_take]; omega
    · rw [h, Strm.leVal_leBytes, Nat.mod_eq_of_lt hv]

theorem rist_import (hfe : fe ∈ fieldCodes) (c : EdConst ec) (r : RistH ec.h ec.a ec.d) {raw : List Byte} (hl : ristLen fe ≤ raw.length) :
    ∃ p ret, rge_import ec raw = .ok (p, ret) ∧ (ret = true ↔ ∃ P Q : EPt ec.a ec.d, P = Q + Q ∧ RistOf ec.h P (raw.take (ristLen fe))) ∧
      (ret = true → ∃ P Q : EPt ec.a ec.d, P = Q + Q ∧ RistOf ec.h P (raw.take (ristLen fe)) ∧ p = xaff P) := by
  have a2 := r.a2
  obtain ⟨k, hk⟩ := r.k
  have hk0 : k ^ 2 ≠ 0 := by
    rw [hk]; intro e
    exact ed_ad (a := ec.a) (d := ec.d) (by linear_combination (-ec.a) * e + ec.d * a2)
  have hsz : feSize fe = ristLen fe := rfl
  have him := fe_import_le_ok fe (xp := raw) (by rw [hsz]; exact hl)
  rw [hsz] at him
  generalize hval : leVal (raw.take (ristLen fe)) = N at him
  generalize hsd : ((N % 2 ^ fe.p.size : Nat) : ZMod fe.p) = s at him
  -- what the bytes say
  have hby : ∀ s' : ZMod fe.p, raw.take (ristLen fe) = leBytes (ristLen fe) s'.val ↔ N < fe.p ∧ s' = s := by
    intro s'
    rw [le_take hl (s'.val_lt.trans (feSize_pow fe)), hval]
    have hlt : N < fe.p → N % 2 ^ fe.p.size = N := fun h => Nat.mod_eq_of_lt (h.trans (Nat.lt_size_self _))
    constructor
    · intro h
      have h1 : N < fe.p := by rw [h]; exact s'.val_lt
      refine ⟨h1, ?_⟩
      rw [← hsd, hlt h1, h, ZMod.natCast_zmod_val]
    · rintro ⟨h1, h2⟩
      rw [h2, ← hsd, hlt h1, ZMod.val_cast_of_lt h1]
  unfold rge_import
  rw [him, C.ok_bind]
  dsimp only
  obtain ⟨u1, hu1⟩ : ∃ u1, u1 = 1 + ec.a * s ^ 2 := ⟨_, rfl⟩
  obtain ⟨u2, hu2⟩ : ∃ u2, u2 = 1 - ec.a * s ^ 2 := ⟨_, rfl⟩
  obtain ⟨v, hv⟩ : ∃ v, v = ec.a * ec.d * u1 ^ 2 - u2 ^ 2 := ⟨_, rfl⟩
  have q1 : 1 + edwards_mul_a ec (s * s) = u1 := by rw [mul_a_eq, hu1]; ring
  have q2 : 1 - edwards_mul_a ec (s * s) = u2 := by rw [mul_a_eq, hu2]; ring
  have q3 : edwards_mul_a ec (edwards_mul_d ec (u1 * u1)) - u2 * u2 = v := by rw [mul_a_eq, mul_d_eq c, hv]; ring
  rw [q1, q2, q3]
  obtain ⟨i, sq, e1, e2, e3⟩ := rsqrt_ok hfe 2 (by omega) 1 (v * (u2 * u2))
  rw [e1, C.ok_bind]
  dsimp only
  rw [C.pure_eq]
  generalize hxd : fe_set_odd fe ((s + s) * (i * u2)) false = x
  generalize hyd : u1 * (i * (i * u2) * v) = y
  have hxe : x.val % 2 = 0 := by rw [← hxd]; exact even_set_odd g.two _
  refine ⟨_, _, rfl, ?_⟩
  have hret : (if ec.h = 8 then ((decide (N < fe.p) && !fe_is_odd fe s) && sq && !fe_is_odd fe (x * y) && !fe_is_zero y) else
      ((decide (N < fe.p) && !fe_is_odd fe s) && sq)) = true ↔ N < fe.p ∧ s.val % 2 = 0 ∧ sq = true ∧ (ec.h = 8 → (x * y).val % 2 = 0 ∧ y ≠ 0) := by
    split
    · rename_i h8
      simp only [Bool.and_eq_true, Bool.not_eq_true', decide_eq_true_eq, is_odd_false, fe_is_zero, decide_eq_false_iff_not, h8]
      tauto
    · rename_i h8
      simp only [Bool.and_eq_true, Bool.not_eq_true', decide_eq_true_eq, is_odd_false, h8]
      tauto
  rw [hret]
  -- the code accepts
  have hsound : (N < fe.p ∧ s.val % 2 = 0 ∧ sq = true ∧ (ec.h = 8 → (x * y).val % 2 = 0 ∧ y ≠ 0)) →
      ∃ P Q : EPt ec.a ec.d, P = Q + Q ∧ RistOf ec.h P (raw.take (ristLen fe)) ∧ (⟨x, y, 1, x * y⟩ : Xge (ZMod fe.p)) = xaff P := by
    rintro ⟨h1, h2, h3, h4⟩
    obtain ⟨on, f, hxv, hyu⟩ := rist_on a2 hu1 hu2 hv (e3 h3) (rfl : i * u2 = _) (x := x) (by rw [← hxd]; exact set_odd_sq _ _) hyd.symm
    obtain ⟨P, hPx, hPy⟩ : ∃ P : EPt ec.a ec.d, P.x = x ∧ P.y = y := ⟨⟨x, y, on⟩, rfl, rfl⟩
    by_cases hs0 : s = 0
    · refine ⟨0, 0, (add_zero 0).symm, ⟨s, ⟨h2, Or.inl ⟨rist_refl 0, hs0⟩⟩, (hby s).2 ⟨h1, rfl⟩⟩, ?_⟩
      have hx0 : x = 0 := by rw [← hxd, hs0, add_zero, zero_mul, set_odd_zero]
      have hy1 : y = 1 := by
        rw [hs0] at hu1 hu2
        rw [hu1, hu2] at hyu
        linear_combination hyu
      rw [hx0, hy1, xaff, ed_zero_x, ed_zero_y]
    · have hv0 : v ≠ 0 := left_ne_zero_of_mul (e2.1 h3).1
      have hx0 : P.x ≠ 0 := by
        rw [hPx]
        rintro h
        rw [h] at hxv
        have h4 : (2 * s) * (2 * s) = 0 := by linear_combination -hxv
        rcases mul_eq_zero.1 h4 with h | h <;> exact mul_ne_zero g.two hs0 h
      obtain ⟨Q, hQ⟩ := even_of a2 hk hx0 (s := s) (by rw [hPy]; exact f)
      refine ⟨P, Q, hQ, ⟨s, ⟨h2, Or.inr ⟨?_, P, rist_refl P, by rw [hPx]; exact hxe, ?_, by rw [hPy]; exact f⟩⟩, (hby s).2 ⟨h1, rfl⟩⟩, ?_⟩
      · rw [rist_zero_iff r.hh, not_or]
        refine ⟨hx0, ?_⟩
        rintro ⟨h8, h0⟩
        exact (h4 h8).2 (hPy ▸ h0)
      · intro h8
        rw [hPx, hPy]
        exact (h4 h8).1
      · rw [xaff, hPx, hPy]
  refine ⟨⟨fun h => ?_, ?_⟩, hsound⟩
  · obtain ⟨P, Q, h1, h2, -⟩ := hsound h
    exact ⟨P, Q, h1, h2⟩
  · rintro ⟨P, Q, hPQ, s', ⟨hp', hn⟩, hb⟩
    obtain ⟨hN, rfl⟩ := (hby s').1 hb
    refine ⟨hN, hp', ?_⟩
    rcases hn with ⟨-, hs0⟩ | ⟨hnz, P', c1, x1, t1, f1⟩
    · rw [hs0] at hu1 hu2
      have e1' : u1 = 1 := by rw [hu1]; ring
      have e2' : u2 = 1 := by rw [hu2]; ring
      have ev : v = k ^ 2 := by rw [hv, e1', e2', hk]; ring
      have hsq : sq = true := by
        rw [e2, e2', ev, mul_one, mul_one]
        refine ⟨hk0, 1 / k, ?_⟩
        rw [div_mul_div_comm, one_mul, pow_two]
      refine ⟨hsq, fun _ => ?_⟩
      have hx0 : x = 0 := by rw [← hxd, hs0, add_zero, zero_mul, set_odd_zero]
      obtain ⟨-, -, -, hyu⟩ := rist_on a2 (s := (0 : ZMod fe.p)) hu1 hu2 hv (e3 hsq) (rfl : i * u2 = _) (x := 0) (by ring) hyd.symm
      rw [e1', e2', mul_one] at hyu
      rw [hx0, hyu]
      exact ⟨by simp, one_ne_zero⟩
    · have hnz' : ¬ RistEq ec.h P' 0 := fun hz => hnz (rist_trans (rist_symm c1) hz)
      rw [rist_zero_iff r.hh, not_or] at hnz'
      have h1 : 1 + P'.y ≠ 0 := fun h0 => hnz'.1 ((ed_x0 P'.on).2 (Or.inr (by linear_combination h0)))
      obtain ⟨hV, w1, w2⟩ := rist_v a2 h1 P'.on f1
      rw [← hu1] at w1
      rw [← hu2] at w2
      rw [← hu1, ← hu2, ← hv] at hV
      have hu20 : u2 ≠ 0 := by
        rintro h; rw [h, zero_mul] at w2; exact g.two w2.symm
      have hs0 : s' ≠ 0 := by
        rintro h
        rw [h] at f1
        have : ec.a * (1 - P'.y) = 0 := by linear_combination f1
        have hy : 1 - P'.y = 0 := (mul_eq_zero.1 this).resolve_left g.a0
        exact hnz'.1 ((ed_x0 P'.on).2 (Or.inl (by linear_combination -hy)))
      have hv' : v = (2 * s' / P'.x) ^ 2 := by
        rw [div_pow, eq_div_iff (pow_ne_zero _ hnz'.1)]
        linear_combination hV
      have hsx : 2 * s' / P'.x ≠ 0 := div_ne_zero (mul_ne_zero g.two hs0) hnz'.1
      have hsq : sq = true := by
        rw [e2, hv']
        refine ⟨mul_ne_zero (pow_ne_zero _ hsx) (mul_ne_zero hu20 hu20), 1 / (2 * s' / P'.x * u2), ?_⟩
        rw [div_mul_div_comm, one_mul]
        congr 1
        ring
      refine ⟨hsq, fun h8 => ?_⟩
      obtain ⟨-, -, hxv, hyu⟩ := rist_on a2 hu1 hu2 hv (e3 hsq) (rfl : i * u2 = _) (x := x) (by rw [← hxd]; exact set_odd_sq _ _) hyd.symm
      have hv0 : v ≠ 0 := by rw [hv']; exact pow_ne_zero _ hsx
      have hxx : x = P'.x := rist_root g.two hxe x1 (mul_right_cancel₀ hv0 (hxv.trans hV.symm))
      have hyy : y = P'.y := by
        apply mul_right_cancel₀ hu20
        apply mul_right_cancel₀ h1
        rw [hyu]
        linear_combination w1 - P'.y * w2
      rw [hxx, hyy]
      exact ⟨t1 h8, fun h0 => hnz'.2 ⟨h8, h0⟩⟩

end

end Torsion.Ecc
