import Verif.Ecc.RistBatch
import Verif.Ecc.RistrettoLemmas

/-! Lemmas on `rge_export_batch`. -/
set_option linter.unusedSectionVars false

namespace Torsion.Ecc

open Torsion.Spec

section
variable {F : Type} [Field F] [DecidableEq F]

theorem batch_inv : ∀ (xs : List F) (a : F), a ≠ 0 → (rge_batch_left xs a).2 ≠ 0 ∧ (rge_batch_left xs a).1.length = xs.length ∧
    rge_batch_right (xs.zip (rge_batch_left xs a).1) (rge_batch_left xs a).2⁻¹ = (xs.map fun x => x⁻¹, a⁻¹)
  | [], a, h => ⟨h, rfl, rfl⟩
  | x :: xs, a, h => by
    have ht : fe_select x 1 (fe_is_zero x) ≠ 0 := by
      unfold fe_select fe_is_zero
      by_cases hx : x = 0
      · simp [hx]
      · simp [hx]
    obtain ⟨h1, h2, h3⟩ := batch_inv xs (a * fe_select x 1 (fe_is_zero x)) (mul_ne_zero h ht)
    refine ⟨h1, ?_, ?_⟩
    · simp only [rge_batch_left, List.length_cons, h2]
    · simp only [rge_batch_left, List.zip_cons_cons, rge_batch_right, h3, List.map_cons]
      refine Prod.ext ?_ ?_
      · dsimp only
        congr 1
        by_cases hx : x = 0
        · simp [fe_select, fe_is_zero, hx]
        · simp only [fe_select, fe_is_zero, hx, decide_false, Bool.false_eq_true, if_false]
          field_simp
      · dsimp only
        field_simp

end

section
variable {fe : FieldCode} [Fact fe.p.Prime] {ec : Edwards (ZMod fe.p)} [g : EdGood ec.a ec.d] {rs : Ristretto (ZMod fe.p)}

theorem set_odd_neg (h2 : (2 : ZMod fe.p) ≠ 0) (y : ZMod fe.p) : fe_set_odd fe (-y) false = fe_set_odd fe y false :=
  rist_root h2 (even_set_odd h2 _) (even_set_odd h2 _) (by rw [set_odd_sq, set_odd_sq, neg_sq])

theorem set_odd_flip (h2 : (2 : ZMod fe.p) ≠ 0) (x y z w : ZMod fe.p) (b : Bool) :
    fe_set_odd fe ((x - fe_neg_cond y b) * z * fe_neg_cond y b * w) false = fe_set_odd fe ((x - fe_neg_cond y b) * (z * y * w)) false := by
  cases b
  · simp only [fe_neg_cond, fe_select, Bool.false_eq_true, if_false]
    congr 1; ring
  · simp only [fe_neg_cond, fe_select, if_true]
    rw [← set_odd_neg h2]
    congr 1; ring

/-- What the batch needs of the constants for cofactor 4. -/
def RistAd (ec : Edwards (ZMod fe.p)) (rs : Ristretto (ZMod fe.p)) : Prop :=
  ec.h = 4 → rs.adm1si ^ 2 * (ec.a * ec.d - 1) = 1

/-- The state of a point: the double of the point is `(e / f, g / h)`. -/
theorem batch_state (c : EdConst ec) {p : Xge (ZMod fe.p)} {P : EPt ec.a ec.d} (hp : Ext p P) :
    let st := rge_batch_state ec p
    st.f ≠ 0 ∧ st.h ≠ 0 ∧ st.e = (P + P).x * st.f ∧ st.g = (P + P).y * st.h ∧ st.eg = st.e * st.g ∧ st.fh = st.f * st.h ∧
      st.h ^ 2 - st.g ^ 2 = (ec.a - ec.d) * st.e ^ 2 ∧ (ec.a = -1 → st.e ^ 2 + st.f ^ 2 = st.g ^ 2) := by
  obtain ⟨hz, hx, hy, ht⟩ := hp
  obtain ⟨n1, n2⟩ := ed_ne (a := ec.a) (d := ec.d) P.on P.on
  have on := P.on
  have hf : (rge_batch_state ec p).f = p.z ^ 2 * (1 + ec.d * P.x * P.x * P.y * P.y) := by
    simp only [rge_batch_state, mul_d_eq c, ht]; ring
  have hh : (rge_batch_state ec p).h = p.z ^ 2 * (1 - ec.d * P.x * P.x * P.y * P.y) := by
    simp only [rge_batch_state, mul_d_eq c, ht]; ring
  have he : (rge_batch_state ec p).e = p.z ^ 2 * (2 * P.x * P.y) := by
    simp only [rge_batch_state, hx, hy]; ring
  have hg : (rge_batch_state ec p).g = p.z ^ 2 * (P.y * P.y - ec.a * P.x * P.x) := by
    simp only [rge_batch_state, mul_a_eq, hx, hy]; ring
  refine ⟨?_, ?_, ?_, ?_, rfl, rfl, ?_, ?_⟩
  · rw [hf]; exact mul_ne_zero (pow_ne_zero _ hz) n1
  · rw [hh]; exact mul_ne_zero (pow_ne_zero _ hz) n2
  · rw [hf, he, ed_add_x, div_mul_eq_mul_div, eq_div_iff n1]; ring
  · rw [hh, hg, ed_add_y, div_mul_eq_mul_div, eq_div_iff n2]; ring
  · rw [hh, hg, he]
    linear_combination (-p.z ^ 4 * (ec.a * P.x ^ 2 + P.y ^ 2 + 1 + ec.d * P.x ^ 2 * P.y ^ 2)) * on
  · intro ha
    rw [hf, hg, he]
    linear_combination (-p.z ^ 4 * (ec.a * P.x ^ 2 + P.y ^ 2 + 1 + ec.d * P.x ^ 2 * P.y ^ 2)) * on + (4 * p.z ^ 4 * P.x ^ 2 * P.y ^ 2) * ha

theorem batch_num (c : EdConst ec) (r : RistH ec.h ec.a ec.d) (am : RistAm ec rs) (ad : RistAd ec rs) {p : Xge (ZMod fe.p)}
    {P : EPt ec.a ec.d} (hp : Ext p P) :
    RistNum ec.h (P + P) (rge_batch_num ec rs (rge_batch_state ec p) ((rge_batch_state ec p).eg * (rge_batch_state ec p).fh)⁻¹) := by
  obtain ⟨hf, hh, he, hg, heg, hfh, hq, hq'⟩ := batch_state c hp
  generalize rge_batch_state ec p = st at *
  obtain ⟨k, hk⟩ := r.k
  have a2 := r.a2
  have hev : 1 + (P + P).y ≠ 0 → ∃ s, s ^ 2 * (1 + (P + P).y) = -ec.a * (1 - (P + P).y) := even_sq a2 hk P
  generalize P + P = D at *
  unfold rge_batch_num
  dsimp only
  rw [heg, hfh]
  by_cases hxy : D.x * D.y = 0
  · have h0 : st.e * st.g = 0 := by rw [he, hg]; linear_combination st.f * st.h * hxy
    have hcl : RistEq ec.h D 0 := by
      rw [rist_zero_iff r.hh]
      rcases mul_eq_zero.1 hxy with h | h
      · exact Or.inl h
      · rcases r.c with ⟨-, ha, hns⟩ | ⟨h8, -⟩
        · exfalso
          obtain ⟨s, hs⟩ := hev (by rw [h, add_zero]; exact one_ne_zero)
          rw [h] at hs
          exact hns ⟨s, by linear_combination -hs + ha⟩
        · exact Or.inr ⟨h8, h⟩
    rw [h0]
    simp only [zero_mul, inv_zero, mul_zero]
    rw [set_odd_zero]
    exact ⟨by simp, Or.inl ⟨hcl, rfl⟩⟩
  · have hx0 := left_ne_zero_of_mul hxy
    have hy0 := right_ne_zero_of_mul hxy
    have hcl : ¬ RistEq ec.h D 0 := by
      rw [rist_zero_iff r.hh, not_or]
      exact ⟨hx0, fun h => hy0 h.2⟩
    have he0 : st.e ≠ 0 := by rw [he]; exact mul_ne_zero hx0 hf
    have hg0 : st.g ≠ 0 := by rw [hg]; exact mul_ne_zero hy0 hh
    have hzi : st.e * st.g * (st.e * st.g * (st.f * st.h))⁻¹ = (st.f * st.h)⁻¹ := by field_simp
    have hti : st.f * st.h * (st.e * st.g * (st.f * st.h))⁻¹ = (st.e * st.g)⁻¹ := by field_simp
    have hxyv : st.e * st.g * (st.f * st.h)⁻¹ = D.x * D.y := by rw [he, hg]; field_simp
    rw [hzi, hti, hxyv, set_odd_flip g.two]
    rcases hrot : (decide (ec.h = 8) && fe_is_odd fe (D.x * D.y)) with _ | _
    · simp only [fe_select, Bool.false_eq_true, if_false]
      generalize hm : (if ec.h = 8 then rs.amdsi else rs.adm1si) = m
      have hm2 : m ^ 2 * (ec.a * (ec.d - ec.a)) = 1 := by
        rcases r.c with ⟨h4, ha, -⟩ | ⟨h8, ha⟩
        · rw [if_neg (by omega)] at hm
          have := ad h4
          rw [hm, ha] at this
          rw [ha]; linear_combination this
        · rw [if_pos h8] at hm
          have := (am h8).2
          rw [hm, ha] at this
          rw [ha]; linear_combination this
      have hxx : st.h * st.e * (st.f * st.h)⁻¹ = D.x * st.h * st.h⁻¹ := by rw [he]; field_simp
      have := rist_write (h := ec.h) r.hh a2 (P := D) (Q := D) (z := st.h) (zi := st.h⁻¹) (D := m * st.g * (st.e * st.g)⁻¹)
        (mul_inv_cancel₀ hh) (rist_refl D) hcl (by
          have e1 : m * st.g * (st.e * st.g)⁻¹ = m / st.e := by field_simp
          have e2 : (m / st.e) ^ 2 * st.h ^ 2 * (ec.a * (D.y ^ 2 - 1)) = m ^ 2 * (ec.a * (st.g ^ 2 - st.h ^ 2)) / st.e ^ 2 := by
            rw [hg]; field_simp
          have e3 : st.g ^ 2 - st.h ^ 2 = (ec.d - ec.a) * st.e ^ 2 := by linear_combination -hq
          rw [e1, e2, e3, div_eq_iff (pow_ne_zero _ he0)]
          linear_combination st.e ^ 2 * hm2) (by
          intro h8
          rw [h8] at hrot
          exact is_odd_false.1 (by simpa using hrot))
      rw [← hg, ← hxx] at this
      exact this
    · simp only [fe_select, if_true]
      rw [Bool.and_eq_true, decide_eq_true_iff] at hrot
      obtain ⟨h8, hodd⟩ := hrot
      obtain ⟨q1, -⟩ := am h8
      rw [if_pos h8]
      rw [h8] at r hcl ⊢
      obtain ⟨Q', cl, ex, ey⟩ := rist_rot r q1 D
      have ha : ec.a = -1 := by
        rcases r.c with h | h
        · omega
        · exact h.2
      have hqn : rs.qnr ≠ 0 := by
        intro h
        rw [h] at q1
        exact one_ne_zero (neg_eq_zero.1 (by rw [← q1]; ring : (-1 : ZMod fe.p) = 0))
      have hz0 : st.f * rs.qnr ≠ 0 := mul_ne_zero hf hqn
      have hxx : st.f * rs.qnr * st.g * (st.f * st.h)⁻¹ = Q'.x * (st.f * rs.qnr) * (st.f * rs.qnr)⁻¹ := by
        rw [ex, hg]; field_simp
      have hyy : -st.e = Q'.y * (st.f * rs.qnr) := by rw [ey, he]; linear_combination -D.x * st.f * q1
      have hsum := hq' ha
      have := rist_write (h := 8) (Or.inr rfl) a2 (P := D) (Q := Q') (z := st.f * rs.qnr) (zi := (st.f * rs.qnr)⁻¹)
        (D := rs.qnr * -st.e * (st.e * st.g)⁻¹) (mul_inv_cancel₀ hz0) cl hcl (by
          have e1 : rs.qnr * -st.e * (st.e * st.g)⁻¹ = -rs.qnr / st.g := by field_simp
          have e2 : (-rs.qnr / st.g) ^ 2 * (st.f * rs.qnr) ^ 2 * (ec.a * (Q'.y ^ 2 - 1)) =
              rs.qnr ^ 4 * (-ec.a) * (st.f ^ 2 - rs.qnr ^ 2 * (D.x * st.f) ^ 2) / st.g ^ 2 := by
            rw [ey]; field_simp; ring
          have q4 : rs.qnr ^ 4 = 1 := by linear_combination (rs.qnr ^ 2 - 1) * q1
          rw [e1, e2, ← he, q4, q1, ha, div_eq_iff (pow_ne_zero _ hg0)]
          linear_combination hsum) (by
          intro _
          have e : Q'.x * Q'.y = -(D.x * D.y) := by rw [ex, ey]; linear_combination D.x * D.y * q1
          rw [e, rist_even_neg g.two hxy, ← is_odd_false, hodd]; simp)
      rw [← hyy, ← hxx] at this
      exact this

theorem zip_run {A B X Y Z : Type} (f : A → B) (u : B → X) (v : X → Y) (w : B × Y → Z) : ∀ l : List A,
    ((l.map f).zip (((l.map f).map u).map v)).map w = l.map fun p => w (f p, v (u (f p)))
  | [] => rfl
  | a :: l => by
    simp only [List.map_cons, List.zip_cons_cons]
    rw [zip_run f u v w l]

theorem batch_run (points : List (Xge (ZMod fe.p))) (hl : points.length ≤ 16) :
    rge_export_batch ec rs points = .ok (points.map fun p => leBytes (ristLen fe) (rge_batch_num ec rs (rge_batch_state ec p)
      ((rge_batch_state ec p).eg * (rge_batch_state ec p).fh)⁻¹).val) := by
  unfold rge_export_batch
  rw [if_neg (by omega)]
  obtain ⟨h1, -, h3⟩ := batch_inv ((points.map (rge_batch_state ec)).map fun st => st.eg * st.fh) 1 one_ne_zero
  have hc : C.check (fe_invert (rge_batch_left ((points.map (rge_batch_state ec)).map fun st => st.eg * st.fh) 1).2).2 = .ok () := by
    simp only [C.check, fe_invert, fe_is_zero, decide_eq_false (inv_ne_zero h1), Bool.not_false, if_true]
  dsimp only
  rw [hc, C.ok_bind, C.pure_eq]
  simp only [fe_invert, h3]
  congr 1
  exact zip_run _ _ _ _ _

end

end Torsion.Ecc
