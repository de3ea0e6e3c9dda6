import Verif.Ecc.WeiHash
import Verif.Ecc.WeiHashSpec
import Verif.Ecc.EncodeProps
import Verif.Ecc.MontElligLemmas

/-! Lemmas on the maps from numbers to points of a short Weierstrass curve. -/
namespace Torsion.Ecc

open Torsion.Spec

section
variable {fe : FieldCode} [Fact fe.p.Prime]

variable {ec : WeiT fe} {G : Pt ec.toCurve} {m : WeiMap (ZMod fe.p)} (ok : EcOk ec G) (mc : MapC ec m)

theorem solve_weiG (x : ZMod fe.p) : wei_solve_y2 ec.toCurve x = weiG ec.a ec.b x := by rw [solve_y2]; rfl

omit [Fact fe.p.Prime] in
theorem bool_par {u y : ZMod fe.p} : fe_is_odd fe u = fe_is_odd fe y ↔ u.val % 2 = y.val % 2 := by
  unfold fe_is_odd
  have h1 := Nat.mod_two_eq_zero_or_one u.val
  have h2 := Nat.mod_two_eq_zero_or_one y.val
  rcases h1 with h1 | h1 <;> rcases h2 with h2 | h2 <;> rw [h1, h2] <;> simp

include ok

theorem weiG_ne (x : ZMod fe.p) : weiG ec.a ec.b x ≠ 0 := ok.wei.good.odd (by rw [ok.cofactor]) x

theorem b_ne : ec.b ≠ 0 := by
  have := weiG_ne ok 0
  rwa [weiG, mul_zero, add_zero, zero_pow (by norm_num), zero_add] at this

/-- The last steps of both maps. -/
theorem map_root {x : ZMod fe.p} (u : ZMod fe.p) (hx : IsSquare (weiG ec.a ec.b x)) : ∃ y, fe_sqrt fe 0 0 (weiG ec.a ec.b x) = .ok (y, true) ∧
    fe_set_odd fe y (fe_is_odd fe u) ^ 2 = weiG ec.a ec.b x ∧ (fe_set_odd fe y (fe_is_odd fe u)).val % 2 = u.val % 2 := by
  obtain ⟨y, b, h1, h2, h3⟩ := fe_sqrt_exact fe ok.field (ZMod.card fe.p) 0 0 (by decide) (by decide) (weiG ec.a ec.b x)
  obtain rfl : b = true := h2.2 hx
  have e := h3 hx
  refine ⟨y, h1, by rw [set_odd_sq, pow_two, e], bool_par.1 (set_odd_parity ok.wei.good.two ?_ _)⟩
  rintro rfl
  exact weiG_ne ok x (by rw [← e, mul_zero])

include mc

omit ok mc in
theorem sswuX1_eqn (ha : ec.a ≠ 0) {u : ZMod fe.p} (hw : m.z ^ 2 * u ^ 4 + m.z * u ^ 2 ≠ 0) :
    sswuX1 ec.a ec.b m.z u * ec.a * (m.z ^ 2 * u ^ 4 + m.z * u ^ 2) = -ec.b * (m.z ^ 2 * u ^ 4 + m.z * u ^ 2 + 1) := by
  rw [sswuX1, if_neg hw]
  generalize m.z ^ 2 * u ^ 4 + m.z * u ^ 2 = D at *
  field_simp

omit ok mc in
theorem sswu_scale (ha : ec.a ≠ 0) {u : ZMod fe.p} (hw : m.z ^ 2 * u ^ 4 + m.z * u ^ 2 ≠ 0) :
    weiG ec.a ec.b (m.z * u ^ 2 * sswuX1 ec.a ec.b m.z u) = (m.z * u ^ 3) ^ 2 * (m.z * weiG ec.a ec.b (sswuX1 ec.a ec.b m.z u)) := by
  have e1 := sswuX1_eqn ha hw
  generalize sswuX1 ec.a ec.b m.z u = x at e1
  unfold weiG
  linear_combination (1 - m.z * u ^ 2) * e1

/-- The second candidate is an abscissa if the first is not. -/
theorem sswu_second (ha : ec.a ≠ 0) (u : ZMod fe.p) (h : ¬ IsSquare (weiG ec.a ec.b (sswuX1 ec.a ec.b m.z u))) :
    m.z ^ 2 * u ^ 4 + m.z * u ^ 2 ≠ 0 ∧ IsSquare (weiG ec.a ec.b (m.z * u ^ 2 * sswuX1 ec.a ec.b m.z u)) := by
  obtain ⟨hz, h0, -⟩ := mc.sswu ha
  have hw : m.z ^ 2 * u ^ 4 + m.z * u ^ 2 ≠ 0 := by
    intro hw
    rw [sswuX1, if_pos hw] at h
    exact h h0
  refine ⟨hw, ?_⟩
  rw [sswu_scale ha hw]
  exact IsSquare.mul (IsSquare.sq _) (non_mul ok.wei.good.two hz h)

theorem sswu_ok (ha : ec.a ≠ 0) (u : ZMod fe.p) : ∃ x y, wei_sswu ec m u = .ok ⟨x, y, false⟩ ∧ Sswu ec.a ec.b m.z u x ∧
    y ^ 2 = weiG ec.a ec.b x ∧ y.val % 2 = u.val % 2 := by
  have hx1 : fe_select (-ec.b * m.ai * ((fe_invert (m.z * m.z * (u * u * (u * u)) + m.z * (u * u))).1 + 1)) (ec.b * m.zi * m.ai)
      (!(fe_invert (m.z * m.z * (u * u * (u * u)) + m.z * (u * u))).2) = sswuX1 ec.a ec.b m.z u := by
    have e : m.z * m.z * (u * u * (u * u)) + m.z * (u * u) = m.z ^ 2 * u ^ 4 + m.z * u ^ 2 := by ring
    rw [e, mc.ai, mc.zi]
    unfold sswuX1 fe_select fe_invert fe_is_zero
    have hz := mc.z0
    by_cases h : m.z ^ 2 * u ^ 4 + m.z * u ^ 2 = 0
    · rw [if_pos h, h]
      simp only [inv_zero, decide_true, Bool.not_true, Bool.not_false, if_true]
      field_simp
    · rw [if_neg h, decide_eq_false (inv_ne_zero h)]
      simp only [Bool.not_false, Bool.not_true, Bool.false_eq_true, if_false]
      generalize m.z ^ 2 * u ^ 4 + m.z * u ^ 2 = D at *
      field_simp
      ring
  obtain ⟨s, s1, s2⟩ := fe_is_square_exact fe ok.field (ZMod.card fe.p) (weiG ec.a ec.b (sswuX1 ec.a ec.b m.z u))
  unfold wei_sswu
  dsimp only
  rw [hx1, solve_weiG, solve_weiG, s1, C.ok_bind]
  cases s with
  | true =>
    have hs := s2.1 rfl
    obtain ⟨y, f1, f2, f3⟩ := map_root ok u hs
    simp only [Bool.not_true, fe_select, Bool.false_eq_true, if_false]
    rw [f1, C.ok_bind]
    dsimp only
    rw [C.check, if_pos rfl, C.ok_bind]
    exact ⟨_, _, rfl, Or.inl ⟨hs, rfl⟩, f2, f3⟩
  | false =>
    have hn : ¬ IsSquare (weiG ec.a ec.b (sswuX1 ec.a ec.b m.z u)) := fun h => by simpa using s2.2 h
    have e2 : m.z * (u * u) * sswuX1 ec.a ec.b m.z u = m.z * u ^ 2 * sswuX1 ec.a ec.b m.z u := by ring
    obtain ⟨y, f1, f2, f3⟩ := map_root ok u (sswu_second ok mc ha u hn).2
    simp only [Bool.not_false, fe_select, if_true]
    rw [e2, f1, C.ok_bind]
    dsimp only
    rw [C.check, if_pos rfl, C.ok_bind]
    exact ⟨_, _, rfl, Or.inr ⟨hn, rfl⟩, f2, f3⟩

theorem sswui_ok (ha : ec.a ≠ 0) (p : Wge (ZMod fe.p)) (hint : BitVec 32) : ∃ u r, wei_sswui ec m p hint = .ok (u, r) ∧ (p.inf = true → r = false) ∧
    (r = true → p.y ≠ 0 → p.y ^ 2 = weiG ec.a ec.b p.x →
      (u ≠ 0 → Sswu ec.a ec.b m.z u p.x ∧ u.val % 2 = p.y.val % 2) ∧ (u = 0 → ec.a * p.x + ec.b = 0)) := by
  have h2 := ok.wei.good.two
  have hb := b_ne ok
  have hz0 := mc.z0
  obtain ⟨hz, -, -⟩ := mc.sswu ha
  unfold wei_sswui
  dsimp only
  obtain ⟨c, r1, c1, c2, c3⟩ := fe_sqrt_exact fe ok.field (ZMod.card fe.p) 0 0 (by decide) (by decide)
    (ec.a * ec.a * (p.x * p.x) - (wei_mul_a ec.toCurve ec.b + wei_mul_a ec.toCurve ec.b) * p.x - ec.b * ec.b * 3)
  rw [c1, C.ok_bind]
  dsimp only
  generalize ((hint &&& 3 &&& 1) != 0) = s
  generalize ((hint &&& 3) >>> 1 != 0) = t
  obtain ⟨v, r2, v1, v2, v3⟩ := fe_isqrt_exact fe ok.field (ZMod.card fe.p) 0 (by decide)
    (fe_select (-(wei_mul_a ec.toCurve p.x + ec.b - c)) (-(wei_mul_a ec.toCurve p.x + ec.b + c)) s)
    (fe_select ((wei_mul_a ec.toCurve p.x + ec.b + (wei_mul_a ec.toCurve p.x + ec.b)) * m.z) ((ec.b + ec.b) * m.z) t)
  rw [v1, C.ok_bind, C.pure_eq]
  refine ⟨_, _, rfl, fun h => by simp [h], ?_⟩
  dsimp only
  intro hr hy he
  simp only [Bool.and_eq_true, Bool.not_eq_true'] at hr
  obtain ⟨⟨rfl, rfl⟩, hi⟩ := hr
  have hc := c3 (c2.1 rfl)
  have hv := v3 rfl
  obtain ⟨hd, -⟩ := v2.1 rfl
  simp only [mul_a] at hc hv hd
  set u := fe_set_odd fe v (fe_is_odd fe p.y) with hu
  have huv : u ^ 2 = v ^ 2 := by rw [hu, set_odd_sq]
  have hpar : u ≠ 0 → u.val % 2 = p.y.val % 2 := by
    intro h0
    refine bool_par.1 (set_odd_parity h2 ?_ _)
    rintro rfl
    exact h0 (by rw [hu, set_odd_zero])
  have hkey : ∃ e : ZMod fe.p, e * e = c * c ∧ u ^ 2 * (fe_select ((ec.a * p.x + ec.b + (ec.a * p.x + ec.b)) * m.z) ((ec.b + ec.b) * m.z) t) = -(ec.a * p.x + ec.b) + e := by
    refine ⟨fe_select c (-c) s, by unfold fe_select; split <;> ring, ?_⟩
    rw [huv, pow_two, hv, div_mul_cancel₀ _ hd]
    unfold fe_select
    cases s
    · simp only [Bool.false_eq_true, if_false]; ring
    · simp only [if_true]; ring
  obtain ⟨e, he1, he2⟩ := hkey
  rw [hc] at he1
  cases t with
  | false =>
    simp only [fe_select, Bool.false_eq_true, if_false] at he2 hd
    have hd' : ec.a * p.x + ec.b ≠ 0 := by
      intro h; apply hd; rw [h]; ring
    have h4 : (4 : ZMod fe.p) * (ec.a * p.x + ec.b) ≠ 0 := mul_ne_zero (by rw [show (4 : ZMod fe.p) = 2 * 2 by norm_num]; exact mul_ne_zero h2 h2) hd'
    have hq : (ec.a * p.x + ec.b) * (m.z ^ 2 * u ^ 4 + m.z * u ^ 2) = -ec.b := by
      apply mul_left_cancel₀ h4
      have e3 : e = 2 * (ec.a * p.x + ec.b) * (m.z * u ^ 2) + (ec.a * p.x + ec.b) := by linear_combination -he2
      rw [e3] at he1
      linear_combination he1
    have hw : m.z ^ 2 * u ^ 4 + m.z * u ^ 2 ≠ 0 := by
      intro h; rw [h, mul_zero] at hq; exact hb (by linear_combination hq)
    have hx : p.x = sswuX1 ec.a ec.b m.z u := by
      apply mul_right_cancel₀ (mul_ne_zero ha hw)
      rw [← mul_assoc (sswuX1 _ _ _ _), sswuX1_eqn ha hw]
      linear_combination hq
    refine ⟨fun h0 => ⟨Or.inl ⟨?_, hx⟩, hpar h0⟩, ?_⟩
    · rw [← hx, ← he]; exact IsSquare.sq _
    · intro h0
      rw [h0] at hw
      exact absurd (by ring) hw
  | true =>
    simp only [fe_select, if_true] at he2 hd
    have h4 : (4 : ZMod fe.p) * ec.b ≠ 0 := mul_ne_zero (by rw [show (4 : ZMod fe.p) = 2 * 2 by norm_num]; exact mul_ne_zero h2 h2) hb
    have hq : ec.b * (m.z * u ^ 2) ^ 2 + (ec.a * p.x + ec.b) * (m.z * u ^ 2 + 1) = 0 := by
      apply mul_left_cancel₀ h4
      have e3 : e = 2 * ec.b * (m.z * u ^ 2) + (ec.a * p.x + ec.b) := by linear_combination -he2
      rw [e3] at he1
      linear_combination he1
    refine ⟨fun h0 => ?_, fun h0 => ?_⟩
    · have hw1 : m.z * u ^ 2 + 1 ≠ 0 := by
        intro h
        have h' : m.z * u ^ 2 = -1 := by linear_combination h
        rw [h, h'] at hq
        exact hb (by linear_combination hq)
      have hw0 : m.z * u ^ 2 ≠ 0 := mul_ne_zero hz0 (pow_ne_zero _ h0)
      have hw : m.z ^ 2 * u ^ 4 + m.z * u ^ 2 ≠ 0 := by
        have := mul_ne_zero hw0 hw1
        intro h; apply this; linear_combination h
      have hx : p.x = m.z * u ^ 2 * sswuX1 ec.a ec.b m.z u := by
        apply mul_right_cancel₀ (mul_ne_zero ha hw1)
        have := sswuX1_eqn ha hw
        linear_combination hq - this
      refine ⟨Or.inr ⟨?_, hx⟩, hpar h0⟩
      rintro ⟨t, ht⟩
      have := sswu_scale ha hw
      rw [← hx, ← he, ht] at this
      have hzt : m.z * u ^ 3 * t ≠ 0 := by
        intro h
        have : p.y ^ 2 = 0 := by rw [this]; linear_combination (m.z * u ^ 3 * t * m.z) * h
        exact hy (pow_eq_zero_iff (n := 2) (by norm_num) |>.1 this)
      apply hz
      refine ⟨p.y / (m.z * u ^ 3 * t), ?_⟩
      rw [div_mul_div_comm, eq_div_iff (mul_ne_zero hzt hzt)]
      linear_combination -this
    · rw [h0] at hq
      linear_combination hq

theorem sswui_all (ha : ec.a ≠ 0) {p : Wge (ZMod fe.p)} {u : ZMod fe.p} (hi : p.inf = false) (hw : m.z ^ 2 * u ^ 4 + m.z * u ^ 2 ≠ 0)
    (hx : Sswu ec.a ec.b m.z u p.x) (hp : p.y.val % 2 = u.val % 2) :
    ∃ k : BitVec 32, k &&& 3 = k ∧ ∀ hint : BitVec 32, hint &&& 3 = k → wei_sswui ec m p hint = .ok (u, true) := by
  have h2 := ok.wei.good.two
  have hb := b_ne ok
  have hz0 := mc.z0
  have hu0 : u ≠ 0 := by rintro rfl; exact hw (by ring)
  have e1 := sswuX1_eqn ha hw
  have key : ∃ (f : ZMod fe.p) (t : Bool), f * f = ec.a * ec.a * (p.x * p.x) - (ec.a * ec.b + ec.a * ec.b) * p.x - ec.b * ec.b * 3 ∧
      (fe_select ((ec.a * p.x + ec.b + (ec.a * p.x + ec.b)) * m.z) ((ec.b + ec.b) * m.z) t) ≠ 0 ∧
      u ^ 2 * (fe_select ((ec.a * p.x + ec.b + (ec.a * p.x + ec.b)) * m.z) ((ec.b + ec.b) * m.z) t) = -(ec.a * p.x + ec.b) + f := by
    rcases hx with ⟨-, hx⟩ | ⟨-, hx⟩
    · rw [← hx] at e1
      have hq : (ec.a * p.x + ec.b) * (m.z ^ 2 * u ^ 4 + m.z * u ^ 2) = -ec.b := by linear_combination e1
      have hd : ec.a * p.x + ec.b ≠ 0 := by
        intro h; rw [h, zero_mul] at hq; exact hb (by linear_combination hq)
      refine ⟨2 * (ec.a * p.x + ec.b) * (m.z * u ^ 2) + (ec.a * p.x + ec.b), false, ?_, ?_, ?_⟩
      · linear_combination 4 * (ec.a * p.x + ec.b) * hq
      · simp only [fe_select, Bool.false_eq_true, if_false, ← two_mul]
        exact mul_ne_zero (mul_ne_zero h2 hd) hz0
      · simp only [fe_select, Bool.false_eq_true, if_false]; ring
    · have hw1 : m.z * u ^ 2 + 1 ≠ 0 := by
        intro h; apply hw; linear_combination m.z * u ^ 2 * h
      have hq : ec.b * (m.z * u ^ 2) ^ 2 + (ec.a * p.x + ec.b) * (m.z * u ^ 2 + 1) = 0 := by
        rw [hx]; linear_combination e1
      refine ⟨2 * ec.b * (m.z * u ^ 2) + (ec.a * p.x + ec.b), true, ?_, ?_, ?_⟩
      · linear_combination 4 * ec.b * hq
      · simp only [fe_select, if_true, ← two_mul]
        exact mul_ne_zero (mul_ne_zero h2 hb) hz0
      · simp only [fe_select, if_true]; ring
  obtain ⟨f, t, f1, f2, f3⟩ := key
  obtain ⟨c, r1, c1, c2, c3⟩ := fe_sqrt_exact fe ok.field (ZMod.card fe.p) 0 0 (by decide) (by decide)
    (ec.a * ec.a * (p.x * p.x) - (ec.a * ec.b + ec.a * ec.b) * p.x - ec.b * ec.b * 3)
  have hs : IsSquare (ec.a * ec.a * (p.x * p.x) - (ec.a * ec.b + ec.a * ec.b) * p.x - ec.b * ec.b * 3) := ⟨f, f1.symm⟩
  obtain rfl : r1 = true := c2.2 hs
  have hc := c3 hs
  rw [← f1] at hc
  have hcf : ∃ s : Bool, f = fe_select c (-c) s := by
    rcases sq_eq_sq_iff_eq_or_eq_neg.1 (show f ^ 2 = c ^ 2 by rw [pow_two, pow_two, hc]) with h | h
    · exact ⟨false, by simp [fe_select, h]⟩
    · exact ⟨true, by simp [fe_select, h]⟩
  obtain ⟨s, hsel⟩ := hcf
  refine ⟨(if s then 1 else 0) + (if t then 2 else 0), by cases s <;> cases t <;> decide, fun hint hh => ?_⟩
  unfold wei_sswui
  dsimp only
  simp only [mul_a]
  rw [c1, C.ok_bind]
  dsimp only
  rw [hh]
  have hs' : ((((if s then 1 else 0) + (if t then 2 else 0) : BitVec 32) &&& 1) != 0) = s := by cases s <;> cases t <;> decide
  have ht' : ((((if s then 1 else 0) + (if t then 2 else 0) : BitVec 32) >>> 1) != 0) = t := by cases s <;> cases t <;> decide
  rw [hs', ht']
  obtain ⟨v, r2, v1, v2, v3⟩ := fe_isqrt_exact fe ok.field (ZMod.card fe.p) 0 (by decide)
    (fe_select (-(ec.a * p.x + ec.b - c)) (-(ec.a * p.x + ec.b + c)) s)
    (fe_select ((ec.a * p.x + ec.b + (ec.a * p.x + ec.b)) * m.z) ((ec.b + ec.b) * m.z) t)
  have hn : fe_select (-(ec.a * p.x + ec.b - c)) (-(ec.a * p.x + ec.b + c)) s / (fe_select ((ec.a * p.x + ec.b + (ec.a * p.x + ec.b)) * m.z) ((ec.b + ec.b) * m.z) t) = u * u := by
    rw [div_eq_iff f2, ← pow_two, f3, hsel]
    unfold fe_select
    cases s
    · simp only [Bool.false_eq_true, if_false]; ring
    · simp only [if_true]; ring
  rw [hn] at v2 v3
  obtain rfl : r2 = true := v2.2 ⟨f2, ⟨u, rfl⟩⟩
  have hv := v3 rfl
  rw [v1, C.ok_bind, C.pure_eq]
  have hv0 : v ≠ 0 := by
    rintro rfl
    rw [mul_zero] at hv
    exact hu0 (mul_self_eq_zero.1 hv.symm)
  have hfin : fe_set_odd fe v (fe_is_odd fe p.y) = u := by
    apply root_unique h2
    · rw [set_odd_sq, pow_two, pow_two, hv]
    · rw [set_odd_parity h2 hv0]; exact bool_par.2 hp
  rw [hfin, hi]
  rfl

end
end Torsion.Ecc
