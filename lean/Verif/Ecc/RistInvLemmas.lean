import Verif.Ecc.RistElligLemmas

/-!
# Lemmas: the inverse of Elligator for Ristretto
-/
namespace Torsion.Ecc

open Spec

section
variable {fe : FieldCode} [Fact fe.p.Prime] {ec : Edwards (ZMod fe.p)} [g : EdGood ec.a ec.d] {rs : Ristretto (ZMod fe.p)}

/-- The sign which the inverse takes tells the parity of the element of the map. -/
theorem inv_sign (c : RistC ec rs) {s : ZMod fe.p} (hs : s ≠ 0) : ∃ σ : ZMod fe.p, σ ^ 2 = 1 ∧
    fe_neg_cond (s * s) (fe_is_odd fe s) = σ * s ^ 2 ∧
    ((σ = -ec.a ∧ (-ec.a * s).val % 2 = 0) ∨ (σ = ec.a ∧ (-ec.a * s).val % 2 = 1)) := by
  have hn := odd_neg _ (p_odd' g.two) hs
  rcases Nat.mod_two_eq_zero_or_one s.val with h | h
  · refine ⟨1, one_pow 2, by rw [fe_neg_cond, fe_is_odd, h]; show s * s = _; ring, ?_⟩
    rw [h] at hn
    rcases c.c with ⟨-, h2, -⟩ | ⟨-, h2, -⟩ <;> rw [h2]
    · right; exact ⟨rfl, by rw [neg_one_mul, hn]⟩
    · left; exact ⟨(neg_neg 1).symm, by rw [neg_neg, one_mul]; exact h⟩
  · refine ⟨-1, by ring, by rw [fe_neg_cond, fe_is_odd, h]; show -(s * s) = _; ring, ?_⟩
    rw [h] at hn
    rcases c.c with ⟨-, h2, -⟩ | ⟨-, h2, -⟩ <;> rw [h2]
    · left; exact ⟨rfl, by rw [neg_one_mul, hn]⟩
    · right; exact ⟨rfl, by rw [neg_neg, one_mul]; exact h⟩

theorem qge_invert_ok (c : RistC ec rs) {q : Qge (ZMod fe.p)} (hint : Nat)
    (hq : (ec.d - ec.a) * q.t ^ 2 = (ec.d - ec.a) * q.s ^ 4 + 2 * ec.a * (ec.d + ec.a) * q.s ^ 2 + (ec.d - ec.a)) :
    ∃ u r, qge_invert rs q hint = .ok (u, r) ∧
      (r = true → (RistQuartic ec.a ec.d rs.qnr u (-ec.a * q.s) q.t ∧ u ≠ 0) ∨ (u = 0 ∧ q.s = 0 ∧ q.t = -1)) ∧
      (∀ w, w ≠ 0 → q.s ≠ 0 → RistQuartic ec.a ec.d rs.qnr w (-ec.a * q.s) q.t → hint % 2 = w.val % 2 → r = true ∧ u = w) := by
  have a2 := c.a2
  have hA : (q.t + 1) * rs.dmaddpa * (ec.d + ec.a) = (q.t + 1) * (ec.d - ec.a) := by linear_combination (q.t + 1) * c.dm
  obtain ⟨A, hAe⟩ : ∃ A, A = (q.t + 1) * rs.dmaddpa := ⟨_, rfl⟩
  rw [← hAe] at hA
  obtain ⟨y, o, e1, e2, e3, -⟩ := rsqrt_q g.two c.root 2 (by omega) 1 ((q.s * q.s * (q.s * q.s) - A * A) * rs.qnr)
  unfold qge_invert
  dsimp only
  rw [← hAe, e1, C.ok_bind]
  dsimp only
  refine ⟨_, _, rfl, ?_⟩
  by_cases hs : q.s = 0
  · have ht : q.t ^ 2 = 1 := by
      apply mul_left_cancel₀ c.f
      rw [hq, hs]; ring
    refine ⟨fun _ => ?_, fun w _ h => absurd hs h⟩
    have hz : fe_is_zero q.s = true := by rw [fe_is_zero, decide_eq_true_iff]; exact hs
    rcases sq_one ht with h | h
    · left
      have h1 : fe_equal q.t 1 = true := by rw [fe_equal, decide_eq_true_iff]; exact h
      rw [hz, h1]
      simp only [fe_select, Bool.and_true, Bool.not_true, Bool.and_false, if_true, Bool.false_eq_true, if_false]
      have hu : (fe_set_odd fe rs.qnrds (hint % 2 == 1)) ^ 2 = rs.qnr * ec.d := by rw [set_odd_sq, c.qd]
      refine ⟨?_, ?_⟩
      · unfold RistQuartic
        dsimp only
        rw [hu, if_pos, hs, h]
        · exact ⟨mul_zero _, rfl⟩
        · have : ec.a * (rs.qnr * (rs.qnr * ec.d)) - ec.d = 0 := by linear_combination ec.a * ec.d * c.q2 + ec.d * a2
          rw [this, mul_zero]
      · intro h0
        rw [h0] at hu
        have hq0 : rs.qnr ≠ 0 := fun h => c.qn (by rw [h]; exact IsSquare.zero)
        exact mul_ne_zero hq0 (ed_d0 (a := ec.a)) (by rw [← hu]; ring)
    · right
      have h1 : fe_equal q.t 1 = false := by
        rw [fe_equal, decide_eq_false_iff_not, h]
        intro h'
        apply g.two
        linear_combination -h'
      rw [hz, h1]
      simp only [fe_select, Bool.not_false, Bool.and_true, if_true]
      exact ⟨set_odd_zero _, hs, h⟩
  · have hz : fe_is_zero q.s = false := by rw [fe_is_zero, decide_eq_false_iff_not]; exact hs
    rw [hz]
    simp only [Bool.false_and, fe_select, Bool.false_eq_true, if_false, Bool.false_or]
    obtain ⟨σ, hσ, hn, hpar⟩ := inv_sign c hs
    rw [hn]
    have hs' : -ec.a * q.s ≠ 0 := mul_ne_zero (neg_ne_zero.2 g.a0) hs
    have hs2 : (-ec.a * q.s) ^ 2 = q.s ^ 2 := by linear_combination q.s ^ 2 * a2
    have hV : (q.s * q.s * (q.s * q.s) - A * A) * rs.qnr = rs.qnr * ((σ * q.s ^ 2 - A) * (σ * q.s ^ 2 + A)) := by
      linear_combination -(rs.qnr * q.s ^ 4) * hσ
    rw [hV] at e2 e3
    have hq0 : rs.qnr ≠ 0 := fun h => c.qn (by rw [h]; exact IsSquare.zero)
    have key : o = true → (σ * q.s ^ 2 - A ≠ 0 ∧ σ * q.s ^ 2 + A ≠ 0) ∧
        rs.qnr * (fe_set_odd fe ((A + σ * q.s ^ 2) * y) (hint % 2 == 1)) ^ 2 * (σ * q.s ^ 2 - A) = σ * q.s ^ 2 + A ∧
        (A + σ * q.s ^ 2) * y ≠ 0 := by
      intro ho
      obtain ⟨v0, -⟩ := e2.1 ho
      have hy := e3 ho
      have y0 : y ≠ 0 := by rintro rfl; simp at hy
      have v1 := right_ne_zero_of_mul v0
      refine ⟨⟨left_ne_zero_of_mul v1, right_ne_zero_of_mul v1⟩, ?_, mul_ne_zero (by rw [add_comm]; exact right_ne_zero_of_mul v1) y0⟩
      rw [set_odd_sq]
      linear_combination (σ * q.s ^ 2 + A) * hy
    refine ⟨fun ho => ?_, fun w hw _ hwq hp => ?_⟩
    · left
      obtain ⟨⟨v1, v2⟩, k2, k3⟩ := key ho
      obtain ⟨u, hu⟩ : ∃ u, u = fe_set_odd fe ((A + σ * q.s ^ 2) * y) (hint % 2 == 1) := ⟨_, rfl⟩
      have hu0 : u ≠ 0 := by
        intro h
        have : u ^ 2 = ((A + σ * q.s ^ 2) * y) ^ 2 := by rw [hu, set_odd_sq]
        rw [h] at this
        exact pow_ne_zero 2 k3 (by rw [← this]; ring)
      rw [← hu] at k2 ⊢
      refine ⟨?_, hu0⟩
      obtain ⟨r, hr⟩ : ∃ r, r = rs.qnr * u ^ 2 := ⟨_, rfl⟩
      rw [← hr] at k2
      obtain ⟨D, hD⟩ : ∃ D, D = (ec.d * r - ec.a) * (ec.a * r - ec.d) := ⟨_, rfl⟩
      obtain ⟨i1, i2, i3, i4, i5⟩ := ell_inverse a2 hσ hD hq hA k2 v1
      have hD0 : D ≠ 0 := by
        intro h
        rw [h, zero_mul] at i1
        refine mul_ne_zero (mul_ne_zero (mul_ne_zero g.two c.f) c.e) ?_ i1.symm
        rcases hpar with ⟨h1, -⟩ | ⟨h1, -⟩
        · intro h2; apply v1; rw [h1]; linear_combination -h2
        · intro h2; apply v2; rw [h1]; linear_combination h2
      unfold RistQuartic
      dsimp only
      rw [← hr, ← hD, if_neg hD0, hs2]
      rcases hpar with ⟨h1, h2⟩ | ⟨h1, h2⟩
      · have j2 := i2 h1
        have j4 := mul_left_cancel₀ c.f (i4 h1)
        have e : q.s ^ 2 = ec.a * (r + 1) * (ec.d + ec.a) * (ec.d - ec.a) / D := by rw [eq_div_iff hD0, j2]
        rw [if_pos ⟨q.s, by rw [← e]; ring⟩]
        exact ⟨e, h2, by rw [eq_sub_iff_add_eq, eq_div_iff hD0, j4]⟩
      · have j3 := i3 h1
        have j5 := mul_left_cancel₀ c.f (i5 h1)
        have e : q.s ^ 2 = r * (ec.a * (r + 1) * (ec.d + ec.a) * (ec.d - ec.a)) / D := by rw [eq_div_iff hD0, j3]
        rw [if_neg]
        · exact ⟨e, Or.inr h2, by rw [eq_sub_iff_add_eq, eq_div_iff hD0, j5]⟩
        · rintro ⟨b, hb⟩
          rw [mul_div_assoc, hb, hr] at e
          have hb0 : b ≠ 0 := by
            rintro rfl
            exact pow_ne_zero 2 hs (by rw [e]; ring)
          apply c.qn
          refine ⟨q.s / (u * b), ?_⟩
          field_simp
          linear_combination -e
    · obtain ⟨r, hr⟩ : ∃ r, r = rs.qnr * w ^ 2 := ⟨_, rfl⟩
      have hr0 : r ≠ 0 := by rw [hr]; exact mul_ne_zero hq0 (pow_ne_zero 2 hw)
      unfold RistQuartic at hwq
      dsimp only at hwq
      rw [← hr, hs2] at hwq
      have hf : (σ * q.s ^ 2 - A ≠ 0) ∧ r * (σ * q.s ^ 2 - A) = σ * q.s ^ 2 + A := by
        split at hwq
        · exact absurd hwq.1 hs'
        · rename_i hD0
          have hfw : r * (σ * q.s ^ 2 - A) = σ * q.s ^ 2 + A ∧
              ((σ * q.s ^ 2 - A) * ((ec.d * r - ec.a) * (ec.a * r - ec.d)) = -2 * (ec.d + ec.a) * (ec.d - ec.a) ∨
                (σ * q.s ^ 2 - A) * ((ec.d * r - ec.a) * (ec.a * r - ec.d)) = 2 * r * (ec.d + ec.a) * (ec.d - ec.a)) := by
            apply ell_forward a2 c.e hD0 hA
            split at hwq
            · left
              obtain ⟨h1, h2, h3⟩ := hwq
              refine ⟨?_, by rw [h1, div_mul_cancel₀ _ hD0], by rw [h3, sub_add_cancel, div_mul_cancel₀ _ hD0]⟩
              rcases hpar with ⟨k1, -⟩ | ⟨-, k2⟩
              · exact k1
              · omega
            · right
              obtain ⟨h1, h2, h3⟩ := hwq
              refine ⟨?_, by rw [h1, div_mul_cancel₀ _ hD0], by rw [h3, sub_add_cancel, div_mul_cancel₀ _ hD0]⟩
              have h2' := h2.resolve_left hs'
              rcases hpar with ⟨-, k2⟩ | ⟨k1, -⟩
              · omega
              · exact k1
          refine ⟨fun h => ?_, hfw.1⟩
          rw [h, zero_mul] at hfw
          rcases hfw.2 with h' | h'
          · exact mul_ne_zero (mul_ne_zero (neg_ne_zero.2 g.two) c.e) c.f h'.symm
          · exact mul_ne_zero (mul_ne_zero (mul_ne_zero g.two hr0) c.e) c.f h'.symm
      obtain ⟨f1, f2⟩ := hf
      have ho : o = true := by
        rw [e2, ← f2, hr]
        refine ⟨mul_ne_zero hq0 (mul_ne_zero f1 (mul_ne_zero (mul_ne_zero hq0 (pow_ne_zero 2 hw)) f1)), 1 / (rs.qnr * w * (σ * q.s ^ 2 - A)), ?_⟩
        rw [div_mul_div_comm, one_mul]
        congr 1
        ring
      refine ⟨ho, ?_⟩
      obtain ⟨-, k2, k3⟩ := key ho
      apply root_unique g.two
      · apply mul_left_cancel₀ hq0
        apply mul_right_cancel₀ f1
        rw [k2, ← f2, hr]
      · rw [set_odd_parity g.two k3, fe_is_odd, hp]

/-- A member of the class has two points on the quartic, each the other's negation. -/
theorem point_two {k s t s' t' : ZMod fe.p} {Q : EPt ec.a ec.d} (h : RistPoint k s t Q) (h' : RistPoint k s' t' Q) (hs : s ≠ 0) :
    s = s' ∧ t = t' ∨ s = -s' ∧ t = -t' := by
  obtain ⟨h1, h2⟩ := h
  obtain ⟨h1', h2'⟩ := h'
  have hw : 1 + Q.y ≠ 0 := by
    intro h
    apply g.two
    linear_combination -h2 + (1 - ec.a * s ^ 2) * h
  have hx : Q.x * k ≠ 0 := by
    intro h
    refine mul_ne_zero g.two hs ?_
    rw [← h1]
    linear_combination t * h
  have e : s ^ 2 = s' ^ 2 := by
    apply mul_left_cancel₀ g.a0
    apply mul_right_cancel₀ hw
    linear_combination -h2 + h2'
  rcases sq_eq_sq_iff_eq_or_eq_neg.1 e with h | h
  · refine Or.inl ⟨h, mul_left_cancel₀ hx ?_⟩
    linear_combination h1 - h1' + 2 * h
  · refine Or.inr ⟨h, mul_left_cancel₀ hx ?_⟩
    linear_combination h1 + h1' + 2 * h

theorem point_s0 (c : RistC ec rs) {k t : ZMod fe.p} {Q : EPt ec.a ec.d} (h : RistPoint k 0 t Q) : RistEq ec.h Q 0 := by
  rw [rist_zero_iff c.h.hh]
  left
  rw [ed_x0 Q.on]
  left
  linear_combination h.2

/-- The map is right at zero. -/
def InvZero (ec : Edwards (ZMod fe.p)) : Prop := ¬ IsSquare (ec.a * (ec.d + ec.a) * (ec.d - ec.a) / (ec.a * ec.d))

theorem quartic_zero (hz : InvZero ec) : RistQuartic ec.a ec.d rs.qnr 0 0 (-1) := by
  unfold RistQuartic
  dsimp only
  have hD : (ec.d * (rs.qnr * 0 ^ 2) - ec.a) * (ec.a * (rs.qnr * 0 ^ 2) - ec.d) = ec.a * ec.d := by ring
  rw [hD, if_neg (mul_ne_zero g.a0 (ed_d0 (a := ec.a))), if_neg]
  · refine ⟨by ring, Or.inl rfl, by ring⟩
  · rw [show ec.a * (rs.qnr * 0 ^ 2 + 1) * (ec.d + ec.a) * (ec.d - ec.a) = ec.a * (ec.d + ec.a) * (ec.d - ec.a) by ring]
    exact hz

theorem quartic_zero_not (hz : ¬ InvZero ec) {t : ZMod fe.p} (c : RistC ec rs) : ¬ RistQuartic ec.a ec.d rs.qnr 0 0 t := by
  unfold RistQuartic
  dsimp only
  have hD : (ec.d * (rs.qnr * 0 ^ 2) - ec.a) * (ec.a * (rs.qnr * 0 ^ 2) - ec.d) = ec.a * ec.d := by ring
  have h0 : ec.a * ec.d ≠ 0 := mul_ne_zero g.a0 (ed_d0 (a := ec.a))
  have hN : ec.a * (rs.qnr * 0 ^ 2 + 1) * (ec.d + ec.a) * (ec.d - ec.a) = ec.a * (ec.d + ec.a) * (ec.d - ec.a) := by ring
  rw [hD, if_neg h0, hN, if_pos (not_not.1 hz)]
  rintro ⟨h, -⟩
  refine div_ne_zero (mul_ne_zero (mul_ne_zero g.a0 c.e) c.f) h0 ?_
  rw [← h]; ring

theorem hint_parts (i b : Nat) (hi : i < 16) (hb : b < 2) : (BitVec.ofNat 32 (i + 16 * b) &&& 15).toNat = i ∧
    ((BitVec.ofNat 32 (i + 16 * b) >>> 4) &&& 15).toNat % 2 = b := by
  have : ∀ i < 16, ∀ b < 2, (BitVec.ofNat 32 (i + 16 * b) &&& 15).toNat = i ∧
    ((BitVec.ofNat 32 (i + 16 * b) >>> 4) &&& 15).toNat % 2 = b := by decide +kernel
  exact this i hi b hb

theorem rist_invert_ok (c : RistC ec rs) {p : Xge (ZMod fe.p)} {P : EPt ec.a ec.d} (hp : Ext p P) (hP : Even P) :
    (∀ hint, ∃ u r, ristretto_invert ec rs p hint = .ok (u, r) ∧
      (r = true → u ≠ 0 ∨ InvZero ec → ∃ Q : EPt ec.a ec.d, RistEq ec.h Q P ∧ RistElligator rs.qnr rs.adm1s u Q) ∧
      (r = true → u = 0 → RistEq ec.h P 0)) ∧
    (¬ RistEq ec.h P 0 → ∀ w, w ≠ 0 → ∀ Q : EPt ec.a ec.d, RistEq ec.h Q P → RistElligator rs.qnr rs.adm1s w Q →
      ∃ i < ec.h, ∀ hint : BitVec 32, (hint &&& 15).toNat % ec.h = i → ((hint >>> 4) &&& 15).toNat % 2 = w.val % 2 →
        ristretto_invert ec rs p hint = .ok (w, true)) := by
  obtain ⟨qs, e1, e2, e3, e4⟩ := qge_import_ok c hp hP
  obtain ⟨L, hL⟩ : ∃ L, L = qs ++ qs.map fun q => (⟨-q.s, -q.t⟩ : Qge (ZMod fe.p)) := ⟨_, rfl⟩
  have h48 : ec.h = 4 ∨ ec.h = 8 := c.c.imp And.left And.left
  have hLl : L.length = ec.h := by rw [hL, List.length_append, List.length_map, e2]; omega
  have hLq : ∀ q ∈ L, QPt ec rs P q := by
    intro q hq
    rw [hL, List.mem_append, List.mem_map] at hq
    rcases hq with h | ⟨q', h, rfl⟩
    · exact e3 q h
    · exact qpt_neg (e3 q' h)
  have run : ∀ hint : BitVec 32, ∃ h : (hint &&& 15).toNat % ec.h < L.length,
      ristretto_invert ec rs p hint = qge_invert rs L[(hint &&& 15).toNat % ec.h] ((hint >>> 4) &&& 15).toNat := by
    intro hint
    have hlt : (hint &&& 15).toNat % ec.h < L.length := by rw [hLl]; exact Nat.mod_lt _ (by omega)
    refine ⟨hlt, ?_⟩
    unfold ristretto_invert
    dsimp only
    rw [check_true (by omega), C.ok_bind, e1, C.ok_bind, if_neg (by omega), List.take_of_length_le e2.le, ← hL,
      C.rd, List.getElem?_eq_getElem hlt]
    rfl
  refine ⟨fun hint => ?_, fun hP0 w hw Q hQ hwQ => ?_⟩
  · obtain ⟨hlt, hrun⟩ := run hint
    obtain ⟨hq, Q, hQ, hQp⟩ := hLq _ (List.getElem_mem hlt)
    obtain ⟨u, r, h1, h2, -⟩ := qge_invert_ok c ((hint >>> 4) &&& 15).toNat hq
    refine ⟨u, r, hrun.trans h1, fun hr hu => ⟨Q, hQ, ?_⟩, fun hr hu => ?_⟩
    · rcases h2 hr with ⟨h3, -⟩ | ⟨h3, h4, h5⟩
      · exact ⟨_, _, h3, hQp⟩
      · rw [h3]
        refine ⟨0, -1, quartic_zero (hu.resolve_left fun h => h h3), ?_⟩
        rw [h4, mul_zero, h5] at hQp
        exact hQp
    · rcases h2 hr with ⟨-, h3⟩ | ⟨-, h4, h5⟩
      · exact absurd hu h3
      · rw [h4, mul_zero] at hQp
        exact rist_trans (rist_symm hQ) (point_s0 c hQp)
  · obtain ⟨s, t, hw1, hw2⟩ := hwQ
    obtain ⟨q, hq, hqp⟩ := e4 hP0 Q hQ
    have hs : s ≠ 0 := by
      rintro rfl
      exact hP0 (rist_trans (rist_symm hQ) (point_s0 c hw2))
    obtain ⟨q', hq', hst, htt⟩ : ∃ q' ∈ L, s = -ec.a * q'.s ∧ t = q'.t := by
      rcases point_two hw2 hqp hs with ⟨h1, h2⟩ | ⟨h1, h2⟩
      · exact ⟨q, by rw [hL]; exact List.mem_append_left _ hq, h1, h2⟩
      · refine ⟨⟨-q.s, -q.t⟩, by rw [hL]; exact List.mem_append_right _ (List.mem_map_of_mem hq), by rw [h1]; ring, h2⟩
    obtain ⟨i, hi, hiq⟩ := List.mem_iff_getElem.1 hq'
    refine ⟨i, by rw [← hLl]; exact hi, fun hint h1 h2 => ?_⟩
    obtain ⟨hlt, hrun⟩ := run hint
    have hg : L[(hint &&& 15).toNat % ec.h] = q' := by
      rw [← hiq]
      congr 1
    rw [hg] at hrun
    obtain ⟨u, r, k1, -, k2⟩ := qge_invert_ok c ((hint >>> 4) &&& 15).toNat (hLq q' hq').1
    rw [hst, htt] at hw1
    obtain ⟨rfl, rfl⟩ := k2 w hw (by rintro h; rw [hst, h, mul_zero] at hs; exact hs rfl) hw1 h2
    rw [hrun, k1]

end

end Torsion.Ecc
