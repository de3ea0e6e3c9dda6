import Verif.Ecc.WeiMapLemmas

/-! Lemmas on the map for the curves with `a = 0` and on its inverse. -/
namespace Torsion.Ecc

open Torsion.Spec

section
variable {fe : FieldCode} [Fact fe.p.Prime]
variable {ec : WeiT fe} {G : Pt ec.toCurve} {m : WeiMap (ZMod fe.p)} (ok : EcOk ec G) (mc : MapC ec m)

theorem weiG0 (b x : ZMod fe.p) : weiG 0 b x = x ^ 3 + b := by unfold weiG; ring

include mc in
theorem svdw_c0 (ha : ec.a = 0) : m.c ≠ 0 := by
  obtain ⟨hc, -, h3, -⟩ := mc.svdw ha
  intro h
  rw [h] at hc
  exact mul_ne_zero h3 (pow_ne_zero 2 mc.z0) (by linear_combination hc)

include ok mc

omit ok in
theorem svdw_t1 (ha : ec.a = 0) (u : ZMod fe.p) : u ^ 2 + weiG 0 ec.b m.z ≠ 0 := by
  intro h
  obtain ⟨-, -, -, hn⟩ := mc.svdw ha
  exact hn ⟨u, by linear_combination -h⟩

/-- One of the three candidates is an abscissa. -/
theorem svdw_third (ha : ec.a = 0) {u : ZMod fe.p} (hu : u ≠ 0) (n1 : ¬ IsSquare (weiG 0 ec.b (svdwX1 ec.b m.c m.z u)))
    (n2 : ¬ IsSquare (weiG 0 ec.b (svdwX2 ec.b m.c m.z u))) : IsSquare (weiG 0 ec.b (svdwX3 ec.b m.z u)) := by
  obtain ⟨hc, -, h3, -⟩ := mc.svdw ha
  have hz := mc.z0
  have hc0 := svdw_c0 mc ha
  have ht := svdw_t1 mc ha u
  have h2 := ok.wei.good.two
  have hx2 : svdwX2 ec.b m.c m.z u = -m.z - svdwX1 ec.b m.c m.z u := by
    unfold svdwX1 svdwX2
    field_simp
    ring
  have hgz := weiG0 ec.b m.z
  set v := svdwX1 ec.b m.c m.z u with hv
  set gz := weiG 0 ec.b m.z with hg
  obtain ⟨y, hy⟩ : ∃ y, y = (u ^ 2 + gz) / (m.c * u) := ⟨_, rfl⟩
  have hx3 : svdwX3 ec.b m.z u = m.z + y ^ 2 := by
    rw [svdwX3, ← hg, hy, div_pow, mul_pow, hc]
    have : (3 : ZMod fe.p) * m.z ^ 2 * u ^ 2 ≠ 0 := mul_ne_zero (mul_ne_zero h3 (pow_ne_zero _ hz)) (pow_ne_zero _ hu)
    rw [show -3 * m.z ^ 2 * u ^ 2 = -(3 * m.z ^ 2 * u ^ 2) by ring, div_neg, sub_eq_add_neg]
  have hvv : v = (m.c - m.z) / 2 - u ^ 2 * m.c / (u ^ 2 + gz) := hv
  have hh : v ^ 2 + v * m.z + m.z ^ 2 = -(m.c ^ 2 * u ^ 2 * gz) / (u ^ 2 + gz) ^ 2 := by
    obtain ⟨t, htt⟩ : ∃ t, t = u ^ 2 * m.c / (u ^ 2 + gz) := ⟨_, rfl⟩
    have e1 : v ^ 2 + v * m.z + m.z ^ 2 = t ^ 2 - m.c * t := by
      rw [hvv, ← htt]
      field_simp
      linear_combination hc
    rw [e1, htt]
    field_simp
    ring
  have hyh : y ^ 2 * (v ^ 2 + v * m.z + m.z ^ 2) = -(m.z ^ 3 + ec.b) := by
    rw [hh, hy, ← hgz]
    field_simp
  rw [hx2] at n2
  have g1 : weiG 0 ec.b v = (v ^ 2 + v * m.z + m.z ^ 2) * (v - (m.z + y ^ 2)) := by
    rw [weiG0]; linear_combination hyh
  have g2 : weiG 0 ec.b (-m.z - v) = (v ^ 2 + v * m.z + m.z ^ 2) * (-m.z - v - (m.z + y ^ 2)) := by
    rw [weiG0]; linear_combination hyh
  have g3 : weiG 0 ec.b (m.z + y ^ 2) = y ^ 2 * ((m.z + y ^ 2 - v) * (m.z + y ^ 2 + m.z + v)) := by
    rw [weiG0]; linear_combination hyh
  obtain ⟨q, hq⟩ := non_mul h2 n1 n2
  have hq0 : q ≠ 0 := by
    rintro rfl
    rw [mul_zero] at hq
    rcases mul_eq_zero.1 hq with h | h
    · exact n1 (by rw [h]; exact IsSquare.zero)
    · exact n2 (by rw [h]; exact IsSquare.zero)
  rw [hx3]
  refine ⟨(v ^ 2 + v * m.z + m.z ^ 2) * y * ((m.z + y ^ 2 - v) * (m.z + y ^ 2 + m.z + v)) / q, ?_⟩
  rw [div_mul_div_comm, eq_div_iff (mul_ne_zero hq0 hq0), ← hq, g1, g2, g3]
  ring

theorem svdwf_ok (ha : ec.a = 0) (u : ZMod fe.p) : ∃ x, wei_svdwf ec m u = .ok (x, weiG ec.a ec.b x) ∧ Svdw ec.b m.c m.z u x ∧ IsSquare (weiG ec.a ec.b x) := by
  obtain ⟨hc, h0, h3, -⟩ := mc.svdw ha
  have hz := mc.z0
  have h2 := ok.wei.good.two
  have ht := svdw_t1 mc ha u
  obtain ⟨x1, hx1⟩ : ∃ x, x = (m.c - m.z) * m.i2 - u * u * (u * u) * (fe_invert (u * u * (u * u + weiG ec.a ec.b m.z))).1 * m.c := ⟨_, rfl⟩
  obtain ⟨x2, hx2⟩ : ∃ x, x = u * u * (u * u) * (fe_invert (u * u * (u * u + weiG ec.a ec.b m.z))).1 * m.c - (m.c + m.z) * m.i2 := ⟨_, rfl⟩
  obtain ⟨x3, hx3⟩ : ∃ x, x = m.z - (u * u + weiG ec.a ec.b m.z) * (u * u + weiG ec.a ec.b m.z) * (u * u + weiG ec.a ec.b m.z) *
    (fe_invert (u * u * (u * u + weiG ec.a ec.b m.z))).1 * (m.zi * m.zi * m.i3) := ⟨_, rfl⟩
  obtain ⟨s1, p1, p2⟩ := fe_is_square_exact fe ok.field (ZMod.card fe.p) (weiG ec.a ec.b x1)
  obtain ⟨s2, q1, q2⟩ := fe_is_square_exact fe ok.field (ZMod.card fe.p) (weiG ec.a ec.b x2)
  have run : wei_svdwf ec m u = .ok (fe_select (fe_select x1 x2 (!s1 && s2)) x3 (!s1 && !s2),
      fe_select (fe_select (weiG ec.a ec.b x1) (weiG ec.a ec.b x2) (!s1 && s2)) (weiG ec.a ec.b x3) (!s1 && !s2)) := by
    unfold wei_svdwf
    dsimp only
    simp only [solve_weiG]
    rw [← hx1, ← hx2, ← hx3, p1, C.ok_bind, q1, C.ok_bind, C.pure_eq]
  rw [run]
  simp only [fe_invert, mc.i2, mc.i3, mc.zi] at hx1 hx2 hx3
  rw [ha] at hx1 hx2 hx3 p2 q2 ⊢
  by_cases hu : u = 0
  · subst hu
    have e1 : x1 = (m.c - m.z) / 2 := by rw [hx1]; ring
    obtain rfl : s1 = true := p2.2 (by rw [e1]; exact h0)
    refine ⟨x1, rfl, ?_, by rw [e1]; exact h0⟩
    rw [Svdw, if_pos (Or.inl rfl), e1]
  · have e1 : x1 = svdwX1 ec.b m.c m.z u := by
      rw [hx1, svdwX1]
      field_simp
    have e2 : x2 = svdwX2 ec.b m.c m.z u := by
      rw [hx2, svdwX2]
      field_simp
    have e3 : x3 = svdwX3 ec.b m.z u := by
      rw [hx3, svdwX3]
      field_simp
    rw [e1] at p2
    rw [e2] at q2
    have hf : ¬ (u = 0 ∨ u ^ 2 + weiG 0 ec.b m.z = 0) := by rintro (h | h); exacts [hu h, ht h]
    simp only [Svdw, if_neg hf]
    rw [e1, e2, e3]
    cases s1 with
    | true => exact ⟨_, rfl, Or.inl ⟨p2.1 rfl, rfl⟩, p2.1 rfl⟩
    | false =>
      have n1 : ¬ IsSquare (weiG 0 ec.b (svdwX1 ec.b m.c m.z u)) := fun h => by simpa using p2.2 h
      cases s2 with
      | true => exact ⟨_, rfl, Or.inr (Or.inl ⟨n1, q2.1 rfl, rfl⟩), q2.1 rfl⟩
      | false =>
        have n2 : ¬ IsSquare (weiG 0 ec.b (svdwX2 ec.b m.c m.z u)) := fun h => by simpa using q2.2 h
        exact ⟨_, rfl, Or.inr (Or.inr ⟨n1, n2, rfl⟩), svdw_third ok mc ha hu n1 n2⟩

theorem svdw_ok (ha : ec.a = 0) (u : ZMod fe.p) : ∃ x y, wei_svdw ec m u = .ok ⟨x, y, false⟩ ∧ Svdw ec.b m.c m.z u x ∧
    y ^ 2 = weiG ec.a ec.b x ∧ y.val % 2 = u.val % 2 := by
  obtain ⟨x, h1, h2, h3⟩ := svdwf_ok ok mc ha u
  obtain ⟨y, f1, f2, f3⟩ := map_root ok u h3
  unfold wei_svdw
  rw [h1, C.ok_bind]
  dsimp only
  rw [f1, C.ok_bind]
  dsimp only
  rw [C.check, if_pos rfl, C.ok_bind]
  exact ⟨_, _, rfl, h2, f2, f3⟩

omit ok mc in
theorem svdwf_even {u v : ZMod fe.p} (h : u ^ 2 = v ^ 2) : wei_svdwf ec m u = wei_svdwf ec m v := by
  have : u * u = v * v := by rw [← pow_two, h, pow_two]
  unfold wei_svdwf
  rw [this]

omit ok mc in
theorem svdw_fun {b c z u x x' : ZMod fe.p} (h : Svdw b c z u x) (h' : Svdw b c z u x') : x = x' := by
  unfold Svdw at h h'
  split at h
  · rename_i hh
    rw [if_pos hh] at h'
    rw [h, h']
  · rename_i hh
    rw [if_neg hh] at h'
    rcases h with ⟨a1, a2⟩ | ⟨a1, a2, a3⟩ | ⟨a1, a2, a3⟩ <;> rcases h' with ⟨b1, b2⟩ | ⟨b1, b2, b3⟩ | ⟨b1, b2, b3⟩ <;>
      first | (exact absurd ‹IsSquare _› ‹¬ IsSquare _›) | (subst_vars; rfl) | (exfalso; tauto)

theorem svdwi_ok (ha : ec.a = 0) (p : Wge (ZMod fe.p)) (hint : BitVec 32) : ∃ u r, wei_svdwi ec m p hint = .ok (u, r) ∧ (p.inf = true → r = false) ∧
    (r = true → Svdw ec.b m.c m.z u p.x ∧ (u ≠ 0 → u.val % 2 = p.y.val % 2)) := by
  have h2 := ok.wei.good.two
  unfold wei_svdwi
  dsimp only
  obtain ⟨c, r1, c1, -, -⟩ := fe_sqrt_exact fe ok.field (ZMod.card fe.p) 0 0 (by decide) (by decide)
    ((p.x * p.x * (m.z * m.z) + m.z * m.z * (m.z * m.z)) * 3 * 3 -
            (p.x * (m.z * m.z * m.z) + p.x * (m.z * m.z * m.z)) * 3 * 3 +
          (p.x - m.z) * (m.z * m.z * m.z + ec.b) * 3 * 4)
  rw [c1, C.ok_bind]
  dsimp only
  generalize hN : fe_select (fe_select (fe_select ((m.z * m.z * m.z + ec.b) * (m.c - (p.x + p.x + m.z))) _ _) _ _) _ _ = N
  generalize hD : fe_select (fe_select (2 : ZMod fe.p) _ _) _ _ = D
  obtain ⟨v, r2, v1, -, -⟩ := fe_isqrt_exact fe ok.field (ZMod.card fe.p) 0 (by decide) N D
  rw [v1, C.ok_bind]
  dsimp only
  obtain ⟨x, x1, x2, -⟩ := svdwf_ok ok mc ha v
  rw [x1, C.ok_bind, C.pure_eq]
  refine ⟨_, _, rfl, fun h => by simp [h], ?_⟩
  intro hr
  simp only [Bool.and_eq_true, Bool.not_eq_true'] at hr
  obtain ⟨⟨-, hx⟩, -⟩ := hr
  have hx : x = p.x := by simpa [fe_equal] using hx
  have huv := set_odd_sq (fe := fe) v (fe_is_odd fe p.y)
  refine ⟨?_, fun h0 => bool_par.1 (set_odd_parity h2 ?_ _)⟩
  · obtain ⟨x', y1, y2, -⟩ := svdwf_ok ok mc ha (fe_set_odd fe v (fe_is_odd fe p.y))
    rw [svdwf_even huv, x1] at y1
    have : x = x' := (Prod.mk.inj (C.ok.inj y1)).1
    rw [← hx, this]
    exact y2
  · rintro rfl
    exact h0 (set_odd_zero _)

theorem svdwi_all (ha : ec.a = 0) {p : Wge (ZMod fe.p)} {u : ZMod fe.p} (hi : p.inf = false) (hx : Svdw ec.b m.c m.z u p.x)
    (hp : u ≠ 0 → p.y.val % 2 = u.val % 2) : ∃ k : BitVec 32, k &&& 3 = k ∧ ∀ hint : BitVec 32, hint &&& 3 = k → wei_svdwi ec m p hint = .ok (u, true) := by
  have h2 := ok.wei.good.two
  obtain ⟨hc, h0, h3, -⟩ := mc.svdw ha
  have hc0 := svdw_c0 mc ha
  have hz := mc.z0
  have ht := svdw_t1 mc ha u
  have hg0 := weiG_ne ok m.z
  obtain ⟨gz, hgz⟩ : ∃ g, g = m.z * m.z * m.z + ec.b := ⟨_, rfl⟩
  have hgw : weiG 0 ec.b m.z = gz := by rw [hgz, weiG0]; ring
  rw [ha, hgw] at hg0
  rw [hgw] at ht
  obtain ⟨c, r1, c1, c2, c3⟩ := fe_sqrt_exact fe ok.field (ZMod.card fe.p) 0 0 (by decide) (by decide)
    ((p.x * p.x * (m.z * m.z) + m.z * m.z * (m.z * m.z)) * 3 * 3 -
            (p.x * (m.z * m.z * m.z) + p.x * (m.z * m.z * m.z)) * 3 * 3 +
          (p.x - m.z) * gz * 3 * 4)
  -- the numerator and the denominator for the right value of the two low bits
  have key : ∃ k : BitVec 32, k &&& 3 = k ∧ (((k - 2) >>> 31) != 0 || r1) = true ∧
      ∃ N D : ZMod fe.p, (fe_select (fe_select (fe_select (gz * (m.c - (p.x + p.x + m.z))) (gz * (m.c + (p.x + p.x + m.z))) ((((k ^^^ 1) - 1) >>> 31) != 0))
        ((m.z * m.z * m.z - p.x * (m.z * m.z)) * 3 - (gz + gz) + c * m.z) ((((k ^^^ 2) - 1) >>> 31) != 0))
        ((m.z * m.z * m.z - p.x * (m.z * m.z)) * 3 - (gz + gz) - c * m.z) ((((k ^^^ 3) - 1) >>> 31) != 0)) = N ∧
      (fe_select (fe_select 2 (m.c + (p.x + p.x + m.z)) ((((k ^^^ 0) - 1) >>> 31) != 0)) (m.c - (p.x + p.x + m.z)) ((((k ^^^ 1) - 1) >>> 31) != 0)) = D ∧
      D ≠ 0 ∧ N = u * u * D := by
    unfold Svdw at hx
    rw [hgw] at hx
    split at hx
    · rename_i hh
      have hu : u = 0 := by rcases hh with h | h; exacts [h, absurd h ht]
      refine ⟨0, by decide, by rfl, gz * (m.c - (p.x + p.x + m.z)), m.c + (p.x + p.x + m.z), rfl, rfl, ?_, ?_⟩
      · have : m.c + (p.x + p.x + m.z) = 2 * m.c := by rw [hx]; field_simp; ring
        rw [this]; exact mul_ne_zero h2 hc0
      · have : m.c - (p.x + p.x + m.z) = 0 := by rw [hx]; field_simp; ring
        rw [this, hu]; ring
    · rename_i hh
      have hu : u ≠ 0 := fun h => hh (Or.inl h)
      have hcg : 2 * m.c * gz ≠ 0 := mul_ne_zero (mul_ne_zero h2 hc0) hg0
      rcases hx with ⟨-, hx⟩ | ⟨-, -, hx⟩ | ⟨-, -, hx⟩
      · have e1 : (u ^ 2 + gz) * (m.c - (p.x + p.x + m.z)) = 2 * u ^ 2 * m.c := by
          rw [hx, svdwX1, hgw]; field_simp; ring
        refine ⟨0, by decide, by rfl, gz * (m.c - (p.x + p.x + m.z)), m.c + (p.x + p.x + m.z), rfl, rfl, ?_, ?_⟩
        · intro h
          apply hcg
          linear_combination (u ^ 2 + gz) * h + e1
        · linear_combination e1
      · have e1 : (u ^ 2 + gz) * (m.c + (p.x + p.x + m.z)) = 2 * u ^ 2 * m.c := by
          rw [hx, svdwX2, hgw]; field_simp; ring
        refine ⟨1, by decide, by rfl, gz * (m.c + (p.x + p.x + m.z)), m.c - (p.x + p.x + m.z), rfl, rfl, ?_, ?_⟩
        · intro h
          apply hcg
          linear_combination (u ^ 2 + gz) * h + e1
        · linear_combination e1
      · have e1 : 3 * m.z ^ 2 * u ^ 2 * (p.x - m.z) = -(u ^ 2 + gz) ^ 2 := by
          rw [hx, svdwX3, hgw]; field_simp; ring
        have e2 : (2 * u ^ 2 - ((m.z * m.z * m.z - p.x * (m.z * m.z)) * 3 - (gz + gz))) ^ 2 = m.z ^ 2 *
            ((p.x * p.x * (m.z * m.z) + m.z * m.z * (m.z * m.z)) * 3 * 3 -
            (p.x * (m.z * m.z * m.z) + p.x * (m.z * m.z * m.z)) * 3 * 3 +
          (p.x - m.z) * gz * 3 * 4) := by linear_combination 4 * e1
        have hs : IsSquare ((p.x * p.x * (m.z * m.z) + m.z * m.z * (m.z * m.z)) * 3 * 3 -
            (p.x * (m.z * m.z * m.z) + p.x * (m.z * m.z * m.z)) * 3 * 3 +
          (p.x - m.z) * gz * 3 * 4) := by
          refine ⟨(2 * u ^ 2 - ((m.z * m.z * m.z - p.x * (m.z * m.z)) * 3 - (gz + gz))) / m.z, ?_⟩
          rw [div_mul_div_comm, eq_div_iff (mul_ne_zero hz hz)]
          linear_combination -e2
        obtain rfl : r1 = true := c2.2 hs
        rw [← c3 hs] at e2
        rcases sq_eq_sq_iff_eq_or_eq_neg.1 (e2.trans (show m.z ^ 2 * (c * c) = (c * m.z) ^ 2 by ring)) with h | h
        · refine ⟨2, by decide, by rfl, (m.z * m.z * m.z - p.x * (m.z * m.z)) * 3 - (gz + gz) + c * m.z, 2, rfl, rfl, h2, ?_⟩
          linear_combination -h
        · refine ⟨3, by decide, by rfl, (m.z * m.z * m.z - p.x * (m.z * m.z)) * 3 - (gz + gz) - c * m.z, 2, rfl, rfl, h2, ?_⟩
          linear_combination -h
  obtain ⟨k, kk, k1, N, D, k2, k3, k4, k5⟩ := key
  refine ⟨k, kk, fun hint hk => ?_⟩
  unfold wei_svdwi
  dsimp only
  rw [← hgz, c1, C.ok_bind, hk]
  dsimp only
  rw [k1, k2, k3]
  obtain ⟨v, r2, v1, v2, v3⟩ := fe_isqrt_exact fe ok.field (ZMod.card fe.p) 0 (by decide) N D
  have hn : N / D = u * u := by rw [k5, mul_div_cancel_right₀ _ k4]
  rw [hn] at v2 v3
  obtain rfl : r2 = true := v2.2 ⟨k4, ⟨u, rfl⟩⟩
  have hv := v3 rfl
  rw [v1, C.ok_bind]
  dsimp only
  have hfin : fe_set_odd fe v (fe_is_odd fe p.y) = u := by
    by_cases hv0 : v = 0
    · rw [hv0, set_odd_zero]
      rw [hv0, mul_zero] at hv
      exact (mul_self_eq_zero.1 hv.symm).symm
    · apply root_unique h2
      · rw [set_odd_sq, pow_two, pow_two, hv]
      · rw [set_odd_parity h2 hv0]; exact bool_par.2 (hp (by rintro rfl; rw [mul_zero] at hv; exact hv0 (mul_self_eq_zero.1 hv)))
  obtain ⟨x, x1, x2, -⟩ := svdwf_ok ok mc ha u
  rw [svdwf_even (show v ^ 2 = u ^ 2 by rw [pow_two, pow_two, hv]), x1, C.ok_bind, C.pure_eq, hfin, svdw_fun x2 hx, hi]
  simp [fe_equal]

end
end Torsion.Ecc
