import Verif.Ecc.MontKeyLemmas

/-! Lemmas on Elligator 2. -/
namespace Torsion.Ecc

open Torsion.Spec (montCurve MPt montAffine montX MontXZ MontGood MontOk beVal leVal leBytes pubX elligX1 Elligator)
open WeierstrassCurve.Affine (Point)

/-- The checks for Elligator 2: `z` and `-A` have no roots, and the number of points in the table. -/
def elligCheck (d : MontDef) : Bool :=
  force d.fe.p fun p => eulerCheck p (d.z % (p : Int)).toNat && eulerCheck p (p - beVal d.a) && decide (0 < beVal d.a) &&
    (d.torsion.length == d.h) && decide (0 < d.h) && decide (d.h ≤ 16)

set_option maxRecDepth 100000 in
theorem ellig_check : ∀ d ∈ montDefs, elligCheck d = true := by
  intro d hd
  simp only [montDefs, List.mem_cons, List.not_mem_nil, or_false] at hd
  rcases hd with rfl | rfl <;> decide +kernel

section
variable {d : MontDef} [Fact d.fe.p.Prime] {ec : Mont (ZMod d.fe.p)}

theorem ellig_facts (hd : d ∈ montDefs) (c : MontCtx d ec) : ¬ IsSquare ec.z ∧ ¬ IsSquare (-ec.a) ∧ ec.a ≠ 0 ∧ ec.torsion.length = ec.h ∧ 0 < ec.h ∧ ec.h ≤ 16 := by
  have h := ellig_check d hd
  unfold elligCheck at h
  simp only [force_eq, Bool.and_eq_true, decide_eq_true_eq, beq_iff_eq] at h
  obtain ⟨⟨⟨⟨⟨h1, h2⟩, h3⟩, h4⟩, h5⟩, h6⟩ := h
  have hp := c.facts.four
  have h1 := eulerCheck_spec (by omega) h1
  have h2 := eulerCheck_spec (by omega) h2
  have e1 : (((d.z % (d.fe.p : Int)).toNat : Nat) : ZMod d.fe.p) = ec.z := by
    have : (((d.z % (d.fe.p : Int)).toNat : Int) : ZMod d.fe.p) = ((d.z % (d.fe.p : Int) : Int) : ZMod d.fe.p) := by
      rw [Int.toNat_of_nonneg (Int.emod_nonneg _ (by omega))]
    rw [Int.cast_natCast] at this
    rw [this, c.z]
    exact (ZMod.intCast_eq_intCast_iff' _ _ _).2 (Int.emod_emod_of_dvd _ (dvd_refl _))
  rw [e1] at h1
  rw [Nat.cast_sub c.facts.alt.le, ZMod.natCast_self, zero_sub, ← c.a] at h2
  refine ⟨h1, h2, ?_, ?_, by rw [c.h]; exact h5, by rw [c.h]; exact h6⟩
  · intro h; rw [h, neg_zero] at h2; exact h2 IsSquare.zero
  · rw [c.tor, List.length_map, h4, c.h]

theorem non_mul {p : Nat} [Fact p.Prime] (h2 : (2 : ZMod p) ≠ 0) {x y : ZMod p} (hx : ¬ IsSquare x) (hy : ¬ IsSquare y) : IsSquare (x * y) := by
  have hx0 : x ≠ 0 := by rintro rfl; exact hx IsSquare.zero
  have hy0 : y ≠ 0 := by rintro rfl; exact hy IsSquare.zero
  have hne : ringChar (ZMod p) ≠ 2 := by
    rw [ZMod.ringChar_zmod_n]
    rintro rfl
    have : ((2 : Nat) : ZMod 2) = 0 := ZMod.natCast_self 2
    exact h2 (by exact_mod_cast this)
  rw [← quadraticChar_one_iff_isSquare (mul_ne_zero hx0 hy0), map_mul, quadraticChar_neg_one_iff_not_isSquare.2 hx,
    quadraticChar_neg_one_iff_not_isSquare.2 hy]
  norm_num

theorem elligX1_ne (ha : ec.a ≠ 0) (u : ZMod d.fe.p) : elligX1 ec.a ec.z u ≠ 0 := by
  unfold elligX1
  split
  · exact neg_ne_zero.2 ha
  · rename_i h; exact div_ne_zero (neg_ne_zero.2 ha) h

/-- One of the two candidates is the abscissa of a point. -/
theorem ellig_second (hd : d ∈ montDefs) (c : MontCtx d ec) (u : ZMod d.fe.p)
    (hn : ¬ IsSquare (elligX1 ec.a ec.z u ^ 3 + ec.a * elligX1 ec.a ec.z u ^ 2 + elligX1 ec.a ec.z u)) :
    IsSquare ((-elligX1 ec.a ec.z u - ec.a) ^ 3 + ec.a * (-elligX1 ec.a ec.z u - ec.a) ^ 2 + (-elligX1 ec.a ec.z u - ec.a)) := by
  obtain ⟨hz, hna, ha, -⟩ := ellig_facts hd c
  by_cases h : 1 + ec.z * u ^ 2 = 0
  · have : elligX1 ec.a ec.z u = -ec.a := if_pos h
    rw [this]
    exact ⟨0, by ring⟩
  · have e : elligX1 ec.a ec.z u = -ec.a / (1 + ec.z * u ^ 2) := if_neg h
    set x1 := elligX1 ec.a ec.z u
    have e1 : x1 * (1 + ec.z * u ^ 2) = -ec.a := by rw [e]; field_simp
    have : (-x1 - ec.a) ^ 3 + ec.a * (-x1 - ec.a) ^ 2 + (-x1 - ec.a) = u ^ 2 * (ec.z * (x1 ^ 3 + ec.a * x1 ^ 2 + x1)) := by
      have e2 : -x1 - ec.a = ec.z * u ^ 2 * x1 := by linear_combination -e1
      have e3 : (-x1 - ec.a) ^ 3 + ec.a * (-x1 - ec.a) ^ 2 + (-x1 - ec.a) = (-x1 - ec.a) * (x1 ^ 2 + ec.a * x1 + 1) := by ring
      rw [e3, e2]; ring
    rw [this]
    exact (IsSquare.sq u).mul (non_mul c.ok.good.two hz hn)

theorem solve_y0 (c : MontCtx d ec) (x : ZMod d.fe.p) : mont_solve_y0 ec x = x ^ 3 + ec.a * x ^ 2 + x := by
  have ha0 : ec.a0 = ec.a := by have := c.ok.a0; rwa [c.b, mul_one] at this
  have hb : ec.b_one = true := by rw [Mont.b_one, fe_equal, c.b]; simp
  unfold mont_solve_y0
  rw [hb, if_pos rfl, ha0]
  ring

/-- What Elligator 2 computes, with `B = 1`. -/
structure EIm (ec : Mont (ZMod d.fe.p)) (u : ZMod d.fe.p) (x y : ZMod d.fe.p) : Prop where
  first : IsSquare (elligX1 ec.a ec.z u ^ 3 + ec.a * elligX1 ec.a ec.z u ^ 2 + elligX1 ec.a ec.z u) → x = elligX1 ec.a ec.z u
  second : ¬ IsSquare (elligX1 ec.a ec.z u ^ 3 + ec.a * elligX1 ec.a ec.z u ^ 2 + elligX1 ec.a ec.z u) → x = -elligX1 ec.a ec.z u - ec.a
  eqn : y ^ 2 = x ^ 3 + ec.a * x ^ 2 + x
  par : y = 0 ∨ fe_is_odd d.fe y = fe_is_odd d.fe u

theorem eim_unique (c : MontCtx d ec) {u x y x' y' : ZMod d.fe.p} (h : EIm ec u x y) (h' : EIm ec u x' y') : x = x' ∧ y = y' := by
  have hx : x = x' := by
    by_cases hs : IsSquare (elligX1 ec.a ec.z u ^ 3 + ec.a * elligX1 ec.a ec.z u ^ 2 + elligX1 ec.a ec.z u)
    · rw [h.first hs, h'.first hs]
    · rw [h.second hs, h'.second hs]
  subst hx
  refine ⟨rfl, ?_⟩
  have hsq : y ^ 2 = y' ^ 2 := by rw [h.eqn, h'.eqn]
  rcases h.par with rfl | hp
  · have : y' ^ 2 = 0 := by rw [← hsq]; ring
    exact (pow_eq_zero_iff (n := 2) (by norm_num) |>.1 this).symm
  · rcases h'.par with rfl | hp'
    · have : y ^ 2 = 0 := by rw [hsq]; ring
      exact pow_eq_zero_iff (n := 2) (by norm_num) |>.1 this
    · exact root_unique c.ok.good.two hsq (by rw [hp, hp'])

theorem ellig_ok (hd : d ∈ montDefs) (c : MontCtx d ec) (u : ZMod d.fe.p) :
    ∃ x y, mont_elligator2 ec u = .ok ⟨x, y, false⟩ ∧ EIm ec u x y := by
  have ha0 : ec.a0 = ec.a := by have := c.ok.a0; rwa [c.b, mul_one] at this
  have hb1 : ∀ x, mont_mul_b ec x = x := fun x => by rw [m_mul_b, c.b, mul_one]
  have hx1 : -ec.a * (fe_invert (fe_select (u * u * ec.z + 1) 1 (fe_is_zero (u * u * ec.z + 1)))).1 = elligX1 ec.a ec.z u := by
    have e : u * u * ec.z + 1 = 1 + ec.z * u ^ 2 := by ring
    rw [e]
    unfold elligX1 fe_select fe_is_zero fe_invert
    by_cases h : 1 + ec.z * u ^ 2 = 0
    · rw [if_pos h, decide_eq_true h, if_pos rfl, inv_one, mul_one]
    · rw [if_neg h, decide_eq_false h, if_neg (by simp), div_eq_mul_inv]
  obtain ⟨s, s1, s2⟩ := fe_is_square_exact d.fe (montDefs_fe d hd) (ZMod.card d.fe.p)
    (elligX1 ec.a ec.z u ^ 3 + ec.a * elligX1 ec.a ec.z u ^ 2 + elligX1 ec.a ec.z u)
  have fin : ∀ x : ZMod d.fe.p, IsSquare (x ^ 3 + ec.a * x ^ 2 + x) → ∃ y r, fe_sqrt d.fe 0 0 (x ^ 3 + ec.a * x ^ 2 + x) = .ok (y, true) ∧
      r = fe_set_odd d.fe y (fe_is_odd d.fe u) ∧ r ^ 2 = x ^ 3 + ec.a * x ^ 2 + x ∧ (r = 0 ∨ fe_is_odd d.fe r = fe_is_odd d.fe u) := by
    intro x hx
    obtain ⟨y, b, h1, h2, h3⟩ := fe_sqrt_exact d.fe (montDefs_fe d hd) (ZMod.card d.fe.p) 0 0 (by decide) (by decide) (x ^ 3 + ec.a * x ^ 2 + x)
    have hb : b = true := h2.2 hx
    subst hb
    refine ⟨y, _, h1, rfl, by rw [set_odd_sq, pow_two, h3 hx], ?_⟩
    by_cases hy : y = 0
    · left; rw [hy, set_odd_zero]
    · right; exact set_odd_parity c.ok.good.two hy _
  unfold mont_elligator2
  dsimp only
  rw [ha0, hx1, solve_y0 c, solve_y0 c, s1, C.ok_bind]
  cases s with
  | true =>
    obtain ⟨y, r, f1, f2, f3, f4⟩ := fin _ (s2.1 rfl)
    simp only [Bool.not_true, fe_select, Bool.false_eq_true, if_false]
    rw [f1, C.ok_bind]
    dsimp only
    rw [C.check, if_pos rfl, C.ok_bind, hb1, hb1, ← f2]
    exact ⟨_, r, rfl, fun _ => rfl, fun h => absurd (s2.1 rfl) h, f3, f4⟩
  | false =>
    have hn : ¬ IsSquare (elligX1 ec.a ec.z u ^ 3 + ec.a * elligX1 ec.a ec.z u ^ 2 + elligX1 ec.a ec.z u) := fun h => by simpa using s2.2 h
    obtain ⟨y, r, f1, f2, f3, f4⟩ := fin _ (ellig_second hd c u hn)
    simp only [Bool.not_false, fe_select, if_true]
    rw [f1, C.ok_bind]
    dsimp only
    rw [C.check, if_pos rfl, C.ok_bind, hb1, hb1, ← f2]
    exact ⟨_, r, rfl, fun h => absurd h hn, fun _ => rfl, f3, f4⟩

theorem y_zero (c : MontCtx d ec) {x : ZMod d.fe.p} (h : x ^ 3 + ec.a * x ^ 2 + x = 0) : x = 0 := by
  have : x * (x ^ 2 + ec.a * x * 1 + 1 ^ 2) = 0 := by linear_combination h
  rcases mul_eq_zero.1 this with h | h
  · exact h
  · exact absurd (quad_ne c.ok.good.two (nsq' c) h) one_ne_zero

/-- `mont_invert2` inverts Elligator 2. -/
theorem invert2_ok (hd : d ∈ montDefs) (c : MontCtx d ec) {x y : ZMod d.fe.p} (he : y ^ 2 = x ^ 3 + ec.a * x ^ 2 + x) (hint : Nat) :
    ∃ u r, mont_invert2 ec ⟨x, y, false⟩ hint = .ok (u, r) ∧ (r = true → EIm ec u x y) ∧
      (r = true ↔ if hint % 2 = 1 then (x + ec.a) * ec.z ≠ 0 ∧ IsSquare (-x / ((x + ec.a) * ec.z))
        else x * ec.z ≠ 0 ∧ IsSquare (-(x + ec.a) / (x * ec.z))) ∧
      (r = true → u ^ 2 = (if hint % 2 = 1 then -x / ((x + ec.a) * ec.z) else -(x + ec.a) / (x * ec.z))) ∧
      (u = 0 ∨ fe_is_odd d.fe u = fe_is_odd d.fe y) := by
  obtain ⟨hz, hna, ha, -⟩ := ellig_facts hd c
  have two := c.ok.good.two
  have hz0 : ec.z ≠ 0 := by intro h; rw [h] at hz; exact hz IsSquare.zero
  have ha0 : ec.a0 = ec.a := by have := c.ok.a0; rwa [c.b, mul_one] at this
  have hb1 : ∀ x, mont_div_b ec x = x := fun x => by rw [m_div_b c.ok, c.b, div_one]
  have par : ∀ w : ZMod d.fe.p, fe_set_odd d.fe w (fe_is_odd d.fe y) = 0 ∨
      fe_is_odd d.fe (fe_set_odd d.fe w (fe_is_odd d.fe y)) = fe_is_odd d.fe y := by
    intro w
    by_cases hw : w = 0
    · left; rw [hw, set_odd_zero]
    · right; exact set_odd_parity two hw _
  unfold mont_invert2
  dsimp only
  rw [hb1, hb1, ha0]
  by_cases hh : hint % 2 = 1
  · simp only [if_pos hh]
    obtain ⟨w, r, h1, h2, h3⟩ := fe_isqrt_exact d.fe (montDefs_fe d hd) (ZMod.card d.fe.p) 0 (by omega) (-x) ((x + ec.a) * ec.z)
    rw [h1, C.ok_bind]
    dsimp only
    rw [Bool.not_false, Bool.and_true]
    refine ⟨_, _, rfl, ?_, h2, fun h => by rw [set_odd_sq, pow_two, h3 h], par w⟩
    intro hr
    set u := fe_set_odd d.fe w (fe_is_odd d.fe y) with hu
    have hu2 : u ^ 2 = -x / ((x + ec.a) * ec.z) := by rw [hu, set_odd_sq, pow_two, h3 hr]
    have hxa : x + ec.a ≠ 0 := fun h => (h2.1 hr).1 (by rw [h, zero_mul])
    have hden : 1 + ec.z * u ^ 2 = ec.a / (x + ec.a) := by rw [hu2]; field_simp; ring
    have hx1 : elligX1 ec.a ec.z u = -(x + ec.a) := by
      rw [elligX1, if_neg (by rw [hden]; exact div_ne_zero ha hxa), hden]; field_simp
    have hns : ¬ IsSquare (elligX1 ec.a ec.z u ^ 3 + ec.a * elligX1 ec.a ec.z u ^ 2 + elligX1 ec.a ec.z u) := by
      by_cases hx : x = 0
      · rw [hx1, hx]
        have : (-(0 + ec.a)) ^ 3 + ec.a * (-(0 + ec.a)) ^ 2 + -(0 + ec.a) = -ec.a := by ring
        rw [this]; exact hna
      · rw [hx1]
        rintro ⟨s, hs⟩
        have hrel : y ^ 2 = ec.z * u ^ 2 * (s * s) := by
          rw [he, ← hs, hu2]; field_simp; ring
        have hu0 : u ≠ 0 := by
          intro h0
          rw [h0] at hu2
          have : x = 0 := by
            have : -x / ((x + ec.a) * ec.z) = 0 := by rw [← hu2]; ring
            rcases div_eq_zero_iff.1 this with h | h
            · exact neg_eq_zero.1 h
            · exact absurd h (mul_ne_zero hxa hz0)
          exact hx this
        have hs0 : s ≠ 0 := by
          rintro rfl
          have : x ^ 3 + ec.a * x ^ 2 + x = 0 := by rw [← he, hrel]; ring
          exact hx (y_zero c this)
        apply hz
        refine ⟨y / (u * s), ?_⟩
        field_simp
        linear_combination -hrel
    refine ⟨fun h => absurd h hns, fun _ => by rw [hx1]; ring, he, ?_⟩
    by_cases hx : x = 0
    · left
      have : y ^ 2 = 0 := by rw [he, hx]; ring
      exact pow_eq_zero_iff (n := 2) (by norm_num) |>.1 this
    · right
      rcases par w with h | h
      · exfalso
        rw [← hu] at h
        rw [h] at hu2
        have : -x / ((x + ec.a) * ec.z) = 0 := by rw [← hu2]; ring
        rcases div_eq_zero_iff.1 this with h | h
        · exact hx (neg_eq_zero.1 h)
        · exact absurd h (mul_ne_zero hxa hz0)
      · exact h.symm
  · simp only [if_neg hh]
    obtain ⟨w, r, h1, h2, h3⟩ := fe_isqrt_exact d.fe (montDefs_fe d hd) (ZMod.card d.fe.p) 0 (by omega) (-(x + ec.a)) (x * ec.z)
    rw [h1, C.ok_bind]
    dsimp only
    rw [Bool.not_false, Bool.and_true]
    refine ⟨_, _, rfl, ?_, h2, fun h => by rw [set_odd_sq, pow_two, h3 h], par w⟩
    intro hr
    set u := fe_set_odd d.fe w (fe_is_odd d.fe y) with hu
    have hu2 : u ^ 2 = -(x + ec.a) / (x * ec.z) := by rw [hu, set_odd_sq, pow_two, h3 hr]
    have hx : x ≠ 0 := fun h => (h2.1 hr).1 (by rw [h, zero_mul])
    have hden : 1 + ec.z * u ^ 2 = -ec.a / x := by rw [hu2]; field_simp; ring
    have hx1 : elligX1 ec.a ec.z u = x := by
      rw [elligX1, if_neg (by rw [hden]; exact div_ne_zero (neg_ne_zero.2 ha) hx), hden]; field_simp
    have hsq : IsSquare (elligX1 ec.a ec.z u ^ 3 + ec.a * elligX1 ec.a ec.z u ^ 2 + elligX1 ec.a ec.z u) := by
      rw [hx1, ← he]; exact IsSquare.sq y
    refine ⟨fun _ => hx1.symm, fun h => absurd hsq h, he, Or.inr ?_⟩
    rcases par w with h | h
    · exfalso
      rw [← hu] at h
      rw [h] at hu2
      have : -(x + ec.a) / (x * ec.z) = 0 := by rw [← hu2]; ring
      rcases div_eq_zero_iff.1 this with h | h
      · have hxa : x = -ec.a := by linear_combination -h
        apply hna
        refine ⟨y, ?_⟩
        rw [← pow_two, he, hxa]; ring
      · exact absurd h (mul_ne_zero hx hz0)
    · exact h.symm

/-- All `u` are found, except the two with `1 + z u^2 = 0`. -/
theorem invert2_complete (hd : d ∈ montDefs) (c : MontCtx d ec) {u x y : ZMod d.fe.p} (h : EIm ec u x y) (hu : 1 + ec.z * u ^ 2 ≠ 0) :
    ∃ bit, bit < 2 ∧ ∀ hint, hint % 2 = bit → mont_invert2 ec ⟨x, y, false⟩ hint = .ok (u, true) := by
  obtain ⟨hz, hna, ha, -⟩ := ellig_facts hd c
  have hz0 : ec.z ≠ 0 := by intro h; rw [h] at hz; exact hz IsSquare.zero
  have two := c.ok.good.two
  have hX : elligX1 ec.a ec.z u = -ec.a / (1 + ec.z * u ^ 2) := if_neg hu
  have fin : ∀ v : ZMod d.fe.p, v ^ 2 = u ^ 2 → (v = 0 ∨ fe_is_odd d.fe v = fe_is_odd d.fe y) → (u = 0 ∨ y ≠ 0) → v = u := by
    intro v hv hp hy
    rcases hy with rfl | hy
    · exact pow_eq_zero_iff (n := 2) (by norm_num) |>.1 (by rw [hv]; ring)
    · rcases hp with rfl | hp
      · exact (pow_eq_zero_iff (n := 2) (by norm_num) |>.1 (show u ^ 2 = 0 by rw [← hv]; ring)).symm
      · exact root_unique two hv (by rw [hp, h.par.resolve_left hy])
  by_cases hs : IsSquare (elligX1 ec.a ec.z u ^ 3 + ec.a * elligX1 ec.a ec.z u ^ 2 + elligX1 ec.a ec.z u)
  · refine ⟨0, by omega, fun hint hh => ?_⟩
    have hx := h.first hs
    have hx0 : x ≠ 0 := by rw [hx]; exact elligX1_ne ha u
    have e : -(x + ec.a) / (x * ec.z) = u ^ 2 := by
      rw [hx, hX]; field_simp; ring
    obtain ⟨v, r, h1, -, h3, h4, h5⟩ := invert2_ok hd c h.eqn hint
    rw [if_neg (by omega)] at h3 h4
    have hr : r = true := h3.2 ⟨mul_ne_zero hx0 hz0, by rw [e]; exact IsSquare.sq u⟩
    subst hr
    have hv := h4 rfl
    rw [e] at hv
    rw [h1, fin v hv h5 (Or.inr (fun hy => hx0 (y_zero c (by rw [← h.eqn, hy]; ring))))]
  · refine ⟨1, by omega, fun hint hh => ?_⟩
    have hx := h.second hs
    have hxa : x + ec.a = ec.a / (1 + ec.z * u ^ 2) := by rw [hx, hX]; ring
    have hxa0 : x + ec.a ≠ 0 := by rw [hxa]; exact div_ne_zero ha hu
    have e : -x / ((x + ec.a) * ec.z) = u ^ 2 := by
      rw [hxa, show x = ec.a / (1 + ec.z * u ^ 2) - ec.a by rw [← hxa]; ring]; field_simp; ring
    obtain ⟨v, r, h1, -, h3, h4, h5⟩ := invert2_ok hd c h.eqn hint
    rw [if_pos hh] at h3 h4
    have hr : r = true := h3.2 ⟨mul_ne_zero hxa0 hz0, by rw [e]; exact IsSquare.sq u⟩
    subst hr
    have hv := h4 rfl
    rw [e] at hv
    rw [h1, fin v hv h5 ?_]
    by_cases hu0 : u = 0
    · exact Or.inl hu0
    · right
      intro hy
      have hx0 : x = 0 := y_zero c (by rw [← h.eqn, hy]; ring)
      rw [hx0] at e
      apply hu0
      exact pow_eq_zero_iff (n := 2) (by norm_num) |>.1 (by rw [← e]; simp)

end

end Torsion.Ecc
