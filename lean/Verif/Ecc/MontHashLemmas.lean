import Verif.Ecc.MontUniformLemmas

/-! Lemmas on hashes as points, and on the table of the points of small order. -/
namespace Torsion.Ecc

open Torsion.Spec (montCurve MPt montAffine montX MontXZ MontGood MontOk beVal leVal leBytes pubX elligX1 Elligator)
open WeierstrassCurve.Affine (Point)

theorem hint_sub (w subgroup : BitVec 32) : (((w &&& 0xff0f) ||| ((subgroup &&& 15) <<< 4)) >>> 4) &&& 15 = subgroup &&& 15 := by
  apply BitVec.eq_of_getLsbD_eq
  intro i hi
  simp only [BitVec.getLsbD_and, BitVec.getLsbD_or, BitVec.getLsbD_ushiftRight, BitVec.getLsbD_shiftLeft]
  interval_cases i <;> simp

section
variable {d : MontDef} [Fact d.fe.p.Prime] {ec : Mont (ZMod d.fe.p)}

theorem pubX_append {u v : List Byte} (h : u.length = feSize d.fe) : pubX d (u ++ v) = pubX d u := by
  unfold pubX
  rw [List.take_append_of_le_length h.ge]

theorem from_hash_ok (hd : d ∈ montDefs) (c : MontCtx d ec) {bytes : List Byte} (hl : 2 * feSize d.fe ≤ bytes.length) :
    ∃ P1 P2 : MPt ec.a ec.b, Elligator ec.z (pubX d bytes) P1 ∧ Elligator ec.z (pubX d (bytes.drop (feSize d.fe))) P2 ∧
      mont_point_from_uniform ec bytes = .ok (montAffine P1) ∧ mont_point_from_uniform ec (bytes.drop (feSize d.fe)) = .ok (montAffine P2) ∧
      mont_point_from_hash ec bytes = .ok (montAffine (P1 + P2)) := by
  have hl2 : feSize d.fe ≤ (bytes.drop (feSize d.fe)).length := by rw [List.length_drop]; omega
  obtain ⟨x1, y1, e1, i1⟩ := ellig_ok hd c (pubX d bytes)
  obtain ⟨x2, y2, e2, i2⟩ := ellig_ok hd c (pubX d (bytes.drop (feSize d.fe)))
  obtain ⟨P1, p1, -, q1⟩ := point_eim c i1
  obtain ⟨P2, p2, -, q2⟩ := point_eim c i2
  refine ⟨P1, P2, q1, q2, ?_, ?_, ?_⟩
  · rw [from_uniform_ok hd c (by omega), e1, p1]
  · rw [from_uniform_ok hd c hl2, e2, p2]
  · unfold mont_point_from_hash
    dsimp only
    rw [from_uniform_ok hd c (by omega), e1, C.ok_bind, from_uniform_ok hd c hl2, e2, C.ok_bind, ← p1, ← p2, mge_add_aff c.ok]
    rfl

/-- What the loop may return. -/
def HashRes (ec : Mont (ZMod d.fe.p)) (Q : MPt ec.a ec.b) (r : R (List Byte)) : Prop :=
  r = .spin ∨ ∃ out, r = .ok out ∧ out.length = 2 * feSize d.fe ∧ mont_point_from_hash ec out = .ok (montAffine Q)

theorem to_hash_loop {S : Type} (hd : d ∈ montDefs) (c : MontCtx d ec) (gen : ByteGen S) (P T : MPt ec.a ec.b) (subgroup : BitVec 32)
    (hT : ec.torsion[(subgroup &&& 15).toNat % ec.h]? = some (montAffine T)) :
    ∀ fuel p2 hint s, (∃ Q : MPt ec.a ec.b, p2 = some (montAffine Q) ∧ ∃ o, mont_point_to_uniform ec (montAffine Q) hint = .ok (o, false)) ∨
      (p2 = none ∧ ∀ p1, mont_point_from_uniform ec (gen.gen s (feSize d.fe)).1 = .ok p1 → p1.y ≠ 0) →
      HashRes ec (P + T) (mont_point_to_hash_loop ec gen (montAffine P) ((subgroup &&& 15) <<< 4) fuel p2 hint s)
  | 0, _, _, _, _ => Or.inl (by rw [mont_point_to_hash_loop])
  | fuel + 1, p2, hint, s, hinv => by
    rw [mont_point_to_hash_loop]
    have hlen := gen.len s (feSize d.fe)
    obtain ⟨x1, y1, e1, i1⟩ := ellig_ok hd c (pubX d (gen.gen s (feSize d.fe)).1)
    obtain ⟨P1, p1, -, q1⟩ := point_eim c i1
    rw [← from_uniform_ok hd c hlen.ge] at e1
    dsimp only
    rw [e1, R.lift_ok, R.ok_bind]
    by_cases hy : y1 = 0
    · rw [show fe_is_zero (⟨x1, y1, false⟩ : Mge (ZMod d.fe.p)).y = true by simp [fe_is_zero, hy], if_pos rfl]
      rcases hinv with ⟨Q, rfl, o, ho⟩ | ⟨rfl, hn⟩
      · dsimp only
        rw [ho, R.lift_ok, R.ok_bind]
        dsimp only
        rw [if_neg (by simp)]
        exact to_hash_loop hd c gen P T subgroup hT fuel _ _ _ (Or.inl ⟨Q, rfl, o, ho⟩)
      · exact absurd hy (hn _ e1)
    · rw [show fe_is_zero (⟨x1, y1, false⟩ : Mge (ZMod d.fe.p)).y = false by simp [fe_is_zero, hy], if_neg (by simp)]
      dsimp only
      rw [← p1, mge_sub_aff c.ok]
      have hs := hint_sub (BitVec.ofNat 32 (leVal (gen.gen (gen.gen s (feSize d.fe)).2 4).1)) subgroup
      generalize (BitVec.ofNat 32 (leVal (gen.gen (gen.gen s (feSize d.fe)).2 4).1) &&& 0xff0f) ||| ((subgroup &&& 15) <<< 4) = hint' at hs ⊢
      obtain ⟨T', out, r, t1, t2, t3, t4, t5, t6, t7⟩ := to_uniform_ok hd c (P - P1) hint'
      rw [hs] at t1
      have hTT : T' = T := m_aff_inj c.ok.good.b0 (Option.some.inj (t1.symm.trans hT))
      subst hTT
      rw [t3, R.lift_ok, R.ok_bind]
      dsimp only
      cases r with
      | false =>
        rw [if_neg (by simp)]
        exact to_hash_loop hd c gen P T' subgroup hT fuel _ _ _ (Or.inl ⟨_, rfl, out, t3⟩)
      | true =>
        rw [if_pos rfl]
        refine Or.inr ⟨(gen.gen s (feSize d.fe)).1 ++ out, rfl, by rw [List.length_append, hlen, t4]; omega, ?_⟩
        unfold mont_point_from_hash
        dsimp only
        have f1 : mont_point_from_uniform ec ((gen.gen s (feSize d.fe)).1 ++ out) = .ok (montAffine P1) := by
          rw [from_uniform_ok hd c (by rw [List.length_append, hlen]; omega), pubX_append hlen, ← from_uniform_ok hd c hlen.ge, e1, p1]
        rw [f1, C.ok_bind, List.drop_append_of_le_length hlen.ge, List.drop_of_length_le hlen.le, List.nil_append, t6 rfl, C.ok_bind,
          mge_add_aff c.ok, show P1 + (P - P1 + T') = P + T' by abel]
        rfl

theorem to_hash_ub {S : Type} (gen : ByteGen S) (ec : Mont (ZMod d.fe.p)) (p p1 : Mge (ZMod d.fe.p)) (flag hint : BitVec 32) (fuel : Nat) (s : S)
    (h : mont_point_from_uniform ec (gen.gen s (feSize d.fe)).1 = .ok p1) (hy : p1.y = 0) :
    mont_point_to_hash_loop ec gen p flag (fuel + 1) none hint s = .ub := by
  rw [mont_point_to_hash_loop]
  dsimp only
  rw [h, R.lift_ok, R.ok_bind, show fe_is_zero p1.y = true by simp [fe_is_zero, hy], if_pos rfl]

end

/-! ### The table -/

/-- The table contains the opposite of each of its points. -/
def negCheck (d : MontDef) : Bool :=
  d.torsion.all fun t => d.torsion.any fun t' => (t'.inf == t.inf) && decide (t'.x = t.x) && ((beVal t.y + beVal t'.y) % d.fe.p == 0)

set_option maxRecDepth 100000 in
theorem neg_check : ∀ d ∈ montDefs, negCheck d = true := by
  intro d hd
  simp only [montDefs, List.mem_cons, List.not_mem_nil, or_false] at hd
  rcases hd with rfl | rfl <;> decide +kernel

section
variable {d : MontDef} [Fact d.fe.p.Prime] {ec : Mont (ZMod d.fe.p)}

theorem tor_mem (hd : d ∈ montDefs) (c : MontCtx d ec) {t : SubgroupDef} (ht : t ∈ d.torsion) (hi : t.inf = false) {P : MPt ec.a ec.b}
    (hP : montX P = some (beVal t.x : ZMod d.fe.p)) : montAffine P ∈ ec.torsion := by
  have h := List.all_eq_true.1 (neg_check d hd) t ht
  obtain ⟨t', ht', hv⟩ := List.any_eq_true.1 h
  simp only [Bool.and_eq_true, decide_eq_true_eq, beq_iff_eq] at hv
  obtain ⟨⟨v1, v2⟩, v3⟩ := hv
  have e3 : (beVal t'.y : ZMod d.fe.p) = -(beVal t.y : ZMod d.fe.p) := by
    have : ((beVal t.y + beVal t'.y : Nat) : ZMod d.fe.p) = 0 := by
      rw [ZMod.natCast_eq_zero_iff]; exact Nat.dvd_of_mod_eq_zero v3
    rw [Nat.cast_add] at this
    linear_combination this
  have hT : ∃ T : MPt ec.a ec.b, montAffine T = ⟨(beVal t.x : ZMod d.fe.p), (beVal t.y : ZMod d.fe.p), t.inf⟩ := by
    rw [c.a, c.b]
    obtain ⟨T, h, -⟩ := c.facts.tor t ht
    exact ⟨T, h⟩
  obtain ⟨T, hT⟩ := hT
  rw [hi] at hT
  have hx := m_aff_x hT
  rw [c.tor, List.mem_map]
  rcases mx_eq c.ok.good.b0 (hP.trans hx.symm) with rfl | rfl
  · exact ⟨t, ht, by rw [hT, hi]⟩
  · refine ⟨t', ht', ?_⟩
    rw [← mge_neg_aff, hT, mge_neg, v2, v1, hi, e3]

theorem tor_zero (hd : d ∈ montDefs) (c : MontCtx d ec) : montAffine (0 : MPt ec.a ec.b) ∈ ec.torsion := by
  rw [c.tor, List.mem_map]
  simp only [montDefs, List.mem_cons, List.not_mem_nil, or_false] at hd
  rcases hd with rfl | rfl
  · refine ⟨_, List.mem_cons_self, ?_⟩
    show (⟨((0 : Nat) : ZMod curve_x25519.fe.p), ((0 : Nat) : ZMod curve_x25519.fe.p), true⟩ : Mge _) = _
    rw [Nat.cast_zero]; rfl
  · refine ⟨_, List.mem_cons_self, ?_⟩
    show (⟨((0 : Nat) : ZMod curve_x448.fe.p), ((0 : Nat) : ZMod curve_x448.fe.p), true⟩ : Mge _) = _
    rw [Nat.cast_zero]; rfl

theorem tor_small (hd : d ∈ montDefs) (c : MontCtx d ec) {P : MPt ec.a ec.b} (h : montAffine P ∈ ec.torsion) : ec.h • P = 0 := by
  rw [c.tor, List.mem_map] at h
  obtain ⟨t, ht, h⟩ := h
  have hT : ∃ T : MPt ec.a ec.b, montAffine T = ⟨(beVal t.x : ZMod d.fe.p), (beVal t.y : ZMod d.fe.p), t.inf⟩ ∧ ec.h • T = 0 := by
    rw [c.a, c.b, c.h]; exact c.facts.tor t ht
  obtain ⟨T, h1, h2⟩ := hT
  rw [← m_aff_inj c.ok.good.b0 (h1.trans h)]
  exact h2

end

/-- The abscissas in a table. -/
def hasX (d : MontDef) (x : Nat) : Bool := d.torsion.any fun t => !t.inf && (beVal t.x == x)

set_option maxRecDepth 100000 in
theorem hasX_x25519 : hasX curve_x25519 0 = true ∧ hasX curve_x25519 1 = true ∧ hasX curve_x25519 r1_25519 = true ∧ hasX curve_x25519 r2_25519 = true ∧
    eulerCheck curve_x25519.fe.p (beVal curve_x25519.a - 2) = true ∧ 2 ≤ beVal curve_x25519.a := by decide +kernel

set_option maxRecDepth 100000 in
theorem hasX_x448 : hasX curve_x448 0 = true ∧ hasX curve_x448 (curve_x448.fe.p - 1) = true ∧
    eulerCheck curve_x448.fe.p (beVal curve_x448.a + 2) = true ∧ 1 ≤ curve_x448.fe.p := by decide +kernel

section
variable {d : MontDef} [Fact d.fe.p.Prime] {ec : Mont (ZMod d.fe.p)}

theorem hasX_mem (hd : d ∈ montDefs) (c : MontCtx d ec) {x : Nat} (h : hasX d x = true) {P : MPt ec.a ec.b} (hP : montX P = some (x : ZMod d.fe.p)) :
    montAffine P ∈ ec.torsion := by
  obtain ⟨t, ht, hv⟩ := List.any_eq_true.1 h
  simp only [Bool.and_eq_true, Bool.not_eq_true', beq_iff_eq] at hv
  exact tor_mem hd c ht hv.1 (by rw [hv.2]; exact hP)

theorem no_point (c : MontCtx d ec) {x : ZMod d.fe.p} (h : ¬ IsSquare (x ^ 3 + ec.a * x ^ 2 + x)) {P : MPt ec.a ec.b} (hP : montX P = some x) : False := by
  have := (square_y2 c x).2 ⟨P, hP⟩
  rw [m_solve_y2 c.ok, c.b, div_one] at this
  exact h this

theorem tor_exact (hd : d ∈ montDefs) (c : MontCtx d ec) (P : MPt ec.a ec.b) : ec.h • P = 0 ↔ montAffine P ∈ ec.torsion := by
  refine ⟨fun h => ?_, tor_small hd c⟩
  cases hm : montX P with
  | none =>
    rw [mx_none] at hm
    rw [hm]; exact tor_zero hd c
  | some u =>
    have hd' := hd
    simp only [montDefs, List.mem_cons, List.not_mem_nil, or_false] at hd'
    rcases hd' with rfl | rfl
    · obtain ⟨q0, q1, q2, q3, q4, q5⟩ := hasX_x25519
      rcases (small_x25519 c c.ok.good.b0 hm).1 h with rfl | rfl | rfl | rfl | rfl
      · exact hasX_mem hd c q0 (by rw [hm, Nat.cast_zero])
      · exact hasX_mem hd c q1 (by rw [hm, Nat.cast_one])
      · exfalso
        have := eulerCheck_spec (by have := c.facts.four; omega) q4
        rw [Nat.cast_sub q5, ← c.a] at this
        refine no_point c ?_ hm
        rw [show (-1 : ZMod curve_x25519.fe.p) ^ 3 + ec.a * (-1) ^ 2 + -1 = ec.a - ((2 : Nat) : ZMod curve_x25519.fe.p) by push_cast; ring]
        exact this
      · exact hasX_mem hd c q2 hm
      · exact hasX_mem hd c q3 hm
    · obtain ⟨q0, q1, q2, q3⟩ := hasX_x448
      rcases (small_x448 c c.ok.good.b0 hm).1 h with rfl | rfl | rfl
      · exact hasX_mem hd c q0 (by rw [hm, Nat.cast_zero])
      · exfalso
        have := eulerCheck_spec (by have := c.facts.four; omega) q2
        rw [Nat.cast_add, ← c.a] at this
        refine no_point c ?_ hm
        rw [show (1 : ZMod curve_x448.fe.p) ^ 3 + ec.a * 1 ^ 2 + 1 = ec.a + ((2 : Nat) : ZMod curve_x448.fe.p) by push_cast; ring]
        exact this
      · refine hasX_mem hd c q1 ?_
        rw [hm, Nat.cast_sub q3, ZMod.natCast_self, zero_sub, Nat.cast_one]

end

section
variable {d : MontDef} [Fact d.fe.p.Prime] {ec : Mont (ZMod d.fe.p)}

theorem m_set_xy (c : MontCtx d ec) (x y : ZMod d.fe.p) : ∃ Q : MPt ec.a ec.b, mge_set_xy ec x y = (montAffine Q, (mge_set_xy ec x y).2) ∧
    ((mge_set_xy ec x y).2 = true → montAffine Q = ⟨x, y, false⟩) ∧ ((mge_set_xy ec x y).2 = false → Q = 0) ∧
    ((∃ P : MPt ec.a ec.b, montX P = some x ∧ (montAffine P).y = y) → (mge_set_xy ec x y).2 = true) := by
  unfold mge_set_xy
  dsimp only
  have hv : mont_validate_xy ec x y = true ↔ y ^ 2 = x ^ 3 + ec.a * x ^ 2 + x := by
    rw [mont_validate_xy, fe_equal, decide_eq_true_eq, m_solve_y2 c.ok, c.b, div_one, pow_two y]
  cases hr : mont_validate_xy ec x y with
  | true =>
    obtain ⟨Q, hQ⟩ := m_mk (a := ec.a) (b := ec.b) c.ok.good (by rw [c.b, one_mul]; exact hv.1 hr)
    exact ⟨Q, by rw [hQ]; simp [fe_select], fun _ => hQ, by simp, fun _ => rfl⟩
  | false =>
    refine ⟨0, by rw [m_aff_zero]; simp [fe_select], by simp, fun _ => rfl, ?_⟩
    rintro ⟨P, hP, hy⟩
    exfalso
    have hP' : montAffine P = ⟨x, y, false⟩ := by
      rcases P with _ | ⟨a, b, hp⟩
      · cases hP
      · have hx := Option.some.inj hP
        rw [m_aff_some] at hy ⊢
        rw [hx]; dsimp only at hy; rw [hy]
    have he := m_aff_eqn c.ok.good.b0 hP'
    rw [c.b, one_mul] at he
    rw [hv.2 he] at hr
    cases hr

end

end Torsion.Ecc
