import Verif.Ecc.MontElligLemmas

/-! Lemmas on points as uniform bytes. -/
namespace Torsion.Ecc

open Torsion.Spec (montCurve MPt montAffine montX MontXZ MontGood MontOk beVal leVal leBytes pubX elligX1 Elligator)
open WeierstrassCurve.Affine (Point)

section
variable {d : MontDef} [Fact d.fe.p.Prime] {ec : Mont (ZMod d.fe.p)}

theorem point_eim (c : MontCtx d ec) {u x y : ZMod d.fe.p} (h : EIm ec u x y) :
    ∃ P : MPt ec.a ec.b, montAffine P = ⟨x, y, false⟩ ∧ P ≠ 0 ∧ Elligator ec.z u P := by
  obtain ⟨P, hP⟩ := m_mk c.ok.good (x := x) (y := y) (by rw [c.b, one_mul, h.eqn])
  refine ⟨P, hP, ?_, fun hs => ?_, fun hs => ?_, ?_⟩
  · rintro rfl; rw [m_aff_zero] at hP; simp at hP
  · rw [m_aff_x hP, h.first hs]
  · rw [m_aff_x hP, h.second hs]
  · rw [hP]
    rcases h.par with h | h
    · exact Or.inl h
    · right
      dsimp only
      unfold fe_is_odd at h
      rcases Nat.mod_two_eq_zero_or_one y.val with h1 | h1 <;> rcases Nat.mod_two_eq_zero_or_one u.val with h2 | h2 <;> simp [h1, h2] at h ⊢

theorem eim_point (c : MontCtx d ec) {u : ZMod d.fe.p} {P : MPt ec.a ec.b} (h : Elligator ec.z u P) :
    ∃ x y, montAffine P = ⟨x, y, false⟩ ∧ EIm ec u x y := by
  rcases P with _ | ⟨x, y, hp⟩
  · exfalso
    by_cases hs : IsSquare (elligX1 ec.a ec.z u ^ 3 + ec.a * elligX1 ec.a ec.z u ^ 2 + elligX1 ec.a ec.z u)
    · have := h.1 hs; simp [montX] at this
    · have := h.2.1 hs; simp [montX] at this
  · refine ⟨_, _, m_aff_some hp, fun hs => ?_, fun hs => ?_, ?_, ?_⟩
    · have := h.1 hs; rwa [mx_some, Option.some.injEq] at this
    · have := h.2.1 hs; rwa [mx_some, Option.some.injEq] at this
    · have := m_aff_eqn c.ok.good.b0 (m_aff_some hp)
      rw [← this, c.b]; ring
    · have := h.2.2
      rw [m_aff_some] at this
      rcases this with h | h
      · exact Or.inl h
      · right; dsimp only at h; unfold fe_is_odd; rw [h]

theorem from_uniform_ok (hd : d ∈ montDefs) (c : MontCtx d ec) {bytes : List Byte} (hl : feSize d.fe ≤ bytes.length) :
    mont_point_from_uniform ec bytes = mont_elligator2 ec (pubX d bytes) := by
  unfold mont_point_from_uniform
  rw [fe_import_le_ok d.fe hl, C.ok_bind]
  rfl

theorem mask_or (fe : FieldCode) (hint : BitVec 32) (t : Byte) :
    (t ||| ((hint >>> 8) &&& (~~~(feMask fe).setWidth 32) &&& 0xff).setWidth 8) &&& feMask fe = t &&& feMask fe := by
  generalize feMask fe = m
  apply BitVec.eq_of_getLsbD_eq
  intro i hi
  simp only [BitVec.getLsbD_and, BitVec.getLsbD_or, BitVec.getLsbD_setWidth, BitVec.getLsbD_not, hi, decide_true, Bool.true_and]
  cases m.getLsbD i <;> simp

theorem or_bytes (u : ZMod d.fe.p) (hint : BitVec 32) : ∃ t ys, C.rd (fe_export_le d.fe u) (feSize d.fe - 1) = .ok t ∧
    C.wr (fe_export_le d.fe u) (feSize d.fe - 1) (t ||| ((hint >>> 8) &&& (~~~(feMask d.fe).setWidth 32) &&& 0xff).setWidth 8) = .ok ys ∧
    ys.length = feSize d.fe ∧ pubX d ys = u := by
  have hl := le_len d.fe u
  have hpos := feSize_pos d.fe
  have hbits : 0 < d.fe.p.size := Nat.size_pos.2 (Nat.Prime.pos Fact.out)
  obtain ⟨t, h1, ys, h2, h3⟩ := mask_val (xs := fe_export_le d.fe u) (n := feSize d.fe - 1) (bits := d.fe.p.size) (m := feMask d.fe)
    (by omega) (by unfold feSize feBits; omega) (by unfold feSize feBits; omega) rfl
  have hn : feSize d.fe - 1 < (fe_export_le d.fe u).length := by omega
  set e := ((hint >>> 8) &&& (~~~(feMask d.fe).setWidth 32) &&& 0xff).setWidth 8 with he
  refine ⟨t, (fe_export_le d.fe u).set (feSize d.fe - 1) (t ||| e), h1, by simp [C.wr, hn], by simp [hl], ?_⟩
  obtain ⟨t', h1', ys', h2', h3'⟩ := mask_val (xs := (fe_export_le d.fe u).set (feSize d.fe - 1) (t ||| e)) (n := feSize d.fe - 1) (bits := d.fe.p.size)
    (m := feMask d.fe) (by simp; omega) (by unfold feSize feBits; omega) (by unfold feSize feBits; omega) rfl
  have ht' : t' = t ||| e := by
    simp [C.rd, hn] at h1'
    exact h1'.symm
  have hys : ys' = ys := by
    simp only [C.wr, List.length_set, hn, if_true, List.set_set, C.ok.injEq] at h2 h2'
    rw [← h2, ← h2', ht', he, mask_or]
  rw [hys, h3] at h3'
  unfold pubX
  rw [List.take_of_length_le (by simp [hl]), ← h3', le_val, Nat.mod_eq_of_lt (u.val_lt.trans (Nat.lt_size_self _)), ZMod.natCast_zmod_val]

theorem tor_get (hd : d ∈ montDefs) (c : MontCtx d ec) (k : Nat) : ∃ T : MPt ec.a ec.b, ec.torsion[k % ec.h]? = some (montAffine T) ∧
    C.rd ec.torsion (k % ec.h) = .ok (montAffine T) ∧ ec.h • T = 0 := by
  obtain ⟨-, -, -, hlen, hpos, -⟩ := ellig_facts hd c
  have hlt : k % ec.h < ec.torsion.length := by rw [hlen]; exact Nat.mod_lt _ hpos
  have hmem : ec.torsion[k % ec.h] ∈ ec.torsion := List.getElem_mem _
  have : ∀ t ∈ ec.torsion, ∃ T : MPt ec.a ec.b, montAffine T = t ∧ ec.h • T = 0 := by
    rw [c.tor, c.a, c.b, c.h]
    intro t ht
    obtain ⟨s, hs, rfl⟩ := List.mem_map.1 ht
    exact c.facts.tor s hs
  obtain ⟨T, h1, h2⟩ := this _ hmem
  refine ⟨T, ?_, ?_, h2⟩
  · rw [h1, List.getElem?_eq_getElem hlt]
  · rw [h1]; simp [C.rd, hlt]

theorem to_uniform_ok (hd : d ∈ montDefs) (c : MontCtx d ec) (P : MPt ec.a ec.b) (hint : BitVec 32) :
    ∃ (T : MPt ec.a ec.b) (out : List Byte) (r : Bool), ec.torsion[((hint >>> 4) &&& 15).toNat % ec.h]? = some (montAffine T) ∧ ec.h • T = 0 ∧
      mont_point_to_uniform ec (montAffine P) hint = .ok (out, r) ∧ out.length = feSize d.fe ∧
      (P + T = 0 → r = false) ∧ (r = true → mont_point_from_uniform ec out = .ok (montAffine (P + T))) ∧
      (∀ x y, montAffine (P + T) = ⟨x, y, false⟩ → mont_invert2 ec ⟨x, y, false⟩ hint.toNat = .ok (pubX d out, r)) := by
  obtain ⟨T, t1, t2, t3⟩ := tor_get hd c ((hint >>> 4) &&& 15).toNat
  have main : ∀ q : Mge (ZMod d.fe.p), montAffine (P + T) = q → ∃ u r, mont_invert2 ec q hint.toNat = .ok (u, r) ∧ (q.inf = true → r = false) := by
    intro q hq
    unfold mont_invert2
    dsimp only
    split
    · rename_i hh
      obtain ⟨w, r, h1, -, -⟩ := fe_isqrt_exact d.fe (montDefs_fe d hd) (ZMod.card d.fe.p) 0 (by omega) (-(mont_div_b ec q.x)) ((mont_div_b ec q.x + ec.a0) * ec.z)
      rw [h1, C.ok_bind]
      exact ⟨_, _, rfl, fun h => by rw [h]; simp⟩
    · rename_i hh
      obtain ⟨w, r, h1, -, -⟩ := fe_isqrt_exact d.fe (montDefs_fe d hd) (ZMod.card d.fe.p) 0 (by omega) (-(mont_div_b ec q.x + ec.a0)) ((mont_div_b ec q.x) * ec.z)
      rw [h1, C.ok_bind]
      exact ⟨_, _, rfl, fun h => by rw [h]; simp⟩
  obtain ⟨u, r, h1, h2⟩ := main _ rfl
  obtain ⟨t, ys, b1, b2, b3, b4⟩ := or_bytes (d := d) u hint
  refine ⟨T, ys, r, t1, t3, ?_, b3, ?_, ?_, ?_⟩
  · unfold mont_point_to_uniform
    dsimp only
    rw [t2, C.ok_bind, mge_add_aff c.ok, h1, C.ok_bind]
    dsimp only
    rw [b1, C.ok_bind, b2, C.ok_bind, C.pure_eq]
  · intro h; apply h2; rw [h]; rfl
  · rintro rfl
    rw [from_uniform_ok hd c b3.ge, b4]
    rcases hpt : (P + T : MPt ec.a ec.b) with _ | ⟨x, y, hp⟩
    · exfalso
      rw [hpt] at h2
      exact absurd (h2 rfl) (by simp)
    · rw [hpt, m_aff_some] at h1
      have he := m_aff_eqn c.ok.good.b0 (m_aff_some hp)
      rw [c.b, one_mul, ← c.b] at he
      obtain ⟨u', r', i1, i2, -⟩ := invert2_ok hd c he hint.toNat
      rw [h1] at i1
      obtain ⟨rfl, rfl⟩ := Prod.mk.inj (C.ok.inj i1)
      obtain ⟨x', y', e1, e2⟩ := ellig_ok hd c u
      obtain ⟨rfl, rfl⟩ := eim_unique c e2 (i2 rfl)
      rw [e1, m_aff_some]
  · intro x y hxy
    rw [b4, ← hxy, h1]

end

end Torsion.Ecc
