import Verif.Ecc.WeiSvdwLemmas
import Verif.Ecc.EdElligLemmas
import Verif.Ecc.MontHashLemmas
import Verif.Ecc.SchnorrKeyProps

/-! Lemmas on uniform bytes and hashes as points of a short Weierstrass curve. -/
namespace Torsion.Ecc

open Torsion.Spec
open WeierstrassCurve.Affine (Point)

section
variable {fe : FieldCode} [Fact fe.p.Prime]
variable {ec : WeiT fe} {G : Pt ec.toCurve} {m : WeiMap (ZMod fe.p)} (ok : EcOk ec G) (mc : MapC ec m)

/-- The relation on abscissas, for both maps. -/
def MapX (ec : WeiT fe) (m : WeiMap (ZMod fe.p)) (u x : ZMod fe.p) : Prop := if ec.a = 0 then Svdw ec.b m.c m.z u x else Sswu ec.a ec.b m.z u x

theorem sswu_fun {a b z u x x' : ZMod fe.p} (h : Sswu a b z u x) (h' : Sswu a b z u x') : x = x' := by
  rcases h with ⟨a1, a2⟩ | ⟨a1, a2⟩ <;> rcases h' with ⟨b1, b2⟩ | ⟨b1, b2⟩
  · rw [a2, b2]
  · exact absurd a1 b1
  · exact absurd b1 a1
  · rw [a2, b2]

theorem mapX_fun {u x x' : ZMod fe.p} (h : MapX ec m u x) (h' : MapX ec m u x') : x = x' := by
  unfold MapX at h h'
  split at h
  · rename_i ha; rw [if_pos ha] at h'; exact svdw_fun h h'
  · rename_i ha; rw [if_neg ha] at h'; exact sswu_fun h h'

theorem mapped_iff {u x y : ZMod fe.p} (h : (weier ec.a ec.b).Nonsingular x y) :
    WeiMapped m.c m.z u (Point.some x y h : Pt ec.toCurve) ↔ y.val % 2 = u.val % 2 ∧ MapX ec m u x := Iff.rfl

include ok in
theorem mapped_unique {u : ZMod fe.p} {P Q : Pt ec.toCurve} (h : WeiMapped m.c m.z u P) (h' : WeiMapped m.c m.z u Q) : P = Q := by
  rcases P with _ | ⟨x, y, hp⟩
  · exact h.elim
  rcases Q with _ | ⟨x', y', hq⟩
  · exact h'.elim
  obtain ⟨h1, h2⟩ := (mapped_iff hp).1 h
  obtain ⟨h3, h4⟩ := (mapped_iff hq).1 h'
  obtain rfl := mapX_fun h2 h4
  obtain rfl := parity_inj ok (onc hp) (onc hq) (by rw [h1, h3])
  rfl

include ok mc

theorem wei_map_ok (u : ZMod fe.p) : ∃ P : Pt ec.toCurve, (if ec.zero_a then wei_svdw ec m u else wei_sswu ec m u) = .ok (affine P) ∧ WeiMapped m.c m.z u P := by
  by_cases ha : ec.a = 0
  · obtain ⟨x, y, h1, h2, h3, h4⟩ := svdw_ok ok mc ha u
    refine ⟨Point.some x y (pt_ns ok h3), ?_, (mapped_iff _).2 ⟨h4, ?_⟩⟩
    · rw [Curve.zero_a, decide_eq_true ha, if_pos rfl, h1, aff_some]
    · rw [MapX, if_pos ha]; exact h2
  · obtain ⟨x, y, h1, h2, h3, h4⟩ := sswu_ok ok mc ha u
    refine ⟨Point.some x y (pt_ns ok h3), ?_, (mapped_iff _).2 ⟨h4, ?_⟩⟩
    · rw [Curve.zero_a, decide_eq_false ha, if_neg (by simp), h1, aff_some]
    · rw [MapX, if_neg ha]; exact h2

theorem wei_from_uniform_ok {bytes : List Byte} (hl : feSize fe ≤ bytes.length) :
    ∃ P : Pt ec.toCurve, wei_point_from_uniform ec m bytes = .ok (affine P) ∧ WeiMapped m.c m.z (beElem fe bytes) P := by
  obtain ⟨P, h1, h2⟩ := wei_map_ok ok mc (beElem fe bytes)
  refine ⟨P, ?_, h2⟩
  unfold wei_point_from_uniform
  rw [fe_import_ok fe hl, C.ok_bind]
  exact h1

theorem wei_from_uniform_iff {bytes : List Byte} (hl : feSize fe ≤ bytes.length) (P : Pt ec.toCurve) :
    wei_point_from_uniform ec m bytes = .ok (affine P) ↔ WeiMapped m.c m.z (beElem fe bytes) P := by
  obtain ⟨Q, h1, h2⟩ := wei_from_uniform_ok ok mc hl
  rw [h1]
  constructor
  · intro h; rw [← aff_inj (C.ok.inj h)]; exact h2
  · intro h; rw [mapped_unique ok h2 h]

/-- The cases in which the inverse finds the number zero for a point whose image by the map may be another. -/
def ZeroX (ec : WeiT fe) (m : WeiMap (ZMod fe.p)) (x : ZMod fe.p) : Prop := if ec.a = 0 then x = (m.c - m.z) / 2 else ec.a * x + ec.b = 0

theorem wei_invert_ok (P : Pt ec.toCurve) (hint : BitVec 32) : ∃ u r,
    (if ec.zero_a then wei_svdwi ec m (affine P) hint else wei_sswui ec m (affine P) hint) = .ok (u, r) ∧ (r = true → P ≠ 0) ∧
    (r = true → u ≠ 0 → WeiMapped m.c m.z u P) ∧ (r = true → u = 0 → ZeroX ec m (affine P).x) := by
  by_cases ha : ec.a = 0
  · rw [Curve.zero_a, decide_eq_true ha, if_pos rfl]
    obtain ⟨u, r, h1, h2, h3⟩ := svdwi_ok ok mc ha (affine P) hint
    refine ⟨u, r, h1, ?_, ?_, ?_⟩
    · rintro rfl rfl; exact absurd (h2 rfl) (by simp)
    · intro hr hu
      obtain ⟨q1, q2⟩ := h3 hr
      rcases P with _ | ⟨x, y, h⟩
      · exact absurd (h2 rfl) (by rw [hr]; simp)
      · refine (mapped_iff h).2 ⟨(q2 hu).symm, ?_⟩
        rw [MapX, if_pos ha]; exact q1
    · intro hr hu
      obtain ⟨q1, -⟩ := h3 hr
      rw [Svdw, if_pos (Or.inl hu)] at q1
      rw [ZeroX, if_pos ha]; exact q1
  · rw [Curve.zero_a, decide_eq_false ha, if_neg (by simp)]
    obtain ⟨u, r, h1, h2, h3⟩ := sswui_ok ok mc ha (affine P) hint
    refine ⟨u, r, h1, ?_, ?_, ?_⟩
    · rintro rfl rfl; exact absurd (h2 rfl) (by simp)
    · intro hr hu
      rcases P with _ | ⟨x, y, h⟩
      · exact absurd (h2 rfl) (by rw [hr]; simp)
      · obtain ⟨q1, q2⟩ := (h3 hr (ord_ne ok (onc h)) (onc h)).1 hu
        refine (mapped_iff h).2 ⟨q2.symm, ?_⟩
        rw [MapX, if_neg ha]; exact q1
    · intro hr hu
      rcases P with _ | ⟨x, y, h⟩
      · exact absurd (h2 rfl) (by rw [hr]; simp)
      · rw [ZeroX, if_neg ha]
        exact (h3 hr (ord_ne ok (onc h)) (onc h)).2 hu

omit ok mc in
theorem be_or_bytes (u : ZMod fe.p) (hint : BitVec 32) : ∃ t ys, C.rd (fe_export fe u) 0 = .ok t ∧
    C.wr (fe_export fe u) 0 (t ||| ((hint >>> 8) &&& (~~~(feMask fe).setWidth 32) &&& 0xff).setWidth 8) = .ok ys ∧
    ys.length = feSize fe ∧ beElem fe ys = u := by
  obtain ⟨t, ys, h1, h2, h3, h4⟩ := ed_or_bytes u hint
  have hpos := feSize_pos fe
  have hlen : (fe_export_le fe u).length = feSize fe := le_len fe u
  have he : fe_export fe u = (fe_export_le fe u).reverse := rfl
  refine ⟨t, ys.reverse, ?_, ?_, by rw [List.length_reverse, h3], ?_⟩
  · rw [he]
    unfold C.rd at h1 ⊢
    rw [List.getElem?_reverse (by omega), hlen]
    exact h1
  · rw [he]
    unfold C.wr at h2 ⊢
    rw [if_pos (by omega)] at h2
    rw [if_pos (by rw [List.length_reverse]; omega), ← C.ok.inj h2]
    congr 1
    apply List.ext_getElem
    · simp
    · intro i hi1 hi2
      simp only [List.length_set, List.length_reverse] at hi1
      simp only [List.getElem_set, List.getElem_reverse, List.length_set]
      by_cases h : i = 0
      · rw [if_pos h.symm, if_pos (by omega)]
      · rw [if_neg (Ne.symm h), if_neg (by omega)]
  · rw [← h4, beElem, List.take_of_length_le (by rw [List.length_reverse, h3]), leElem, List.take_of_length_le h3.le, beVal_eq, List.reverse_reverse]

theorem wei_to_uniform_ok (P : Pt ec.toCurve) (hint : BitVec 32) : ∃ out r, wei_point_to_uniform ec m (affine P) hint = .ok (out, r) ∧
    out.length = feSize fe ∧ (r = true → P ≠ 0) ∧ (r = true → beElem fe out ≠ 0 → WeiMapped m.c m.z (beElem fe out) P) ∧
    (r = true → beElem fe out = 0 → ZeroX ec m (affine P).x) ∧
    (if ec.zero_a then wei_svdwi ec m (affine P) hint else wei_sswui ec m (affine P) hint) = .ok (beElem fe out, r) := by
  obtain ⟨u, r, h1, h2, h3, h4⟩ := wei_invert_ok ok mc P hint
  obtain ⟨t, ys, b1, b2, b3, rfl⟩ := be_or_bytes u hint
  refine ⟨ys, r, ?_, b3, h2, h3, h4, h1⟩
  unfold wei_point_to_uniform
  rw [h1, C.ok_bind]
  dsimp only
  rw [b1, C.ok_bind, b2, C.ok_bind, C.pure_eq]

theorem wei_to_uniform_all {u : ZMod fe.p} (hu : ec.a ≠ 0 → m.z ^ 2 * u ^ 4 + m.z * u ^ 2 ≠ 0) {P : Pt ec.toCurve} (hP : WeiMapped m.c m.z u P) :
    ∃ k : BitVec 32, k &&& 3 = k ∧ ∀ hint : BitVec 32, hint &&& 3 = k → ∃ out, wei_point_to_uniform ec m (affine P) hint = .ok (out, true) ∧ beElem fe out = u := by
  rcases P with _ | ⟨x, y, h⟩
  · exact hP.elim
  obtain ⟨h1, h2⟩ := (mapped_iff h).1 hP
  have key : ∃ k : BitVec 32, k &&& 3 = k ∧ ∀ hint : BitVec 32, hint &&& 3 = k →
      (if ec.zero_a then wei_svdwi ec m (affine (Point.some x y h : Pt ec.toCurve)) hint else wei_sswui ec m (affine (Point.some x y h : Pt ec.toCurve)) hint) = .ok (u, true) := by
    by_cases ha : ec.a = 0
    · rw [Curve.zero_a, decide_eq_true ha]
      rw [MapX, if_pos ha] at h2
      simp only [if_true]
      exact svdwi_all ok mc ha rfl h2 (fun _ => h1)
    · rw [Curve.zero_a, decide_eq_false ha]
      rw [MapX, if_neg ha] at h2
      simp only [Bool.false_eq_true, if_false]
      exact sswui_all ok mc ha rfl (hu ha) h2 h1
  obtain ⟨k, kk, hk⟩ := key
  refine ⟨k, kk, fun hint hh => ?_⟩
  obtain ⟨out, r, o1, -, -, -, -, o6⟩ := wei_to_uniform_ok ok mc (Point.some x y h) hint
  rw [hk hint hh] at o6
  obtain ⟨e1, e2⟩ := Prod.mk.inj (C.ok.inj o6)
  subst e2
  exact ⟨out, o1, e1.symm⟩

/-! ### Hashes -/

theorem wei_from_hash_ok {bytes : List Byte} (hl : 2 * feSize fe ≤ bytes.length) :
    ∃ P1 P2 : Pt ec.toCurve, WeiMapped m.c m.z (beElem fe bytes) P1 ∧ WeiMapped m.c m.z (beElem fe (bytes.drop (feSize fe))) P2 ∧
      wei_point_from_hash ec m bytes = .ok (affine (P1 + P2)) := by
  obtain ⟨P1, a1, a2⟩ := wei_from_uniform_ok ok mc (bytes := bytes) (by omega)
  obtain ⟨P2, b1, b2⟩ := wei_from_uniform_ok ok mc (bytes := bytes.drop (feSize fe)) (by rw [List.length_drop]; omega)
  refine ⟨P1, P2, a2, b2, ?_⟩
  unfold wei_point_from_hash
  rw [a1, C.ok_bind, b1, C.ok_bind, (wge_add_exact ok.wei.good P1 P2).2]
  rfl

omit [Fact fe.p.Prime] ok mc in
theorem beElem_append {u v : List Byte} (h : u.length = feSize fe) : beElem fe (u ++ v) = beElem fe u := by
  unfold beElem
  rw [List.take_append_of_le_length h.ge]

theorem wei_to_hash_loop {S : Type} (gen : ByteGen S) (P : Pt ec.toCurve) (flag : BitVec 32) : ∀ fuel s,
    wei_point_to_hash_loop ec m gen (affine P) flag fuel s = .spin ∨
      ∃ out, wei_point_to_hash_loop ec m gen (affine P) flag fuel s = .ok out ∧ out.length = 2 * feSize fe ∧
        ∃ P1 : Pt ec.toCurve, WeiMapped m.c m.z (beElem fe out) P1 ∧ P ≠ P1 ∧
          (beElem fe (out.drop (feSize fe)) ≠ 0 → WeiMapped m.c m.z (beElem fe (out.drop (feSize fe))) (P - P1)) ∧
          (beElem fe (out.drop (feSize fe)) = 0 → ZeroX ec m (affine (P - P1)).x)
  | 0, _ => Or.inl (by rw [wei_point_to_hash_loop])
  | fuel + 1, s => by
    rw [wei_point_to_hash_loop]
    have hlen := gen.len s (feSize fe)
    obtain ⟨P1, a1, a2⟩ := wei_from_uniform_ok ok mc hlen.ge
    dsimp only
    rw [a1, R.lift_ok, R.ok_bind, (wge_sub_exact ok.wei.good P P1).2]
    generalize (BitVec.ofNat 32 (leVal (gen.gen (gen.gen s (feSize fe)).2 4).1) &&& 0xff0f) ||| flag = hint'
    obtain ⟨out, r, o1, o2, o3, o4, o5, -⟩ := wei_to_uniform_ok ok mc (P - P1) hint'
    rw [o1, R.lift_ok, R.ok_bind]
    dsimp only
    cases r with
    | false =>
      rw [if_neg (by simp)]
      exact wei_to_hash_loop gen P flag fuel _
    | true =>
      rw [if_pos rfl]
      refine Or.inr ⟨(gen.gen s (feSize fe)).1 ++ out, rfl, by rw [List.length_append, hlen, o2]; omega, P1, ?_⟩
      rw [beElem_append hlen, List.drop_append_of_le_length hlen.ge, List.drop_of_length_le hlen.le, List.nil_append]
      exact ⟨a2, sub_ne_zero.1 (o3 rfl), o4 rfl, o5 rfl⟩

/-! ### The exceptional points -/

/-- The inverse of the simplified map gives the number zero for the point with the abscissa `-b / a`. -/
theorem sswui_zero {p : Wge (ZMod fe.p)} (hi : p.inf = false) (hx : ec.a * p.x + ec.b = 0) {hint : BitVec 32} (hh : hint &&& 3 = 2) :
    wei_sswui ec m p hint = .ok (0, true) := by
  have hb := b_ne ok
  have h2 := ok.wei.good.two
  unfold wei_sswui
  dsimp only
  simp only [mul_a]
  obtain ⟨c, r1, c1, c2, c3⟩ := fe_sqrt_exact fe ok.field (ZMod.card fe.p) 0 0 (by decide) (by decide)
    (ec.a * ec.a * (p.x * p.x) - (ec.a * ec.b + ec.a * ec.b) * p.x - ec.b * ec.b * 3)
  have e0 : ec.a * ec.a * (p.x * p.x) - (ec.a * ec.b + ec.a * ec.b) * p.x - ec.b * ec.b * 3 = 0 := by
    linear_combination (ec.a * p.x - 3 * ec.b) * hx
  rw [e0] at c2 c3
  obtain rfl : r1 = true := c2.2 IsSquare.zero
  have hc : c = 0 := mul_self_eq_zero.1 (c3 IsSquare.zero)
  rw [c1, C.ok_bind]
  dsimp only
  rw [hh, show (((2 : BitVec 32) &&& 1) != 0) = false from rfl, show (((2 : BitVec 32) >>> 1) != 0) = true from rfl]
  simp only [fe_select, Bool.false_eq_true, if_false, if_true]
  rw [hx, hc, sub_zero, neg_zero]
  have hd : (ec.b + ec.b) * m.z ≠ 0 := by rw [← two_mul]; exact mul_ne_zero (mul_ne_zero h2 hb) mc.z0
  obtain ⟨v, r2, v1, v2, v3⟩ := fe_isqrt_exact fe ok.field (ZMod.card fe.p) 0 (by decide) 0 ((ec.b + ec.b) * m.z)
  rw [zero_div] at v2 v3
  obtain rfl : r2 = true := v2.2 ⟨hd, IsSquare.zero⟩
  rw [v1, C.ok_bind, C.pure_eq, mul_self_eq_zero.1 (v3 rfl), set_odd_zero, hi]
  rfl

theorem sswu_zero_bad (ha : ec.a ≠ 0) {x y : ZMod fe.p} (h : (weier ec.a ec.b).Nonsingular x y) (hx : ec.a * x + ec.b = 0) :
    ¬ WeiMapped m.c m.z 0 (Point.some x y h : Pt ec.toCurve) := by
  intro hm
  obtain ⟨-, hm⟩ := (mapped_iff h).1 hm
  rw [MapX, if_neg ha] at hm
  obtain ⟨-, h0, hz⟩ := mc.sswu ha
  have e : sswuX1 ec.a ec.b m.z 0 = ec.b / (m.z * ec.a) := by rw [sswuX1, if_pos (by ring)]
  rw [Sswu, e] at hm
  have hb := b_ne ok
  rcases hm with ⟨-, hm⟩ | ⟨hm, -⟩
  · apply hz
    have hz0 := mc.z0
    have e1 : ec.a * x * m.z = ec.b := by rw [hm]; field_simp
    apply mul_left_cancel₀ hb
    linear_combination m.z * hx - e1
  · exact hm h0

theorem wei_zero_sswu (ha : ec.a ≠ 0) {P : Pt ec.toCurve} (h0 : P ≠ 0) (hx : ec.a * (affine P).x + ec.b = 0) {hint : BitVec 32} (hh : hint &&& 3 = 2) :
    ∃ out, wei_point_to_uniform ec m (affine P) hint = .ok (out, true) ∧ beElem fe out = 0 ∧ out.length = feSize fe ∧
      wei_point_from_uniform ec m out ≠ .ok (affine P) := by
  rcases P with _ | ⟨x, y, h⟩
  · exact absurd rfl h0
  obtain ⟨out, r, o1, o2, -, -, -, o6⟩ := wei_to_uniform_ok ok mc (Point.some x y h) hint
  rw [Curve.zero_a, decide_eq_false ha, if_neg (by simp), sswui_zero ok mc rfl hx hh] at o6
  obtain ⟨e1, rfl⟩ := Prod.mk.inj (C.ok.inj o6)
  refine ⟨out, o1, e1.symm, o2, fun hc => ?_⟩
  rw [wei_from_uniform_iff ok mc o2.ge, ← e1] at hc
  exact sswu_zero_bad ok mc ha h hx hc

theorem wei_zero_svdw (ha : ec.a = 0) {P : Pt ec.toCurve} (h0 : P ≠ 0) (hx : (affine P).x = (m.c - m.z) / 2) :
    ∃ k : BitVec 32, k &&& 3 = k ∧ ∀ hint : BitVec 32, hint &&& 3 = k → ∃ out, wei_point_to_uniform ec m (affine P) hint = .ok (out, true) ∧ beElem fe out = 0 ∧
      out.length = feSize fe := by
  rcases P with _ | ⟨x, y, h⟩
  · exact absurd rfl h0
  obtain ⟨k, kk, hk⟩ := svdwi_all (u := 0) ok mc ha (p := affine (Point.some x y h : Pt ec.toCurve)) rfl (by rw [Svdw, if_pos (Or.inl rfl)]; exact hx) (fun h => absurd rfl h)
  refine ⟨k, kk, fun hint hh => ?_⟩
  obtain ⟨out, r, o1, o2, -, -, -, o6⟩ := wei_to_uniform_ok ok mc (Point.some x y h) hint
  rw [Curve.zero_a, decide_eq_true ha, if_pos rfl, hk hint hh] at o6
  obtain ⟨e1, rfl⟩ := Prod.mk.inj (C.ok.inj o6)
  exact ⟨out, o1, e1.symm, o2⟩

end

/-! ### The constants -/

/-- The checks for the simplified map: `x0` is `b / (z a)` and `w` a root of its `g`. -/
def sswuCert (d : WeiDef) (z : Int) (x0 w : Nat) : Bool :=
  force d.fe.p fun p => force (z % (p : Int)).toNat fun zn => eulerCheck p zn && (x0 * (zn * beVal d.a) % p == beVal d.b % p) &&
    (w * w % p == (x0 ^ 3 + beVal d.a * x0 + beVal d.b) % p) && decide (beVal d.a % p ≠ 0) && decide ((zn + 1) % p ≠ 0) && decide (2 < p)

/-- The checks for the map with `a = 0`: `x0` is `(c - z) / 2` and `w` a root of its `g`. -/
def svdwCert (d : WeiDef) (e : WeiMapDef) (x0 w : Nat) : Bool :=
  force d.fe.p fun p => force (e.z % (p : Int)).toNat fun zn => (beVal d.a % p == 0) && ((beVal e.c * beVal e.c + 3 * (zn * zn)) % p == 0) &&
    ((2 * x0 + zn) % p == beVal e.c % p) && (w * w % p == (x0 ^ 3 + beVal d.b) % p) && decide (3 % p ≠ 0) &&
    eulerCheck p (p - (zn ^ 3 + beVal d.b) % p) && decide (zn % p ≠ 0) && decide (2 < p)

/-- The checks for the abscissa `-b / a`: `xe`, without an ordinate. -/
def zeroCert (d : WeiDef) (xe : Nat) : Bool :=
  force d.fe.p fun p => ((beVal d.a * xe + beVal d.b) % p == 0) && eulerCheck p ((xe ^ 3 + beVal d.a * xe + beVal d.b) % p) && decide (beVal d.a % p ≠ 0) &&
    decide (2 < p)

section
variable {p : Nat} [hp : Fact p.Prime]

theorem cast_ne_mod {n : Nat} (h : n % p ≠ 0) : (n : ZMod p) ≠ 0 := by
  intro h0
  rw [ZMod.natCast_eq_zero_iff] at h0
  exact h (Nat.mod_eq_zero_of_dvd h0)

theorem cast_of_mod {a b : Nat} (h : a % p = b % p) : (a : ZMod p) = (b : ZMod p) := (ZMod.natCast_eq_natCast_iff' _ _ _).2 h

theorem cast_zero_mod {n : Nat} (h : n % p = 0) : (n : ZMod p) = 0 := (ZMod.natCast_eq_zero_iff _ _).2 (Nat.dvd_of_mod_eq_zero h)

theorem cast_int_mod (z : Int) : (((z % (p : Int)).toNat : Nat) : ZMod p) = (z : ZMod p) := by
  have h0 := hp.out.pos
  have : (((z % (p : Int)).toNat : Int) : ZMod p) = ((z % (p : Int) : Int) : ZMod p) := by
    rw [Int.toNat_of_nonneg (Int.emod_nonneg _ (by omega))]
  rw [Int.cast_natCast] at this
  rw [this]
  exact (ZMod.intCast_eq_intCast_iff' _ _ _).2 (Int.emod_emod_of_dvd _ (dvd_refl _))

end

section
variable {d : WeiDef} [hp : Fact d.fe.p.Prime] {ec : WeiT d.fe} (hc : ec.toCurve = defCurve d) {e : WeiMapDef}
include hc

theorem sswu_mapC {x0 w : Nat} (h : sswuCert d e.z x0 w = true) : MapC ec (wei_map_init ec e) := by
  unfold sswuCert at h
  simp only [force_eq, Bool.and_eq_true, decide_eq_true_eq, beq_iff_eq] at h
  obtain ⟨⟨⟨⟨⟨h1, h2⟩, h3⟩, h4⟩, h5⟩, h6⟩ := h
  have ea : ec.a = (beVal d.a : ZMod d.fe.p) := congrArg Curve.a hc
  have eb : ec.b = (beVal d.b : ZMod d.fe.p) := congrArg Curve.b hc
  have h1 := eulerCheck_spec h6 h1
  have h2 := cast_of_mod h2
  have h3 := cast_of_mod h3
  have h5 := cast_ne_mod h5
  push_cast at h2 h3 h5
  rw [cast_int_mod] at h1 h2 h5
  have ha := cast_ne_mod h4
  have hz : (e.z : ZMod d.fe.p) ≠ 0 := by intro h; rw [h] at h1; exact h1 IsSquare.zero
  rw [← ea] at h2 h3 ha
  rw [← eb] at h2 h3
  refine ⟨rfl, rfl, rfl, rfl, hz, fun _ => ⟨h1, ?_, ?_⟩, fun h => absurd h ha⟩
  · have : ec.b / ((wei_map_init ec e).z * ec.a) = x0 := by
      show ec.b / ((e.z : ZMod d.fe.p) * ec.a) = _
      rw [div_eq_iff (mul_ne_zero hz ha)]
      exact h2.symm
    rw [this]
    exact ⟨w, h3.symm⟩
  · intro h
    apply h5
    have h : (e.z : ZMod d.fe.p) = -1 := h
    rw [h]; ring

theorem svdw_mapC {x0 w : Nat} (h : svdwCert d e x0 w = true) : MapC ec (wei_map_init ec e) := by
  unfold svdwCert at h
  simp only [force_eq, Bool.and_eq_true, decide_eq_true_eq, beq_iff_eq] at h
  obtain ⟨⟨⟨⟨⟨⟨⟨h1, h2⟩, h3⟩, h4⟩, h5⟩, h6⟩, h7⟩, h8⟩ := h
  have ea : ec.a = (beVal d.a : ZMod d.fe.p) := congrArg Curve.a hc
  have eb : ec.b = (beVal d.b : ZMod d.fe.p) := congrArg Curve.b hc
  have h1 := cast_zero_mod h1
  have h2 := cast_zero_mod h2
  have h3 := cast_of_mod h3
  have h4 := cast_of_mod h4
  have h5 := cast_ne_mod h5
  have h6 := eulerCheck_spec h8 h6
  have h7 := cast_ne_mod h7
  rw [Nat.cast_sub (Nat.mod_lt _ hp.out.pos).le, ZMod.natCast_self, zero_sub, ZMod.natCast_mod] at h6
  push_cast at h2 h3 h4 h5 h6
  rw [cast_int_mod] at h2 h3 h6 h7
  rw [← ea] at h1
  rw [← eb] at h4 h6
  have two : (2 : ZMod d.fe.p) ≠ 0 := by
    have : ((2 : Nat) : ZMod d.fe.p) ≠ 0 := cast_ne_mod (by rw [Nat.mod_eq_of_lt h8]; decide)
    exact_mod_cast this
  refine ⟨rfl, rfl, rfl, rfl, h7, fun h => absurd h1 h, fun _ => ⟨?_, ?_, h5, ?_⟩⟩
  · show (beVal e.c : ZMod d.fe.p) ^ 2 = -3 * (e.z : ZMod d.fe.p) ^ 2
    linear_combination h2
  · have : ((wei_map_init ec e).c - (wei_map_init ec e).z) / 2 = (x0 : ZMod d.fe.p) := by
      rw [div_eq_iff two]
      show (beVal e.c : ZMod d.fe.p) - (e.z : ZMod d.fe.p) = _
      linear_combination -h3
    rw [this, weiG0]
    exact ⟨w, h4.symm⟩
  · rw [weiG0]; exact h6

theorem zero_none {xe : Nat} (h : zeroCert d xe = true) {P : Pt ec.toCurve} (h0 : P ≠ 0) : ec.a ≠ 0 ∧ ec.a * (affine P).x + ec.b ≠ 0 := by
  unfold zeroCert at h
  simp only [force_eq, Bool.and_eq_true, decide_eq_true_eq, beq_iff_eq] at h
  obtain ⟨⟨⟨h1, h2⟩, h3⟩, h4⟩ := h
  have ea : ec.a = (beVal d.a : ZMod d.fe.p) := congrArg Curve.a hc
  have eb : ec.b = (beVal d.b : ZMod d.fe.p) := congrArg Curve.b hc
  have h1 := cast_zero_mod h1
  have h2 := eulerCheck_spec h4 h2
  have h3 := cast_ne_mod h3
  rw [ZMod.natCast_mod] at h2
  push_cast at h1 h2
  rw [← ea] at h1 h2 h3
  rw [← eb] at h1 h2
  refine ⟨h3, fun hx => ?_⟩
  rcases P with _ | ⟨x, y, hn⟩
  · exact h0 rfl
  have hx : ec.a * x + ec.b = 0 := hx
  have : x = (xe : ZMod d.fe.p) := by
    apply mul_left_cancel₀ h3
    linear_combination hx - h1
  apply h2
  rw [← this]
  exact ⟨y, by rw [← pow_two]; exact (onc hn).symm⟩

end

end Torsion.Ecc
