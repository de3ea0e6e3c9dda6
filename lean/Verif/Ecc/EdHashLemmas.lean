import Verif.Ecc.EdElligLemmas
import Verif.Ecc.MontHashLemmas

/-! Lemmas on hashes as points of Edwards curves. -/
namespace Torsion.Ecc

open Torsion.Spec

section
variable {d : EdwardsDef} (hd : d ∈ edDefs) [Fact d.fe.p.Prime] {ec : Edwards (ZMod d.fe.p)} [g : EdGood ec.a ec.d] {G : EPt ec.a ec.d}
  (ok : EdCurve d ec G)

include hd ok in
theorem ed_nonsquare (hne : d ≠ curve_ed1174) : ¬ IsSquare (-ec.A) := by
  refine (ed_ell hd ok).2 ?_
  have h := hd
  simp only [edDefs, List.mem_cons, List.not_mem_nil, or_false] at h
  rcases h with rfl | rfl | rfl
  · decide +kernel
  · decide +kernel
  · exact absurd rfl hne

include hd ok in
theorem ed_from_uniform_pt {bytes : List Byte} (hl : feSize d.fe ≤ bytes.length) : ∃ (p : Xge (ZMod d.fe.p)) (P : EPt ec.a ec.d),
    edwards_point_from_uniform ec bytes = .ok p ∧ Ext p P ∧ EdElligator ec.A ec.z ec.c ec.invert (leElem d.fe bytes) P := by
  rw [ed_from_uniform hd ok hl]
  exact ed_elligator_ok hd ok _

include hd ok in
theorem ed_from_hash_pt {bytes : List Byte} (hl : 2 * feSize d.fe ≤ bytes.length) : ∃ (p : Xge (ZMod d.fe.p)) (P1 P2 : EPt ec.a ec.d),
    EdElligator ec.A ec.z ec.c ec.invert (leElem d.fe bytes) P1 ∧
    EdElligator ec.A ec.z ec.c ec.invert (leElem d.fe (bytes.drop (feSize d.fe))) P2 ∧
    edwards_point_from_hash ec bytes = .ok p ∧ Ext p (P1 + P2) := by
  obtain ⟨p1, P1, e1, x1, i1⟩ := ed_from_uniform_pt hd ok (bytes := bytes) (by omega)
  obtain ⟨p2, P2, e2, x2, i2⟩ := ed_from_uniform_pt hd ok (bytes := bytes.drop (feSize d.fe)) (by rw [List.length_drop]; omega)
  refine ⟨_, P1, P2, i1, i2, ?_, xadd ok.const x1 x2⟩
  unfold edwards_point_from_hash
  dsimp only
  rw [e1, C.ok_bind, e2, C.ok_bind, C.pure_eq]

/-- What the loop may return. -/
def EdHashRes (ec : Edwards (ZMod d.fe.p)) (Q : EPt ec.a ec.d) (r : R (List Byte)) : Prop :=
  r = .spin ∨ ∃ out q, r = .ok out ∧ out.length = 2 * feSize d.fe ∧ edwards_point_from_hash ec out = .ok q ∧ Ext q Q

include hd ok in
theorem ed_to_hash_loop {S : Type} (hns : ¬ IsSquare (-ec.A)) (gen : ByteGen S) {p : Xge (ZMod d.fe.p)} {P : EPt ec.a ec.d} (hp : Ext p P)
    (T : EPt ec.a ec.d) (subgroup : BitVec 32) (hT : ec.torsion[(subgroup &&& 15).toNat % ec.h]? = some (xaff T)) :
    ∀ fuel p2 hint s, (∃ q, p2 = some q ∧ ∃ o, edwards_point_to_uniform ec q hint = .ok (o, false)) ∨
      (p2 = none ∧ ∀ p1, edwards_point_from_uniform ec (gen.gen s (feSize d.fe)).1 = .ok p1 → p1.x ≠ 0) →
      EdHashRes ec (P + T) (edwards_point_to_hash_loop ec gen p ((subgroup &&& 15) <<< 4) fuel p2 hint s)
  | 0, _, _, _, _ => Or.inl (by rw [edwards_point_to_hash_loop])
  | fuel + 1, p2, hint, s, hinv => by
    rw [edwards_point_to_hash_loop]
    have hlen := gen.len s (feSize d.fe)
    obtain ⟨p1, P1, e1, x1, i1⟩ := ed_from_uniform_pt hd ok hlen.ge
    dsimp only
    rw [e1, R.lift_ok, R.ok_bind]
    by_cases hy : p1.x = 0
    · rw [show fe_is_zero p1.x = true by simp [fe_is_zero, hy], if_pos rfl]
      rcases hinv with ⟨q, rfl, o, ho⟩ | ⟨rfl, hn⟩
      · dsimp only
        rw [ho, R.lift_ok, R.ok_bind]
        dsimp only
        rw [if_neg (by simp)]
        exact ed_to_hash_loop hns gen hp T subgroup hT fuel _ _ _ (Or.inl ⟨q, rfl, o, ho⟩)
      · exact absurd hy (hn _ e1)
    · rw [show fe_is_zero p1.x = false by simp [fe_is_zero, hy], if_neg (by simp)]
      dsimp only
      have hs := hint_sub (BitVec.ofNat 32 (leVal (gen.gen (gen.gen s (feSize d.fe)).2 4).1)) subgroup
      generalize (BitVec.ofNat 32 (leVal (gen.gen (gen.gen s (feSize d.fe)).2 4).1) &&& 0xff0f) ||| ((subgroup &&& 15) <<< 4) = hint' at hs ⊢
      obtain ⟨T', q, out, r, t1, t2, t3, t4, t5, t6⟩ := ed_to_uniform_ok hd ok (xsub ok.const hp x1) hint'
      rw [hs] at t1
      have hTT : T' = T := xaff_inj (Option.some.inj (t1.symm.trans hT))
      subst hTT
      rw [t3, R.lift_ok, R.ok_bind]
      dsimp only
      cases r with
      | false =>
        rw [if_neg (by simp)]
        exact ed_to_hash_loop hns gen hp T' subgroup hT fuel _ _ _ (Or.inl ⟨_, rfl, out, t3⟩)
      | true =>
        rw [if_pos rfl]
        have i2 := ed_to_uniform_sound hd ok t5 t6 (Or.inl hns)
        have hl : ((gen.gen s (feSize d.fe)).1 ++ out).length = 2 * feSize d.fe := by rw [List.length_append, hlen, t4]; omega
        obtain ⟨q', Q1, Q2, j1, j2, j3, j4⟩ := ed_from_hash_pt hd ok hl.ge
        rw [leElem_append hlen] at j1
        rw [List.drop_append_of_le_length hlen.ge, List.drop_of_length_le hlen.le, List.nil_append] at j2
        rw [ed_elligator_unique hd ok j1 i1, ed_elligator_unique hd ok j2 i2, show P1 + (P - P1 + T') = P + T' by abel] at j4
        exact Or.inr ⟨_, q', rfl, hl, j3, j4⟩

theorem ed_to_hash_ub {S : Type} (gen : ByteGen S) (ec : Edwards (ZMod d.fe.p)) (p p1 : Xge (ZMod d.fe.p)) (flag hint : BitVec 32) (fuel : Nat) (s : S)
    (h : edwards_point_from_uniform ec (gen.gen s (feSize d.fe)).1 = .ok p1) (hy : p1.x = 0) :
    edwards_point_to_hash_loop ec gen p flag (fuel + 1) none hint s = .ub := by
  rw [edwards_point_to_hash_loop]
  dsimp only
  rw [h, R.lift_ok, R.ok_bind, show fe_is_zero p1.x = true by simp [fe_is_zero, hy], if_pos rfl]

theorem leElem_zero {fe : FieldCode} : leElem fe (List.replicate (feSize fe) 0) = 0 := by
  rw [leElem, List.take_of_length_le (by simp), ← leBytes_zero, Strm.leVal_leBytes]; simp

end

/-- A root of `-A (a - d)^2` on ed1174. -/
def rootNegA : Nat := 611859185951380834043868743490660415209657117894497519486757608036515055726

set_option maxRecDepth 100000 in
theorem rootNegA_sq : rootNegA * rootNegA % curve_ed1174.fe.p = edNegA curve_ed1174 % curve_ed1174.fe.p := by decide +kernel

theorem ed1174_square [Fact curve_ed1174.fe.p.Prime] {ec : Edwards (ZMod curve_ed1174.fe.p)} [g : EdGood ec.a ec.d] {G : EPt ec.a ec.d}
    (ok : EdCurve curve_ed1174 ec G) : IsSquare (-ec.A) := by
  have hd : curve_ed1174 ∈ edDefs := by simp [edDefs]
  have h := edNegA_eq hd ok
  have h2 : ((rootNegA * rootNegA : Nat) : ZMod curve_ed1174.fe.p) = (edNegA curve_ed1174 : ZMod curve_ed1174.fe.p) :=
    (ZMod.natCast_eq_natCast_iff' _ _ _).2 rootNegA_sq
  have hn : ec.a - ec.d ≠ 0 := ed_ad
  refine ⟨(rootNegA : ZMod curve_ed1174.fe.p) / (ec.a - ec.d), ?_⟩
  rw [h, Nat.cast_mul] at h2
  field_simp
  linear_combination -h2

end Torsion.Ecc
