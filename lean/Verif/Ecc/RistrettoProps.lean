import Verif.Ecc.RistrettoKeyLemmas

/-! # Properties: the Ristretto groups (C85) -/
set_option linter.unusedSectionVars false

namespace Torsion

open Torsion.Spec

variable {d : EdwardsDef} {rd : RistrettoDef} (hd : (d, rd) ∈ ristrettoDefs) [Fact d.fe.p.Prime] {ec : Edwards (ZMod d.fe.p)}
  [g : EdGood ec.a ec.d] {G : EPt ec.a ec.d} (ok : EdCurve d ec G) {rs : Ristretto (ZMod d.fe.p)}
  (hrs : ristretto_init d.fe rd = .ok rs)

/-! ### The group and its code -/

include hd in
/-- The initialization never fails. -/
theorem ristretto_init_exact : ∃ rs, ristretto_init d.fe rd = .ok rs := ⟨_, Ecc.rist_init_def hd⟩

include hd ok in
/-- The doubled points modulo the points whose order divides half the cofactor are a group with as many classes as the generator has
multiples: each class holds exactly one of the `n` multiples of the generator. -/
theorem ristretto_group_exact : (∀ P : EPt ec.a ec.d, Even P → ∃ k < ec.n, RistEq ec.h P (k • G)) ∧ (∀ k : Nat, Even (k • G)) ∧
    (∀ k j : Nat, RistEq ec.h (k • G) (j • G) ↔ k % ec.n = j % ec.n) :=
  ⟨fun _ ⟨_, h⟩ => Ecc.rist_class hd ok h, fun k => Ecc.rist_gen_even hd ok k, fun k j => Ecc.rist_mul_iff hd ok k j⟩

include hd ok hrs in
/-- `rge_export` writes every member of a class of doubled points, whatever the struct which stands for it, as the one code of the
class; different classes have different codes. -/
theorem rge_export_exact {p : Xge (ZMod d.fe.p)} {P : EPt ec.a ec.d} (hp : Ext p P) (he : Even P) :
    ∃ b, rge_export ec rs p = .ok b ∧ RistOf ec.h P b ∧ b.length = ristLen d.fe ∧
      ∀ (Q : EPt ec.a ec.d) (b' : List Byte), RistOf ec.h Q b' → (b' = b ↔ RistEq ec.h Q P) := by
  obtain ⟨Q, hQ⟩ := he
  have r := Ecc.rist_h hd ok
  obtain ⟨s, h1, h2⟩ := Ecc.rist_export (Ecc.edDefs_fe d (Ecc.rist_defs hd)) r (Ecc.rist_am hd ok hrs) hp hQ
  refine ⟨_, h1, ⟨s, h2, rfl⟩, Strm.leBytes_len _ _, ?_⟩
  rintro Q b' ⟨s', h3, rfl⟩
  constructor
  · intro e
    have : s' = s := Ecc.le_inj d.fe e
    rw [this] at h3
    exact Ecc.rist_num_inj r h3 h2
  · intro e
    rw [Ecc.rist_num_fun r e h3 h2]

include hd ok in
/-- `rge_import` accepts the codes of classes of doubled points and nothing else, and gives a member of the class. -/
theorem rge_import_exact {raw : List Byte} (hl : raw.length = ristLen d.fe) : ∃ p b, rge_import ec raw = .ok (p, b) ∧
    (b = true ↔ ∃ P : EPt ec.a ec.d, Even P ∧ RistOf ec.h P raw) ∧
    (b = true ↔ ∃ k : Nat, RistOf ec.h (k • G) raw) ∧
    ∀ P : EPt ec.a ec.d, RistOf ec.h P raw → b = true → ∃ Q, Even Q ∧ RistEq ec.h Q P ∧ p = xaff Q := by
  have r := Ecc.rist_h hd ok
  obtain ⟨p, b, h1, h2, h3⟩ := Ecc.rist_import (Ecc.edDefs_fe d (Ecc.rist_defs hd)) ok.const r hl.ge
  rw [List.take_of_length_le hl.le] at h2 h3
  have e1 : b = true ↔ ∃ P : EPt ec.a ec.d, Even P ∧ RistOf ec.h P raw := by
    rw [h2]
    exact ⟨fun ⟨P, Q, a, b⟩ => ⟨P, ⟨Q, a⟩, b⟩, fun ⟨P, ⟨Q, a⟩, b⟩ => ⟨P, Q, a, b⟩⟩
  refine ⟨p, b, h1, e1, ?_, ?_⟩
  · rw [e1]
    constructor
    · rintro ⟨P, ⟨Q, hQ⟩, s, hs, e⟩
      obtain ⟨k, -, hk⟩ := Ecc.rist_class hd ok hQ
      exact ⟨k, s, Ecc.rist_num_congr hk hs, e⟩
    · rintro ⟨k, h⟩
      exact ⟨_, Ecc.rist_gen_even hd ok k, h⟩
  · rintro P ⟨s, hs, e⟩ hb
    obtain ⟨P', Q, hQ, ⟨s', hs', e'⟩, hp⟩ := h3 hb
    refine ⟨P', ⟨Q, hQ⟩, ?_, hp⟩
    have : s' = s := Ecc.le_inj d.fe (e'.symm.trans e)
    rw [this] at hs'
    exact Ecc.rist_num_inj r hs' hs

include hd ok in
/-- The two tests on points. -/
theorem rge_equal_exact {p q : Xge (ZMod d.fe.p)} {P Q : EPt ec.a ec.d} (hp : Ext p P) (hq : Ext q Q) :
    (rge_equal ec p q = true ↔ RistEq ec.h P Q) ∧ (rge_is_zero ec p = true ↔ RistEq ec.h P 0) := by
  have r := Ecc.rist_h hd ok
  have hz : p.z * q.z ≠ 0 := mul_ne_zero hp.z hq.z
  constructor
  · rw [Ecc.rist_eq_iff r.hh, rge_equal, Bool.or_eq_true, Bool.and_eq_true, fe_equal, fe_equal, decide_eq_true_iff, decide_eq_true_iff,
      decide_eq_true_iff, hp.x, hp.y, hq.x, hq.y]
    refine or_congr ?_ (and_congr_right fun h8 => ?_)
    · constructor
      · intro h
        apply mul_right_cancel₀ hz
        linear_combination h
      · intro h; linear_combination (p.z * q.z) * h
    · have ha : ec.a = -1 := by
        rcases r.c with h | h
        · omega
        · exact h.2
      constructor
      · intro h
        apply mul_right_cancel₀ hz
        linear_combination h + (P.x * Q.x * p.z * q.z) * ha
      · intro h; linear_combination (p.z * q.z) * h - (P.x * Q.x * p.z * q.z) * ha
  · rw [Ecc.rist_zero_iff r.hh, rge_is_zero, Bool.or_eq_true, Bool.and_eq_true, fe_is_zero, fe_is_zero, decide_eq_true_iff, decide_eq_true_iff,
      decide_eq_true_iff, hp.x, hp.y, mul_eq_zero, mul_eq_zero]
    simp only [hp.z, or_false]

end Torsion
