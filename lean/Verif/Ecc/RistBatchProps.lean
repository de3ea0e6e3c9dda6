import Verif.Ecc.RistBatchLemmas
import Verif.Ecc.RistElligProps

/-!
# Properties: the batched codes of doubled Ristretto points (C85)

The function is not called by the library. On ed448 its results are wrong.
-/
set_option linter.unusedSectionVars false

namespace Torsion

open Torsion.Spec

namespace Ecc
variable {fe : FieldCode} [Fact fe.p.Prime] {ec : Edwards (ZMod fe.p)} [g : EdGood ec.a ec.d]

theorem batch_sq (hn : ec.h ≠ 8) (st : RgeState (ZMod fe.p)) (inv : ZMod fe.p) :
    ∃ W, ∀ rs : Ristretto (ZMod fe.p), rge_batch_num ec rs st inv ^ 2 = W ^ 2 * rs.adm1si ^ 2 := by
  refine ⟨(st.h - fe_neg_cond st.g (fe_is_odd fe (st.h * st.e * (st.eg * inv)))) *
    fe_neg_cond st.g (fe_is_odd fe (st.h * st.e * (st.eg * inv))) * (st.fh * inv), fun rs => ?_⟩
  unfold rge_batch_num
  simp only [hn, decide_false, Bool.false_and, if_false]
  rw [set_odd_sq]
  simp only [show ∀ x y : ZMod fe.p, fe_select x y false = x from fun _ _ => rfl]
  ring

theorem batch_wrong {rs : Ristretto (ZMod fe.p)} (c : EdConst ec) (r : RistH ec.h ec.a ec.d) (h4 : ec.h = 4) (ha : ec.a = 1)
    (hne : rs.adm1si ^ 2 * (ec.a * ec.d - 1) ≠ 1) {p : Xge (ZMod fe.p)} {P : EPt ec.a ec.d} (hp : Ext p P) (h0 : ¬ RistEq ec.h (P + P) 0) :
    ¬ RistOf ec.h (P + P) (leBytes (ristLen fe) (rge_batch_num ec rs (rge_batch_state ec p)
      ((rge_batch_state ec p).eg * (rge_batch_state ec p).fh)⁻¹).val) := by
  obtain ⟨k, hk⟩ := r.k
  have hk0 : k ≠ 0 := by
    intro e
    rw [e] at hk
    exact g.nsq ⟨1, by linear_combination -hk - ec.d * ha⟩
  rintro ⟨s, hs, e⟩
  rw [← le_inj fe e] at hs
  have hn := batch_num (rs := { rs with adm1si := k⁻¹ }) c r (fun h8 => absurd (h4.symm.trans h8) (by decide))
    (fun _ => by
      show k⁻¹ ^ 2 * (ec.a * ec.d - 1) = 1
      rw [← hk]; field_simp) hp
  obtain ⟨W, hW⟩ := batch_sq (ec := ec) (by rw [h4]; decide) (rge_batch_state ec p)
    ((rge_batch_state ec p).eg * (rge_batch_state ec p).fh)⁻¹
  have e1 := hW rs
  have e2 := hW { rs with adm1si := k⁻¹ }
  rw [rist_num_fun r (rist_refl _) hs hn, e2] at e1
  have hW0 : W ≠ 0 := by
    intro e
    rw [e] at e2
    have : rge_batch_num ec { rs with adm1si := k⁻¹ } (rge_batch_state ec p)
        ((rge_batch_state ec p).eg * (rge_batch_state ec p).fh)⁻¹ = 0 := by
      apply pow_eq_zero_iff (two_ne_zero) |>.1
      rw [e2]; ring
    rw [this] at hn
    exact h0 (rist_num_zero r hn)
  have e3 := mul_left_cancel₀ (pow_ne_zero 2 hW0) e1
  dsimp only at e3
  apply hne
  rw [← e3, ← hk]; field_simp

set_option maxRecDepth 100000 in
theorem admi448 : constVal curve_ed448.fe ristretto_ed448.adm1si ^ 2 * (beVal curve_ed448.a * beVal curve_ed448.d) % curve_ed448.fe.p ≠
    (1 + constVal curve_ed448.fe ristretto_ed448.adm1si ^ 2) % curve_ed448.fe.p := by decide +kernel

end Ecc

section
variable {d : EdwardsDef} {rd : RistrettoDef} (hd : (d, rd) ∈ ristrettoDefs) (h4 : d ≠ curve_ed448) [Fact d.fe.p.Prime]
  {ec : Edwards (ZMod d.fe.p)} [g : EdGood ec.a ec.d] {G : EPt ec.a ec.d} (ok : EdCurve d ec G) {rs : Ristretto (ZMod d.fe.p)}
  (hrs : ristretto_init d.fe rd = .ok rs)

include hd h4 ok hrs in
/-- C85. On ed25519 and ed1174 `rge_export_batch` writes, for up to sixteen points of the curve (doubled or not, and whatever the structs
which stand for them), the code of the class of the double of each: what `rge_export` writes for the double. One neutral element among
the points does not spoil the others. -/
theorem rge_export_batch_exact {ps : List (Xge (ZMod d.fe.p))} {Ps : List (EPt ec.a ec.d)} (hp : List.Forall₂ Ext ps Ps)
    (hl : ps.length ≤ 16) :
    ∃ bs, rge_export_batch ec rs ps = .ok bs ∧ List.Forall₂ (fun P b => RistOf ec.h (P + P) b ∧ b.length = ristLen d.fe ∧
      ∀ q, Ext q (P + P) → rge_export ec rs q = .ok b) Ps bs := by
  have r := Ecc.rist_h hd ok
  have am := Ecc.rist_am hd ok hrs
  have c := Ecc.rist_c hd h4 ok hrs
  have ad : Ecc.RistAd ec rs := by
    intro h
    have ha : ec.a ^ 2 = 1 := r.a2
    rw [← c.adm]
    linear_combination (rs.adm1s * rs.adm1si - ec.a) * c.admi + ha
  refine ⟨_, Ecc.batch_run ps hl, ?_⟩
  clear hl
  induction hp with
  | nil => exact .nil
  | @cons p P ps Ps h _ ih =>
    refine .cons ?_ ih
    have hn := Ecc.batch_num (rs := rs) ok.const r am ad h
    refine ⟨⟨_, hn, rfl⟩, Strm.leBytes_len _ _, fun q hq => ?_⟩
    obtain ⟨b, e, -, -, hu⟩ := rge_export_exact hd ok hrs hq ⟨P, rfl⟩
    rw [e, ← (hu (P + P) _ ⟨_, hn, rfl⟩).2 (Ecc.rist_refl _)]

end

set_option exponentiation.threshold 500

section
variable [Fact curve_ed448.fe.p.Prime] {ec : Edwards (ZMod curve_ed448.fe.p)} [g : EdGood ec.a ec.d] {G : EPt ec.a ec.d}
  (ok : EdCurve curve_ed448 ec G) {rs : Ristretto (ZMod curve_ed448.fe.p)} (hrs : ristretto_init curve_ed448.fe ristretto_ed448 = .ok rs)

include ok hrs in
/-- C85. On ed448 `rge_export_batch` never writes the code of the double, unless the double is in the neutral class: the constant
`1 / sqrt(a d - 1)` which it uses is read wrongly. -/
theorem rge_export_batch_wrong_ed448 {p : Xge (ZMod curve_ed448.fe.p)} {P : EPt ec.a ec.d} (hp : Ext p P) (h0 : ¬ RistEq ec.h (P + P) 0) :
    ∃ b, rge_export_batch ec rs [p] = .ok [b] ∧ ¬ RistOf ec.h (P + P) b := by
  have hm : (curve_ed448, ristretto_ed448) ∈ ristrettoDefs := by simp [ristrettoDefs]
  have hrs' := C.ok.inj ((Ecc.rist_init_def hm).symm.trans hrs)
  have k1 : rs.adm1si = (Ecc.constVal curve_ed448.fe ristretto_ed448.adm1si : Nat) := by rw [← hrs']; rfl
  have r := Ecc.rist_h hm ok
  have h4 : ec.h = 4 := ok.hval
  have ha : ec.a = 1 := by rw [ok.aval, Ecc.cast_mod_eq Ecc.a448, Nat.cast_one]
  have hne : rs.adm1si ^ 2 * (ec.a * ec.d - 1) ≠ 1 := by
    intro h
    apply Ecc.admi448
    rw [← ZMod.natCast_eq_natCast_iff']
    simp only [Nat.cast_add, Nat.cast_pow, Nat.cast_one, Nat.cast_mul]
    rw [← k1, ← ok.aval, ← ok.dval]
    linear_combination h
  exact ⟨_, Ecc.batch_run [p] (by simp), Ecc.batch_wrong ok.const r h4 ha hne hp h0⟩

include ok in
/-- The generator is such a point. -/
example : ¬ RistEq ec.h (G + G) 0 := by
  have hm : (curve_ed448, ristretto_ed448) ∈ ristrettoDefs := by simp [ristrettoDefs]
  have h := (ristretto_group_exact hm ok).2.2 2 0
  rw [two_nsmul, zero_nsmul] at h
  rw [h, ok.nval]
  decide +kernel

end

end Torsion
