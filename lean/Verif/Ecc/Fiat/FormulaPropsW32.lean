import Verif.Ecc.Fiat.FormulaLemmasW32
import Verif.Ecc.MontDefs
import Verif.Ecc.EdwardsDefs

/-!
# C98: the formulas for points on limbs, with 32-bit words

As `Verif/Ecc/Fiat/FormulaProps.lean`, for the fields p192, secp256k1, p25519 and p251 and the limbs of src/fields/*_32.h: the formulas of `src/ecc.c`
respect the bounds of that code as well, whichever arguments are the same object, and give the reduced limbs of the point of the formula in the field.
-/
namespace Torsion
open Torsion.Fiat Torsion.Spec

section
variable (f : Fiat.W32.FieldName) {m : Mem (List Nat)}

/-- Doubling a Jacobian point. -/
theorem limbs32_jge_dbl_var {ec : Curve (ZMod (Fiat.W32.field f).p)} (hc : Spec.W32.HasWei f m ec) {p3 p1 : Nat} (hl : (p3, p1) ∈ layouts2) {P : Jge (ZMod (Fiat.W32.field f).p)}
    (h1 : Spec.W32.HasJge f m p1 P) :
    ∃ m', Fiat.W32.runL (Fiat.W32.field f) (jge_dbl_var_code (weiCfg ec) p3 p1) m = .ok m' ∧ Spec.W32.HasJge f m' p3 (jge_dbl_var ec P) := by
  obtain ⟨m', a1, a2, a3⟩ := Fiat.W32.limbs_run (c24 := 0) (cd := 0) (List.all_eq_true.mp (lev_dbl_var ec.zero_a ec.three_a (decide (ec.h > 1))) _ hl)
    (all_app (Fiat.W32.wei_regs f hc) (Fiat.W32.j_regs f h1)) false_off false_off
  exact ⟨m', a1, Fiat.W32.has_j a2 a3 (by rw [← Fiat.W32.env_j h1]; exact run_dbl_var (Fiat.W32.wei_env f hc) hl)⟩

/-- Addition (`sign` set) and subtraction of Jacobian points. -/
theorem limbs32_jge_addsub_var {ec : Curve (ZMod (Fiat.W32.field f).p)} (hc : Spec.W32.HasWei f m ec) {p3 p1 p2 : Nat} (hl : (p3, p1, p2) ∈ layouts3) (sign : Bool)
    {P : Jge (ZMod (Fiat.W32.field f).p)} {Q : Jge (ZMod (Fiat.W32.field f).p)} (h1 : Spec.W32.HasJge f m p1 P) (h2 : Spec.W32.HasJge f m p2 Q) :
    ∃ m', Fiat.W32.runL (Fiat.W32.field f) (jge_addsub_var_code (weiCfg ec) p3 p1 p2 sign) m = .ok m' ∧ Spec.W32.HasJge f m' p3 (jge_addsub_var ec P Q sign) := by
  obtain ⟨m', a1, a2, a3⟩ := Fiat.W32.limbs_run (c24 := 0) (cd := 0) (List.all_eq_true.mp (lev_addsub ec.zero_a ec.three_a (decide (ec.h > 1)) sign) _ hl)
    (all_app (Fiat.W32.wei_regs f hc) (all_app (Fiat.W32.j_regs f h1) (Fiat.W32.j_regs f h2))) false_off false_off
  exact ⟨m', a1, Fiat.W32.has_j a2 a3 (by rw [← Fiat.W32.env_j h1, ← Fiat.W32.env_j h2]; exact run_addsub (Fiat.W32.wei_env f hc) hl sign)⟩

/-- Addition (`sign` set) and subtraction of a Jacobian and an affine point. -/
theorem limbs32_jge_mixed_addsub_var {ec : Curve (ZMod (Fiat.W32.field f).p)} (hc : Spec.W32.HasWei f m ec) {p3 p1 p2 : Nat} (hl : (p3, p1, p2) ∈ layouts3) (sign : Bool)
    {P : Jge (ZMod (Fiat.W32.field f).p)} {Q : Wge (ZMod (Fiat.W32.field f).p)} (h1 : Spec.W32.HasJge f m p1 P) (h2 : Spec.W32.HasWge f m p2 Q) :
    ∃ m', Fiat.W32.runL (Fiat.W32.field f) (jge_mixed_addsub_var_code (weiCfg ec) p3 p1 p2 (p2 + 1) sign) m = .ok m' ∧ Spec.W32.HasJge f m' p3 (jge_mixed_addsub_var ec P Q.x Q.y sign) := by
  obtain ⟨m', a1, a2, a3⟩ := Fiat.W32.limbs_run (c24 := 0) (cd := 0) (List.all_eq_true.mp (lev_mixed_addsub ec.zero_a ec.three_a (decide (ec.h > 1)) sign) _ hl)
    (all_app (Fiat.W32.wei_regs f hc) (all_app (Fiat.W32.j_regs f h1) (Fiat.W32.w_regs f h2))) false_off false_off
  exact ⟨m', a1, Fiat.W32.has_j a2 a3 (by rw [← Fiat.W32.env_j h1, ← Fiat.W32.env_w h2]; exact run_mixed_addsub (Fiat.W32.wei_env f hc) hl sign)⟩

/-- Addition of Jacobian points without branches. -/
theorem limbs32_jge_add {ec : Curve (ZMod (Fiat.W32.field f).p)} (hc : Spec.W32.HasWei f m ec) {p3 p1 p2 : Nat} (hl : (p3, p1, p2) ∈ layouts3)
    {P : Jge (ZMod (Fiat.W32.field f).p)} {Q : Jge (ZMod (Fiat.W32.field f).p)} (h1 : Spec.W32.HasJge f m p1 P) (h2 : Spec.W32.HasJge f m p2 Q) :
    ∃ m', Fiat.W32.runL (Fiat.W32.field f) (jge_add_code (weiCfg ec) p3 p1 p2) m = .ok m' ∧ Spec.W32.HasJge f m' p3 (jge_add ec P Q) := by
  obtain ⟨m', a1, a2, a3⟩ := Fiat.W32.limbs_run (c24 := 0) (cd := 0) (List.all_eq_true.mp (lev_jge_add ec.zero_a ec.three_a (decide (ec.h > 1))) _ hl)
    (all_app (Fiat.W32.wei_regs f hc) (all_app (Fiat.W32.j_regs f h1) (Fiat.W32.j_regs f h2))) false_off false_off
  exact ⟨m', a1, Fiat.W32.has_j a2 a3 (by rw [← Fiat.W32.env_j h1, ← Fiat.W32.env_j h2]; exact run_jge_add (Fiat.W32.wei_env f hc) hl)⟩

/-- Addition of a Jacobian and an affine point without branches. -/
theorem limbs32_jge_mixed_add {ec : Curve (ZMod (Fiat.W32.field f).p)} (hc : Spec.W32.HasWei f m ec) {p3 p1 p2 : Nat} (hl : (p3, p1, p2) ∈ layouts3)
    {P : Jge (ZMod (Fiat.W32.field f).p)} {Q : Wge (ZMod (Fiat.W32.field f).p)} (h1 : Spec.W32.HasJge f m p1 P) (h2 : Spec.W32.HasWge f m p2 Q) :
    ∃ m', Fiat.W32.runL (Fiat.W32.field f) (jge_mixed_add_code (weiCfg ec) p3 p1 p2) m = .ok m' ∧ Spec.W32.HasJge f m' p3 (jge_mixed_add ec P Q) := by
  obtain ⟨m', a1, a2, a3⟩ := Fiat.W32.limbs_run (c24 := 0) (cd := 0) (List.all_eq_true.mp (lev_jge_mixed_add ec.zero_a ec.three_a (decide (ec.h > 1))) _ hl)
    (all_app (Fiat.W32.wei_regs f hc) (all_app (Fiat.W32.j_regs f h1) (Fiat.W32.w_regs f h2))) false_off false_off
  exact ⟨m', a1, Fiat.W32.has_j a2 a3 (by rw [← Fiat.W32.env_j h1, ← Fiat.W32.env_w h2]; exact run_jge_mixed_add (Fiat.W32.wei_env f hc) hl)⟩

/-- Doubling on the Montgomery line. -/
theorem limbs32_pge_dbl {ec : Mont (ZMod (Fiat.W32.field f).p)} (hc : Spec.W32.HasMont f m ec) {p3 p1 : Nat} (hl : (p3, p1) ∈ layouts2) {P : Pge (ZMod (Fiat.W32.field f).p)}
    (h1 : Spec.W32.HasPge f m p1 P) :
    ∃ m', Fiat.W32.runL (Fiat.W32.field f) (pge_dbl_code (montCfg ec) p3 p1) m = .ok m' ∧ Spec.W32.HasPge f m' p3 (pge_dbl ec P) := by
  obtain ⟨m', a1, a2, a3⟩ := Fiat.W32.limbs_run (c24 := ec.scmul.getD 0) (cd := 0) (List.all_eq_true.mp (lev_pge_dbl ec.scmul.isSome) _ hl)
    (all_app (Fiat.W32.mont_regs f hc) (Fiat.W32.p_regs f h1)) (Fiat.W32.mont_scmul f hc) false_off
  exact ⟨m', a1, Fiat.W32.has_p a2 (by rw [← Fiat.W32.env_p h1]; exact run_pge_dbl ⟨hc.a24.2.2, hc.one.2.2, rfl⟩ hl)⟩

/-- One step of the Montgomery ladder: the double of one point and the sum of two. -/
theorem limbs32_pge_ladder {ec : Mont (ZMod (Fiat.W32.field f).p)} (hc : Spec.W32.HasMont f m ec) {p4 p5 p1 p2 p3 : Nat} (hl : (p4, p5, p1, p2, p3) ∈ layouts5)
    (affine : Bool) {P Q R : Pge (ZMod (Fiat.W32.field f).p)} (h1 : Spec.W32.HasPge f m p1 P) (h2 : Spec.W32.HasPge f m p2 Q) (h3 : Spec.W32.HasPge f m p3 R) :
    ∃ m', Fiat.W32.runL (Fiat.W32.field f) (pge_ladder_code (montCfg ec) p4 p5 p1 p2 p3 affine) m = .ok m' ∧ Spec.W32.HasPge f m' p4 (pge_ladder ec P Q R affine).1 ∧
      Spec.W32.HasPge f m' p5 (pge_ladder ec P Q R affine).2 := by
  obtain ⟨m', a1, a2, a3⟩ := Fiat.W32.limbs_run (c24 := ec.scmul.getD 0) (cd := 0) (List.all_eq_true.mp (lev_pge_ladder ec.scmul.isSome affine) _ hl)
    (all_app (Fiat.W32.mont_regs f hc) (all_app (Fiat.W32.p_regs f h1) (all_app (Fiat.W32.p_regs f h2) (Fiat.W32.p_regs f h3)))) (Fiat.W32.mont_scmul f hc) false_off
  have hr := run_pge_ladder (c24 := ec.scmul.getD 0) (cd := 0) (e := Fiat.W32.envOf f m) (ec := ec) ⟨hc.a24.2.2, hc.one.2.2, rfl⟩ affine hl
  rw [Fiat.W32.env_p h1, Fiat.W32.env_p h2, Fiat.W32.env_p h3] at hr
  exact ⟨m', a1, Fiat.W32.has_p (fun i hi => a2 i (List.mem_append_left _ hi)) (congrArg Prod.fst hr),
    Fiat.W32.has_p (fun i hi => a2 i (List.mem_append_right _ hi)) (congrArg Prod.snd hr)⟩

/-- Doubling an Edwards point. -/
theorem limbs32_xge_dbl {ec : Edwards (ZMod (Fiat.W32.field f).p)} (hc : Spec.W32.HasEdwards f m ec) {p3 p1 : Nat} (hl : (p3, p1) ∈ layouts2) {P : Xge (ZMod (Fiat.W32.field f).p)}
    (h1 : Spec.W32.HasXge f m p1 P) :
    ∃ m', Fiat.W32.runL (Fiat.W32.field f) (xge_dbl_code (edwardsCfg ec) p3 p1) m = .ok m' ∧ Spec.W32.HasXge f m' p3 (xge_dbl ec P) := by
  obtain ⟨m', a1, a2, a3⟩ := Fiat.W32.limbs_run (c24 := 0) (cd := ec.scmul.getD 0) (List.all_eq_true.mp (lev_xge_dbl ec.mone_a ec.one_a ec.scmul.isSome) _ hl)
    (all_app (Fiat.W32.ed_regs f hc) (Fiat.W32.x_regs f h1)) false_off (Fiat.W32.ed_scmul f hc)
  exact ⟨m', a1, Fiat.W32.has_x a2 (by rw [← Fiat.W32.env_x h1]; exact run_xge_dbl ⟨hc.a.2.2, hc.d.2.2, hc.k.2.2, rfl⟩ hl)⟩

/-- Addition of Edwards points, any coefficient `a`. -/
theorem limbs32_xge_add_a {ec : Edwards (ZMod (Fiat.W32.field f).p)} (hc : Spec.W32.HasEdwards f m ec) {p3 p1 p2 : Nat} (hl : (p3, p1, p2) ∈ layouts3) (affine : Bool)
    {P Q : Xge (ZMod (Fiat.W32.field f).p)} (h1 : Spec.W32.HasXge f m p1 P) (h2 : Spec.W32.HasXge f m p2 Q) :
    ∃ m', Fiat.W32.runL (Fiat.W32.field f) (xge_add_a_code (edwardsCfg ec) p3 p1 p2 affine) m = .ok m' ∧ Spec.W32.HasXge f m' p3 (xge_add_a ec P Q affine) := by
  obtain ⟨m', a1, a2, a3⟩ := Fiat.W32.limbs_run (c24 := 0) (cd := ec.scmul.getD 0) (List.all_eq_true.mp (lev_xge_add_a ec.mone_a ec.one_a ec.scmul.isSome affine) _ hl)
    (all_app (Fiat.W32.ed_regs f hc) (all_app (Fiat.W32.x_regs f h1) (Fiat.W32.x_regs f h2))) false_off (Fiat.W32.ed_scmul f hc)
  exact ⟨m', a1, Fiat.W32.has_x a2 (by rw [← Fiat.W32.env_x h1, ← Fiat.W32.env_x h2]; exact run_xge_add_a ⟨hc.a.2.2, hc.d.2.2, hc.k.2.2, rfl⟩ hl affine)⟩

/-- Subtraction of Edwards points, any coefficient `a`. -/
theorem limbs32_xge_sub_a {ec : Edwards (ZMod (Fiat.W32.field f).p)} (hc : Spec.W32.HasEdwards f m ec) {p3 p1 p2 : Nat} (hl : (p3, p1, p2) ∈ layouts3) (affine : Bool)
    {P Q : Xge (ZMod (Fiat.W32.field f).p)} (h1 : Spec.W32.HasXge f m p1 P) (h2 : Spec.W32.HasXge f m p2 Q) :
    ∃ m', Fiat.W32.runL (Fiat.W32.field f) (xge_sub_a_code (edwardsCfg ec) p3 p1 p2 affine) m = .ok m' ∧ Spec.W32.HasXge f m' p3 (xge_sub_a ec P Q affine) := by
  obtain ⟨m', a1, a2, a3⟩ := Fiat.W32.limbs_run (c24 := 0) (cd := ec.scmul.getD 0) (List.all_eq_true.mp (lev_xge_sub_a ec.mone_a ec.one_a ec.scmul.isSome affine) _ hl)
    (all_app (Fiat.W32.ed_regs f hc) (all_app (Fiat.W32.x_regs f h1) (Fiat.W32.x_regs f h2))) false_off (Fiat.W32.ed_scmul f hc)
  exact ⟨m', a1, Fiat.W32.has_x a2 (by rw [← Fiat.W32.env_x h1, ← Fiat.W32.env_x h2]; exact run_xge_sub_a ⟨hc.a.2.2, hc.d.2.2, hc.k.2.2, rfl⟩ hl affine)⟩

/-- Addition of Edwards points for `a = -1`. -/
theorem limbs32_xge_add_m1 {ec : Edwards (ZMod (Fiat.W32.field f).p)} (hc : Spec.W32.HasEdwards f m ec) {p3 p1 p2 : Nat} (hl : (p3, p1, p2) ∈ layouts3) (affine : Bool)
    {P Q : Xge (ZMod (Fiat.W32.field f).p)} (h1 : Spec.W32.HasXge f m p1 P) (h2 : Spec.W32.HasXge f m p2 Q) :
    ∃ m', Fiat.W32.runL (Fiat.W32.field f) (xge_add_m1_code (edwardsCfg ec) p3 p1 p2 affine) m = .ok m' ∧ Spec.W32.HasXge f m' p3 (xge_add_m1 ec P Q affine) := by
  obtain ⟨m', a1, a2, a3⟩ := Fiat.W32.limbs_run (c24 := 0) (cd := ec.scmul.getD 0) (List.all_eq_true.mp (lev_xge_add_m1 ec.mone_a ec.one_a ec.scmul.isSome affine) _ hl)
    (all_app (Fiat.W32.ed_regs f hc) (all_app (Fiat.W32.x_regs f h1) (Fiat.W32.x_regs f h2))) false_off (Fiat.W32.ed_scmul f hc)
  exact ⟨m', a1, Fiat.W32.has_x a2 (by rw [← Fiat.W32.env_x h1, ← Fiat.W32.env_x h2]; exact run_xge_add_m1 ⟨hc.a.2.2, hc.d.2.2, hc.k.2.2, rfl⟩ hl affine)⟩

/-- Subtraction of Edwards points for `a = -1`. -/
theorem limbs32_xge_sub_m1 {ec : Edwards (ZMod (Fiat.W32.field f).p)} (hc : Spec.W32.HasEdwards f m ec) {p3 p1 p2 : Nat} (hl : (p3, p1, p2) ∈ layouts3) (affine : Bool)
    {P Q : Xge (ZMod (Fiat.W32.field f).p)} (h1 : Spec.W32.HasXge f m p1 P) (h2 : Spec.W32.HasXge f m p2 Q) :
    ∃ m', Fiat.W32.runL (Fiat.W32.field f) (xge_sub_m1_code (edwardsCfg ec) p3 p1 p2 affine) m = .ok m' ∧ Spec.W32.HasXge f m' p3 (xge_sub_m1 ec P Q affine) := by
  obtain ⟨m', a1, a2, a3⟩ := Fiat.W32.limbs_run (c24 := 0) (cd := ec.scmul.getD 0) (List.all_eq_true.mp (lev_xge_sub_m1 ec.mone_a ec.one_a ec.scmul.isSome affine) _ hl)
    (all_app (Fiat.W32.ed_regs f hc) (all_app (Fiat.W32.x_regs f h1) (Fiat.W32.x_regs f h2))) false_off (Fiat.W32.ed_scmul f hc)
  exact ⟨m', a1, Fiat.W32.has_x a2 (by rw [← Fiat.W32.env_x h1, ← Fiat.W32.env_x h2]; exact run_xge_sub_m1 ⟨hc.a.2.2, hc.d.2.2, hc.k.2.2, rfl⟩ hl affine)⟩

end

/-- The fields of the tables of curves are these fields, and the constants of the functions `scmul_a24` and `scmul_d` are those of the curves. -/
theorem limbs32_tables :
    ((Fiat.W32.field .p192).p = curve_p192.fe.p ∧ (Fiat.W32.field .secp256k1).p = curve_secp256k1.fe.p) ∧
    (Fiat.W32.field .p25519).p = curve_x25519.fe.p ∧ (Fiat.W32.field .p25519).p = curve_ed25519.fe.p ∧
    (Fiat.W32.field .p251).p = curve_ed1174.fe.p ∧
    (Fiat.W32.field .p25519).scmul_a24.map (·.1) = some (curve_x25519.scmul : Int) ∧
    (Fiat.W32.field .p25519).scmul_d.map (·.1) = curve_ed25519.scmul ∧ (Fiat.W32.field .p251).scmul_d.map (·.1) = curve_ed1174.scmul := by
  decide +kernel

/-! ### The hypotheses are met -/

/-- Small numbers in all variables, 1 and 0 where the constants are. -/
def exMem32 (f : Fiat.W32.FieldName) : Mem (List Nat) :=
  ⟨fun i => (if i = 1005 then 1 else if i = 1006 then 0 else i) :: List.replicate ((Fiat.W32.field f).bits.length - 1) 0, fun _ => false⟩

theorem exMem32_limbs (f : Fiat.W32.FieldName) (i : Nat) (hi : i < 2 ^ 20) :
    Spec.W32.LimbsOf f ((exMem32 f).r i) ((if i = 1005 then 1 else if i = 1006 then 0 else i : Nat) : ZMod (Fiat.W32.field f).p) := by
  have hz : ∀ r : List Nat, radixValue r (List.replicate r.length 0) = 0 := by
    intro r
    induction r with
    | nil => rfl
    | cons a r ih => simp [radixValue, List.replicate_succ, ih]
  have ht : ∀ r : List Nat, List.Forall₂ (fun x b => x ≤ b) (List.replicate r.length 0) r := by
    intro r
    induction r with
    | nil => exact .nil
    | cons a r ih => exact .cons (Nat.zero_le _) ih
  have hb : ∀ k, k < 2 ^ 20 → ∀ bits tight : List Nat, 2 ^ 20 ≤ tight.headD 0 → bits.length = tight.length → bits ≠ [] →
      LimbRep bits tight (Fiat.W32.field f).p (k :: List.replicate (bits.length - 1) 0) (k : ZMod (Fiat.W32.field f).p) := by
    intro k hk bits tight h1 h2 h3
    obtain ⟨b, r, rfl⟩ := List.exists_cons_of_ne_nil h3
    rcases tight with _ | ⟨t, s⟩
    · simp at h2
    have h4 : 2 ^ 20 ≤ t := h1
    have h5 : r.length = s.length := by simpa using h2
    refine ⟨by simp, .cons (by omega) ?_, ?_⟩
    · simp only [List.length_cons, Nat.add_sub_cancel, h5]
      exact ht s
    · simp [radixValue, hz r]
  refine hb _ ?_ _ _ ?_ ?_ ?_
  · split
    · omega
    · split <;> omega
  · cases f <;> decide +kernel
  · cases f <;> decide +kernel
  · cases f <;> decide +kernel

/-- For every field a curve with `a = 1000` and the points `(10 : 11 : 12)` and `(20 : 21 : 22)`. -/
example (f : Fiat.W32.FieldName) : Spec.W32.HasWei f (exMem32 f) ⟨(1000 : Nat), 7, 1⟩ ∧
    Spec.W32.HasJge f (exMem32 f) 10 ⟨(10 : Nat), (11 : Nat), (12 : Nat), false, false⟩ ∧
    Spec.W32.HasJge f (exMem32 f) 20 ⟨(20 : Nat), (21 : Nat), (22 : Nat), false, false⟩ ∧
    Spec.W32.HasWge f (exMem32 f) 20 ⟨(20 : Nat), (21 : Nat), false⟩ := by
  refine ⟨⟨?_, ?_, ?_⟩, ⟨?_, ?_, ?_, rfl, rfl⟩, ⟨?_, ?_, ?_, rfl, rfl⟩, ?_, ?_, rfl⟩
  · exact exMem32_limbs f 1000 (by norm_num)
  · simpa using exMem32_limbs f 1005 (by norm_num)
  · simpa using exMem32_limbs f 1006 (by norm_num)
  · exact exMem32_limbs f 10 (by norm_num)
  · exact exMem32_limbs f 11 (by norm_num)
  · exact exMem32_limbs f 12 (by norm_num)
  · exact exMem32_limbs f 20 (by norm_num)
  · exact exMem32_limbs f 21 (by norm_num)
  · exact exMem32_limbs f 22 (by norm_num)
  · exact exMem32_limbs f 20 (by norm_num)
  · exact exMem32_limbs f 21 (by norm_num)

/-- Any Montgomery curve over the field of Curve25519 with the constant of its function, and two points of the ladder. -/
example (ec : Mont (ZMod (Fiat.W32.field .p25519).p)) :
    Spec.W32.HasMont .p25519 (exMem32 .p25519) { ec with a24 := (1001 : Nat), scmul := some 121666 } ∧
    Spec.W32.HasPge .p25519 (exMem32 .p25519) 10 ⟨(10 : Nat), (12 : Nat)⟩ ∧ Spec.W32.HasPge .p25519 (exMem32 .p25519) 20 ⟨(20 : Nat), (22 : Nat)⟩ := by
  refine ⟨⟨?_, ?_, ?_, ?_⟩, ⟨?_, ?_⟩, ⟨?_, ?_⟩⟩
  · exact exMem32_limbs _ 1001 (by norm_num)
  · simpa using exMem32_limbs .p25519 1005 (by norm_num)
  · simpa using exMem32_limbs .p25519 1006 (by norm_num)
  · intro k hk
    cases hk
    exact ⟨_, rfl, by norm_cast⟩
  · exact exMem32_limbs _ 10 (by norm_num)
  · exact exMem32_limbs _ 12 (by norm_num)
  · exact exMem32_limbs _ 20 (by norm_num)
  · exact exMem32_limbs _ 22 (by norm_num)

/-- Any Edwards curve over the field of Ed1174 with the constant of its function, and two points. -/
example (ec : Edwards (ZMod (Fiat.W32.field .p251).p)) :
    Spec.W32.HasEdwards .p251 (exMem32 .p251) { ec with a := (1000 : Nat), d := (1002 : Nat), k := (1003 : Nat), scmul := some (-1174) } ∧
    Spec.W32.HasXge .p251 (exMem32 .p251) 10 ⟨(10 : Nat), (11 : Nat), (12 : Nat), (13 : Nat)⟩ ∧
    Spec.W32.HasXge .p251 (exMem32 .p251) 20 ⟨(20 : Nat), (21 : Nat), (22 : Nat), (23 : Nat)⟩ := by
  refine ⟨⟨?_, ?_, ?_, ?_⟩, ⟨?_, ?_, ?_, ?_⟩, ⟨?_, ?_, ?_, ?_⟩⟩
  · exact exMem32_limbs _ 1000 (by norm_num)
  · exact exMem32_limbs _ 1002 (by norm_num)
  · exact exMem32_limbs _ 1003 (by norm_num)
  · intro k hk
    cases hk
    exact ⟨_, rfl, by norm_cast⟩
  · exact exMem32_limbs _ 10 (by norm_num)
  · exact exMem32_limbs _ 11 (by norm_num)
  · exact exMem32_limbs _ 12 (by norm_num)
  · exact exMem32_limbs _ 13 (by norm_num)
  · exact exMem32_limbs _ 20 (by norm_num)
  · exact exMem32_limbs _ 21 (by norm_num)
  · exact exMem32_limbs _ 22 (by norm_num)
  · exact exMem32_limbs _ 23 (by norm_num)

end Torsion
