import Verif.Ecc.Fiat.FormulaLemmas
import Verif.Ecc.MontDefs
import Verif.Ecc.EdwardsDefs

/-!
# C98: the formulas for points on limbs

The formulas of `src/ecc.c` leave sums and differences unreduced where the next function allows it, and write their results over their operands.
For each of them: on reduced limbs of the operands, for every one of the six fields of C97 and every way in which the arguments may be the same
object, the limbs never exceed what the functions of the field allow, nothing is undefined, and the result has the reduced limbs of the point
which the formula gives in the field (C51 and the following properties say which point that is).
-/
namespace Torsion
open Torsion.Fiat Torsion.Spec

section
variable (f : FieldName) {m : Mem (List Nat)}

/-- Doubling a Jacobian point. -/
theorem limbs_jge_dbl_var {ec : Curve (ZMod (field f).p)} (hc : HasWei f m ec) {p3 p1 : Nat} (hl : (p3, p1) ∈ layouts2) {P : Jge (ZMod (field f).p)}
    (h1 : HasJge f m p1 P) :
    ∃ m', runL (field f) (jge_dbl_var_code (weiCfg ec) p3 p1) m = .ok m' ∧ HasJge f m' p3 (jge_dbl_var ec P) := by
  obtain ⟨m', a1, a2, a3⟩ := limbs_run (c24 := 0) (cd := 0) (List.all_eq_true.mp (lev_dbl_var ec.zero_a ec.three_a (decide (ec.h > 1))) _ hl)
    (all_app (wei_regs f hc) (j_regs f h1)) false_off false_off
  exact ⟨m', a1, has_j a2 a3 (by rw [← env_j h1]; exact run_dbl_var (wei_env f hc) hl)⟩

/-- Addition (`sign` set) and subtraction of Jacobian points. -/
theorem limbs_jge_addsub_var {ec : Curve (ZMod (field f).p)} (hc : HasWei f m ec) {p3 p1 p2 : Nat} (hl : (p3, p1, p2) ∈ layouts3) (sign : Bool)
    {P : Jge (ZMod (field f).p)} {Q : Jge (ZMod (field f).p)} (h1 : HasJge f m p1 P) (h2 : HasJge f m p2 Q) :
    ∃ m', runL (field f) (jge_addsub_var_code (weiCfg ec) p3 p1 p2 sign) m = .ok m' ∧ HasJge f m' p3 (jge_addsub_var ec P Q sign) := by
  obtain ⟨m', a1, a2, a3⟩ := limbs_run (c24 := 0) (cd := 0) (List.all_eq_true.mp (lev_addsub ec.zero_a ec.three_a (decide (ec.h > 1)) sign) _ hl)
    (all_app (wei_regs f hc) (all_app (j_regs f h1) (j_regs f h2))) false_off false_off
  exact ⟨m', a1, has_j a2 a3 (by rw [← env_j h1, ← env_j h2]; exact run_addsub (wei_env f hc) hl sign)⟩

/-- Addition (`sign` set) and subtraction of a Jacobian and an affine point. -/
theorem limbs_jge_mixed_addsub_var {ec : Curve (ZMod (field f).p)} (hc : HasWei f m ec) {p3 p1 p2 : Nat} (hl : (p3, p1, p2) ∈ layouts3) (sign : Bool)
    {P : Jge (ZMod (field f).p)} {Q : Wge (ZMod (field f).p)} (h1 : HasJge f m p1 P) (h2 : HasWge f m p2 Q) :
    ∃ m', runL (field f) (jge_mixed_addsub_var_code (weiCfg ec) p3 p1 p2 (p2 + 1) sign) m = .ok m' ∧ HasJge f m' p3 (jge_mixed_addsub_var ec P Q.x Q.y sign) := by
  obtain ⟨m', a1, a2, a3⟩ := limbs_run (c24 := 0) (cd := 0) (List.all_eq_true.mp (lev_mixed_addsub ec.zero_a ec.three_a (decide (ec.h > 1)) sign) _ hl)
    (all_app (wei_regs f hc) (all_app (j_regs f h1) (w_regs f h2))) false_off false_off
  exact ⟨m', a1, has_j a2 a3 (by rw [← env_j h1, ← env_w h2]; exact run_mixed_addsub (wei_env f hc) hl sign)⟩

/-- Addition of Jacobian points without branches. -/
theorem limbs_jge_add {ec : Curve (ZMod (field f).p)} (hc : HasWei f m ec) {p3 p1 p2 : Nat} (hl : (p3, p1, p2) ∈ layouts3)
    {P : Jge (ZMod (field f).p)} {Q : Jge (ZMod (field f).p)} (h1 : HasJge f m p1 P) (h2 : HasJge f m p2 Q) :
    ∃ m', runL (field f) (jge_add_code (weiCfg ec) p3 p1 p2) m = .ok m' ∧ HasJge f m' p3 (jge_add ec P Q) := by
  obtain ⟨m', a1, a2, a3⟩ := limbs_run (c24 := 0) (cd := 0) (List.all_eq_true.mp (lev_jge_add ec.zero_a ec.three_a (decide (ec.h > 1))) _ hl)
    (all_app (wei_regs f hc) (all_app (j_regs f h1) (j_regs f h2))) false_off false_off
  exact ⟨m', a1, has_j a2 a3 (by rw [← env_j h1, ← env_j h2]; exact run_jge_add (wei_env f hc) hl)⟩

/-- Addition of a Jacobian and an affine point without branches. -/
theorem limbs_jge_mixed_add {ec : Curve (ZMod (field f).p)} (hc : HasWei f m ec) {p3 p1 p2 : Nat} (hl : (p3, p1, p2) ∈ layouts3)
    {P : Jge (ZMod (field f).p)} {Q : Wge (ZMod (field f).p)} (h1 : HasJge f m p1 P) (h2 : HasWge f m p2 Q) :
    ∃ m', runL (field f) (jge_mixed_add_code (weiCfg ec) p3 p1 p2) m = .ok m' ∧ HasJge f m' p3 (jge_mixed_add ec P Q) := by
  obtain ⟨m', a1, a2, a3⟩ := limbs_run (c24 := 0) (cd := 0) (List.all_eq_true.mp (lev_jge_mixed_add ec.zero_a ec.three_a (decide (ec.h > 1))) _ hl)
    (all_app (wei_regs f hc) (all_app (j_regs f h1) (w_regs f h2))) false_off false_off
  exact ⟨m', a1, has_j a2 a3 (by rw [← env_j h1, ← env_w h2]; exact run_jge_mixed_add (wei_env f hc) hl)⟩

/-- Doubling on the Montgomery line. -/
theorem limbs_pge_dbl {ec : Mont (ZMod (field f).p)} (hc : HasMont f m ec) {p3 p1 : Nat} (hl : (p3, p1) ∈ layouts2) {P : Pge (ZMod (field f).p)}
    (h1 : HasPge f m p1 P) :
    ∃ m', runL (field f) (pge_dbl_code (montCfg ec) p3 p1) m = .ok m' ∧ HasPge f m' p3 (pge_dbl ec P) := by
  obtain ⟨m', a1, a2, a3⟩ := limbs_run (c24 := ec.scmul.getD 0) (cd := 0) (List.all_eq_true.mp (lev_pge_dbl ec.scmul.isSome) _ hl)
    (all_app (mont_regs f hc) (p_regs f h1)) (mont_scmul f hc) false_off
  exact ⟨m', a1, has_p a2 (by rw [← env_p h1]; exact run_pge_dbl ⟨hc.a24.2, hc.one.2, rfl⟩ hl)⟩

/-- One step of the Montgomery ladder: the double of one point and the sum of two. -/
theorem limbs_pge_ladder {ec : Mont (ZMod (field f).p)} (hc : HasMont f m ec) {p4 p5 p1 p2 p3 : Nat} (hl : (p4, p5, p1, p2, p3) ∈ layouts5)
    (affine : Bool) {P Q R : Pge (ZMod (field f).p)} (h1 : HasPge f m p1 P) (h2 : HasPge f m p2 Q) (h3 : HasPge f m p3 R) :
    ∃ m', runL (field f) (pge_ladder_code (montCfg ec) p4 p5 p1 p2 p3 affine) m = .ok m' ∧ HasPge f m' p4 (pge_ladder ec P Q R affine).1 ∧
      HasPge f m' p5 (pge_ladder ec P Q R affine).2 := by
  obtain ⟨m', a1, a2, a3⟩ := limbs_run (c24 := ec.scmul.getD 0) (cd := 0) (List.all_eq_true.mp (lev_pge_ladder ec.scmul.isSome affine) _ hl)
    (all_app (mont_regs f hc) (all_app (p_regs f h1) (all_app (p_regs f h2) (p_regs f h3)))) (mont_scmul f hc) false_off
  have hr := run_pge_ladder (c24 := ec.scmul.getD 0) (cd := 0) (e := envOf f m) (ec := ec) ⟨hc.a24.2, hc.one.2, rfl⟩ affine hl
  rw [env_p h1, env_p h2, env_p h3] at hr
  exact ⟨m', a1, has_p (fun i hi => a2 i (List.mem_append_left _ hi)) (congrArg Prod.fst hr),
    has_p (fun i hi => a2 i (List.mem_append_right _ hi)) (congrArg Prod.snd hr)⟩

/-- Doubling an Edwards point. -/
theorem limbs_xge_dbl {ec : Edwards (ZMod (field f).p)} (hc : HasEdwards f m ec) {p3 p1 : Nat} (hl : (p3, p1) ∈ layouts2) {P : Xge (ZMod (field f).p)}
    (h1 : HasXge f m p1 P) :
    ∃ m', runL (field f) (xge_dbl_code (edwardsCfg ec) p3 p1) m = .ok m' ∧ HasXge f m' p3 (xge_dbl ec P) := by
  obtain ⟨m', a1, a2, a3⟩ := limbs_run (c24 := 0) (cd := ec.scmul.getD 0) (List.all_eq_true.mp (lev_xge_dbl ec.mone_a ec.one_a ec.scmul.isSome) _ hl)
    (all_app (ed_regs f hc) (x_regs f h1)) false_off (ed_scmul f hc)
  exact ⟨m', a1, has_x a2 (by rw [← env_x h1]; exact run_xge_dbl ⟨hc.a.2, hc.d.2, hc.k.2, rfl⟩ hl)⟩

/-- Addition of Edwards points, any coefficient `a`. -/
theorem limbs_xge_add_a {ec : Edwards (ZMod (field f).p)} (hc : HasEdwards f m ec) {p3 p1 p2 : Nat} (hl : (p3, p1, p2) ∈ layouts3) (affine : Bool)
    {P Q : Xge (ZMod (field f).p)} (h1 : HasXge f m p1 P) (h2 : HasXge f m p2 Q) :
    ∃ m', runL (field f) (xge_add_a_code (edwardsCfg ec) p3 p1 p2 affine) m = .ok m' ∧ HasXge f m' p3 (xge_add_a ec P Q affine) := by
  obtain ⟨m', a1, a2, a3⟩ := limbs_run (c24 := 0) (cd := ec.scmul.getD 0) (List.all_eq_true.mp (lev_xge_add_a ec.mone_a ec.one_a ec.scmul.isSome affine) _ hl)
    (all_app (ed_regs f hc) (all_app (x_regs f h1) (x_regs f h2))) false_off (ed_scmul f hc)
  exact ⟨m', a1, has_x a2 (by rw [← env_x h1, ← env_x h2]; exact run_xge_add_a ⟨hc.a.2, hc.d.2, hc.k.2, rfl⟩ hl affine)⟩

/-- Subtraction of Edwards points, any coefficient `a`. -/
theorem limbs_xge_sub_a {ec : Edwards (ZMod (field f).p)} (hc : HasEdwards f m ec) {p3 p1 p2 : Nat} (hl : (p3, p1, p2) ∈ layouts3) (affine : Bool)
    {P Q : Xge (ZMod (field f).p)} (h1 : HasXge f m p1 P) (h2 : HasXge f m p2 Q) :
    ∃ m', runL (field f) (xge_sub_a_code (edwardsCfg ec) p3 p1 p2 affine) m = .ok m' ∧ HasXge f m' p3 (xge_sub_a ec P Q affine) := by
  obtain ⟨m', a1, a2, a3⟩ := limbs_run (c24 := 0) (cd := ec.scmul.getD 0) (List.all_eq_true.mp (lev_xge_sub_a ec.mone_a ec.one_a ec.scmul.isSome affine) _ hl)
    (all_app (ed_regs f hc) (all_app (x_regs f h1) (x_regs f h2))) false_off (ed_scmul f hc)
  exact ⟨m', a1, has_x a2 (by rw [← env_x h1, ← env_x h2]; exact run_xge_sub_a ⟨hc.a.2, hc.d.2, hc.k.2, rfl⟩ hl affine)⟩

/-- Addition of Edwards points for `a = -1`. -/
theorem limbs_xge_add_m1 {ec : Edwards (ZMod (field f).p)} (hc : HasEdwards f m ec) {p3 p1 p2 : Nat} (hl : (p3, p1, p2) ∈ layouts3) (affine : Bool)
    {P Q : Xge (ZMod (field f).p)} (h1 : HasXge f m p1 P) (h2 : HasXge f m p2 Q) :
    ∃ m', runL (field f) (xge_add_m1_code (edwardsCfg ec) p3 p1 p2 affine) m = .ok m' ∧ HasXge f m' p3 (xge_add_m1 ec P Q affine) := by
  obtain ⟨m', a1, a2, a3⟩ := limbs_run (c24 := 0) (cd := ec.scmul.getD 0) (List.all_eq_true.mp (lev_xge_add_m1 ec.mone_a ec.one_a ec.scmul.isSome affine) _ hl)
    (all_app (ed_regs f hc) (all_app (x_regs f h1) (x_regs f h2))) false_off (ed_scmul f hc)
  exact ⟨m', a1, has_x a2 (by rw [← env_x h1, ← env_x h2]; exact run_xge_add_m1 ⟨hc.a.2, hc.d.2, hc.k.2, rfl⟩ hl affine)⟩

/-- Subtraction of Edwards points for `a = -1`. -/
theorem limbs_xge_sub_m1 {ec : Edwards (ZMod (field f).p)} (hc : HasEdwards f m ec) {p3 p1 p2 : Nat} (hl : (p3, p1, p2) ∈ layouts3) (affine : Bool)
    {P Q : Xge (ZMod (field f).p)} (h1 : HasXge f m p1 P) (h2 : HasXge f m p2 Q) :
    ∃ m', runL (field f) (xge_sub_m1_code (edwardsCfg ec) p3 p1 p2 affine) m = .ok m' ∧ HasXge f m' p3 (xge_sub_m1 ec P Q affine) := by
  obtain ⟨m', a1, a2, a3⟩ := limbs_run (c24 := 0) (cd := ec.scmul.getD 0) (List.all_eq_true.mp (lev_xge_sub_m1 ec.mone_a ec.one_a ec.scmul.isSome affine) _ hl)
    (all_app (ed_regs f hc) (all_app (x_regs f h1) (x_regs f h2))) false_off (ed_scmul f hc)
  exact ⟨m', a1, has_x a2 (by rw [← env_x h1, ← env_x h2]; exact run_xge_sub_m1 ⟨hc.a.2, hc.d.2, hc.k.2, rfl⟩ hl affine)⟩

end

/-- The fields of the tables of curves are these fields, and the constants of the functions `scmul_a24` and `scmul_d` are those of the curves. -/
theorem limbs_tables :
    ((field .p192).p = curve_p192.fe.p ∧ (field .p521).p = curve_p521.fe.p ∧ (field .secp256k1).p = curve_secp256k1.fe.p) ∧
    ((field .p25519).p = curve_x25519.fe.p ∧ (field .p448).p = curve_x448.fe.p) ∧
    ((field .p25519).p = curve_ed25519.fe.p ∧ (field .p448).p = curve_ed448.fe.p ∧ (field .p251).p = curve_ed1174.fe.p) ∧
    (field .p25519).scmul_a24.map (·.1) = some (curve_x25519.scmul : Int) ∧ (field .p448).scmul_a24.map (·.1) = some (curve_x448.scmul : Int) ∧
    (field .p25519).scmul_d.map (·.1) = curve_ed25519.scmul ∧ (field .p448).scmul_d.map (·.1) = curve_ed448.scmul ∧
    (field .p251).scmul_d.map (·.1) = curve_ed1174.scmul := by
  decide +kernel

/-! ### The hypotheses are met -/

/-- Small numbers in all variables, 1 and 0 where the constants are. -/
def exMem (f : FieldName) : Mem (List Nat) :=
  ⟨fun i => (if i = 1005 then 1 else if i = 1006 then 0 else i) :: List.replicate ((field f).bits.length - 1) 0, fun _ => false⟩

theorem exMem_limbs (f : FieldName) (i : Nat) (hi : i < 2 ^ 20) :
    LimbsOf f ((exMem f).r i) ((if i = 1005 then 1 else if i = 1006 then 0 else i : Nat) : ZMod (field f).p) := by
  have hb : ∀ k, k < 2 ^ 20 → ∀ bits : List Nat, 20 ≤ bits.headD 0 → bits ≠ [] →
      FieldRep bits (field f).p 1 (k :: List.replicate (bits.length - 1) 0) (k : ZMod (field f).p) := by
    intro k hk bits h1 h2
    obtain ⟨b, r, rfl⟩ := List.exists_cons_of_ne_nil h2
    have h3 : 20 ≤ b := h1
    have hz : ∀ r : List Nat, List.Forall₂ (fun b x => x ≤ 1 * 2 ^ b) r (List.replicate r.length 0) ∧ radixValue r (List.replicate r.length 0) = 0 := by
      intro r
      induction r with
      | nil => exact ⟨.nil, rfl⟩
      | cons a r ih => exact ⟨.cons (Nat.zero_le _) ih.1, by simp [radixValue, List.replicate_succ, ih.2]⟩
    refine ⟨.cons ?_ (by simpa using (hz r).1), ?_⟩
    · have := Nat.pow_le_pow_right (n := 2) (by omega) h3
      omega
    · simp [radixValue, (hz r).2]
  refine hb _ ?_ _ ?_ ?_
  · split
    · omega
    · split <;> omega
  · cases f <;> decide +kernel
  · cases f <;> decide +kernel

/-- For every field a curve with `a = 1000` and the points `(10 : 11 : 12)` and `(20 : 21 : 22)`. -/
example (f : FieldName) : HasWei f (exMem f) ⟨(1000 : Nat), 7, 1⟩ ∧ HasJge f (exMem f) 10 ⟨(10 : Nat), (11 : Nat), (12 : Nat), false, false⟩ ∧
    HasJge f (exMem f) 20 ⟨(20 : Nat), (21 : Nat), (22 : Nat), false, false⟩ ∧ HasWge f (exMem f) 20 ⟨(20 : Nat), (21 : Nat), false⟩ := by
  refine ⟨⟨?_, ?_, ?_⟩, ⟨?_, ?_, ?_, rfl, rfl⟩, ⟨?_, ?_, ?_, rfl, rfl⟩, ?_, ?_, rfl⟩
  · exact exMem_limbs f 1000 (by norm_num)
  · simpa using exMem_limbs f 1005 (by norm_num)
  · simpa using exMem_limbs f 1006 (by norm_num)
  · exact exMem_limbs f 10 (by norm_num)
  · exact exMem_limbs f 11 (by norm_num)
  · exact exMem_limbs f 12 (by norm_num)
  · exact exMem_limbs f 20 (by norm_num)
  · exact exMem_limbs f 21 (by norm_num)
  · exact exMem_limbs f 22 (by norm_num)
  · exact exMem_limbs f 20 (by norm_num)
  · exact exMem_limbs f 21 (by norm_num)

/-- Any Montgomery curve over the field of Curve25519 with the constant of its function and `a24 = 1001`, and two points of the ladder. -/
example (ec : Mont (ZMod (field .p25519).p)) : HasMont .p25519 (exMem .p25519) { ec with a24 := (1001 : Nat), scmul := some 121666 } ∧
    HasPge .p25519 (exMem .p25519) 10 ⟨(10 : Nat), (12 : Nat)⟩ ∧ HasPge .p25519 (exMem .p25519) 20 ⟨(20 : Nat), (22 : Nat)⟩ := by
  refine ⟨⟨?_, ?_, ?_, ?_⟩, ⟨?_, ?_⟩, ⟨?_, ?_⟩⟩
  · exact exMem_limbs _ 1001 (by norm_num)
  · simpa using exMem_limbs .p25519 1005 (by norm_num)
  · simpa using exMem_limbs .p25519 1006 (by norm_num)
  · intro k hk
    cases hk
    exact ⟨_, rfl, by norm_cast⟩
  · exact exMem_limbs _ 10 (by norm_num)
  · exact exMem_limbs _ 12 (by norm_num)
  · exact exMem_limbs _ 20 (by norm_num)
  · exact exMem_limbs _ 22 (by norm_num)

/-- Any Edwards curve over the field of Ed448 with the constant of its function, and two points. -/
example (ec : Edwards (ZMod (field .p448).p)) : HasEdwards .p448 (exMem .p448) { ec with a := (1000 : Nat), d := (1002 : Nat), k := (1003 : Nat), scmul := some (-39081) } ∧
    HasXge .p448 (exMem .p448) 10 ⟨(10 : Nat), (11 : Nat), (12 : Nat), (13 : Nat)⟩ ∧
    HasXge .p448 (exMem .p448) 20 ⟨(20 : Nat), (21 : Nat), (22 : Nat), (23 : Nat)⟩ := by
  refine ⟨⟨?_, ?_, ?_, ?_⟩, ⟨?_, ?_, ?_, ?_⟩, ⟨?_, ?_, ?_, ?_⟩⟩
  · exact exMem_limbs _ 1000 (by norm_num)
  · exact exMem_limbs _ 1002 (by norm_num)
  · exact exMem_limbs _ 1003 (by norm_num)
  · intro k hk
    cases hk
    exact ⟨_, rfl, by norm_cast⟩
  · exact exMem_limbs _ 10 (by norm_num)
  · exact exMem_limbs _ 11 (by norm_num)
  · exact exMem_limbs _ 12 (by norm_num)
  · exact exMem_limbs _ 13 (by norm_num)
  · exact exMem_limbs _ 20 (by norm_num)
  · exact exMem_limbs _ 21 (by norm_num)
  · exact exMem_limbs _ 22 (by norm_num)
  · exact exMem_limbs _ 23 (by norm_num)

end Torsion
