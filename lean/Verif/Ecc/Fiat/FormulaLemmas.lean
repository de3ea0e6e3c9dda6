import Verif.Ecc.Fiat.CodeSound
import Verif.Ecc.Fiat.FormulaRun
import Verif.Ecc.PrimeProps

/-!
# The formulas keep the discipline of reductions
-/
namespace Torsion.Fiat
open Torsion.Spec

theorem limb_field_prime (f : FieldName) : (field f).p.Prime := by
  cases f
  · rw [show (field .p192).p = Torsion.field_p192.p by decide +kernel]
    exact fieldCodes_prime Torsion.field_p192 (by simp [fieldCodes])
  · rw [show (field .p521).p = Torsion.field_p521.p by decide +kernel]
    exact fieldCodes_prime Torsion.field_p521 (by simp [fieldCodes])
  · rw [show (field .secp256k1).p = Torsion.field_secp256k1.p by decide +kernel]
    exact fieldCodes_prime Torsion.field_secp256k1 (by simp [fieldCodes])
  · rw [show (field .p25519).p = Torsion.field_p25519.p by decide +kernel]
    exact fieldCodes_prime Torsion.field_p25519 (by simp [fieldCodes])
  · rw [show (field .p448).p = Torsion.field_p448.p by decide +kernel]
    exact fieldCodes_prime Torsion.field_p448 (by simp [fieldCodes])
  · rw [show (field .p251).p = Torsion.field_p251.p by decide +kernel]
    exact fieldCodes_prime Torsion.field_p251 (by simp [fieldCodes])

instance (f : FieldName) : Fact (field f).p.Prime := ⟨limb_field_prime f⟩

/-- Reduced limbs in the registers of a list, nothing known of the others. -/
def startLev (rs : List Nat) : Nat → Option Nat := fun i => bif rs.elem i then some 1 else none

def levOk (cfg : Cfg) (code : Code) (rs outs : List Nat) : Bool :=
  match runLev cfg.sca24 cfg.scd code (startLev rs) with
  | some l => outs.all fun i => l i == some 1
  | none => false

/-- The elements which the registers hold. -/
def envOf (f : FieldName) (m : Mem (List Nat)) : Mem (ZMod (field f).p) := ⟨fun i => (radixValue (field f).bits (m.r i) : ZMod (field f).p), m.f⟩

theorem limbs_run {f : FieldName} {cfg : Cfg} {code : Code} {rs outs : List Nat} (h : levOk cfg code rs outs = true) {m : Mem (List Nat)}
    (hr : ∀ i ∈ rs, ∃ x, LimbsOf f (m.r i) x) {c24 cd : ZMod (field f).p}
    (s24 : cfg.sca24 = true → ∃ q, (field f).scmul_a24 = some q ∧ (q.1 : ZMod (field f).p) = c24)
    (sd : cfg.scd = true → ∃ q, (field f).scmul_d = some q ∧ (q.1 : ZMod (field f).p) = cd) :
    ∃ m', runL (field f) code m = .ok m' ∧ (∀ i ∈ outs, LimbsOf f (m'.r i) ((runF c24 cd code (envOf f m)).r i)) ∧
      m'.f = (runF c24 cd code (envOf f m)).f := by
  unfold levOk at h
  split at h
  next l hl =>
    have h0 : Rel f (startLev rs) m (envOf f m) := by
      refine ⟨?_, rfl⟩
      intro i k hk
      unfold startLev at hk
      rcases he : rs.elem i with _ | _
      · rw [he] at hk; exact absurd hk (by simp)
      · rw [he, cond_true] at hk
        cases hk
        obtain ⟨x, hx⟩ := hr i (List.elem_iff.mp he)
        exact ⟨hx.1, rfl⟩
    obtain ⟨m', a1, a2⟩ := run_code_sound s24 sd code hl h0
    refine ⟨m', a1, fun i hi => ?_, a2.2⟩
    have := List.all_eq_true.mp h i hi
    exact a2.1 i 1 (by simpa using this)
  next => exact absurd h (by simp)

section
variable {f : FieldName} {m : Mem (List Nat)} {p : Nat}

theorem env_j {P : Jge (ZMod (field f).p)} (h : HasJge f m p P) : getJ (envOf f m) p = P := by
  obtain ⟨h1, h2, h3, h4, h5⟩ := h
  rcases P with ⟨x, y, z, i, a⟩
  simp only [getJ, envOf, Jge.mk.injEq]
  exact ⟨h1.2, h2.2, h3.2, h4, h5⟩

theorem env_w {P : Wge (ZMod (field f).p)} (h : HasWge f m p P) : getW (envOf f m) p = P := by
  obtain ⟨h1, h2, h3⟩ := h
  rcases P with ⟨x, y, i⟩
  simp only [getW, envOf, Wge.mk.injEq]
  exact ⟨h1.2, h2.2, h3⟩

theorem env_p {P : Pge (ZMod (field f).p)} (h : HasPge f m p P) : getP (envOf f m) p = P := by
  obtain ⟨h1, h2⟩ := h
  rcases P with ⟨x, z⟩
  simp only [getP, envOf, Pge.mk.injEq]
  exact ⟨h1.2, h2.2⟩

theorem env_x {P : Xge (ZMod (field f).p)} (h : HasXge f m p P) : getX (envOf f m) p = P := by
  obtain ⟨h1, h2, h3, h4⟩ := h
  rcases P with ⟨x, y, z, t⟩
  simp only [getX, envOf, Xge.mk.injEq]
  exact ⟨h1.2, h2.2, h3.2, h4.2⟩

/-- The coordinates and flags of a result. -/
theorem has_j {m' : Mem (List Nat)} {e : Mem (ZMod (field f).p)} {P : Jge (ZMod (field f).p)}
    (h : ∀ i ∈ [p, p + 1, p + 2], LimbsOf f (m'.r i) (e.r i)) (hf : m'.f = e.f) (hp : getJ e p = P) : HasJge f m' p P := by
  rw [← hp]
  exact ⟨h _ (by simp), h _ (by simp), h _ (by simp), congrFun hf _, congrFun hf _⟩

theorem has_p {m' : Mem (List Nat)} {e : Mem (ZMod (field f).p)} {P : Pge (ZMod (field f).p)}
    (h : ∀ i ∈ [p, p + 2], LimbsOf f (m'.r i) (e.r i)) (hp : getP e p = P) : HasPge f m' p P := by
  rw [← hp]
  exact ⟨h _ (by simp), h _ (by simp)⟩

theorem has_x {m' : Mem (List Nat)} {e : Mem (ZMod (field f).p)} {P : Xge (ZMod (field f).p)}
    (h : ∀ i ∈ [p, p + 1, p + 2, p + 3], LimbsOf f (m'.r i) (e.r i)) (hp : getX e p = P) : HasXge f m' p P := by
  rw [← hp]
  exact ⟨h _ (by simp), h _ (by simp), h _ (by simp), h _ (by simp)⟩

end

/-! ### The registers given and wanted -/

def weiRegs : List Nat := [1000, 1005, 1006]
def montRegs : List Nat := [1001, 1005, 1006]
def edRegs : List Nat := [1000, 1002, 1003]
def jRegs (p : Nat) : List Nat := [p, p + 1, p + 2]
def wRegs (p : Nat) : List Nat := [p, p + 1]
def pRegs (p : Nat) : List Nat := [p, p + 2]
def xRegs (p : Nat) : List Nat := [p, p + 1, p + 2, p + 3]

theorem lev_dbl_var (za ta co : Bool) : layouts2.all (fun l =>
    levOk ⟨za, ta, false, false, co, false, false⟩ (jge_dbl_var_code ⟨za, ta, false, false, co, false, false⟩ l.1 l.2) (weiRegs ++ jRegs l.2) (jRegs l.1)) = true := by
  cases za <;> cases ta <;> cases co <;> decide +kernel

theorem lev_addsub (za ta co sign : Bool) : layouts3.all (fun l =>
    levOk ⟨za, ta, false, false, co, false, false⟩ (jge_addsub_var_code ⟨za, ta, false, false, co, false, false⟩ l.1 l.2.1 l.2.2 sign)
      (weiRegs ++ (jRegs l.2.1 ++ jRegs l.2.2)) (jRegs l.1)) = true := by
  cases za <;> cases ta <;> cases co <;> cases sign <;> decide +kernel

theorem lev_mixed_addsub (za ta co sign : Bool) : layouts3.all (fun l =>
    levOk ⟨za, ta, false, false, co, false, false⟩ (jge_mixed_addsub_var_code ⟨za, ta, false, false, co, false, false⟩ l.1 l.2.1 l.2.2 (l.2.2 + 1) sign)
      (weiRegs ++ (jRegs l.2.1 ++ wRegs l.2.2)) (jRegs l.1)) = true := by
  cases za <;> cases ta <;> cases co <;> cases sign <;> decide +kernel

theorem lev_jge_add (za ta co : Bool) : layouts3.all (fun l =>
    levOk ⟨za, ta, false, false, co, false, false⟩ (jge_add_code ⟨za, ta, false, false, co, false, false⟩ l.1 l.2.1 l.2.2)
      (weiRegs ++ (jRegs l.2.1 ++ jRegs l.2.2)) (jRegs l.1)) = true := by
  cases za <;> cases ta <;> cases co <;> decide +kernel

theorem lev_jge_mixed_add (za ta co : Bool) : layouts3.all (fun l =>
    levOk ⟨za, ta, false, false, co, false, false⟩ (jge_mixed_add_code ⟨za, ta, false, false, co, false, false⟩ l.1 l.2.1 l.2.2)
      (weiRegs ++ (jRegs l.2.1 ++ wRegs l.2.2)) (jRegs l.1)) = true := by
  cases za <;> cases ta <;> cases co <;> decide +kernel

theorem lev_pge_dbl (s : Bool) : layouts2.all (fun l =>
    levOk ⟨false, false, false, false, false, s, false⟩ (pge_dbl_code ⟨false, false, false, false, false, s, false⟩ l.1 l.2) (montRegs ++ pRegs l.2) (pRegs l.1)) = true := by
  cases s <;> decide +kernel

theorem lev_pge_ladder (s affine : Bool) : layouts5.all (fun l =>
    levOk ⟨false, false, false, false, false, s, false⟩
      (pge_ladder_code ⟨false, false, false, false, false, s, false⟩ l.1 l.2.1 l.2.2.1 l.2.2.2.1 l.2.2.2.2 affine)
      (montRegs ++ (pRegs l.2.2.1 ++ (pRegs l.2.2.2.1 ++ pRegs l.2.2.2.2))) (pRegs l.1 ++ pRegs l.2.1)) = true := by
  cases s <;> cases affine <;> decide +kernel

theorem lev_xge_dbl (ma oa s : Bool) : layouts2.all (fun l =>
    levOk ⟨false, false, ma, oa, false, false, s⟩ (xge_dbl_code ⟨false, false, ma, oa, false, false, s⟩ l.1 l.2) (edRegs ++ xRegs l.2) (xRegs l.1)) = true := by
  cases ma <;> cases oa <;> cases s <;> decide +kernel

theorem lev_xge_add_a (ma oa s affine : Bool) : layouts3.all (fun l =>
    levOk ⟨false, false, ma, oa, false, false, s⟩ (xge_add_a_code ⟨false, false, ma, oa, false, false, s⟩ l.1 l.2.1 l.2.2 affine)
      (edRegs ++ (xRegs l.2.1 ++ xRegs l.2.2)) (xRegs l.1)) = true := by
  cases ma <;> cases oa <;> cases s <;> cases affine <;> decide +kernel

theorem lev_xge_sub_a (ma oa s affine : Bool) : layouts3.all (fun l =>
    levOk ⟨false, false, ma, oa, false, false, s⟩ (xge_sub_a_code ⟨false, false, ma, oa, false, false, s⟩ l.1 l.2.1 l.2.2 affine)
      (edRegs ++ (xRegs l.2.1 ++ xRegs l.2.2)) (xRegs l.1)) = true := by
  cases ma <;> cases oa <;> cases s <;> cases affine <;> decide +kernel

theorem lev_xge_add_m1 (ma oa s affine : Bool) : layouts3.all (fun l =>
    levOk ⟨false, false, ma, oa, false, false, s⟩ (xge_add_m1_code ⟨false, false, ma, oa, false, false, s⟩ l.1 l.2.1 l.2.2 affine)
      (edRegs ++ (xRegs l.2.1 ++ xRegs l.2.2)) (xRegs l.1)) = true := by
  cases ma <;> cases oa <;> cases s <;> cases affine <;> decide +kernel

theorem lev_xge_sub_m1 (ma oa s affine : Bool) : layouts3.all (fun l =>
    levOk ⟨false, false, ma, oa, false, false, s⟩ (xge_sub_m1_code ⟨false, false, ma, oa, false, false, s⟩ l.1 l.2.1 l.2.2 affine)
      (edRegs ++ (xRegs l.2.1 ++ xRegs l.2.2)) (xRegs l.1)) = true := by
  cases ma <;> cases oa <;> cases s <;> cases affine <;> decide +kernel

section
variable (f : FieldName) {m : Mem (List Nat)}

theorem false_off {P : Prop} (h : false = true) : P := absurd h (by simp)

theorem wei_regs {ec : Curve (ZMod (field f).p)} (h : HasWei f m ec) : ∀ i ∈ weiRegs, ∃ x, LimbsOf f (m.r i) x := by
  intro i hi
  simp only [weiRegs, List.mem_cons, List.not_mem_nil, or_false] at hi
  rcases hi with rfl | rfl | rfl
  · exact ⟨_, h.a⟩
  · exact ⟨_, h.one⟩
  · exact ⟨_, h.zero⟩

theorem mont_regs {ec : Mont (ZMod (field f).p)} (h : HasMont f m ec) : ∀ i ∈ montRegs, ∃ x, LimbsOf f (m.r i) x := by
  intro i hi
  simp only [montRegs, List.mem_cons, List.not_mem_nil, or_false] at hi
  rcases hi with rfl | rfl | rfl
  · exact ⟨_, h.a24⟩
  · exact ⟨_, h.one⟩
  · exact ⟨_, h.zero⟩

theorem ed_regs {ec : Edwards (ZMod (field f).p)} (h : HasEdwards f m ec) : ∀ i ∈ edRegs, ∃ x, LimbsOf f (m.r i) x := by
  intro i hi
  simp only [edRegs, List.mem_cons, List.not_mem_nil, or_false] at hi
  rcases hi with rfl | rfl | rfl
  · exact ⟨_, h.a⟩
  · exact ⟨_, h.d⟩
  · exact ⟨_, h.k⟩

theorem j_regs {p : Nat} {P : Jge (ZMod (field f).p)} (h : HasJge f m p P) : ∀ i ∈ jRegs p, ∃ x, LimbsOf f (m.r i) x := by
  intro i hi
  simp only [jRegs, List.mem_cons, List.not_mem_nil, or_false] at hi
  rcases hi with rfl | rfl | rfl
  · exact ⟨_, h.x⟩
  · exact ⟨_, h.y⟩
  · exact ⟨_, h.z⟩

theorem w_regs {p : Nat} {P : Wge (ZMod (field f).p)} (h : HasWge f m p P) : ∀ i ∈ wRegs p, ∃ x, LimbsOf f (m.r i) x := by
  intro i hi
  simp only [wRegs, List.mem_cons, List.not_mem_nil, or_false] at hi
  rcases hi with rfl | rfl
  · exact ⟨_, h.x⟩
  · exact ⟨_, h.y⟩

theorem p_regs {p : Nat} {P : Pge (ZMod (field f).p)} (h : HasPge f m p P) : ∀ i ∈ pRegs p, ∃ x, LimbsOf f (m.r i) x := by
  intro i hi
  simp only [pRegs, List.mem_cons, List.not_mem_nil, or_false] at hi
  rcases hi with rfl | rfl
  · exact ⟨_, h.x⟩
  · exact ⟨_, h.z⟩

theorem x_regs {p : Nat} {P : Xge (ZMod (field f).p)} (h : HasXge f m p P) : ∀ i ∈ xRegs p, ∃ x, LimbsOf f (m.r i) x := by
  intro i hi
  simp only [xRegs, List.mem_cons, List.not_mem_nil, or_false] at hi
  rcases hi with rfl | rfl | rfl | rfl
  · exact ⟨_, h.x⟩
  · exact ⟨_, h.y⟩
  · exact ⟨_, h.z⟩
  · exact ⟨_, h.t⟩

theorem all_app {α : Type} {P : α → Prop} {a b : List α} (h1 : ∀ i ∈ a, P i) (h2 : ∀ i ∈ b, P i) : ∀ i ∈ a ++ b, P i := by
  intro i hi
  rcases List.mem_append.mp hi with h | h
  · exact h1 i h
  · exact h2 i h

theorem wei_env {ec : Curve (ZMod (field f).p)} (h : HasWei f m ec) : WeiEnv ec (envOf f m) := ⟨h.a.2, h.one.2, h.zero.2⟩

theorem mont_scmul {ec : Mont (ZMod (field f).p)} (h : HasMont f m ec) (hs : (montCfg ec).sca24 = true) :
    ∃ q, (field f).scmul_a24 = some q ∧ (q.1 : ZMod (field f).p) = ec.scmul.getD 0 := by
  rcases hk : ec.scmul with _ | k
  · simp [montCfg, hk] at hs
  · exact h.scmul k hk

theorem ed_scmul {ec : Edwards (ZMod (field f).p)} (h : HasEdwards f m ec) (hs : (edwardsCfg ec).scd = true) :
    ∃ q, (field f).scmul_d = some q ∧ (q.1 : ZMod (field f).p) = ec.scmul.getD 0 := by
  rcases hk : ec.scmul with _ | k
  · simp [edwardsCfg, hk] at hs
  · exact h.scmul k hk

end
end Torsion.Fiat
