import Verif.Ecc.Fiat.FormulaSpec
import Verif.Ecc.Fiat.Formula

/-!
# The statements of the formulas, run in the field, are the functions of the point models
-/
namespace Torsion.Fiat
open Torsion.Spec

section
variable {F : Type} [Field F] [DecidableEq F] (c24 cd : F)

def getJ (m : Mem F) (p : Nat) : Jge F := ⟨m.r p, m.r (p + 1), m.r (p + 2), m.f p, m.f (p + 1)⟩
def getW (m : Mem F) (p : Nat) : Wge F := ⟨m.r p, m.r (p + 1), m.f p⟩
def getP (m : Mem F) (p : Nat) : Pge F := ⟨m.r p, m.r (p + 2)⟩
def getX (m : Mem F) (p : Nat) : Xge F := ⟨m.r p, m.r (p + 1), m.r (p + 2), m.r (p + 3)⟩

/-- The constants of a Weierstrass curve in the field. -/
def WeiEnv (ec : Curve F) (e : Mem F) : Prop := e.r 1000 = ec.a ∧ e.r 1005 = 1 ∧ e.r 1006 = 0

omit [Field F] [DecidableEq F] in
theorem J_ite {c : Bool} {p : Nat} {A B : Mem F} {X Y : Jge F} (hA : c = true → getJ A p = X) (hB : c = false → getJ B p = Y) :
    getJ (if c then A else B) p = if c then X else Y := by
  cases c
  · exact hB rfl
  · exact hA rfl

theorem two_mem {p3 p1 : Nat} (h : (p3, p1) ∈ layouts2) : p3 = 0 ∧ p1 = 10 ∨ p3 = 0 ∧ p1 = 0 := by
  simpa only [layouts2, List.mem_cons, Prod.mk.injEq, List.not_mem_nil, or_false] using h

theorem three_mem {p3 p1 p2 : Nat} (h : (p3, p1, p2) ∈ layouts3) : p3 = 0 ∧ p1 = 10 ∧ p2 = 20 ∨ p3 = 0 ∧ p1 = 0 ∧ p2 = 20 ∨
    p3 = 0 ∧ p1 = 10 ∧ p2 = 0 ∨ p3 = 0 ∧ p1 = 10 ∧ p2 = 10 ∨ p3 = 0 ∧ p1 = 0 ∧ p2 = 0 := by
  simpa only [layouts3, List.mem_cons, Prod.mk.injEq, List.not_mem_nil, or_false] using h

theorem mem2 {p3 p1 p2 : Nat} (h : (p3, p1, p2) ∈ layouts3) : (p3, p1) ∈ layouts2 := by
  rcases three_mem h with ⟨rfl, rfl, rfl⟩ | ⟨rfl, rfl, rfl⟩ | ⟨rfl, rfl, rfl⟩ | ⟨rfl, rfl, rfl⟩ | ⟨rfl, rfl, rfl⟩ <;> simp [layouts2]

variable {c24 cd} {ec : Curve F} {e : Mem F}

theorem run_dbl_var (he : WeiEnv ec e) {p3 p1 : Nat} (hl : (p3, p1) ∈ layouts2) :
    getJ (runF c24 cd (jge_dbl_var_code (weiCfg ec) p3 p1) e) p3 = jge_dbl_var ec (getJ e p1) := by
  unfold jge_dbl_var jge_dbl0 jge_dbl3 jge_dblj jge_zero weiCfg
  rw [← he.1, ← he.2.1, ← he.2.2]
  generalize ec.zero_a = za
  generalize ec.three_a = ta
  generalize hh : decide (ec.h > 1) = ha
  rcases two_mem hl with ⟨rfl, rfl⟩ | ⟨rfl, rfl⟩ <;>
    refine J_ite (fun _ => by exact rfl) (fun _ => ?_) <;>
    cases za <;> cases ta <;> cases ha <;>
    first | refine J_ite (fun _ => by exact rfl) (fun _ => by exact rfl) | rfl

theorem run_dbl_block (he : WeiEnv ec e) {e' : Mem F} {X : Jge F} {p3 p1 : Nat} (hl : (p3, p1) ∈ layouts2) (h1 : e'.r 1000 = e.r 1000) (h2 : e'.r 1005 = e.r 1005)
    (h3 : e'.r 1006 = e.r 1006) (hp : getJ e' p1 = X) :
    getJ (runF c24 cd (Code.block [jge_dbl_var_code (weiCfg ec) p3 p1]) e') p3 = jge_dbl_var ec X := by
  rw [← hp]
  exact run_dbl_var ⟨h1.trans he.1, h2.trans he.2.1, h3.trans he.2.2⟩ hl

theorem run_addsub (he : WeiEnv ec e) {p3 p1 p2 : Nat} (hl : (p3, p1, p2) ∈ layouts3) (sign : Bool) :
    getJ (runF c24 cd (jge_addsub_var_code (weiCfg ec) p3 p1 p2 sign) e) p3 =
      jge_addsub_var ec (getJ e p1) (getJ e p2) sign := by
  unfold jge_addsub_var jge_zero
  rw [← he.2.1, ← he.2.2]
  rcases three_mem hl with ⟨rfl, rfl, rfl⟩ | ⟨rfl, rfl, rfl⟩ | ⟨rfl, rfl, rfl⟩ | ⟨rfl, rfl, rfl⟩ | ⟨rfl, rfl, rfl⟩ <;> cases sign <;>
    refine J_ite (fun _ => J_ite (fun _ => run_dbl_block he (mem2 hl) (by exact rfl) (by exact rfl) (by exact rfl) (by exact rfl)) (fun _ => by exact rfl)) (fun _ => by exact rfl)

theorem run_mixed_addsub (he : WeiEnv ec e) {p3 p1 p2 : Nat} (hl : (p3, p1, p2) ∈ layouts3) (sign : Bool) :
    getJ (runF c24 cd (jge_mixed_addsub_var_code (weiCfg ec) p3 p1 p2 (p2 + 1) sign) e) p3 =
      jge_mixed_addsub_var ec (getJ e p1) (e.r p2) (e.r (p2 + 1)) sign := by
  unfold jge_mixed_addsub_var jge_zero
  rw [← he.2.1, ← he.2.2]
  rcases three_mem hl with ⟨rfl, rfl, rfl⟩ | ⟨rfl, rfl, rfl⟩ | ⟨rfl, rfl, rfl⟩ | ⟨rfl, rfl, rfl⟩ | ⟨rfl, rfl, rfl⟩ <;> cases sign <;>
    refine J_ite (fun _ => J_ite (fun _ => run_dbl_block he (mem2 hl) (by exact rfl) (by exact rfl) (by exact rfl) (by exact rfl)) (fun _ => by exact rfl)) (fun _ => by exact rfl)

set_option maxHeartbeats 1000000 in
theorem run_jge_add (he : WeiEnv ec e) {p3 p1 p2 : Nat} (hl : (p3, p1, p2) ∈ layouts3) :
    getJ (runF c24 cd (jge_add_code (weiCfg ec) p3 p1 p2) e) p3 =
      jge_add ec (getJ e p1) (getJ e p2) := by
  unfold jge_add jge_unified wei_mul_a weiCfg
  rw [← he.1, ← he.2.1, ← he.2.2]
  generalize ec.zero_a = za
  generalize ec.three_a = ta
  rcases three_mem hl with ⟨rfl, rfl, rfl⟩ | ⟨rfl, rfl, rfl⟩ | ⟨rfl, rfl, rfl⟩ | ⟨rfl, rfl, rfl⟩ | ⟨rfl, rfl, rfl⟩ <;> cases za <;> cases ta <;> rfl

set_option maxHeartbeats 1000000 in
theorem run_jge_mixed_add (he : WeiEnv ec e) {p3 p1 p2 : Nat} (hl : (p3, p1, p2) ∈ layouts3) :
    getJ (runF c24 cd (jge_mixed_add_code (weiCfg ec) p3 p1 p2) e) p3 =
      jge_mixed_add ec (getJ e p1) (getW e p2) := by
  unfold jge_mixed_add jge_unified wei_mul_a weiCfg
  rw [← he.1, ← he.2.1, ← he.2.2]
  generalize ec.zero_a = za
  generalize ec.three_a = ta
  rcases three_mem hl with ⟨rfl, rfl, rfl⟩ | ⟨rfl, rfl, rfl⟩ | ⟨rfl, rfl, rfl⟩ | ⟨rfl, rfl, rfl⟩ | ⟨rfl, rfl, rfl⟩ <;> cases za <;> cases ta <;> rfl

/-- The constants of a Montgomery curve in the field. -/
def MontEnv (ec : Mont F) (c24 : F) (e : Mem F) : Prop := e.r 1001 = ec.a24 ∧ e.r 1005 = 1 ∧ ec.scmul.getD 0 = c24

theorem run_pge_dbl {ec : Mont F} (he : MontEnv ec c24 e) {p3 p1 : Nat} (hl : (p3, p1) ∈ layouts2) :
    getP (runF c24 cd (pge_dbl_code (montCfg ec) p3 p1) e) p3 = pge_dbl ec (getP e p1) := by
  obtain ⟨h1, h2, h3⟩ := he
  unfold pge_dbl mont_mul_a24 montCfg
  rw [← h1, ← h2, ← h3]
  cases ec.scmul <;> 
  rcases two_mem hl with ⟨rfl, rfl⟩ | ⟨rfl, rfl⟩ <;> rfl

theorem run_pge_ladder {ec : Mont F} (he : MontEnv ec c24 e) (affine : Bool) {p4 p5 p1 p2 p3 : Nat} (hl : (p4, p5, p1, p2, p3) ∈ layouts5) :
    (getP (runF c24 cd (pge_ladder_code (montCfg ec) p4 p5 p1 p2 p3 affine) e) p4,
      getP (runF c24 cd (pge_ladder_code (montCfg ec) p4 p5 p1 p2 p3 affine) e) p5) =
      pge_ladder ec (getP e p1) (getP e p2) (getP e p3) affine := by
  obtain ⟨h1, h2, h3⟩ := he
  unfold pge_ladder mont_mul_a24 montCfg
  rw [← h1, ← h3]
  simp only [layouts5, List.mem_cons, Prod.mk.injEq, List.not_mem_nil, or_false] at hl
  rcases hl with ⟨rfl, rfl, rfl, rfl, rfl⟩ | ⟨rfl, rfl, rfl, rfl, rfl⟩ | ⟨rfl, rfl, rfl, rfl, rfl⟩ | ⟨rfl, rfl, rfl, rfl, rfl⟩ | ⟨rfl, rfl, rfl, rfl, rfl⟩ | ⟨rfl, rfl, rfl, rfl, rfl⟩ | ⟨rfl, rfl, rfl, rfl, rfl⟩ | ⟨rfl, rfl, rfl, rfl, rfl⟩ | ⟨rfl, rfl, rfl, rfl, rfl⟩ | ⟨rfl, rfl, rfl, rfl, rfl⟩ | ⟨rfl, rfl, rfl, rfl, rfl⟩ | ⟨rfl, rfl, rfl, rfl, rfl⟩ | ⟨rfl, rfl, rfl, rfl, rfl⟩ | ⟨rfl, rfl, rfl, rfl, rfl⟩ | ⟨rfl, rfl, rfl, rfl, rfl⟩ | ⟨rfl, rfl, rfl, rfl, rfl⟩ | ⟨rfl, rfl, rfl, rfl, rfl⟩ | ⟨rfl, rfl, rfl, rfl, rfl⟩ | ⟨rfl, rfl, rfl, rfl, rfl⟩ | ⟨rfl, rfl, rfl, rfl, rfl⟩ | ⟨rfl, rfl, rfl, rfl, rfl⟩ | ⟨rfl, rfl, rfl, rfl, rfl⟩ | ⟨rfl, rfl, rfl, rfl, rfl⟩ | ⟨rfl, rfl, rfl, rfl, rfl⟩ | ⟨rfl, rfl, rfl, rfl, rfl⟩ | ⟨rfl, rfl, rfl, rfl, rfl⟩ | ⟨rfl, rfl, rfl, rfl, rfl⟩ <;>
    cases ec.scmul <;> cases affine <;> rfl

/-- The constants of an Edwards curve in the field. -/
def EdEnv (ec : Edwards F) (cd : F) (e : Mem F) : Prop := e.r 1000 = ec.a ∧ e.r 1002 = ec.d ∧ e.r 1003 = ec.k ∧ ec.scmul.getD 0 = cd

theorem run_xge_dbl {ec : Edwards F} (he : EdEnv ec cd e) {p3 p1 : Nat} (hl : (p3, p1) ∈ layouts2) :
    getX (runF c24 cd (xge_dbl_code (edwardsCfg ec) p3 p1) e) p3 = xge_dbl ec (getX e p1) := by
  obtain ⟨h1, h2, h3, h4⟩ := he
  unfold xge_dbl edwards_mul_a edwardsCfg
  rw [← h1]
  generalize ec.mone_a = ma
  generalize ec.one_a = oa
  rcases two_mem hl with ⟨rfl, rfl⟩ | ⟨rfl, rfl⟩ <;> cases ma <;> cases oa <;> rfl

theorem run_xge_add_a {ec : Edwards F} (he : EdEnv ec cd e) {p3 p1 p2 : Nat} (hl : (p3, p1, p2) ∈ layouts3) (affine : Bool) :
    getX (runF c24 cd (xge_add_a_code (edwardsCfg ec) p3 p1 p2 affine) e) p3 =
      xge_add_a ec (getX e p1) (getX e p2) affine := by
  obtain ⟨h1, h2, h3, h4⟩ := he
  unfold xge_add_a edwards_mul_a edwards_mul_d edwardsCfg
  rw [← h1, ← h2, ← h4]
  generalize ec.mone_a = ma
  generalize ec.one_a = oa
  cases ec.scmul <;> cases affine <;> 
  rcases three_mem hl with ⟨rfl, rfl, rfl⟩ | ⟨rfl, rfl, rfl⟩ | ⟨rfl, rfl, rfl⟩ | ⟨rfl, rfl, rfl⟩ | ⟨rfl, rfl, rfl⟩ <;> cases ma <;> cases oa <;> rfl

theorem run_xge_sub_a {ec : Edwards F} (he : EdEnv ec cd e) {p3 p1 p2 : Nat} (hl : (p3, p1, p2) ∈ layouts3) (affine : Bool) :
    getX (runF c24 cd (xge_sub_a_code (edwardsCfg ec) p3 p1 p2 affine) e) p3 =
      xge_sub_a ec (getX e p1) (getX e p2) affine := by
  obtain ⟨h1, h2, h3, h4⟩ := he
  unfold xge_sub_a edwards_mul_a edwards_mul_d edwardsCfg
  rw [← h1, ← h2, ← h4]
  generalize ec.mone_a = ma
  generalize ec.one_a = oa
  cases ec.scmul <;> cases affine <;> 
  rcases three_mem hl with ⟨rfl, rfl, rfl⟩ | ⟨rfl, rfl, rfl⟩ | ⟨rfl, rfl, rfl⟩ | ⟨rfl, rfl, rfl⟩ | ⟨rfl, rfl, rfl⟩ <;> cases ma <;> cases oa <;> rfl

theorem run_xge_add_m1 {ec : Edwards F} (he : EdEnv ec cd e) {p3 p1 p2 : Nat} (hl : (p3, p1, p2) ∈ layouts3) (affine : Bool) :
    getX (runF c24 cd (xge_add_m1_code (edwardsCfg ec) p3 p1 p2 affine) e) p3 =
      xge_add_m1 ec (getX e p1) (getX e p2) affine := by
  obtain ⟨h1, h2, h3, h4⟩ := he
  unfold xge_add_m1
  rw [← h3]
  cases affine <;> 
  rcases three_mem hl with ⟨rfl, rfl, rfl⟩ | ⟨rfl, rfl, rfl⟩ | ⟨rfl, rfl, rfl⟩ | ⟨rfl, rfl, rfl⟩ | ⟨rfl, rfl, rfl⟩ <;> rfl

theorem run_xge_sub_m1 {ec : Edwards F} (he : EdEnv ec cd e) {p3 p1 p2 : Nat} (hl : (p3, p1, p2) ∈ layouts3) (affine : Bool) :
    getX (runF c24 cd (xge_sub_m1_code (edwardsCfg ec) p3 p1 p2 affine) e) p3 =
      xge_sub_m1 ec (getX e p1) (getX e p2) affine := by
  obtain ⟨h1, h2, h3, h4⟩ := he
  unfold xge_sub_m1
  rw [← h3]
  cases affine <;> 
  rcases three_mem hl with ⟨rfl, rfl, rfl⟩ | ⟨rfl, rfl, rfl⟩ | ⟨rfl, rfl, rfl⟩ | ⟨rfl, rfl, rfl⟩ | ⟨rfl, rfl, rfl⟩ <;> rfl

end
end Torsion.Fiat
