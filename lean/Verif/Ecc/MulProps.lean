import Verif.Ecc.MulLemmas
import Verif.Ecc.PointProps

/-! # Properties: scalar multiplication on short Weierstrass curves (C64) -/
namespace Torsion

open Torsion.Spec (affine Jac Good weier Pt WeiOk EndoOk)
open WeierstrassCurve.Affine (Point)

variable {F : Type} [Field F] [DecidableEq F]

/-- `wei_init` succeeds for every curve, generator and order, and what it builds meets the conditions. -/
theorem wei_init_exact {c : Curve F} (g : Good c) (G : Pt c) {n : Nat} (hn : 0 < n) (ho : n • G = 0)
    (endo : Option (Endo F)) (he : ∀ e, endo = some e → EndoOk c n ((n.size + 1) / 2 + 1) e G) :
    ∃ ec, wei_init c n (affine G) endo = .ok ec ∧ ec.n = n ∧ ec.endo = endo ∧
      ∃ h : ec.toCurve = c, WeiOk ec (h ▸ G) := by
  unfold wei_init
  dsimp only
  rw [wge_fixed_points_exact g, C.ok_bind, (naf_points_exact g G 12).2, C.ok_bind]
  refine ⟨_, rfl, rfl, rfl, rfl, ?_⟩
  refine ⟨g, rfl, hn, ho, rfl, ⟨0, ?_, ?_⟩, ?_, ?_, ?_⟩
  · rw [zero_nsmul]; exact Ecc.jac_zero'
  · simp
  · intro w i hw hi
    dsimp only at hw ⊢
    rw [List.getElem?_map, Ecc.getElem?_flatMap _ 16 (by simp) _ _ _ hi]
    simp [hw, hi]
  · intro i hi
    have hi' : i < 2 ^ (12 - 2) := hi
    dsimp only
    rw [List.getElem?_map, List.getElem?_map, List.getElem?_range hi']
    rfl
  · intro e h
    dsimp only at h
    refine ⟨he e h, ?_⟩
    subst h
    intro i hi
    have hi' : i < 2 ^ (12 - 2) := hi
    dsimp only
    rw [List.getElem?_map, List.getElem?_map, List.getElem?_map, List.getElem?_range hi']
    rfl

/-- Drawing new blinding scalars, any number of times, does not change what the multiplications return, because it
keeps the conditions. -/
theorem wei_randomize_exact {ec : Wei F} {G : Pt ec.toCurve} (ok : WeiOk ec G) {blind : Nat} (hb : blind < ec.n) :
    ∃ ec', wei_randomize ec blind = .ok ec' ∧ ec'.n = ec.n ∧ ec'.endo = ec.endo ∧
      ∃ h : ec'.toCurve = ec.toCurve, WeiOk ec' (h ▸ G) := by
  obtain ⟨j, h1, h2⟩ := Ecc.jmul_g_spec ok blind
  unfold wei_randomize
  rw [h1, C.ok_bind]
  refine ⟨_, rfl, rfl, rfl, rfl, ?_⟩
  refine ⟨ok.good, ok.gen, ok.pos, ok.order, ok.bits, ⟨blind, h2, ?_⟩, ok.fixed, ok.naf, ok.endo⟩
  dsimp only
  split
  · rename_i h; rw [h]; simp
  · rw [Nat.sub_add_cancel hb.le, Nat.mod_self]

/-- Multiples of the generator, in constant time, with any blinding. -/
theorem wei_mul_g_exact {ec : Wei F} {G : Pt ec.toCurve} (ok : WeiOk ec G) (k : Nat) :
    (∃ j, wei_jmul_g ec k = .ok j ∧ Jac j (k • G)) ∧ wei_mul_g ec k = .ok (affine (k • G)) := by
  obtain ⟨j, h1, h2⟩ := Ecc.jmul_g_spec ok k
  refine ⟨⟨j, h1, h2⟩, ?_⟩
  unfold wei_mul_g
  rw [h1, C.ok_bind, Ecc.set_jge_aff h2]
  rfl

/-- Multiples of any point in constant time; with an endomorphism, of any multiple of the generator. -/
theorem wei_mul_exact {ec : Wei F} {G : Pt ec.toCurve} (ok : WeiOk ec G) (P : Pt ec.toCurve)
    (hP : ec.endo = none ∨ ∃ m : Nat, P = m • G) {k : Nat} (hk : k < ec.n) :
    (∃ j, wei_jmul ec (affine P) k = .ok j ∧ Jac j (k • P)) ∧ wei_mul ec (affine P) k = .ok (affine (k • P)) := by
  have key : ∃ j, wei_jmul ec (affine P) k = .ok j ∧ Jac j (k • P) := by
    unfold wei_jmul
    cases he : ec.endo with
    | none =>
      refine Ecc.jmul_normal_spec ok.good P ?_
      rw [ok.bits]
      exact hk.trans (Nat.lt_size_self _)
    | some e =>
      rw [he] at hP
      obtain ⟨m, rfl⟩ := hP.resolve_left (by simp)
      exact Ecc.jmul_endo_spec ok he m hk
  refine ⟨key, ?_⟩
  obtain ⟨j, h1, h2⟩ := key
  unfold wei_mul
  rw [h1, C.ok_bind, Ecc.set_jge_aff h2]
  rfl

/-- `k1 G + k2 P`, as the verification of signatures uses it. -/
theorem wei_mul_double_exact {ec : Wei F} {G : Pt ec.toCurve} (ok : WeiOk ec G) (P : Pt ec.toCurve)
    (hP : ec.endo = none ∨ ∃ m : Nat, P = m • G) {k1 k2 : Nat} (h1 : k1 < ec.n) (h2 : k2 < ec.n) :
    (∃ j, wei_jmul_double_var ec k1 (affine P) k2 = .ok j ∧ Jac j (k1 • G + k2 • P)) ∧
    wei_mul_double_var ec k1 (affine P) k2 = .ok (affine (k1 • G + k2 • P)) := by
  have key : ∃ j, wei_jmul_double_var ec k1 (affine P) k2 = .ok j ∧ Jac j (k1 • G + k2 • P) := by
    unfold wei_jmul_double_var
    cases he : ec.endo with
    | none => exact Ecc.double_normal_spec ok P h1 h2
    | some e =>
      rw [he] at hP
      obtain ⟨m, rfl⟩ := hP.resolve_left (by simp)
      exact Ecc.double_endo_spec ok he m h1 h2
  refine ⟨key, ?_⟩
  obtain ⟨j, e1, e2⟩ := key
  unfold wei_mul_double_var
  rw [e1, C.ok_bind, Ecc.set_jge_var_aff e2]

/-- `k0 G` plus any number of multiples of points, as the batch verification uses it. -/
theorem wei_mul_multi_exact {ec : Wei F} {G : Pt ec.toCurve} (ok : WeiOk ec G) {k0 : Nat} (h0 : k0 < ec.n)
    (ts : List (Pt ec.toCurve × Nat)) (hk : ∀ t ∈ ts, t.2 < ec.n)
    (hP : ec.endo = none ∨ ∀ t ∈ ts, ∃ m : Nat, t.1 = m • G) (size : Nat) :
    if ts.length ≤ size then
      ∃ j, wei_jmul_multi_var ec k0 (ts.map fun t => (affine t.1, t.2)) size = .ok j ∧
        Jac j (k0 • G + (ts.map fun t => t.2 • t.1).sum)
    else wei_jmul_multi_var ec k0 (ts.map fun t => (affine t.1, t.2)) size = .abort := by
  unfold wei_jmul_multi_var
  split
  · rename_i hs
    cases he : ec.endo with
    | none => exact Ecc.multi_normal_spec ok h0 ts hk hs
    | some e =>
      rw [he] at hP
      exact Ecc.multi_endo_spec ok he h0 ts (fun t ht => ⟨hk t ht, hP.resolve_left (by simp) t ht⟩) hs
  · rename_i hs
    cases ec.endo with
    | none =>
      dsimp only
      rw [wei_jmul_multi_normal_var, Ecc.check_false (by simpa using hs)]
      rfl
    | some e =>
      dsimp only
      rw [wei_jmul_multi_endo_var, Ecc.check_false (by simpa using hs)]
      rfl

section
local instance : Fact (Nat.Prime 7) := ⟨by decide⟩

/-- `y^2 = x^3 + x + 1` over 7 elements, of order 5, generated by `(0, 1)`. -/
example : ∃ G : Pt (⟨1, 1, 1⟩ : Curve (ZMod 7)), affine G = ⟨0, 1, false⟩ ∧ 5 • G = 0 := by
  have g : Good (⟨1, 1, 1⟩ : Curve (ZMod 7)) := ⟨by decide, fun _ => by decide⟩
  refine ⟨.some 0 1 (Ecc.nonsing (ec := ⟨1, 1, 1⟩) (by decide) (by decide) (by decide)), rfl, ?_⟩
  generalize hG : (Point.some 0 1 _ : Pt (⟨1, 1, 1⟩ : Curve (ZMod 7))) = G
  have e1 : affine G = ⟨0, 1, false⟩ := by rw [← hG]; rfl
  have e2 : affine (G + G) = ⟨2, 5, false⟩ := by
    have h := Ecc.dbl_var_aff g G
    rw [e1, show wge_dbl_var (⟨1, 1, 1⟩ : Curve (ZMod 7)) ⟨0, 1, false⟩ = .ok ⟨2, 5, false⟩ by decide +kernel] at h
    exact (C.ok.inj h).symm
  have e4 : affine (G + G + (G + G)) = ⟨0, 6, false⟩ := by
    have h := Ecc.dbl_var_aff g (G + G)
    rw [e2, show wge_dbl_var (⟨1, 1, 1⟩ : Curve (ZMod 7)) ⟨2, 5, false⟩ = .ok ⟨0, 6, false⟩ by decide +kernel] at h
    exact (C.ok.inj h).symm
  have e5 : affine (G + G + (G + G) + G) = affine (0 : Pt (⟨1, 1, 1⟩ : Curve (ZMod 7))) := by
    have h := Ecc.add_var_aff g (G + G + (G + G)) G
    rw [e4, e1, show wge_add_var (⟨1, 1, 1⟩ : Curve (ZMod 7)) ⟨0, 6, false⟩ ⟨0, 1, false⟩ = .ok ⟨0, 0, true⟩ by
      decide] at h
    exact (C.ok.inj h).symm
  rw [show 5 • G = G + G + (G + G) + G by abel]
  exact Ecc.aff_inj e5
end

end Torsion
