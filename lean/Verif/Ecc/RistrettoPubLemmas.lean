import Verif.Ecc.RistrettoProps

/-! # Lemmas: keys of the Ristretto groups -/
set_option linter.unusedSectionVars false

namespace Torsion

open Torsion.Spec

namespace Ecc

section
variable {F : Type} [Field F] [DecidableEq F]

/-- The multiplication ends whatever the struct is. -/
theorem wnd_table_total (ec : Edwards F) (p : Xge F) : ∀ fuel (wnd : List (Xge F)), 0 < wnd.length →
    ∃ w, xge_wnd_table ec p fuel wnd = .ok w ∧ w.length = wnd.length + 2 * fuel
  | 0, wnd, _ => ⟨wnd, rfl, rfl⟩
  | fuel + 1, wnd, h => by
    have hlt : wnd.length / 2 < wnd.length := by omega
    obtain ⟨w, h1, h2⟩ := wnd_table_total ec p fuel (wnd ++ [xge_dbl ec wnd[wnd.length / 2], xge_add ec (xge_dbl ec wnd[wnd.length / 2]) p])
      (by simp)
    refine ⟨w, ?_, ?_⟩
    · rw [xge_wnd_table]
      have e : C.rd wnd (wnd.length / 2) = .ok wnd[wnd.length / 2] := by rw [C.rd, List.getElem?_eq_getElem hlt]
      rw [e, C.ok_bind]
      exact h1
    · rw [h2]; simp; omega

theorem wnd_loop_total (ec : Edwards F) (k : Nat) (wnd : List (Xge F)) (hl : wnd.length = 16) (steps : Nat) : ∀ i r t,
    ∃ j, xge_wnd_loop ec k wnd steps i r t = .ok j
  | 0, r, _ => ⟨r, rfl⟩
  | i + 1, r, t => by
    have hf : ∀ j < 16, wnd[0 + j]? = some (wnd.getD j xge_zero) := by
      intro j hj; simp [List.getD, hl, hj]
    rw [xge_wnd_loop, bits4, xselect16 (Nat.mod_lt _ (by decide)) hf, C.ok_bind]
    exact wnd_loop_total ec k wnd hl steps i _ _

theorem mul_total (ec : Edwards F) (p : Xge F) (k : Nat) : ∃ j, edwards_mul ec p k = .ok j := by
  obtain ⟨w, h1, h2⟩ := wnd_table_total ec p 7 [xge_zero, p] (by simp)
  unfold edwards_mul
  dsimp only
  rw [h1, C.ok_bind]
  exact wnd_loop_total ec k w (by rw [h2]; rfl) _ _ _ _

end

section
variable {d : EdwardsDef} {rd : RistrettoDef} (hd : (d, rd) ∈ ristrettoDefs) [Fact d.fe.p.Prime] {ec : Edwards (ZMod d.fe.p)}
  [g : EdGood ec.a ec.d] {G : EPt ec.a ec.d} (ok : EdCurve d ec G) {rs : Ristretto (ZMod d.fe.p)}
  (hrs : ristretto_init d.fe rd = .ok rs)

include hd ok in
/-- A code stands for one class. -/
theorem rist_of_inj {P Q : EPt ec.a ec.d} {x : List Byte} (h1 : RistOf ec.h P x) (h2 : RistOf ec.h Q x) : RistEq ec.h P Q := by
  obtain ⟨a, ha, ea⟩ := h1
  obtain ⟨b, hb, eb⟩ := h2
  rw [le_inj d.fe (ea.symm.trans eb)] at ha
  exact rist_num_inj (rist_h hd ok) ha hb

include hd ok in
theorem rist_in {raw : List Byte} (hl : raw.length = ristLen d.fe) : ∃ p b, rge_import ec raw = .ok (p, b) ∧
    (b = true ↔ ∃ k : Nat, RistOf ec.h (k • G) raw) ∧
    ∀ k : Nat, RistOf ec.h (k • G) raw → ∃ P : EPt ec.a ec.d, Even P ∧ RistEq ec.h P (k • G) ∧ p = xaff P := by
  obtain ⟨p, b, h1, -, h3, h4⟩ := rge_import_exact hd ok hl
  exact ⟨p, b, h1, h3, fun k hk => h4 _ hk (h3.2 ⟨k, hk⟩)⟩

theorem rist_out_total (ec : Edwards (ZMod d.fe.p)) (hfe : d.fe ∈ fieldCodes) (rs : Ristretto (ZMod d.fe.p)) (p : Xge (ZMod d.fe.p)) :
    ∃ b, rge_export ec rs p = .ok b := by
  obtain ⟨i, o, e1, -, -⟩ := rsqrt_ok hfe 2 (by omega) 1 (p.x * p.y * (p.x * p.y) * edwards_mul_a ec ((p.y + p.z) * (p.y - p.z)))
  unfold rge_export
  dsimp only
  rw [e1]
  exact ⟨_, rfl⟩

include hd ok hrs in
theorem rist_out (p : Xge (ZMod d.fe.p)) : ∃ b, rge_export ec rs p = .ok b ∧
    ∀ (P : EPt ec.a ec.d) (k : Nat), Ext p P → Even P → RistEq ec.h P (k • G) → RistOf ec.h (k • G) b := by
  obtain ⟨b, hb⟩ := rist_out_total ec (edDefs_fe d (rist_defs hd)) rs p
  refine ⟨b, hb, fun P k hp he hk => ?_⟩
  obtain ⟨b', h1, ⟨s, h2, h3⟩, -⟩ := rge_export_exact hd ok hrs hp he
  rw [hb] at h1
  have := C.ok.inj h1
  rw [this]
  exact ⟨s, rist_num_congr hk h2, h3⟩

end

end Ecc

variable {d : EdwardsDef} {rd : RistrettoDef} (hd : (d, rd) ∈ ristrettoDefs) [Fact d.fe.p.Prime] {ec : Edwards (ZMod d.fe.p)}
  [g : EdGood ec.a ec.d] {G : EPt ec.a ec.d} (ok : EdCurve d ec G) {rs : Ristretto (ZMod d.fe.p)}
  (hrs : ristretto_init d.fe rd = .ok rs)

include hd ok in
theorem Ecc.rist_combine_loop : ∀ (pubs : List (List Byte)), (∀ p ∈ pubs, p.length = ristLen d.fe) → ∀ (x : Xge (ZMod d.fe.p)) (ret : Bool),
    ∃ y b, ristretto_combine_loop ec pubs x ret = .ok (y, b) ∧
      (b = true ↔ ret = true ∧ ∀ p ∈ pubs, ∃ k : Nat, RistOf ec.h (k • G) p) ∧
      ∀ (X : EPt ec.a ec.d) (j : Nat), Ext x X → Even X → RistEq ec.h X (j • G) →
        ∀ ks : List Nat, List.Forall₂ (fun k p => RistOf ec.h (k • G) p) ks pubs →
        ∃ Y, Ext y Y ∧ Even Y ∧ RistEq ec.h Y ((j + ks.sum) • G)
  | [], _, x, ret => ⟨x, ret, rfl, by simp, by
      intro X j hx ev c ks hks
      cases hks
      exact ⟨X, hx, ev, by simpa using c⟩⟩
  | p :: ps, hl, x, ret => by
    obtain ⟨a, r, e1, f1, g1⟩ := Ecc.rist_in hd ok (hl p List.mem_cons_self)
    obtain ⟨y, b, h1, h2, h3⟩ := rist_combine_loop ps (fun q hq => hl q (List.mem_cons_of_mem _ hq)) (xge_mixed_add ec x a) (ret && r)
    refine ⟨y, b, ?_, ?_, ?_⟩
    · rw [ristretto_combine_loop, e1, C.ok_bind]; exact h1
    · rw [h2, Bool.and_eq_true, f1, List.forall_mem_cons, and_assoc]
    · intro X j hx ev c ks hks
      cases hks with
      | @cons k _ ks _ hk hks =>
        obtain ⟨P, ev', c', hp⟩ := g1 k hk
        rw [hp] at h3
        obtain ⟨Y, y1, y2, y3⟩ := h3 (X + P) (j + k) (Ecc.xmadd ok.const hx P) (ev.add ev')
          (by rw [add_nsmul]; exact Ecc.rist_add c c') ks hks
        refine ⟨Y, y1, y2, ?_⟩
        rw [List.sum_cons, ← add_assoc]
        exact y3

/-- `ristretto_pubkey_grind` never returns a tweak: the scalar it adds to is not initialized. -/
theorem Ecc.rist_grind_none (check : List Byte → Bool) : ∀ (fuel : Nat) (A : Xge (ZMod d.fe.p)) (c : Nat) (r : Nat × Option Nat),
    ristretto_grind_loop ec rs check fuel A c none = .ok r → r.2 = none
  | 0, A, c, r, h => by simp [ristretto_grind_loop] at h
  | fuel + 1, A, c, r, h => by
    rw [ristretto_grind_loop] at h
    dsimp only at h
    by_cases hc : (c + 1) % 2 ^ 64 = 2 ^ 64 - 1
    · rw [if_pos hc] at h
      cases h
    · rw [if_neg hc, R.ok_bind] at h
      dsimp only at h
      cases he : rge_export ec rs (xge_mixed_add ec A ec.g) with
      | ok b =>
        rw [he, R.lift_ok, R.ok_bind] at h
        cases hb : check b with
        | true => rw [hb, if_pos rfl] at h; cases h; rfl
        | false =>
          rw [hb, if_neg (by decide)] at h
          exact rist_grind_none check fuel _ _ r h
      | abort => rw [he] at h; cases h
      | ub => rw [he] at h; cases h

end Torsion
