import Verif.Ecc.Fiat.CodeSpec
import Verif.Ecc.Fiat.CodeW32
import Verif.Ecc.Fiat.PropsBytesW32

/-!
# Code that keeps the discipline computes on limbs what it computes in the field, over 32-bit words
-/
namespace Torsion.Fiat.W32
open Torsion.Spec

/-- Limbs at a level of the discipline: reduced up to 1, within the looser bounds up to 3. -/
def RepLev (f : FieldName) (k : Nat) (x : List Nat) (z : ZMod (field f).p) : Prop := (k ≤ 1 → TightRep f x z) ∧ (k ≤ 3 → LooseRep f x z)

theorem lev_mono {f : FieldName} {j k : Nat} (h : j ≤ k) {x : List Nat} {z : ZMod (field f).p} (hx : RepLev f j x z) : RepLev f k x z :=
  ⟨fun h1 => hx.1 (h.trans h1), fun h1 => hx.2 (h.trans h1)⟩

theorem lev_tight {f : FieldName} {x : List Nat} {z : ZMod (field f).p} (hx : TightRep f x z) : RepLev f 1 x z := ⟨fun _ => hx, fun _ => tight_loose hx⟩

theorem lev_loose {f : FieldName} {x : List Nat} {z : ZMod (field f).p} (hx : LooseRep f x z) : RepLev f 3 x z := ⟨fun h => by omega, fun _ => hx⟩

/-- A result at a level, from its limbs. -/
theorem lev_of_tight {f : FieldName} {c : C (List Nat)} {u : ZMod (field f).p} (h : ∃ z, c = .ok z ∧ TightRep f z u) : ∃ z, c = .ok z ∧ RepLev f 1 z u :=
  ⟨h.choose, h.choose_spec.1, lev_tight h.choose_spec.2⟩

theorem lev_of_loose {f : FieldName} {c : C (List Nat)} {u : ZMod (field f).p} (h : ∃ z, c = .ok z ∧ LooseRep f z u) : ∃ z, c = .ok z ∧ RepLev f 3 z u :=
  ⟨h.choose, h.choose_spec.1, lev_loose h.choose_spec.2⟩

/-- Limbs and elements correspond wherever a bound is known; the flags are equal. -/
def Rel (f : FieldName) (l : Nat → Option Nat) (m : Mem (List Nat)) (e : Mem (ZMod (field f).p)) : Prop :=
  (∀ (i k : Nat), l i = some k → RepLev f k (m.r i) (e.r i)) ∧ m.f = e.f

section
variable {f : FieldName} {c24 cd : ZMod (field f).p} {h24 hd : Bool}

theorem rel_put {l : Nat → Option Nat} {m : Mem (List Nat)} {e : Mem (ZMod (field f).p)} (h : Rel f l m e) {z v : Nat} {x : List Nat} {u : ZMod (field f).p}
    (hx : RepLev f v x u) : Rel f (fun i => if i = z then some v else l i) (m.put z x) (e.put z u) := by
  refine ⟨?_, h.2⟩
  intro i k hk
  simp only [Mem.put]
  dsimp only at hk
  split at hk
  next hi =>
    cases hk
    simp only [hi, if_true]
    exact hx
  next hi =>
    simp only [hi, if_false]
    exact h.1 i k hk

theorem bin_sound {o : Bin} {j k v : Nat} (h : binLev o j k = some v) {x y : List Nat} {a b : ZMod (field f).p}
    (hx : RepLev f j x a) (hy : RepLev f k y b) :
    ∃ z, binL (field f) o x y = .ok z ∧ RepLev f v z (binF o a b) := by
  have key : ∀ n w : Nat, (bif Nat.ble j n && Nat.ble k n then some w else none) = some v → j ≤ n ∧ k ≤ n ∧ v = w := by
    intro n w h
    rcases hc : (Nat.ble j n && Nat.ble k n) with _ | _
    · rw [hc] at h; exact absurd h (by simp)
    · rw [hc, cond_true] at h
      rw [Bool.and_eq_true] at hc
      exact ⟨Nat.le_of_ble_eq_true hc.1, Nat.le_of_ble_eq_true hc.2, (Option.some.inj h).symm⟩
  cases o
  · obtain ⟨h1, h2, rfl⟩ := key 3 1 h
    exact lev_of_tight (limb32_mul f (hx.2 h1) (hy.2 h2))
  · obtain ⟨h1, h2, rfl⟩ := key 1 1 h
    exact lev_of_tight ((limb32_add f (hx.1 h1) (hy.1 h2)).1)
  · obtain ⟨h1, h2, rfl⟩ := key 1 1 h
    exact lev_of_tight ((limb32_sub f (hx.1 h1) (hy.1 h2)).1)
  · obtain ⟨h1, h2, rfl⟩ := key 1 3 h
    exact lev_of_loose ((limb32_add f (hx.1 h1) (hy.1 h2)).2)
  · obtain ⟨h1, h2, rfl⟩ := key 1 3 h
    exact lev_of_loose ((limb32_sub f (hx.1 h1) (hy.1 h2)).2)

theorem un_sound (s24 : h24 = true → ∃ q, (field f).scmul_a24 = some q ∧ (q.1 : ZMod (field f).p) = c24)
    (sd : hd = true → ∃ q, (field f).scmul_d = some q ∧ (q.1 : ZMod (field f).p) = cd) {o : Un} {j v : Nat} (h : unLev h24 hd o j = some v)
    {x : List Nat} {a : ZMod (field f).p} (hx : RepLev f j x a) :
    ∃ z, unL (field f) o x = .ok z ∧ RepLev f v z (unF c24 cd o a) := by
  have key : ∀ n w : Nat, (bif Nat.ble j n then some w else none) = some v → j ≤ n ∧ v = w := by
    intro n w h
    rcases hc : Nat.ble j n with _ | _
    · rw [hc] at h; exact absurd h (by simp)
    · rw [hc, cond_true] at h
      exact ⟨Nat.le_of_ble_eq_true hc, (Option.some.inj h).symm⟩
  have key2 : ∀ (n w : Nat) (b : Bool), (bif Nat.ble j n && b then some w else none) = some v → j ≤ n ∧ b = true ∧ v = w := by
    intro n w b h
    rcases hc : (Nat.ble j n && b) with _ | _
    · rw [hc] at h; exact absurd h (by simp)
    · rw [hc, cond_true] at h
      rw [Bool.and_eq_true] at hc
      exact ⟨Nat.le_of_ble_eq_true hc.1, hc.2, (Option.some.inj h).symm⟩
  cases o
  · obtain ⟨h1, rfl⟩ := key 3 1 h
    exact lev_of_tight (limb32_sqr f (hx.2 h1))
  · obtain ⟨h1, rfl⟩ := key 1 1 h
    exact lev_of_tight ((limb32_neg f (hx.1 h1)).1)
  · obtain ⟨h1, rfl⟩ := key 1 3 h
    exact lev_of_loose ((limb32_neg f (hx.1 h1)).2)
  · obtain ⟨h1, rfl⟩ := key 3 1 h
    exact lev_of_tight ((limb32_mul_small f (hx.2 h1)).1)
  · obtain ⟨h1, rfl⟩ := key 3 1 h
    exact lev_of_tight ((limb32_mul_small f (hx.2 h1)).2.1)
  · obtain ⟨h1, rfl⟩ := key 3 1 h
    exact lev_of_tight ((limb32_mul_small f (hx.2 h1)).2.2)
  · cases h
    exact ⟨x, rfl, hx⟩
  · obtain ⟨h1, rfl⟩ := key 3 1 h
    exact lev_of_tight (limb32_carry f (hx.2 h1))
  · obtain ⟨h1, h2, rfl⟩ := key2 1 1 hd h
    obtain ⟨q, q1, q2⟩ := sd h2
    obtain ⟨z, z1, z2⟩ := (limb32_mul_curve f (c := q.1) (q := q.2)).2 q1 (hx.1 h1)
    refine ⟨z, by rw [unL, q1]; exact z1, ?_⟩
    rw [unF, mul_comm, ← q2]
    exact lev_tight z2
  · obtain ⟨h1, h2, rfl⟩ := key2 3 1 h24 h
    obtain ⟨q, q1, q2⟩ := s24 h2
    obtain ⟨z, z1, z2⟩ := (limb32_mul_curve f (c := q.1) (q := q.2)).1 q1 (hx.2 h1)
    refine ⟨z, by rw [unL, q1]; exact z1, ?_⟩
    rw [unF, mul_comm, ← q2]
    exact lev_tight z2

theorem st_sound (s24 : h24 = true → ∃ q, (field f).scmul_a24 = some q ∧ (q.1 : ZMod (field f).p) = c24)
    (sd : hd = true → ∃ q, (field f).scmul_d = some q ∧ (q.1 : ZMod (field f).p) = cd) (s : FSt) {l l' : Nat → Option Nat} {m : Mem (List Nat)}
    {e : Mem (ZMod (field f).p)} (h : stepLev h24 hd l s = some l') (hr : Rel f l m e) :
    ∃ m', stepL (field f) m s = .ok m' ∧ Rel f l' m' (stepF c24 cd e s) := by
  cases s with
  | bin o z x y =>
    rw [stepLev] at h
    split at h
    next j k hj hk =>
      split at h
      next v hv =>
        cases h
        obtain ⟨w, w1, w2⟩ := bin_sound hv (hr.1 x j hj) (hr.1 y k hk)
        exact ⟨_, by rw [stepL, w1, C.ok_bind], rel_put hr w2⟩
      next => exact absurd h (by simp)
    next => exact absurd h (by simp)
  | un o z x =>
    rw [stepLev] at h
    split at h
    next j hj =>
      split at h
      next v hv =>
        cases h
        obtain ⟨w, w1, w2⟩ := un_sound s24 sd hv (hr.1 x j hj)
        exact ⟨_, by rw [stepL, w1, C.ok_bind], rel_put hr w2⟩
      next => exact absurd h (by simp)
    next => exact absurd h (by simp)
  | sel z x y b =>
    rw [stepLev] at h
    split at h
    next j k hj hk =>
      rcases hc : (Nat.ble j 3 && Nat.ble k 3) with _ | _
      · rw [hc] at h; exact absurd h (by simp)
      · rw [hc, cond_true] at h
        rw [Bool.and_eq_true] at hc
        cases h
        have h1 := hr.1 x j hj
        have h2 := hr.1 y k hk
        refine ⟨_, rfl, ?_⟩
        rw [limb32_select f (h1.2 (Nat.le_of_ble_eq_true hc.1)) (h2.2 (Nat.le_of_ble_eq_true hc.2))]
        apply rel_put hr
        rw [hr.2]
        cases e.f b
        · exact lev_mono (le_max_left ..) h1
        · exact lev_mono (le_max_right ..) h2
    next => exact absurd h (by simp)
  | isz b x =>
    rw [stepLev] at h
    split at h
    next j hj =>
      rcases hc : Nat.ble j 1 with _ | _
      · rw [hc] at h; exact absurd h (by simp)
      · rw [hc, cond_true] at h
        cases h
        refine ⟨m.putf b ((if e.r x = 0 then 1 else 0) != 0), by rw [stepL, limb32_is_zero f ((hr.1 x j hj).1 (Nat.le_of_ble_eq_true hc)), C.ok_bind], hr.1, ?_⟩
        rw [stepF]
        simp only [Mem.putf, hr.2]
        funext i
        split
        · by_cases h0 : e.r x = 0 <;> simp [h0]
        · rfl
    next => exact absurd h (by simp)
  | setf b g =>
    rw [stepLev] at h
    cases h
    refine ⟨_, rfl, hr.1, ?_⟩
    rw [stepF]
    simp only [Mem.putf, hr.2]

theorem run_code_sound (s24 : h24 = true → ∃ q, (field f).scmul_a24 = some q ∧ (q.1 : ZMod (field f).p) = c24)
    (sd : hd = true → ∃ q, (field f).scmul_d = some q ∧ (q.1 : ZMod (field f).p) = cd) : ∀ (c : Code) {l l' : Nat → Option Nat} {m : Mem (List Nat)}
    {e : Mem (ZMod (field f).p)} (_ : runLev h24 hd c l = some l') (_ : Rel f l m e),
    ∃ m', runL (field f) c m = .ok m' ∧ Rel f l' m' (runF c24 cd c e)
  | .nil, l, l', m, e, h, hr => by
    cases h
    exact ⟨m, rfl, hr⟩
  | .st s, l, l', m, e, h, hr => st_sound s24 sd s h hr
  | .seq c d, l, l', m, e, h, hr => by
    rw [runLev] at h
    split at h
    next l1 h1 =>
      obtain ⟨m1, a1, a2⟩ := run_code_sound s24 sd c h1 hr
      obtain ⟨m2, b1, b2⟩ := run_code_sound s24 sd d h a2
      exact ⟨m2, by rw [runL, a1, C.ok_bind, b1], b2⟩
    next => exact absurd h (by simp)
  | .ite b c d, l, l', m, e, h, hr => by
    rw [runLev] at h
    split at h
    next l1 l2 h1 h2 =>
      cases h
      rw [runL, runF, hr.2]
      by_cases hb : e.f b = true
      · rw [if_pos hb, if_pos hb]
        obtain ⟨m1, a1, a2⟩ := run_code_sound s24 sd c h1 hr
        refine ⟨m1, a1, ?_, a2.2⟩
        intro i k hk
        unfold joinLev at hk
        split at hk
        next j j' hj hj' =>
          cases hk
          exact lev_mono (le_max_left ..) (a2.1 i j hj)
        next => exact absurd hk (by simp)
      · rw [if_neg hb, if_neg hb]
        obtain ⟨m1, a1, a2⟩ := run_code_sound s24 sd d h2 hr
        refine ⟨m1, a1, ?_, a2.2⟩
        intro i k hk
        unfold joinLev at hk
        split at hk
        next j j' hj hj' =>
          cases hk
          exact lev_mono (le_max_right ..) (a2.1 i j' hj')
        next => exact absurd hk (by simp)
    next => exact absurd h (by simp)

end
end Torsion.Fiat.W32
