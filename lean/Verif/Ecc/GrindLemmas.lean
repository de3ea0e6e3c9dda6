import Verif.Ecc.Grind
import Verif.Ecc.SchnorrProps
import Verif.Ecc.EcdhProps

/-! # Searching for keys: lemmas -/
namespace Torsion.Ecc

open Torsion.Spec Torsion.Sc
open WeierstrassCurve.Affine (Point)

/-! ### Random numbers -/

theorem num_random_exact {S : Type} (rng : ByteGen S) (n : Nat) : ∀ (fuel : Nat) (s : S),
    (∀ i < fuel, (∀ j < i, ¬ (0 < scCandidate rng.gen ((n.size + 63) / 64) n.size s j ∧
        scCandidate rng.gen ((n.size + 63) / 64) n.size s j < n)) →
      (0 < scCandidate rng.gen ((n.size + 63) / 64) n.size s i ∧ scCandidate rng.gen ((n.size + 63) / 64) n.size s i < n) →
      num_random rng n fuel s = .ok (scCandidate rng.gen ((n.size + 63) / 64) n.size s i,
        stateAfter rng.gen ((n.size + 63) / 64 * 8) s (i + 1))) ∧
    ((∀ j < fuel, ¬ (0 < scCandidate rng.gen ((n.size + 63) / 64) n.size s j ∧
        scCandidate rng.gen ((n.size + 63) / 64) n.size s j < n)) → num_random rng n fuel s = .spin)
  | 0, s => ⟨fun i h => absurd h (by omega), fun _ => rfl⟩
  | fuel + 1, s => by
    obtain ⟨h3, h4⟩ := num_random_exact rng n fuel (rng.gen s ((n.size + 63) / 64 * 8)).2
    have hs : ∀ i, scCandidate rng.gen ((n.size + 63) / 64) n.size (rng.gen s ((n.size + 63) / 64 * 8)).2 i
        = scCandidate rng.gen ((n.size + 63) / 64) n.size s (i + 1) := by
      intro i; unfold scCandidate; rw [Mpi.state_shift]
    simp only [hs] at h3 h4
    have h0 : leVal (rng.gen s ((n.size + 63) / 64 * 8)).1 % 2 ^ n.size = scCandidate rng.gen ((n.size + 63) / 64) n.size s 0 := rfl
    rw [num_random]
    rw [h0]
    constructor
    · intro i hi hj hlt
      cases i with
      | zero => rw [if_pos hlt]; rfl
      | succ i =>
        rw [if_neg (hj 0 (by omega)), h3 i (by omega) (fun j hlt => hj (j + 1) (by omega)) hlt, Mpi.state_shift]
    · intro h
      rw [if_neg (h 0 (by omega))]
      exact h4 fun j hj => h (j + 1) (by omega)

/-- A random number is in range, or there is none. -/
theorem num_random_range {S : Type} (rng : ByteGen S) (n fuel : Nat) (s : S) :
    num_random rng n fuel s = .spin ∨ ∃ a s', num_random rng n fuel s = .ok (a, s') ∧ 0 < a ∧ a < n := by
  rcases num_random_ok rng n fuel s with h | ⟨a, s', h1, h2⟩
  · exact Or.inl h
  · exact Or.inr ⟨a, s', h1, draw_range h2⟩

/-! ### The loop over the points -/

section
variable {fe : FieldCode} [Fact fe.p.Prime] {ec : WeiT fe} {G : Pt ec.toCurve}

theorem pubkey_grind_ok (ok : EcOk ec G) {enc : Wge (ZMod fe.p) → List Byte × Bool} {f : Pt ec.toCurve → List Byte}
    (henc : ∀ P : Pt ec.toCurve, enc (affine P) = (f P, decide (P ≠ 0))) (check : List Byte → Bool) :
    ∀ (fuel : Nat) (P : Pt ec.toCurve) (c t : Nat), c < 2 ^ 64 - 1 →
    (pubkey_grind_loop ec enc check fuel (affine P) c t = .spin ∧
      ∀ i < fuel, ¬ (P + (i + 1) • G ≠ 0 ∧ check (f (P + (i + 1) • G)) = true)) ∨
    ∃ i < fuel, (P + (i + 1) • G ≠ 0 ∧ check (f (P + (i + 1) • G)) = true) ∧
      (∀ j < i, ¬ (P + (j + 1) • G ≠ 0 ∧ check (f (P + (j + 1) • G)) = true)) ∧
      ∃ c' t', pubkey_grind_loop ec enc check fuel (affine P) c t = .ok (c', t') ∧ (t' + c') % ec.n = (t + c + (i + 1)) % ec.n
  | 0, P, c, t, _ => Or.inl ⟨rfl, by simp⟩
  | fuel + 1, P, c, t, hc => by
    have hshift : ∀ i : Nat, P + G + (i + 1) • G = P + (i + 1 + 1) • G := by
      intro i; rw [succ_nsmul' G (i + 1), add_assoc]
    have hstep : ∃ c1 t1, c1 < 2 ^ 64 - 1 ∧ (∀ m, (t1 + c1 + m) % ec.n = (t + c + (m + 1)) % ec.n) ∧
        (if (c + 1) % 2 ^ 64 = 2 ^ 64 - 1 then ((t + (c + 1) % 2 ^ 64) % ec.n, 0) else (t, (c + 1) % 2 ^ 64)) = (t1, c1) := by
      by_cases h : (c + 1) % 2 ^ 64 = 2 ^ 64 - 1
      · refine ⟨0, (t + (c + 1)) % ec.n, by norm_num, fun m => ?_, ?_⟩
        · rw [Nat.add_zero, Nat.add_mod, Nat.mod_mod, ← Nat.add_mod]; congr 1; omega
        · rw [if_pos h, Nat.mod_eq_of_lt (show c + 1 < 2 ^ 64 by omega)]
      · refine ⟨c + 1, t, by omega, fun m => by congr 1; omega, ?_⟩
        rw [if_neg h, Nat.mod_eq_of_lt (show c + 1 < 2 ^ 64 by omega)]
    obtain ⟨c1, t1, hc1, hsum, hst⟩ := hstep
    rw [pubkey_grind_loop]
    rw [ok.wei.gen, add_var_aff ok.wei.good, R.lift_ok, R.ok_bind]
    dsimp only
    rw [hst]
    dsimp only
    rw [henc]
    dsimp only
    have h1 : P + (0 + 1) • G = P + G := by rw [Nat.zero_add, one_nsmul]
    by_cases hp : P + G ≠ 0 ∧ check (f (P + G)) = true
    · right
      refine ⟨0, by omega, by rw [h1]; exact hp, by simp, c1, t1, ?_, hsum 0⟩
      rw [if_pos (by simp [hp.1, hp.2])]; rfl
    · rw [if_neg (by simpa using hp)]
      rcases pubkey_grind_ok ok henc check fuel (P + G) c1 t1 hc1 with ⟨r1, r2⟩ | ⟨i, hi, r1, r2, c', t', r3, r4⟩
      · left
        refine ⟨r1, fun i hi => ?_⟩
        rcases i with _ | i
        · rw [h1]; exact hp
        · rw [← hshift]; exact r2 i (by omega)
      · right
        refine ⟨i + 1, by omega, by rw [← hshift]; exact r1, fun j hj => ?_, c', t', r3, ?_⟩
        · rcases j with _ | j
          · rw [h1]; exact hp
          · rw [← hshift]; exact r2 j (by omega)
        · rw [r4, hsum]

/-- Every point is met within `n` steps. -/
theorem grind_reaches (ok : EcOk ec G) (Q P : Pt ec.toCurve) : ∃ i < ec.n, Q + (i + 1) • G = P := by
  have hn := ok.prime.pos
  obtain ⟨m, hm⟩ := ok.all (P - Q)
  refine ⟨(m + (ec.n - 1)) % ec.n, Nat.mod_lt _ hn, ?_⟩
  have : ((m + (ec.n - 1)) % ec.n + 1) • G = m • G := by
    refine smul_cast ok ?_ G
    push_cast
    rw [ZMod.natCast_mod]
    push_cast [Nat.one_le_of_lt ok.prime.one_lt]
    simp
  rw [this, ← hm]; abel

end

end Torsion.Ecc
