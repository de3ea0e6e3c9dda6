import Verif.Mpi.DivLimb
import Mathlib.Tactic.Linarith

/-! Lemmas about dividing two limbs by one with a precomputed reciprocal
(Möller and Granlund, "Improved division by invariant integers"). -/
namespace Torsion.Mpi

/-- The candidate remainder lies in a window around zero. -/
theorem candidate_window (B d u1 u0 V k Q q0 r : Int) (hB : 0 < B) (hd : 0 < d) (hdB : d < B)
    (hu1 : 0 ≤ u1) (hu1d : u1 < d) (hu0 : 0 ≤ u0) (hu0B : u0 < B) (hq0 : 0 ≤ q0) (hq0B : q0 < B)
    (hk : 0 < k) (hkd : k ≤ d) (hV : B * B = V * d + k) (hq : Q * B + q0 = V * u1 + u0)
    (hr : r = u1 * B + u0 - (Q + 1) * d) :
    -d ≤ r ∧ q0 - B < r ∧ (r < B - d ∨ r < q0) := by
  have key : B * r = k * u1 + u0 * (B - d) + q0 * d - B * d := by
    rw [hr]; linear_combination u1 * hV - d * hq
  have p1 : 0 ≤ k * u1 := Int.mul_nonneg (by omega) hu1
  have p2 : 0 ≤ u0 * (B - d) := Int.mul_nonneg hu0 (by omega)
  have p3 : 0 ≤ q0 * d := Int.mul_nonneg hq0 (by omega)
  have p4 : 0 < (B - q0) * (B - d) := Int.mul_pos (by omega) (by omega)
  have p5 : k * u1 ≤ d * u1 := Int.mul_le_mul_of_nonneg_right hkd hu1
  have p6 : d * u1 ≤ d * (d - 1) := Int.mul_le_mul_of_nonneg_left (by omega) (by omega)
  have p7 : u0 * (B - d) ≤ B * (B - d) := Int.mul_le_mul_of_nonneg_right (by omega) (by omega)
  refine ⟨?_, ?_, ?_⟩
  · refine Int.le_of_mul_le_mul_left (a := B) ?_ hB
    rw [key]; linarith
  · refine Int.lt_of_mul_lt_mul_left (a := B) ?_ (by omega)
    rw [key]; linarith
  · by_cases h : q0 ≤ B - d
    · left
      have p8 : q0 * d ≤ (B - d) * d := Int.mul_le_mul_of_nonneg_right h (by omega)
      refine Int.lt_of_mul_lt_mul_left (a := B) ?_ (by omega)
      rw [key]; linarith
    · right
      have p8 : (B - d) * (B - d) ≤ q0 * (B - d) := Int.mul_le_mul_of_nonneg_right (by omega) (by omega)
      refine Int.lt_of_mul_lt_mul_left (a := B) ?_ (by omega)
      rw [key]; linarith

theorem quot_unique (u d q r : Nat) (h : u = q * d + r) (hr : r < d) : u / d = q ∧ u % d = r := by
  rw [h, Nat.mul_comm, Nat.mul_add_div (by omega), Nat.mul_add_mod, Nat.div_eq_of_lt hr, Nat.mod_eq_of_lt hr]
  exact ⟨rfl, rfl⟩

theorem mp_div_2by1_val (u1 u0 d v : Limb) (hd : 2 ^ 63 ≤ d.toNat) (hu : u1.toNat < d.toNat)
    (hv : v.toNat + 2 ^ 64 = (2 ^ 128 - 1) / d.toNat) :
    (mp_div_2by1 u1 u0 d v).1.toNat = (u1.toNat * 2 ^ 64 + u0.toNat) / d.toNat ∧
    (mp_div_2by1 u1 u0 d v).2.toNat = (u1.toNat * 2 ^ 64 + u0.toNat) % d.toNat := by
  have hm := mp_mul_val v u1
  -- the reciprocal
  obtain ⟨k, hk1, hk2, hk3⟩ : ∃ k, 0 < k ∧ k ≤ d.toNat ∧ (v.toNat + 2 ^ 64) * d.toNat + k = 2 ^ 128 := by
    have h1 := Nat.div_add_mod (2 ^ 128 - 1) d.toNat
    have h2 := Nat.mod_lt (2 ^ 128 - 1) (show 0 < d.toNat by omega)
    rw [← hv, Nat.mul_comm] at h1
    exact ⟨(2 ^ 128 - 1) % d.toNat + 1, by omega, by omega, by omega⟩
  have hdl := d.isLt
  have hu0 := u0.isLt
  have hvl := v.isLt
  clear hv
  unfold mp_div_2by1
  dsimp only
  generalize hhi : (mp_mul v u1).1 = hi at hm
  generalize hlo : (mp_mul v u1).2 = lo at hm
  have hlol := lo.isLt
  have hhil := hi.isLt
  -- the candidate quotient
  have hq0n : (lo + u0).toNat = (lo.toNat + u0.toNat) % 2 ^ 64 := BitVec.toNat_add ..
  have hq0l := (lo + u0).isLt
  have hflag : (flag (lo + u0 < u0)).toNat = (lo.toNat + u0.toNat) / 2 ^ 64 := by
    simp only [flag_toNat, BitVec.lt_def, hq0n]
    split <;> omega
  have hbig : (v.toNat + 2 ^ 64) * u1.toNat + u0.toNat < 2 ^ 128 := by
    have h1 : (v.toNat + 2 ^ 64) * (u1.toNat + 1) ≤ (v.toNat + 2 ^ 64) * d.toNat := Nat.mul_le_mul_left _ hu
    rw [Nat.mul_add] at h1
    omega
  rw [Nat.add_mul] at hbig
  have hq1n : (hi + (u1 + flag (lo + u0 < u0))).toNat = hi.toNat + u1.toNat + (lo.toNat + u0.toNat) / 2 ^ 64 := by
    rw [BitVec.toNat_add, BitVec.toNat_add, hflag]
    omega
  generalize hi + (u1 + flag (lo + u0 < u0)) = q1 at *
  generalize lo + u0 = q0 at *
  have hq : q1.toNat * 2 ^ 64 + q0.toNat = (v.toNat + 2 ^ 64) * u1.toNat + u0.toNat := by
    rw [Nat.add_mul]; omega
  -- the candidate remainder
  obtain ⟨w1, w2, w3⟩ := candidate_window (2 ^ 64) d.toNat u1.toNat u0.toNat (v.toNat + 2 ^ 64) k q1.toNat
    q0.toNat (u1.toNat * 2 ^ 64 + u0.toNat - (q1.toNat + 1) * d.toNat) (by decide) (by omega) (by omega)
    (by omega) (by omega) (by omega) (by omega) (by omega) (by omega) (by omega) (by omega)
    (by
      have : ((v.toNat + 2 ^ 64) * d.toNat + k : Int) = 2 ^ 128 := by exact_mod_cast hk3
      omega)
    (by exact_mod_cast hq) rfl
  have hu1l := u1.isLt
  have hq1l := q1.isLt
  have hr0 : (((u0 - (q1 + 1) * d).toNat : Int))
      = (u1.toNat * 2 ^ 64 + u0.toNat - (q1.toNat + 1) * d.toNat : Int) % 2 ^ 64 := by
    rw [BitVec.toNat_sub, BitVec.toNat_mul, BitVec.toNat_add, show (1 : Limb).toNat = 1 from rfl]
    have e : (q1.toNat + 1) % 2 ^ 64 * d.toNat % 2 ^ 64 = (q1.toNat + 1) * d.toNat % 2 ^ 64 := by
      rw [Nat.mod_mul_mod]
    rw [e]
    have e2 : (((q1.toNat + 1) * d.toNat : Nat) : Int) = (q1.toNat + 1) * d.toNat := by push_cast; rfl
    rw [← e2]
    generalize (q1.toNat + 1) * d.toNat = p
    omega
  have hq1' : (q1 + 1).toNat = (q1.toNat + 1) % 2 ^ 64 := by
    rw [BitVec.toNat_add, show (1 : Limb).toNat = 1 from rfl]
  have hback : q1 + 1 - 1 = q1 := by rw [BitVec.add_sub_cancel]
  generalize hr : (u1.toNat * 2 ^ 64 + u0.toNat - (q1.toNat + 1) * d.toNat : Int) = r at *
  generalize u0 - (q1 + 1) * d = r0 at *
  have hr0l := r0.isLt
  -- the numerator in terms of the candidates
  have hu' : (u1.toNat * 2 ^ 64 + u0.toNat : Int) = q1.toNat * d.toNat + d.toNat + r := by
    rw [← hr]; ring
  have hquot : (u1.toNat * 2 ^ 64 + u0.toNat) / d.toNat < 2 ^ 64 := by
    rw [Nat.div_lt_iff_lt_mul (by omega), Nat.mul_comm]
    omega
  have fin : ∀ (q r' : Nat) (a b : Limb), (q * d.toNat + r' : Int) = q1.toNat * d.toNat + d.toNat + r →
      r' < d.toNat → a.toNat = q % 2 ^ 64 → b.toNat = r' →
      a.toNat = (u1.toNat * 2 ^ 64 + u0.toNat) / d.toNat ∧
      b.toNat = (u1.toNat * 2 ^ 64 + u0.toNat) % d.toNat := by
    intro q r' a b h1 h2 h3 h4
    have h5 : u1.toNat * 2 ^ 64 + u0.toNat = q * d.toNat + r' := by
      rw [← hu'] at h1
      exact_mod_cast h1.symm
    obtain ⟨h6, h7⟩ := quot_unique _ _ _ _ h5 h2
    rw [h6] at hquot
    rw [h6, h7, h3, h4, Nat.mod_eq_of_lt hquot]
    exact ⟨rfl, rfl⟩
  clear hquot hu' hr hq hk3 hm hbig hhi hlo
  by_cases hneg : r < 0
  · -- the candidate is one too large
    have hr0' : (r0.toNat : Int) = r + 2 ^ 64 := by omega
    by_cases hc : r0 > q0
    · rw [if_pos hc]
      dsimp only
      have hs : (r0 + d).toNat = (r + d.toNat).toNat := by
        rw [BitVec.toNat_add]; omega
      rw [if_neg (show ¬ (r0 + d ≥ d) by rw [ge_iff_le, BitVec.le_def, hs]; omega)]
      refine fin q1.toNat (r + d.toNat).toNat _ _ ?_ (by omega) ?_ hs
      · rw [Int.toNat_of_nonneg (by omega)]; ring
      · rw [hback, Nat.mod_eq_of_lt hq1l]
    · exact absurd (show r0 > q0 by rw [gt_iff_lt, BitVec.lt_def]; omega) hc
  · have hr0' : (r0.toNat : Int) = r := by omega
    by_cases hc : r0 > q0
    · rw [if_pos hc]
      dsimp only
      rw [gt_iff_lt, BitVec.lt_def] at hc
      have hs : (r0 + d).toNat = r0.toNat + d.toNat := by
        rw [BitVec.toNat_add]; omega
      rw [if_pos (show (r0 + d ≥ d) by rw [ge_iff_le, BitVec.le_def, hs]; omega)]
      refine fin (q1.toNat + 1) r0.toNat _ _ ?_ (by omega) ?_ ?_
      · rw [hr0']; push_cast; ring
      · rw [hback]; exact hq1'
      · dsimp only; rw [BitVec.add_sub_cancel]
    · rw [if_neg hc]
      dsimp only
      rw [gt_iff_lt, BitVec.lt_def] at hc
      by_cases hge : r0 ≥ d
      · rw [if_pos hge]
        rw [ge_iff_le, BitVec.le_def] at hge
        refine fin (q1.toNat + 2) (r0.toNat - d.toNat) _ _ ?_ (by omega) ?_ ?_
        · rw [Int.natCast_sub hge, hr0']; push_cast; ring
        · rw [BitVec.toNat_add, hq1', show (1 : Limb).toNat = 1 from rfl]; omega
        · rw [BitVec.toNat_sub]; omega
      · rw [if_neg hge]
        rw [ge_iff_le, BitVec.le_def] at hge
        refine fin (q1.toNat + 1) r0.toNat _ _ ?_ (by omega) hq1' rfl
        rw [hr0']; push_cast; ring

end Torsion.Mpi
