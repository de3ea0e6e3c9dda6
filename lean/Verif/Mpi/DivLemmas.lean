import Verif.Mpi.Div
import Verif.Mpi.Div2by1
import Verif.Mpi.MpnBits

/-! Lemmas about dividing limb vectors. -/
namespace Torsion.Mpi
open Spec (val)

/-! ### Estimating a digit -/

/-- The digit test with base `B`. -/
theorem est_test (B q r v1 v0 u0 u : Nat) (hu : q * v1 + r = u) (hd : 0 < v1 * B + v0) :
    q * v0 > r * B + u0 ↔ (u * B + u0) / (v1 * B + v0) < q := by
  have h := le_quot (q := q) (N := u * B + u0) (d := v1 * B + v0) hd
  rw [Nat.mul_add, ← hu, Nat.add_mul, ← Nat.mul_assoc] at h
  rw [← hu, Nat.add_mul]
  generalize (q * v1 * B + r * B + u0) / (v1 * B + v0) = Q at *
  omega

theorem mul_gt_2_iff (q v r u : Limb) :
    mp_mul_gt_2 q v r u = true ↔ q.toNat * v.toNat > r.toNat * 2 ^ 64 + u.toNat := by
  unfold mp_mul_gt_2
  have h := mp_mul_val q v
  dsimp only
  generalize (mp_mul q v).1 = hi at *
  generalize (mp_mul q v).2 = lo at *
  have h1 := lo.isLt
  have h2 := u.isLt
  rw [← h]
  simp only [Bool.or_eq_true, decide_eq_true_eq, Bool.and_eq_true, beq_iff_eq, gt_iff_lt, BitVec.lt_def]
  rw [← BitVec.toNat_inj]
  omega

/-- Three limbs divided by two: the estimation loop finds the quotient. -/
theorem est_val (v1 v0 u0 : Limb) (u : Nat) (hv1 : 2 ^ 63 ≤ v1.toNat) :
    ∀ (n : Nat) (q r : Limb), q.toNat * v1.toNat + r.toNat = u →
      (u * 2 ^ 64 + u0.toNat) / (v1.toNat * 2 ^ 64 + v0.toNat) ≤ q.toNat →
      2 ^ 64 ≤ r.toNat + n * v1.toNat → 
      ∃ q' : Limb, mpn_divmod_est v1 v0 u0 (n + 1) q r = .ok q' ∧
        q'.toNat = (u * 2 ^ 64 + u0.toNat) / (v1.toNat * 2 ^ 64 + v0.toNat)
  | n, q, r, hu, hge, hn => by
    have ht := est_test (2 ^ 64) q.toNat r.toNat v1.toNat v0.toNat u0.toNat u hu (by omega)
    have ht2 := fun q r hu => est_test (2 ^ 64) q r v1.toNat v0.toNat u0.toNat u hu (by omega)
    have hrec := fun m (hm : m + 1 = n) q r => est_val v1 v0 u0 u hv1 m q r
    rw [mpn_divmod_est]
    have hb := mul_gt_2_iff q v0 r u0
    generalize (u * 2 ^ 64 + u0.toNat) / (v1.toNat * 2 ^ 64 + v0.toNat) = Q at *
    by_cases hc : mp_mul_gt_2 q v0 r u0 = true
    · rw [if_pos hc]
      have hlt := ht.1 (hb.1 hc)
      have hq' : (q - 1).toNat = q.toNat - 1 := by
        rw [BitVec.toNat_sub, show (1 : Limb).toNat = 1 from rfl]
        have := q.isLt; omega
      have hu' : (q.toNat - 1) * v1.toNat + (r.toNat + v1.toNat) = u := by
        obtain ⟨k, hk⟩ : ∃ k, q.toNat = k + 1 := ⟨q.toNat - 1, by omega⟩
        rw [hk] at hu ⊢
        rw [Nat.add_sub_cancel]
        rw [Nat.add_mul] at hu
        omega
      have hr' : (r + v1).toNat = (r.toNat + v1.toNat) % 2 ^ 64 := BitVec.toNat_add ..
      have hrl := r.isLt
      have hvl := v1.isLt
      dsimp only
      by_cases hbr : r + v1 < v1
      · rw [if_pos hbr]
        rw [BitVec.lt_def, hr'] at hbr
        refine ⟨_, rfl, ?_⟩
        rw [hq']
        by_contra hne
        have h3 := (ht2 (q.toNat - 1) (r.toNat + v1.toNat) hu').2 (by omega)
        have h4 : (q.toNat - 1) * v0.toNat ≤ 2 ^ 64 * v0.toNat := Nat.mul_le_mul_right _ (by
          have := q.isLt; omega)
        have := v0.isLt
        omega
      · rw [if_neg hbr]
        rw [BitVec.lt_def, hr'] at hbr
        obtain ⟨m, hm⟩ : ∃ m, n = m + 1 := by
          cases n with
          | zero => omega
          | succ m => exact ⟨m, rfl⟩
        have hr'' : (r + v1).toNat = r.toNat + v1.toNat := by rw [hr']; omega
        rw [hm]
        refine hrec m hm.symm (q - 1) (r + v1) (by rw [hq', hr'']; exact hu') (by rw [hq']; omega) ?_
        rw [hr'']
        rw [hm, Nat.add_mul] at hn
        omega
    · rw [if_neg hc]
      have : ¬ Q < q.toNat := fun h => hc (hb.2 (ht.2 h))
      exact ⟨q, rfl, by omega⟩
termination_by n => n

/-- The quotient of the leading digits is the quotient or one more. -/
theorem lead_est (B P U V N d Ur Vr : Nat) (hU : U = N * P + Ur) (hV : V = d * P + Vr) (hUr : Ur < P)
    (hVr : Vr < P) (hB : 0 < B) (hd : B ≤ d) (hQ : N / d ≤ B) :
    U / V ≤ N / d ∧ N / d ≤ U / V + 1 := by
  have hP : 0 < P := by omega
  have hdp : 0 < d := by omega
  have hVp : 0 < V := by
    rw [hV]
    exact Nat.lt_of_lt_of_le (Nat.mul_pos hdp hP) (Nat.le_add_right _ _)
  constructor
  · rw [Nat.le_div_iff_mul_le hdp]
    have h1 : U / V * V ≤ U := Nat.div_mul_le_self _ _
    have h2 : U / V * d * P ≤ U / V * V := by
      rw [Nat.mul_assoc]
      exact Nat.mul_le_mul_left _ (by omega)
    have h3 : U / V * d * P < (N + 1) * P := by
      rw [Nat.add_mul]; omega
    exact Nat.lt_succ_iff.1 (Nat.lt_of_mul_lt_mul_right h3)
  · obtain hz | ⟨k, hk⟩ : N / d = 0 ∨ ∃ k, N / d = k + 1 := by
      cases h : N / d with
      | zero => exact Or.inl rfl
      | succ k => exact Or.inr ⟨k, rfl⟩
    · rw [hz]; exact Nat.zero_le _
    · have h1 : N / d * d ≤ N := Nat.div_mul_le_self _ _
      rw [hk] at h1 hQ ⊢
      apply Nat.succ_le_succ
      rw [Nat.le_div_iff_mul_le hVp, hU, hV, Nat.mul_add]
      have h2 : k * Vr ≤ k * P := Nat.mul_le_mul_left _ (Nat.le_of_lt hVr)
      have h3 : (k + 1) * d * P ≤ N * P := Nat.mul_le_mul_right _ h1
      have h4 : k * P ≤ d * P := Nat.mul_le_mul_right _ (by omega)
      have e : (k + 1) * d * P = k * (d * P) + d * P := by ring
      omega

/-- When the leading digits agree, the largest digit is the quotient or one more. -/
theorem lead_max (B R U V v1 : Nat) (hB : 2 ≤ B) (hv1 : B ≤ 2 * v1 + 2) (hU : v1 * B * R ≤ U)
    (hV : V < (v1 + 1) * R) (hlt : U < V * B) : U / V ≤ B - 1 ∧ B - 1 ≤ U / V + 1 := by
  have hVp : 0 < V := Nat.pos_of_ne_zero (by rintro rfl; omega)
  constructor
  · have : U / V < B := by rw [Nat.div_lt_iff_lt_mul hVp, Nat.mul_comm]; exact hlt
    omega
  · have : B - 2 ≤ U / V := by
      rw [Nat.le_div_iff_mul_le hVp]
      obtain ⟨b, hb⟩ : ∃ b, B = b + 2 := ⟨B - 2, by omega⟩
      rw [hb] at hU hv1 ⊢
      rw [Nat.add_sub_cancel]
      have h1 : b * V ≤ b * ((v1 + 1) * R) := Nat.mul_le_mul_left _ (Nat.le_of_lt hV)
      have h2 : b * R ≤ (2 * v1) * R := Nat.mul_le_mul_right _ (by omega)
      have e1 : b * ((v1 + 1) * R) = b * v1 * R + b * R := by ring
      have e2 : v1 * (b + 2) * R = b * v1 * R + 2 * v1 * R := by ring
      omega
    omega

/-! ### One round -/

/-- Splitting off the top limb. -/
theorem split_top (a : List Limb) (n : Nat) (h : a.length = n + 1) :
    ∃ lo t, a = lo ++ [t] ∧ lo.length = n := by
  refine ⟨a.dropLast, a.getLast (by intro e; rw [e] at h; simp at h), ?_, ?_⟩
  · exact (List.dropLast_concat_getLast _).symm
  · simp [h]

theorem rd_append_at {lo : List Limb} {x : Limb} {hi : List Limb} {i : Nat} (h : i = lo.length) :
    C.rd (lo ++ x :: hi) i = .ok x := by
  subst h
  simp [C.rd]

/-- Multiply, subtract and add back. -/
theorem round_core (wl vp : List Limb) (u2 qhat : Limb) (hl : wl.length = vp.length)
    (hlt : val wl + 2 ^ (64 * vp.length) * u2.toNat < val vp * 2 ^ 64)
    (h1 : (val wl + 2 ^ (64 * vp.length) * u2.toNat) / val vp ≤ qhat.toNat)
    (h2 : qhat.toNat ≤ (val wl + 2 ^ (64 * vp.length) * u2.toNat) / val vp + 1) :
    ∃ q w, (let s := mpn_submul_1 wl vp qhat
      let t := mp_sub u2 s.2
      if t.2 ≠ 0 then
        let a := mpn_add_n s.1 vp
        (.ok (qhat - 1, a.1 ++ [t.1 + a.2]) : C (Limb × List Limb))
      else .ok (qhat, s.1 ++ [t.1])) = .ok (q, w) ∧
      q.toNat = (val wl + 2 ^ (64 * vp.length) * u2.toNat) / val vp ∧
      (w.take vp.length).length = vp.length ∧
      val (w.take vp.length) = (val wl + 2 ^ (64 * vp.length) * u2.toNat) % val vp := by
  obtain ⟨hs, hsl⟩ := submul_1_val wl vp qhat hl
  dsimp only
  generalize mpn_submul_1 wl vp qhat = s at *
  obtain ⟨ht, htc⟩ := mp_sub_val u2 s.2
  generalize mp_sub u2 s.2 = t at *
  have hVp : 0 < val vp := Nat.pos_of_ne_zero (by intro e; rw [e] at hlt; omega)
  have hVl := val_lt vp
  have hsL := val_lt s.1
  rw [hsl] at hsL
  have hQ := Nat.div_add_mod (val wl + 2 ^ (64 * vp.length) * u2.toNat) (val vp)
  have hR := Nat.mod_lt (val wl + 2 ^ (64 * vp.length) * u2.toNat) hVp
  have htl := t.1.isLt
  -- the difference with its borrow
  have hsum : val s.1 + 2 ^ (64 * vp.length) * t.1.toNat + val vp * qhat.toNat
      = val wl + 2 ^ (64 * vp.length) * u2.toNat + 2 ^ (64 * vp.length) * 2 ^ 64 * t.2.toNat := by
    linear_combination hs + 2 ^ (64 * vp.length) * ht
  have hqe : qhat.toNat = (val wl + 2 ^ (64 * vp.length) * u2.toNat) / val vp ∨
      qhat.toNat = (val wl + 2 ^ (64 * vp.length) * u2.toNat) / val vp + 1 := by
    clear hQ hR hsum hlt hs ht
    generalize (val wl + 2 ^ (64 * vp.length) * u2.toNat) / val vp = Q at *
    omega
  generalize hU : val wl + 2 ^ (64 * vp.length) * u2.toNat = U at *
  generalize hq : U / val vp = Q at *
  generalize hr : U % val vp = R at *
  generalize hV : val vp = V at *
  generalize hP : 2 ^ (64 * vp.length) = P at *
  have hPt : P * t.1.toNat ≤ P * (2 ^ 64 - 1) := Nat.mul_le_mul_left _ (by omega)
  rw [Nat.mul_sub] at hPt
  have hPB : P ≤ P * 2 ^ 64 := Nat.le_mul_of_pos_right _ (by decide)
  rcases hqe with he | he
  · -- the estimate is right
    rw [he] at hsum
    have h0 : t.2.toNat = 0 := by
      by_contra hne
      have h1 : t.2.toNat = 1 := by omega
      rw [h1] at hsum
      omega
    have h0' : t.2 = 0 := BitVec.eq_of_toNat_eq h0
    rw [h0, Nat.mul_zero] at hsum
    rw [if_neg (by rw [h0']; simp)]
    have hRs : val s.1 + P * t.1.toNat = R := by omega
    have htz : t.1.toNat = 0 := by
      by_contra hne
      have : P * 1 ≤ P * t.1.toNat := Nat.mul_le_mul_left _ (by omega)
      omega
    rw [htz] at hRs
    refine ⟨qhat, _, rfl, he, ?_, ?_⟩
    · rw [← hsl, List.take_left]
    · rw [← hsl, List.take_left]; omega
  · -- the estimate is one too large
    rw [he] at hsum
    rw [Nat.mul_add, Nat.mul_one] at hsum
    have h1 : t.2.toNat = 1 := by
      by_contra hne
      have h0 : t.2.toNat = 0 := by omega
      rw [h0] at hsum
      omega
    have h1' : t.2 ≠ 0 := by intro e; rw [e] at h1; exact absurd h1 (by decide)
    rw [h1, Nat.mul_one] at hsum
    rw [if_pos h1']
    obtain ⟨ha, hal, hac⟩ := add_n_val s.1 vp hsl
    have haL := val_lt (mpn_add_n s.1 vp).1
    generalize mpn_add_n s.1 vp = a at *
    rw [hal, hsl, hP] at haL
    rw [hsl, hP, hV] at ha
    rw [hsl] at hal
    refine ⟨qhat - 1, _, rfl, ?_, ?_, ?_⟩
    · rw [BitVec.toNat_sub, he, show (1 : Limb).toNat = 1 from rfl]
      have := qhat.isLt
      omega
    · rw [← hal, List.take_left]
    · rw [← hal, List.take_left]
      -- both sides are below `P` and congruent modulo `P`
      have hx : val a.1 + P * (a.2.toNat + t.1.toNat) = R + P * 2 ^ 64 := by
        rw [Nat.mul_add]; omega
      have hRP : R < P := by omega
      have m1 := congrArg (· % P) hx
      simp only [Nat.add_mul_mod_self_left] at m1
      rw [Nat.mod_eq_of_lt haL, Nat.mod_eq_of_lt hRP] at m1
      exact m1

/-- A round divides its window. -/
theorem round_val (vr wr : List Limb) (v0 v1 u0 u1 u2 m : Limb) (hl : wr.length = vr.length)
    (hv1 : 2 ^ 63 ≤ v1.toNat) (hm : m.toNat + 2 ^ 64 = (2 ^ 128 - 1) / v1.toNat)
    (hlt : val (wr ++ [u0, u1, u2]) < val (vr ++ [v0, v1]) * 2 ^ 64) :
    ∃ q w, mpn_divmod_round (vr ++ [v0, v1]) m (vr.length + 2) (wr ++ [u0, u1, u2]) = .ok (q, w) ∧
      q.toNat = val (wr ++ [u0, u1, u2]) / val (vr ++ [v0, v1]) ∧
      (w.take (vr.length + 2)).length = vr.length + 2 ∧
      val (w.take (vr.length + 2)) = val (wr ++ [u0, u1, u2]) % val (vr ++ [v0, v1]) := by
  have hvl := v1.isLt
  have hVr := val_lt vr
  have hUr := val_lt wr
  rw [hl] at hUr
  have hV : val (vr ++ [v0, v1]) = (v1.toNat * 2 ^ 64 + v0.toNat) * 2 ^ (64 * vr.length) + val vr := by
    rw [val_append, val_cons, val_singleton]; ring
  have hU : val (wr ++ [u0, u1, u2]) = ((u2.toNat * 2 ^ 64 + u1.toNat) * 2 ^ 64 + u0.toNat) * 2 ^ (64 * vr.length)
      + val wr := by
    rw [val_append, val_cons, val_cons, val_singleton, hl]; ring
  have hsplit : wr ++ [u0, u1, u2] = (wr ++ [u0, u1]) ++ [u2] := by simp
  have hlen : (wr ++ [u0, u1]).length = (vr ++ [v0, v1]).length := by simp [hl]
  have hlen2 : (vr ++ [v0, v1]).length = vr.length + 2 := by simp
  have hval : val (wr ++ [u0, u1, u2])
      = val (wr ++ [u0, u1]) + 2 ^ (64 * (vr ++ [v0, v1]).length) * u2.toNat := by
    rw [hsplit, val_append, val_singleton, hlen]
  -- the estimate
  have key : ∃ qhat : Limb, (if u2 = v1 then .ok (BitVec.allOnes 64) else
        mpn_divmod_est v1 v0 u0 3 (mp_div_2by1 u2 u1 v1 m).1 (mp_div_2by1 u2 u1 v1 m).2) = .ok qhat ∧
      val (wr ++ [u0, u1, u2]) / val (vr ++ [v0, v1]) ≤ qhat.toNat ∧
      qhat.toNat ≤ val (wr ++ [u0, u1, u2]) / val (vr ++ [v0, v1]) + 1 := by
    by_cases he : u2 = v1
    · refine ⟨_, if_pos he, ?_⟩
      have := lead_max (2 ^ 64) (2 ^ (64 * vr.length) * 2 ^ 64) (val (wr ++ [u0, u1, u2]))
        (val (vr ++ [v0, v1])) v1.toNat (by decide) (by omega) ?_ ?_ hlt
      · exact this
      · rw [hU, he]
        have : v1.toNat * 2 ^ 64 * (2 ^ (64 * vr.length) * 2 ^ 64)
            = v1.toNat * 2 ^ 64 * 2 ^ 64 * 2 ^ (64 * vr.length) := by ring
        rw [this]
        refine Nat.le_trans (Nat.mul_le_mul_right _ ?_) (Nat.le_add_right _ _)
        omega
      · rw [hV]
        have h0 := v0.isLt
        have e : (v1.toNat + 1) * (2 ^ (64 * vr.length) * 2 ^ 64)
            = (v1.toNat * 2 ^ 64 + (2 ^ 64 - 1)) * 2 ^ (64 * vr.length) + 2 ^ (64 * vr.length) := by ring
        rw [e]
        refine Nat.add_lt_add_of_le_of_lt (Nat.mul_le_mul_right _ ?_) hVr
        omega
    · have hu2 : u2.toNat < v1.toNat := by
        have hne : u2.toNat ≠ v1.toNat := fun e => he (BitVec.eq_of_toNat_eq e)
        by_contra hge
        have h3 : v1.toNat + 1 ≤ u2.toNat := by omega
        have h0 := v0.isLt
        have a1 : val (vr ++ [v0, v1]) ≤ (v1.toNat + 1) * 2 ^ 64 * 2 ^ (64 * vr.length) := by
          rw [hV]
          have : (v1.toNat + 1) * 2 ^ 64 * 2 ^ (64 * vr.length)
            = (v1.toNat * 2 ^ 64 + (2 ^ 64 - 1)) * 2 ^ (64 * vr.length) + 2 ^ (64 * vr.length) := by ring
          rw [this]
          exact Nat.add_le_add (Nat.mul_le_mul_right _ (by omega)) (Nat.le_of_lt hVr)
        have a2 : (v1.toNat + 1) * 2 ^ 64 * 2 ^ 64 * 2 ^ (64 * vr.length) ≤ val (wr ++ [u0, u1, u2]) := by
          rw [hU]
          refine Nat.le_trans (Nat.mul_le_mul_right _ ?_) (Nat.le_add_right _ _)
          omega
        have a3 := Nat.mul_le_mul_right (2 ^ 64) a1
        have e : (v1.toNat + 1) * 2 ^ 64 * 2 ^ (64 * vr.length) * 2 ^ 64
            = (v1.toNat + 1) * 2 ^ 64 * 2 ^ 64 * 2 ^ (64 * vr.length) := by ring
        rw [e] at a3
        exact absurd (Nat.lt_of_lt_of_le hlt (Nat.le_trans a3 a2)) (Nat.lt_irrefl _)
      obtain ⟨d1, d2⟩ := mp_div_2by1_val u2 u1 v1 m hv1 hu2 hm
      generalize mp_div_2by1 u2 u1 v1 m = t at *
      have hdm := Nat.div_add_mod (u2.toNat * 2 ^ 64 + u1.toNat) v1.toNat
      rw [← d1, ← d2, Nat.mul_comm] at hdm
      have hle : ((u2.toNat * 2 ^ 64 + u1.toNat) * 2 ^ 64 + u0.toNat) / (v1.toNat * 2 ^ 64 + v0.toNat)
          ≤ t.1.toNat := by
        apply Nat.le_of_lt_succ
        rw [Nat.div_lt_iff_lt_mul (by omega)]
        have hr : t.2.toNat < v1.toNat := by rw [d2]; exact Nat.mod_lt _ (by omega)
        have h0 := u0.isLt
        clear d1 d2 hU hV hval hlt
        rw [← hdm]
        have e : t.1.toNat.succ * (v1.toNat * 2 ^ 64 + v0.toNat)
            = (t.1.toNat * v1.toNat + v1.toNat) * 2 ^ 64 + t.1.toNat.succ * v0.toNat := by
          rw [Nat.succ_eq_add_one]; ring
        rw [e]
        omega
      obtain ⟨qhat, e1, e2⟩ := est_val v1 v0 u0 _ hv1 2 t.1 t.2 hdm hle (by omega)
      refine ⟨qhat, by rw [if_neg he]; exact e1, ?_⟩
      rw [e2]
      refine lead_est (2 ^ 64) (2 ^ (64 * vr.length)) _ _ _ _ (val wr) (val vr) hU hV hUr hVr (by decide)
        (by omega) ?_
      exact Nat.le_trans hle (Nat.le_of_lt t.1.isLt)
  obtain ⟨qhat, e, q1, q2⟩ := key
  unfold mpn_divmod_round
  rw [show C.rd (wr ++ [u0, u1, u2]) (vr.length + 2) = .ok u2 by
      rw [hsplit]; exact rd_append_at (by simp [hl]),
    C.ok_bind,
    show C.rd (vr ++ [v0, v1]) (vr.length + 2 - 1) = .ok v1 by
      rw [show vr ++ [v0, v1] = (vr ++ [v0]) ++ [v1] by simp]; exact rd_append_at (by simp),
    C.ok_bind,
    show C.rd (wr ++ [u0, u1, u2]) (vr.length + 2 - 1) = .ok u1 by
      rw [show wr ++ [u0, u1, u2] = (wr ++ [u0]) ++ u1 :: [u2] by simp]; exact rd_append_at (by simp [hl]),
    C.ok_bind,
    show C.rd (vr ++ [v0, v1]) (vr.length + 2 - 2) = .ok v0 by exact rd_append_at (by omega),
    C.ok_bind,
    show C.rd (wr ++ [u0, u1, u2]) (vr.length + 2 - 2) = .ok u0 by exact rd_append_at (by omega),
    C.ok_bind, e, C.ok_bind,
    show (wr ++ [u0, u1, u2]).take (vr.length + 2) = wr ++ [u0, u1] by
      rw [hsplit]; exact List.take_left' (by simp [hl])]
  rw [hval] at q1 q2 hlt ⊢
  have := round_core (wr ++ [u0, u1]) (vr ++ [v0, v1]) u2 qhat hlen hlt q1 q2
  rw [hlen2] at this ⊢
  exact this

/-- The same for vectors given by their lengths. -/
theorem round_val' (vp w : List Limb) (m v1 : Limb) (hd : 2 ≤ vp.length) (hw : w.length = vp.length + 1)
    (htop : C.rd vp (vp.length - 1) = .ok v1)
    (hv1 : 2 ^ 63 ≤ v1.toNat) (hm : m.toNat + 2 ^ 64 = (2 ^ 128 - 1) / v1.toNat)
    (hlt : val w < val vp * 2 ^ 64) :
    ∃ q w', mpn_divmod_round vp m vp.length w = .ok (q, w') ∧ q.toNat = val w / val vp ∧
      (w'.take vp.length).length = vp.length ∧ val (w'.take vp.length) = val w % val vp := by
  obtain ⟨k, hk⟩ : ∃ k, vp.length = k + 2 := ⟨vp.length - 2, by omega⟩
  obtain ⟨v', t1, e1, l1⟩ := split_top vp (k + 1) hk
  obtain ⟨vr, v0, e2, l2⟩ := split_top v' k l1
  obtain ⟨w1, u2, f1, m1⟩ := split_top w (k + 2) (by omega)
  obtain ⟨w2, u1, f2, m2⟩ := split_top w1 (k + 1) m1
  obtain ⟨wr, u0, f3, m3⟩ := split_top w2 k m2
  have hvp : vp = vr ++ [v0, t1] := by rw [e1, e2]; simp
  have hww : w = wr ++ [u0, u1, u2] := by rw [f1, f2, f3]; simp
  have ht : t1 = v1 := by
    rw [e1, rd_append_at (by simp)] at htop
    exact C.ok.inj htop
  subst ht
  rw [hvp, hww] at hlt ⊢
  have := round_val vr wr v0 t1 u0 u1 u2 m (by omega) hv1 hm hlt
  rw [show (vr ++ [v0, t1]).length = vr.length + 2 by simp]
  exact this

/-- The rounds divide. -/
theorem large_loop_val (vp : List Limb) (m v1 : Limb) (hd : 2 ≤ vp.length)
    (htop : C.rd vp (vp.length - 1) = .ok v1)
    (hv1 : 2 ^ 63 ≤ v1.toNat) (hm : m.toNat + 2 ^ 64 = (2 ^ 128 - 1) / v1.toNat)
    (hi : List Limb) (hhi : hi.length = vp.length) (hhv : val hi < val vp) : ∀ lo : List Limb,
    ∃ q r, mpn_divmod_large_loop vp m vp.length hi lo = .ok (q, r) ∧ q.length = lo.length ∧
      r.length = vp.length ∧ val r < val vp ∧
      val lo + 2 ^ (64 * lo.length) * val hi = val q * val vp + val r
  | [] => by
    refine ⟨[], hi, rfl, rfl, hhi, hhv, ?_⟩
    rw [val_nil, List.length_nil]; ring
  | u :: lo => by
    obtain ⟨q, r, e, l1, l2, l3, v⟩ := large_loop_val vp m v1 hd htop hv1 hm hi hhi hhv lo
    have hw : val (u :: r) < val vp * 2 ^ 64 := by
      rw [val_cons]
      have := u.isLt
      omega
    obtain ⟨qh, w', e', hq, hl, hr⟩ := round_val' vp (u :: r) m v1 hd (by simp [l2]) htop hv1 hm hw
    refine ⟨qh :: q, w'.take vp.length, ?_, by simp [l1], hl, ?_, ?_⟩
    · rw [mpn_divmod_large_loop, e, C.ok_bind, e', C.ok_bind]
    · rw [hr]; exact Nat.mod_lt _ (by omega)
    · have hdm := Nat.div_add_mod (val (u :: r)) (val vp)
      rw [← hq, ← hr, val_cons u r] at hdm
      rw [val_cons, val_cons, List.length_cons, pow64]
      linear_combination 2 ^ 64 * v - hdm

theorem norm_shift (n1 n0 : Limb) (s : Nat) (hs : s < 64) (h : n1.toNat * 2 ^ s < 2 ^ 64) :
    ∃ u : Limb × Limb,
      (if s ≠ 0 then ((n1 <<< s) ||| (n0 >>> (64 - s)), n0 <<< s) else (n1, n0)) = u ∧
      u.1.toNat * 2 ^ 64 + u.2.toNat = (n1.toNat * 2 ^ 64 + n0.toNat) * 2 ^ s := by
  by_cases h0 : s ≠ 0
  · refine ⟨_, if_pos h0, ?_⟩
    rw [shl_or n0 n1 s (by omega), shl_toNat]
    have e := shl_split n0 s (by omega)
    rw [Nat.mod_eq_of_lt h]
    linear_combination e
  · have h0' : s = 0 := by omega
    exact ⟨_, if_neg h0, by rw [h0', pow_zero, Nat.mul_one]⟩

/-- Division by one limb. -/
theorem small_loop_val (d m : Limb) (s D : Nat) (hs : s < 64) (hD : d.toNat = D * 2 ^ s)
    (hd : 2 ^ 63 ≤ d.toNat) (hm : m.toNat + 2 ^ 64 = (2 ^ 128 - 1) / d.toNat) : ∀ np : List Limb,
    (mpn_divmod_small_loop d m s np).1.length = np.length ∧
    (mpn_divmod_small_loop d m s np).2.toNat < D ∧
    val np = val (mpn_divmod_small_loop d m s np).1 * D + (mpn_divmod_small_loop d m s np).2.toNat
  | [] => by
    refine ⟨rfl, ?_, ?_⟩
    · show 0 < D
      exact Nat.pos_of_ne_zero (by rintro rfl; rw [Nat.zero_mul] at hD; omega)
    · show 0 = 0 * D + 0
      omega
  | n0 :: np => by
    obtain ⟨l, r, v⟩ := small_loop_val d m s D hs hD hd hm np
    unfold mpn_divmod_small_loop
    dsimp only
    generalize mpn_divmod_small_loop d m s np = t at *
    have hr : t.2.toNat * 2 ^ s < 2 ^ 64 := by
      have h1 : t.2.toNat * 2 ^ s ≤ D * 2 ^ s := Nat.mul_le_mul_right _ (Nat.le_of_lt r)
      have := d.isLt
      omega
    obtain ⟨u, eu, vu⟩ := norm_shift t.2 n0 s hs hr
    rw [eu]
    have hDp : 0 < D := Nat.lt_of_le_of_lt (Nat.zero_le _) r
    have hlt : u.1.toNat < d.toNat := by
      have h1 : (t.2.toNat * 2 ^ 64 + n0.toNat) * 2 ^ s < D * 2 ^ 64 * 2 ^ s := by
        apply Nat.mul_lt_mul_of_pos_right _ (Nat.two_pow_pos _)
        have := n0.isLt
        omega
      have e : D * 2 ^ 64 * 2 ^ s = D * 2 ^ s * 2 ^ 64 := by ring
      rw [← vu, e, ← hD] at h1
      omega
    obtain ⟨d1, d2⟩ := mp_div_2by1_val u.1 u.2 d m hd hlt hm
    rw [vu, hD, Nat.mul_div_mul_right _ _ (Nat.two_pow_pos s)] at d1
    rw [vu, hD, Nat.mul_mod_mul_right] at d2
    have e2 : (mp_div_2by1 u.1 u.2 d m).2 >>> s = _ := rfl
    have hsh : ((mp_div_2by1 u.1 u.2 d m).2 >>> s).toNat = (t.2.toNat * 2 ^ 64 + n0.toNat) % D := by
      rw [shr_toNat, d2, Nat.mul_div_cancel _ (Nat.two_pow_pos s)]
    have hdm := Nat.div_add_mod (t.2.toNat * 2 ^ 64 + n0.toNat) D
    have hml := Nat.mod_lt (t.2.toNat * 2 ^ 64 + n0.toNat) hDp
    rw [← d1, ← hsh] at hdm
    rw [← hsh] at hml
    refine ⟨by simp [l], hml, ?_⟩
    rw [val_cons, val_cons]
    linear_combination 2 ^ 64 * v - hdm

theorem limb_shift (d : Limb) (s : Nat) (h : d.toNat * 2 ^ s < 2 ^ 64) :
    (d <<< s).toNat = d.toNat * 2 ^ s := by
  rw [shl_toNat, Nat.mod_eq_of_lt h]

theorem init_1s_val (d : Limb) (s : Nat) (hD1 : 2 ^ 63 ≤ (d <<< s).toNat) :
    ∃ v, mpn_divmod_init_1s d s = .ok ⟨[d <<< s], v, s, 1⟩ ∧
      v.toNat + 2 ^ 64 = (2 ^ 128 - 1) / (d <<< s).toNat := by
  obtain ⟨v, ev, hv⟩ := mp_inv_2by1_val (d <<< s) hD1
  refine ⟨v, ?_, hv⟩
  unfold mpn_divmod_init_1s
  rw [ev, C.ok_bind]

theorem init_1_val (d : Limb) (hd : d ≠ 0) :
    ∃ v s, mpn_divmod_init_1 d = .ok ⟨[d <<< s], v, s, 1⟩ ∧ s < 64 ∧
      (d <<< s).toNat = d.toNat * 2 ^ s ∧ 2 ^ 63 ≤ (d <<< s).toNat ∧
      v.toNat + 2 ^ 64 = (2 ^ 128 - 1) / (d <<< s).toNat := by
  obtain ⟨s, es, hs, hD1, hD2⟩ : ∃ s, s = mp_clz d ∧ s < 64 ∧ 2 ^ 63 ≤ d.toNat * 2 ^ s ∧
      d.toNat * 2 ^ s < 2 ^ 64 := ⟨_, rfl, clz_norm d hd⟩
  have hD := limb_shift d s hD2
  rw [← hD] at hD1
  obtain ⟨v, ev, hv⟩ := init_1s_val d s hD1
  refine ⟨v, s, ?_, hs, hD, hD1, hv⟩
  rw [mpn_divmod_init_1, if_neg hd, ← es, ev]

/-- `mpn_divmod_1` divides by a limb. -/
theorem divmod_1_val (np : List Limb) (d : Limb) (hd : d ≠ 0) :
    ∃ q r, mpn_divmod_1 np d = .ok (q, r) ∧ q.length = np.length ∧
      val q = val np / d.toNat ∧ r.toNat = val np % d.toNat := by
  have hd0 : 0 < d.toNat := Nat.pos_of_ne_zero (fun e => hd (BitVec.eq_of_toNat_eq e))
  unfold mpn_divmod_1
  simp only [C.check, decide_eq_true_eq, if_pos hd, C.ok_bind]
  match np with
  | [] =>
    refine ⟨[], 0, rfl, rfl, ?_, ?_⟩
    · rw [val_nil, Nat.zero_div]
    · rw [val_nil, Nat.zero_mod]; rfl
  | [n] =>
    refine ⟨[n / d], n - n / d * d, rfl, rfl, ?_, ?_⟩
    · rw [val_singleton, val_singleton, BitVec.toNat_udiv]
    · rw [val_singleton, BitVec.toNat_sub, BitVec.toNat_mul, BitVec.toNat_udiv]
      have h1 := Nat.div_mul_le_self n.toNat d.toNat
      have h2 := Nat.div_add_mod n.toNat d.toNat
      have h3 := n.isLt
      rw [Nat.mul_comm] at h2
      rw [Nat.mod_eq_of_lt (a := n.toNat / d.toNat * d.toNat) (by omega)]
      omega
  | n0 :: n1 :: ns =>
    obtain ⟨v, s, ev, hs, hD, hD1, hv⟩ := init_1_val d hd
    rw [ev]
    dsimp only
    rw [C.ok_bind]
    unfold mpn_divmod_small_2by1
    rw [show C.rd [d <<< s] 0 = .ok (d <<< s) from rfl, C.ok_bind]
    obtain ⟨l, r, e⟩ := small_loop_val (d <<< s) v s d.toNat hs hD hD1 hv (n0 :: n1 :: ns)
    refine ⟨_, _, rfl, l, ?_⟩
    obtain ⟨h1, h2⟩ := quot_unique _ _ _ _ e r
    exact ⟨h1.symm, h2.symm⟩

theorem divmod_1_zero (np : List Limb) : mpn_divmod_1 np 0 = .abort := by
  unfold mpn_divmod_1
  rw [show C.check (decide ((0 : Limb) ≠ 0)) = .abort from rfl, C.abort_bind]

theorem precomp_s_val (lo : List Limb) (top : Limb) (s : Nat) (hs : s < 64)
    (hD1 : 2 ^ 63 ≤ top.toNat * 2 ^ s) (hD2 : top.toNat * 2 ^ s < 2 ^ 64) :
    ∃ vp v vt, mpn_divmod_precomp_s (lo ++ [top]) top s = .ok ⟨vp, v, s, lo.length + 1⟩ ∧
      vp.length = lo.length + 1 ∧ val vp = val (lo ++ [top]) * 2 ^ s ∧
      C.rd vp lo.length = .ok vt ∧ 2 ^ 63 ≤ vt.toNat ∧
      v.toNat + 2 ^ 64 = (2 ^ 128 - 1) / vt.toNat := by
  have hlen : (lo ++ [top]).length = lo.length + 1 := by simp
  have hv := val_append lo [top]
  rw [val_singleton] at hv
  have hlo := val_lt lo
  -- the normalised divisor
  have key : ∃ vp, (if (lo ++ [top]).length = 1 then [top <<< s]
        else if s ≠ 0 then (mpn_lshift (lo ++ [top]) s).1 else lo ++ [top]) = vp ∧
      vp.length = lo.length + 1 ∧ val vp = val (lo ++ [top]) * 2 ^ s := by
    by_cases h1 : (lo ++ [top]).length = 1
    · refine ⟨_, if_pos h1, ?_⟩
      have h0 : lo = [] := List.eq_nil_of_length_eq_zero (by omega)
      subst h0
      rw [List.nil_append, val_singleton, val_singleton, limb_shift top s hD2]
      exact ⟨rfl, rfl⟩
    · by_cases h2 : s ≠ 0
      · refine ⟨_, by rw [if_neg h1, if_pos h2], ?_⟩
        obtain ⟨e, l⟩ := lshift_val (lo ++ [top]) s (by omega) (by simp)
        rw [hlen] at e l
        refine ⟨l, ?_⟩
        have hc : (mpn_lshift (lo ++ [top]) s).2.toNat = 0 := by
          by_contra hne
          have g1 : 2 ^ (64 * (lo.length + 1)) * 1 ≤ 2 ^ (64 * (lo.length + 1)) *
              (mpn_lshift (lo ++ [top]) s).2.toNat := Nat.mul_le_mul_left _ (by omega)
          have g2 : (top.toNat + 1) * 2 ^ s ≤ 2 ^ 64 := by
            rw [← split_pow s (by omega), Nat.mul_comm (2 ^ s)] at hD2 ⊢
            exact Nat.mul_le_mul_right _ (Nat.lt_of_mul_lt_mul_right hD2)
          have g3 : val (lo ++ [top]) < 2 ^ (64 * lo.length) * (top.toNat + 1) := by
            rw [hv, Nat.mul_add]; omega
          have g4 : val (lo ++ [top]) * 2 ^ s < 2 ^ (64 * lo.length) * (top.toNat + 1) * 2 ^ s :=
            Nat.mul_lt_mul_of_pos_right g3 (Nat.two_pow_pos _)
          have g5 : 2 ^ (64 * lo.length) * (top.toNat + 1) * 2 ^ s ≤ 2 ^ (64 * lo.length) * 2 ^ 64 := by
            rw [Nat.mul_assoc]
            exact Nat.mul_le_mul_left _ g2
          have g6 := pow64' lo.length
          generalize 2 ^ (64 * (lo.length + 1)) * (mpn_lshift (lo ++ [top]) s).2.toNat = X at *
          omega
        rw [hc, Nat.mul_zero, Nat.add_zero] at e
        exact e
      · refine ⟨_, by rw [if_neg h1, if_neg h2], hlen, ?_⟩
        have h0 : s = 0 := by omega
        rw [h0, pow_zero, Nat.mul_one]
  obtain ⟨vp, evp, lvp, vvp⟩ := key
  obtain ⟨vl, vt, e1, l1⟩ := split_top vp lo.length lvp
  have hvt : 2 ^ 63 ≤ vt.toNat := by
    by_contra hlt
    have h2 : val vp < 2 ^ (64 * lo.length) * 2 ^ 63 := by
      rw [e1, val_append, val_singleton, l1]
      have h3 := val_lt vl
      rw [l1] at h3
      have h4 : 2 ^ (64 * lo.length) * (vt.toNat + 1) ≤ 2 ^ (64 * lo.length) * 2 ^ 63 :=
        Nat.mul_le_mul_left _ (by omega)
      rw [Nat.mul_add] at h4
      omega
    have h5 : 2 ^ (64 * lo.length) * 2 ^ 63 ≤ val vp := by
      rw [vvp, hv, Nat.add_mul, Nat.mul_assoc]
      exact Nat.le_trans (Nat.mul_le_mul_left _ hD1) (Nat.le_add_left _ _)
    omega
  have hrd : C.rd vp lo.length = .ok vt := by rw [e1]; exact rd_append_at l1.symm
  obtain ⟨v, ev, hv'⟩ := mp_inv_2by1_val vt hvt
  refine ⟨vp, v, vt, ?_, lvp, vvp, hrd, hvt, hv'⟩
  unfold mpn_divmod_precomp_s
  dsimp only
  rw [evp, show (lo ++ [top]).length - 1 = lo.length by simp, hrd, C.ok_bind, ev, C.ok_bind, hlen]

theorem precomp_val (dp : List Limb) (hn : Norm dp) (hne : dp ≠ []) :
    ∃ vp v vt s, mpn_divmod_precomp dp = .ok ⟨vp, v, s, dp.length⟩ ∧ s < 64 ∧
      vp.length = dp.length ∧ val vp = val dp * 2 ^ s ∧
      C.rd vp (dp.length - 1) = .ok vt ∧ 2 ^ 63 ≤ vt.toNat ∧
      v.toNat + 2 ^ 64 = (2 ^ 128 - 1) / vt.toNat := by
  obtain ⟨k, hk⟩ : ∃ k, dp.length = k + 1 := ⟨dp.length - 1, by
    have := List.length_pos_iff.2 hne; omega⟩
  obtain ⟨lo, top, e, l⟩ := split_top dp k hk
  have htop : top ≠ 0 := by
    intro h0
    apply hn
    rw [e, h0]; simp
  obtain ⟨s, es, hs, hD1, hD2⟩ : ∃ s, s = mp_clz top ∧ s < 64 ∧ 2 ^ 63 ≤ top.toNat * 2 ^ s ∧
      top.toNat * 2 ^ s < 2 ^ 64 := ⟨_, rfl, clz_norm top htop⟩
  obtain ⟨vp, v, vt, h1, h2, h3, h4, h5, h6⟩ := precomp_s_val lo top s hs hD1 hD2
  refine ⟨vp, v, vt, s, ?_, hs, by omega, by rw [e]; exact h3, ?_, h5, h6⟩
  · have hlast : dp.getLast? = some top := by rw [e]; simp
    rw [mpn_divmod_precomp, hlast]
    dsimp only
    rw [if_neg htop, ← es, hk, ← l, e, h1]
  · rw [show dp.length - 1 = lo.length by omega]; exact h4

/-- Division by two limbs or more. -/
theorem large_val (np vp : List Limb) (v vt : Limb) (s V : Nat) (hs : s < 64) (hd : 2 ≤ vp.length)
    (hnn : vp.length ≤ np.length) (hV : val vp = V * 2 ^ s)
    (hbig : 2 ^ (64 * (vp.length - 1)) ≤ V)
    (htop : C.rd vp (vp.length - 1) = .ok vt) (hvt : 2 ^ 63 ≤ vt.toNat)
    (hm : v.toNat + 2 ^ 64 = (2 ^ 128 - 1) / vt.toNat) :
    ∃ q r, mpn_divmod_large_2by1 np ⟨vp, v, s, vp.length⟩ = .ok (q, r) ∧
      q.length = np.length - vp.length + 1 ∧ r.length = vp.length ∧
      val q = val np / V ∧ val r = val np % V := by
  have hne : np ≠ [] := by rintro rfl; rw [List.length_nil] at hnn; omega
  have hVp : 0 < V := Nat.lt_of_lt_of_le (Nat.two_pow_pos _) hbig
  -- the shifted numerator
  have key : ∃ up, (if s ≠ 0 then (mpn_lshift np s).1 ++ [(mpn_lshift np s).2] else np ++ [0]) = up ∧
      up.length = np.length + 1 ∧ val up = val np * 2 ^ s := by
    by_cases h : s ≠ 0
    · obtain ⟨e, l⟩ := lshift_val np s (by omega) hne
      refine ⟨_, if_pos h, by simp [l], ?_⟩
      rw [val_append, val_singleton, l]; exact e
    · have h0 : s = 0 := by omega
      refine ⟨_, if_neg h, by simp, ?_⟩
      rw [val_append, val_singleton, h0, show (0 : Limb).toNat = 0 from rfl, Nat.mul_zero, pow_zero]
      omega
  obtain ⟨up, eu, lu, vu⟩ := key
  have hk : np.length - vp.length + 1 ≤ up.length := by omega
  have hsplit := val_take_drop (np.length - vp.length + 1) up hk
  have hhi : val (up.drop (np.length - vp.length + 1)) < val vp := by
    have h1 : val up < 2 ^ (64 * np.length) * 2 ^ s := by
      rw [vu]; exact Nat.mul_lt_mul_of_pos_right (val_lt np) (Nat.two_pow_pos _)
    have h2 : 2 ^ (64 * np.length)
        = 2 ^ (64 * (np.length - vp.length + 1)) * 2 ^ (64 * (vp.length - 1)) := by
      rw [← pow_add]; congr 1; omega
    have h3 : 2 ^ (64 * (np.length - vp.length + 1)) * val (up.drop (np.length - vp.length + 1))
        < 2 ^ (64 * (np.length - vp.length + 1)) * (2 ^ (64 * (vp.length - 1)) * 2 ^ s) := by
      rw [← Nat.mul_assoc, ← h2]; omega
    refine Nat.lt_of_lt_of_le (Nat.lt_of_mul_lt_mul_left h3) ?_
    rw [hV]
    exact Nat.mul_le_mul_right _ hbig
  obtain ⟨q, r, e, l1, l2, l3, ve⟩ := large_loop_val vp v vt hd htop hvt hm
    (up.drop (np.length - vp.length + 1)) (by rw [List.length_drop]; omega) hhi
    (up.take (np.length - vp.length + 1))
  have ltake : (up.take (np.length - vp.length + 1)).length = np.length - vp.length + 1 := by
    rw [List.length_take]; omega
  rw [ltake] at l1 ve
  rw [← hsplit, vu] at ve
  obtain ⟨g1, g2⟩ := quot_unique _ _ _ _ ve l3
  rw [hV, Nat.mul_div_mul_right _ _ (Nat.two_pow_pos s)] at g1
  rw [hV, Nat.mul_mod_mul_right] at g2
  have hr : ∃ rp, (if s ≠ 0 then (mpn_rshift r s).1 else r) = rp ∧ rp.length = vp.length ∧
      val rp = val np % V := by
    by_cases h : s ≠ 0
    · obtain ⟨a, -, b⟩ := rshift_val r s (by omega) (by rintro rfl; rw [List.length_nil] at l2; omega)
      refine ⟨_, if_pos h, by rw [b, l2], ?_⟩
      rw [a, ← g2, Nat.mul_div_cancel _ (Nat.two_pow_pos s)]
    · have h0 : s = 0 := by omega
      rw [h0, pow_zero, Nat.mul_one] at g2
      exact ⟨_, if_neg h, l2, g2.symm⟩
  obtain ⟨rp, er, lr, vr⟩ := hr
  refine ⟨q, rp, ?_, l1, lr, g1.symm, vr⟩
  unfold mpn_divmod_large_2by1
  dsimp only
  rw [eu, e, C.ok_bind]
  dsimp only
  rw [er]

/-- `mpn_divmod` divides. -/
theorem divmod_val (np dp : List Limb) (hn : Norm dp) (hne : dp ≠ []) (hl : dp.length ≤ np.length) :
    ∃ q r, mpn_divmod np dp = .ok (q, r) ∧ q.length = np.length - dp.length + 1 ∧
      r.length = dp.length ∧ val q = val np / val dp ∧ val r = val np % val dp := by
  have hpos : dp.length ≠ 0 := by have := List.length_pos_iff.2 hne; omega
  obtain ⟨vp, v, vt, s, e, hs, lv, vv, htop, hvt, hm⟩ := precomp_val dp hn hne
  have hbig := norm_val_pos hn hne
  unfold mpn_divmod
  rw [show C.check (decide (dp.length ≠ 0 ∧ dp.length ≤ np.length)) = .ok () by
    simp only [C.check, decide_eq_true_eq, if_pos (show dp.length ≠ 0 ∧ dp.length ≤ np.length from ⟨hpos, hl⟩)]]
  rw [C.ok_bind, e, C.ok_bind]
  unfold mpn_divmod_inner
  dsimp only
  rw [show C.check (decide (dp.length ≤ np.length)) = .ok () by
    simp only [C.check, decide_eq_true_eq, if_pos hl], C.ok_bind]
  by_cases h1 : dp.length = 1
  · rw [if_pos h1]
    obtain ⟨d, hd⟩ := List.length_eq_one_iff.1 h1
    obtain ⟨w, hw⟩ := List.length_eq_one_iff.1 (lv.trans h1)
    subst hd hw
    rw [val_singleton, val_singleton] at vv
    have ht : vt = w := (C.ok.inj htop).symm
    subst ht
    obtain ⟨l, r, ve⟩ := small_loop_val vt v s d.toNat hs vv hvt hm np
    unfold mpn_divmod_small_2by1
    rw [show C.rd [vt] 0 = .ok vt from rfl, C.ok_bind, C.ok_bind]
    obtain ⟨g1, g2⟩ := quot_unique _ _ _ _ ve r
    refine ⟨_, _, rfl, ?_, rfl, ?_, ?_⟩
    · rw [l]; have : [d].length = 1 := rfl; omega
    · rw [val_singleton]; exact g1.symm
    · rw [val_singleton, val_singleton]; exact g2.symm
  · rw [if_neg h1]
    have := large_val np vp v vt s (val dp) hs (by omega) (by omega) vv (by rw [lv]; exact hbig)
      (by rw [lv]; exact htop) hvt hm
    rw [lv] at this
    exact this

theorem divmod_abort (np dp : List Limb) (h : dp = [] ∨ ¬ Norm dp ∨ np.length < dp.length) :
    mpn_divmod np dp = .abort := by
  unfold mpn_divmod
  by_cases hc : dp.length ≠ 0 ∧ dp.length ≤ np.length
  · rw [show C.check (decide (dp.length ≠ 0 ∧ dp.length ≤ np.length)) = .ok () by
      simp only [C.check, decide_eq_true_eq, if_pos hc]]
    have hnn : ¬ Norm dp := by
      rcases h with h | h | h
      · rw [h] at hc; simp at hc
      · exact h
      · omega
    have hl : dp.getLast? = some 0 := by
      unfold Norm at hnn
      by_contra hne
      exact hnn hne
    rw [C.ok_bind, mpn_divmod_precomp, hl]
    rfl
  · rw [show C.check (decide (dp.length ≠ 0 ∧ dp.length ≤ np.length)) = .abort by
      simp only [C.check, decide_eq_true_eq, if_neg hc]]
    rfl

end Torsion.Mpi
