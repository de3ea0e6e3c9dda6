import Verif.Mpi.BitLemmas
import Verif.Mpi.MpnLemmas

/-! Lemmas about dividing two limbs by one. -/
namespace Torsion.Mpi

/-- The quotient digit is at least `q` iff `q * d` does not exceed the number. -/
theorem le_quot {q N d : Nat} (hd : 0 < d) : q ≤ N / d ↔ q * d ≤ N := Nat.le_div_iff_mul_le hd

/-- The digit test of Knuth's algorithm D. -/
theorem digit_test (q r v1 v0 un u : Nat) (hu : q * v1 + r = u) (hv1 : 2 ^ 31 ≤ v1) :
    q * v0 > r * 2 ^ 32 + un ↔ (u * 2 ^ 32 + un) / (v1 * 2 ^ 32 + v0) < q := by
  have h := le_quot (q := q) (N := u * 2 ^ 32 + un) (d := v1 * 2 ^ 32 + v0) (by omega)
  rw [Nat.mul_add, ← hu, Nat.add_mul, ← Nat.mul_assoc] at h
  rw [← hu, Nat.add_mul]
  omega

theorem div_fix_round (vn1 vn0 un q rhat : Limb) (n u : Nat)
    (hu : q.toNat * vn1.toNat + rhat.toNat = u)
    (hr : rhat.toNat < 2 ^ 32) (hv1 : 2 ^ 31 ≤ vn1.toNat) (hv1' : vn1.toNat < 2 ^ 32)
    (hv0 : vn0.toNat < 2 ^ 32) (hun : un.toNat < 2 ^ 32) (hq1 : q.toNat ≤ 2 ^ 32 + 1)
    (hlt : u < vn1.toNat * 2 ^ 32 + vn0.toNat)
    (hge : (u * 2 ^ 32 + un.toNat) / (vn1.toNat * 2 ^ 32 + vn0.toNat) ≤ q.toNat) :
    (mp_div_fix vn1 vn0 un (n + 1) q rhat = .ok q ∧
      q.toNat = (u * 2 ^ 32 + un.toNat) / (vn1.toNat * 2 ^ 32 + vn0.toNat)) ∨
    (∃ q' : Limb, mp_div_fix vn1 vn0 un (n + 1) q rhat = .ok q' ∧
      q'.toNat = (u * 2 ^ 32 + un.toNat) / (vn1.toNat * 2 ^ 32 + vn0.toNat)) ∨
    (∃ q' rhat' : Limb, mp_div_fix vn1 vn0 un (n + 1) q rhat = mp_div_fix vn1 vn0 un n q' rhat' ∧
      q'.toNat * vn1.toNat + rhat'.toNat = u ∧ rhat'.toNat < 2 ^ 32 ∧ vn1.toNat ≤ rhat'.toNat ∧
      rhat'.toNat = rhat.toNat + vn1.toNat ∧ q'.toNat ≤ 2 ^ 32 ∧
      (u * 2 ^ 32 + un.toNat) / (vn1.toNat * 2 ^ 32 + vn0.toNat) ≤ q'.toNat) := by
  have ht := digit_test q.toNat rhat.toNat vn1.toNat vn0.toNat un.toNat u hu hv1
  have hqs : (u * 2 ^ 32 + un.toNat) / (vn1.toNat * 2 ^ 32 + vn0.toNat) < 2 ^ 32 := by
    rw [Nat.div_lt_iff_lt_mul (by omega)]
    omega
  have hdt := fun q r => digit_test q r vn1.toNat vn0.toNat un.toNat u
  rw [mp_div_fix]
  have hb : (0x100000000 : Limb).toNat = 2 ^ 32 := rfl
  have hrb : (rhat * 0x100000000 + un).toNat = rhat.toNat * 2 ^ 32 + un.toNat := by
    rw [BitVec.toNat_add, BitVec.toNat_mul, hb]
    omega
  have htest : (q ≥ (0x100000000 : Limb) ∨ q * vn0 > rhat * 0x100000000 + un) ↔
      (u * 2 ^ 32 + un.toNat) / (vn1.toNat * 2 ^ 32 + vn0.toNat) < q.toNat := by
    simp only [ge_iff_le, gt_iff_lt, BitVec.le_def, BitVec.lt_def, hrb, hb, BitVec.toNat_mul]
    by_cases hqb : 2 ^ 32 ≤ q.toNat
    · simp only [hqb, true_or, true_iff]
      omega
    · have hm : q.toNat * vn0.toNat < 2 ^ 64 := by
        have := mul_half q.toNat vn0.toNat (by omega) hv0
        omega
      rw [Nat.mod_eq_of_lt hm]
      simp only [hqb, false_or]
      exact ht
  dsimp only
  generalize (u * 2 ^ 32 + un.toNat) / (vn1.toNat * 2 ^ 32 + vn0.toNat) = Q at *
  by_cases hc : Q < q.toNat
  · rw [if_pos (htest.2 hc)]
    have hq' : (q - 1).toNat = q.toNat - 1 := by
      rw [BitVec.toNat_sub, show (1 : Limb).toNat = 1 from rfl]
      have := q.isLt; omega
    have hr' : (rhat + vn1).toNat = rhat.toNat + vn1.toNat := by
      rw [BitVec.toNat_add]; omega
    have hu' : (q.toNat - 1) * vn1.toNat + (rhat.toNat + vn1.toNat) = u := by
      obtain ⟨k, hk⟩ : ∃ k, q.toNat = k + 1 := ⟨q.toNat - 1, by omega⟩
      rw [hk] at hu ⊢
      rw [Nat.add_sub_cancel]
      rw [Nat.add_mul] at hu
      omega
    by_cases hbr : (rhat + vn1) ≥ (0x100000000 : Limb)
    · rw [if_pos hbr]
      refine Or.inr (Or.inl ⟨q - 1, rfl, ?_⟩)
      rw [hq']
      by_contra hne
      -- otherwise the test would hold again
      have ht2 := hdt (q.toNat - 1) (rhat.toNat + vn1.toNat) hu' hv1
      rw [ge_iff_le, BitVec.le_def, hr', hb] at hbr
      have hm : (q.toNat - 1) * vn0.toNat ≤ 2 ^ 32 * vn0.toNat := Nat.mul_le_mul_right _ (by omega)
      have := ht2.2 (by omega)
      omega
    · rw [if_neg hbr]
      rw [ge_iff_le, BitVec.le_def, hr', hb] at hbr
      refine Or.inr (Or.inr ⟨q - 1, rhat + vn1, rfl, ?_⟩)
      rw [hq', hr']
      exact ⟨hu', by omega, by omega, rfl, by omega, by omega⟩
  · rw [if_neg (fun h => hc (htest.1 h))]
    exact Or.inl ⟨rfl, by omega⟩

/-- One digit: the estimate and its corrections give the digit of the quotient. -/
theorem div_digit (vn1 vn0 un u : Limb) (hv1 : 2 ^ 31 ≤ vn1.toNat) (hv1' : vn1.toNat < 2 ^ 32)
    (hv0 : vn0.toNat < 2 ^ 32) (hun : un.toNat < 2 ^ 32)
    (hlt : u.toNat < vn1.toNat * 2 ^ 32 + vn0.toNat) :
    ∃ q : Limb, mp_div_fix vn1 vn0 un 3 (u / vn1) (u - u / vn1 * vn1) = .ok q ∧
      q.toNat = (u.toNat * 2 ^ 32 + un.toNat) / (vn1.toNat * 2 ^ 32 + vn0.toNat) := by
  have hqn : (u / vn1).toNat = u.toNat / vn1.toNat := by rw [BitVec.toNat_udiv]
  have hmul : u.toNat / vn1.toNat * vn1.toNat ≤ u.toNat := Nat.div_mul_le_self _ _
  have hmm : vn1.toNat * (u.toNat / vn1.toNat) + u.toNat % vn1.toNat = u.toNat := Nat.div_add_mod _ _
  have hml : u.toNat % vn1.toNat < vn1.toNat := Nat.mod_lt _ (by omega)
  rw [Nat.mul_comm] at hmm
  have hrn : (u - u / vn1 * vn1).toNat = u.toNat % vn1.toNat := by
    rw [BitVec.toNat_sub, BitVec.toNat_mul, hqn]
    have := u.isLt
    rw [Nat.mod_eq_of_lt (a := u.toNat / vn1.toNat * vn1.toNat) (by omega)]
    omega
  have hq1 : u.toNat / vn1.toNat ≤ 2 ^ 32 + 1 := by
    have : u.toNat / vn1.toNat < 2 ^ 32 + 2 := by
      rw [Nat.div_lt_iff_lt_mul (by omega), Nat.add_mul]; omega
    omega
  have hge : (u.toNat * 2 ^ 32 + un.toNat) / (vn1.toNat * 2 ^ 32 + vn0.toNat) ≤ u.toNat / vn1.toNat := by
    apply Nat.le_of_lt_succ
    rw [Nat.div_lt_iff_lt_mul (by omega)]
    generalize u.toNat / vn1.toNat = q at *
    rw [Nat.succ_mul, Nat.mul_add, ← Nat.mul_assoc]
    omega
  rcases div_fix_round vn1 vn0 un (u / vn1) (u - u / vn1 * vn1) 2 u.toNat (by rw [hqn, hrn]; exact hmm)
    (by rw [hrn]; omega) hv1 hv1' hv0 hun (by rw [hqn]; exact hq1) hlt (by rw [hqn]; exact hge)
    with ⟨e, h⟩ | ⟨q', e, h⟩ | ⟨q', r', e, h1, h2, h3, -, h5, h6⟩
  · exact ⟨_, e, h⟩
  · exact ⟨_, e, h⟩
  · rcases div_fix_round vn1 vn0 un q' r' 1 u.toNat h1 h2 hv1 hv1' hv0 hun (by omega) hlt h6
      with ⟨e', h⟩ | ⟨q'', e', h⟩ | ⟨q'', r'', -, -, g2, -, g4, -, -⟩
    · exact ⟨_, e.trans e', h⟩
    · exact ⟨_, e.trans e', h⟩
    · omega

/-- Two digits, one after the other, divide. -/
theorem two_digits (u n1 n0 d : Nat) (hd : 0 < d) :
    (u * 2 ^ 64 + (n1 * 2 ^ 32 + n0)) / d
      = (u * 2 ^ 32 + n1) / d * 2 ^ 32 + ((u * 2 ^ 32 + n1) % d * 2 ^ 32 + n0) / d ∧
    (u * 2 ^ 64 + (n1 * 2 ^ 32 + n0)) % d = ((u * 2 ^ 32 + n1) % d * 2 ^ 32 + n0) % d := by
  have h := Nat.div_add_mod (u * 2 ^ 32 + n1) d
  have e : u * 2 ^ 64 + (n1 * 2 ^ 32 + n0)
      = d * ((u * 2 ^ 32 + n1) / d * 2 ^ 32) + ((u * 2 ^ 32 + n1) % d * 2 ^ 32 + n0) := by
    generalize (u * 2 ^ 32 + n1) / d = q at *
    generalize (u * 2 ^ 32 + n1) % d = r at *
    rw [← Nat.mul_assoc]
    omega
  rw [e, Nat.mul_add_div hd, Nat.mul_add_mod]
  exact ⟨rfl, rfl⟩

theorem rem_wrap (p r u un : Nat) (h : p + r = u * 2 ^ 32 + un) (hr : r < 2 ^ 64) :
    (2 ^ 64 - p % 2 ^ 64 + (u * 2 ^ 32 % 2 ^ 64 + un) % 2 ^ 64) % 2 ^ 64 = r := by omega

theorem join_wrap (a b : Nat) (h : a * 2 ^ 32 + b < 2 ^ 64) : (a * 2 ^ 32 % 2 ^ 64 + b) % 2 ^ 64 = a * 2 ^ 32 + b := by
  omega

/-- The remainder after a digit, computed modulo `2^64`. -/
theorem digit_rem (u un q d : Limb) (h : q.toNat = (u.toNat * 2 ^ 32 + un.toNat) / d.toNat) (hd : 0 < d.toNat) :
    (u * 0x100000000 + un - q * d).toNat = (u.toNat * 2 ^ 32 + un.toNat) % d.toNat := by
  have hm := Nat.div_add_mod (u.toNat * 2 ^ 32 + un.toNat) d.toNat
  have hl := Nat.mod_lt (u.toNat * 2 ^ 32 + un.toNat) hd
  have hdl := d.isLt
  rw [Nat.mul_comm, ← h] at hm
  rw [BitVec.toNat_sub, BitVec.toNat_mul, BitVec.toNat_add, BitVec.toNat_mul,
    show (0x100000000 : Limb).toNat = 2 ^ 32 from rfl]
  exact rem_wrap _ _ _ _ hm (Nat.lt_trans hl hdl)

theorem clz_norm (d : Limb) (h : d ≠ 0) : mp_clz d < 64 ∧ 2 ^ 63 ≤ d.toNat * 2 ^ mp_clz d ∧
    d.toNat * 2 ^ mp_clz d < 2 ^ 64 := by
  have h1 := size_le d
  have h0 : d.toNat ≠ 0 := fun e => h (BitVec.eq_of_toNat_eq e)
  have h2 : 0 < Nat.size d.toNat := Nat.size_pos.2 (by omega)
  have h3 : d.toNat < 2 ^ Nat.size d.toNat := Nat.lt_size_self _
  have h4 : 2 ^ (Nat.size d.toNat - 1) ≤ d.toNat := Nat.lt_size.1 (by omega)
  rw [mp_clz_eq]
  generalize Nat.size d.toNat = s at *
  refine ⟨by omega, ?_, ?_⟩
  · calc 2 ^ 63 = 2 ^ (s - 1) * 2 ^ (64 - s) := by rw [← pow_add]; congr 1; omega
      _ ≤ _ := Nat.mul_le_mul_right _ h4
  · calc _ < 2 ^ s * 2 ^ (64 - s) := Nat.mul_lt_mul_of_pos_right h3 (Nat.two_pow_pos _)
      _ = 2 ^ 64 := by rw [← pow_add]; congr 1; omega

/-- The two digits of a normalised division. -/
theorem div_core (D un32 un10 : Limb) (hD1 : 2 ^ 63 ≤ D.toNat) (hlt : un32.toNat < D.toNat) :
    ∃ q1 q0 : Limb,
      mp_div_fix (D >>> 32) (D &&& MP_LOW_MASK) (un10 >>> 32) 3 (un32 / (D >>> 32))
        (un32 - un32 / (D >>> 32) * (D >>> 32)) = .ok q1 ∧
      (let un21 := un32 * (0x100000000 : Limb) + (un10 >>> 32) - q1 * D
       mp_div_fix (D >>> 32) (D &&& MP_LOW_MASK) (un10 &&& MP_LOW_MASK) 3 (un21 / (D >>> 32))
        (un21 - un21 / (D >>> 32) * (D >>> 32)) = .ok q0 ∧
       (un21 * 0x100000000 + (un10 &&& MP_LOW_MASK) - q0 * D).toNat
        = (un32.toNat * 2 ^ 64 + un10.toNat) % D.toNat) ∧
      q1.toNat * 2 ^ 32 + q0.toNat = (un32.toNat * 2 ^ 64 + un10.toNat) / D.toNat := by
  have hv1 : (D >>> 32).toNat = D.toNat / 2 ^ 32 := shr_toNat D 32
  have hv0 : (D &&& MP_LOW_MASK).toNat = D.toNat % 2 ^ 32 := low_toNat D
  have hu1 : (un10 >>> 32).toNat = un10.toNat / 2 ^ 32 := shr_toNat _ 32
  have hu0 : (un10 &&& MP_LOW_MASK).toNat = un10.toNat % 2 ^ 32 := low_toNat _
  have hDs : (D >>> 32).toNat * 2 ^ 32 + (D &&& MP_LOW_MASK).toNat = D.toNat := by rw [hv1, hv0]; omega
  have hun : un10.toNat = (un10 >>> 32).toNat * 2 ^ 32 + (un10 &&& MP_LOW_MASK).toNat := by
    rw [hu1, hu0]; omega
  have hul := un10.isLt
  have hDl := D.isLt
  have hpos : 0 < D.toNat := by omega
  have b1 : 2 ^ 31 ≤ (D >>> 32).toNat := by omega
  have b2 : (D >>> 32).toNat < 2 ^ 32 := by omega
  have b3 : (D &&& MP_LOW_MASK).toNat < 2 ^ 32 := by omega
  have b4 : (un10 >>> 32).toNat < 2 ^ 32 := by omega
  have b5 : (un10 &&& MP_LOW_MASK).toNat < 2 ^ 32 := by omega
  generalize D >>> 32 = vn1 at *
  generalize D &&& MP_LOW_MASK = vn0 at *
  generalize un10 >>> 32 = un1 at *
  generalize un10 &&& MP_LOW_MASK = un0 at *
  obtain ⟨q1, e1, v1⟩ := div_digit vn1 vn0 un1 un32 b1 b2 b3 b4 (by rw [hDs]; exact hlt)
  rw [hDs] at v1
  have hrem := digit_rem un32 un1 q1 D v1 hpos
  have hrl := Nat.mod_lt (un32.toNat * 2 ^ 32 + un1.toNat) hpos
  rw [← hrem] at hrl
  obtain ⟨q0, e0, v0⟩ := div_digit vn1 vn0 un0 (un32 * 0x100000000 + un1 - q1 * D)
    b1 b2 b3 b5 (by rw [hDs]; exact hrl)
  rw [hDs] at v0
  have hrem0 := digit_rem _ un0 q0 D v0 hpos
  obtain ⟨t1, t2⟩ := two_digits un32.toNat un1.toNat un0.toNat D.toNat hpos
  rw [← hun, ← hrem] at t1 t2
  refine ⟨q1, q0, e1, ⟨e0, ?_⟩, ?_⟩
  · rw [t2]; exact hrem0
  · rw [t1, v1, v0]

theorem mp_div_norm_val (n1 n0 d : Limb) (s : Nat) (h : n1.toNat < d.toNat) (hs : s < 64)
    (hD1 : 2 ^ 63 ≤ d.toNat * 2 ^ s) (hD2 : d.toNat * 2 ^ s < 2 ^ 64) :
    ∃ q r, mp_div_norm n1 n0 d s = .ok (q, r) ∧
      q.toNat = (n1.toNat * 2 ^ 64 + n0.toNat) / d.toNat ∧
      r.toNat = (n1.toNat * 2 ^ 64 + n0.toNat) % d.toNat := by
  unfold mp_div_norm
  dsimp only
  have hD : (d <<< s).toNat = d.toNat * 2 ^ s := by
    rw [shl_toNat, Nat.mod_eq_of_lt hD2]
  -- the shifted numerator
  have hU : ∃ u : Limb × Limb,
      (if s ≠ 0 then ((n1 <<< s) ||| (n0 >>> (64 - s)), n0 <<< s) else (n1, n0)) = u ∧
      u.1.toNat * 2 ^ 64 + u.2.toNat = (n1.toNat * 2 ^ 64 + n0.toNat) * 2 ^ s := by
    by_cases h0 : s ≠ 0
    · refine ⟨_, if_pos h0, ?_⟩
      rw [shl_or n0 n1 s (by omega), shl_toNat]
      have e := shl_split n0 s (by omega)
      have hn1 : n1.toNat * 2 ^ s < 2 ^ 64 :=
        Nat.lt_of_le_of_lt (Nat.mul_le_mul_right _ (Nat.le_of_lt h)) hD2
      rw [Nat.mod_eq_of_lt hn1]
      linear_combination e
    · have h0' : s = 0 := by omega
      exact ⟨_, if_neg h0, by rw [h0', pow_zero, Nat.mul_one]⟩
  obtain ⟨u, eU, vU⟩ := hU
  rw [eU]
  have hlt : u.1.toNat < d.toNat * 2 ^ s := by
    have : (n1.toNat * 2 ^ 64 + n0.toNat) * 2 ^ s < d.toNat * 2 ^ s * 2 ^ 64 := by
      rw [Nat.mul_assoc, Nat.mul_comm (2 ^ s), ← Nat.mul_assoc]
      apply Nat.mul_lt_mul_of_pos_right _ (Nat.two_pow_pos _)
      have := n0.isLt; omega
    omega
  rw [← hD] at hlt hD1
  obtain ⟨q1, q0, e1, ⟨e0, hr⟩, hq⟩ := div_core (d <<< s) u.1 u.2 hD1 hlt
  rw [e1, C.ok_bind, e0, C.ok_bind]
  rw [vU, hD, Nat.mul_div_mul_right _ _ (Nat.two_pow_pos s)] at hq
  rw [vU, hD, Nat.mul_mod_mul_right] at hr
  refine ⟨_, _, rfl, ?_, ?_⟩
  · rw [← hq, BitVec.toNat_add, BitVec.toNat_mul, show (0x100000000 : Limb).toNat = 2 ^ 32 from rfl]
    apply join_wrap
    rw [hq, Nat.div_lt_iff_lt_mul (Nat.lt_of_le_of_lt (Nat.zero_le _) h), Nat.mul_comm]
    have := n0.isLt
    clear hq hr
    omega
  · rw [shr_toNat, hr, Nat.mul_div_cancel _ (Nat.two_pow_pos s)]

/-- `mp_div` divides two limbs by one when the quotient fits a limb. -/
theorem mp_div_val (n1 n0 d : Limb) (h : n1.toNat < d.toNat) :
    ∃ q r, mp_div n1 n0 d = .ok (q, r) ∧
      q.toNat = (n1.toNat * 2 ^ 64 + n0.toNat) / d.toNat ∧
      r.toNat = (n1.toNat * 2 ^ 64 + n0.toNat) % d.toNat := by
  have hd0 : d ≠ 0 := by intro e; rw [e] at h; exact absurd h (Nat.not_lt_zero _)
  unfold mp_div
  by_cases hn : n1 = 0
  · rw [if_pos hn, if_neg hd0]
    refine ⟨_, _, rfl, ?_, ?_⟩
    · rw [hn, BitVec.toNat_udiv]; simp
    · rw [hn, BitVec.toNat_sub, BitVec.toNat_mul, BitVec.toNat_udiv]
      have h1 := Nat.div_mul_le_self n0.toNat d.toNat
      have h2 := Nat.div_add_mod n0.toNat d.toNat
      have h3 := n0.isLt
      rw [Nat.mul_comm] at h2
      rw [Nat.mod_eq_of_lt (a := n0.toNat / d.toNat * d.toNat) (by omega),
        show (0 : Limb).toNat = 0 from rfl, Nat.zero_mul, Nat.zero_add]
      omega
  · rw [if_neg hn, if_neg (show ¬ n1 ≥ d by rw [ge_iff_le, BitVec.le_def]; omega)]
    obtain ⟨hs, hD1, hD2⟩ := clz_norm d hd0
    exact mp_div_norm_val n1 n0 d _ h hs hD1 hD2

/-- `mp_div` aborts on a quotient beyond a limb. -/
theorem mp_div_large (n1 n0 d : Limb) (h : d.toNat ≤ n1.toNat) (h1 : n1 ≠ 0) :
    mp_div n1 n0 d = .abort := by
  unfold mp_div
  rw [if_neg h1, if_pos (show n1 ≥ d by rw [ge_iff_le, BitVec.le_def]; exact h)]

/-- The reciprocal `(2^128 - 1) / d - 2^64`. -/
theorem mp_inv_2by1_val (d : Limb) (h : 2 ^ 63 ≤ d.toNat) :
    ∃ v, mp_inv_2by1 d = .ok v ∧ v.toNat + 2 ^ 64 = (2 ^ 128 - 1) / d.toNat := by
  unfold mp_inv_2by1
  have hd := d.isLt
  have hn : (~~~d).toNat = 2 ^ 64 - 1 - d.toNat := BitVec.toNat_not
  obtain ⟨q, r, e, v, -⟩ := mp_div_val (~~~d) (~~~0) d (by omega)
  rw [e, C.ok_bind]
  refine ⟨q, rfl, ?_⟩
  rw [v, hn, show (~~~(0 : Limb)).toNat = 2 ^ 64 - 1 from rfl]
  have : 2 ^ 128 - 1 = (2 ^ 64 - 1 - d.toNat) * 2 ^ 64 + (2 ^ 64 - 1) + d.toNat * 2 ^ 64 := by omega
  rw [this, Nat.add_mul_div_left _ _ (by omega)]

end Torsion.Mpi
