import Verif.Mpi.Root
import Verif.Mpi.MpzBitOps
import Verif.Mpi.MpzScan
import Verif.Mpi.MpzMore
import Verif.Mpi.MpzDiv

/-!
# Lemmas: integer roots
-/
namespace Torsion.Mpi

open Spec (Rep Room val bit)

/-- `r^k + (k-1) s^k ≥ k s^(k-1) r`, shifted to avoid subtraction. -/
theorem bernoulli (r s : Nat) : ∀ k : Nat, (k + 1) * s ^ k * r ≤ r ^ (k + 1) + k * s ^ (k + 1)
  | 0 => by simp
  | k + 1 => by
    have ih := bernoulli r s k
    have h1 : r * ((k + 1) * s ^ k * r) ≤ r * (r ^ (k + 1) + k * s ^ (k + 1)) := Nat.mul_le_mul_left _ ih
    have h2 : 2 * (s * r) ≤ s * s + r * r := by
      have := two_mul_le_add_sq (s : Int) r
      have : 2 * ((s : Int) * r) ≤ s * s + r * r := by nlinarith
      exact_mod_cast this
    have h3 : (k + 1) * s ^ k * (2 * (s * r)) ≤ (k + 1) * s ^ k * (s * s + r * r) := Nat.mul_le_mul_left _ h2
    have e1 : (k + 1) * s ^ k * (2 * (s * r)) = 2 * (k + 1) * (s ^ (k + 1) * r) := by ring
    have e2 : (k + 1) * s ^ k * (s * s + r * r) = (k + 1) * s ^ (k + 2) + r * ((k + 1) * s ^ k * r) := by ring
    have e3 : r * (r ^ (k + 1) + k * s ^ (k + 1)) = r ^ (k + 2) + k * (s ^ (k + 1) * r) := by ring
    have e4 : (k + 1 + 1) * s ^ (k + 1) * r = (k + 2) * (s ^ (k + 1) * r) := by ring
    have e5 : r ^ (k + 1 + 1) = r ^ (k + 2) := rfl
    have e6 : s ^ (k + 1 + 1) = s ^ (k + 2) := rfl
    rw [e1, e2] at h3; rw [e3] at h1; rw [e4, e5, e6]
    generalize s ^ (k + 1) * r = A at *
    generalize r ^ (k + 2) = B at *
    generalize s ^ (k + 2) = D at *
    generalize r * ((k + 1) * s ^ k * r) = E at *
    nlinarith

/-- One Newton step does not go below a root. -/
theorem newton_ge {X r s k : Nat} (hs : 0 < s) (hr : r ^ (k + 1) ≤ X) : r ≤ (s * k + X / s ^ k) / (k + 1) := by
  rw [Nat.le_div_iff_mul_le (Nat.succ_pos k)]
  have hb := bernoulli r s k
  have h1 : (k + 1) * r * s ^ k ≤ X + k * s * s ^ k := by
    calc (k + 1) * r * s ^ k = (k + 1) * s ^ k * r := by ring
      _ ≤ r ^ (k + 1) + k * s ^ (k + 1) := hb
      _ ≤ X + k * s * s ^ k := by rw [pow_succ s k]; nlinarith
  have hp : 0 < s ^ k := Nat.pos_of_ne_zero (pow_ne_zero _ (by omega))
  have h2 : (k + 1) * r ≤ (X + k * s * s ^ k) / s ^ k := (Nat.le_div_iff_mul_le hp).2 h1
  rw [Nat.add_mul_div_right _ _ hp] at h2
  calc r * (k + 1) = (k + 1) * r := by ring
    _ ≤ X / s ^ k + k * s := h2
    _ = s * k + X / s ^ k := by ring

/-- A Newton step that does not go down starts at or below the root. -/
theorem newton_stop {X s k : Nat} (hs : 0 < s) (h : s ≤ (s * k + X / s ^ k) / (k + 1)) : s ^ (k + 1) ≤ X := by
  rw [Nat.le_div_iff_mul_le (Nat.succ_pos k)] at h
  have hp : 0 < s ^ k := Nat.pos_of_ne_zero (pow_ne_zero _ (by omega))
  have h2 : s ≤ X / s ^ k := by nlinarith
  rw [Nat.le_div_iff_mul_le hp] at h2
  calc s ^ (k + 1) = s * s ^ k := by ring
    _ ≤ X := h2

theorem size_lt (n : Nat) : n < 2 ^ Nat.size n := Nat.lt_size_self n

/-- The floor root is the only number with its two bounds. -/
theorem root_unique {X a b k : Nat} (h1 : a ^ k ≤ X) (h2 : X < (a + 1) ^ k) (h3 : b ^ k ≤ X)
    (h4 : X < (b + 1) ^ k) : a = b := by
  by_contra hne
  rcases Nat.lt_or_gt_of_ne hne with h | h
  · have := Nat.pow_le_pow_left (show a + 1 ≤ b from h) k; omega
  · have := Nat.pow_le_pow_left (show b + 1 ≤ a from h) k; omega

theorem cmpabs_lt {x y : Mpz} {i j : Int} (hx : Rep x i) (hy : Rep y j) :
    (mpz_cmpabs x y < 0) ↔ i.natAbs < j.natAbs := by
  rw [cmpabs_rep hx hy]
  split_ifs <;> omega

theorem sqrt_loop_val {x : Mpz} {X : Nat} (hx : Rep x X) (hX : 0 < X) : ∀ (n m : Nat) (s : Mpz),
    m < n → Rep s m → (∀ r : Nat, r ^ 2 ≤ X → r ≤ m) →
    ∃ t R, mpz_sqrt_loop x n s = .ok t ∧ Rep t (R : Nat) ∧ R ^ 2 ≤ X ∧ X < (R + 1) ^ 2 := by
  intro n
  induction n with
  | zero => intro m s h; omega
  | succ n ih =>
    intro m s hm hs hinv
    have hm0 : 0 < m := hinv 1 (by omega)
    unfold mpz_sqrt_loop
    obtain ⟨t, et, rt⟩ := quo_rep (q := .heap) hx hs (by omega) trivial
    obtain ⟨t2, et2, rt2⟩ := add_rep (z := .heap) hs rt trivial
    obtain ⟨u, eu, ru⟩ := quo_2exp_rep (z := .heap) 1 rt2 trivial
    rw [et, C.ok_bind, et2, C.ok_bind, eu, C.ok_bind]
    have hv : ((m : Int) + (X : Int).tdiv m).tdiv (2 ^ 1) = (((m * 1 + X / m ^ 1) / (1 + 1) : Nat) : Int) := by
      rw [Int.tdiv_eq_ediv_of_nonneg (a := (X : Int)) (by omega), Int.tdiv_eq_ediv_of_nonneg (by positivity)]
      push_cast; simp
    rw [hv] at ru
    by_cases hlt : (m * 1 + X / m ^ 1) / (1 + 1) < m
    · rw [if_pos ((cmpabs_lt ru hs).2 (by rw [Int.natAbs_natCast, Int.natAbs_natCast]; exact hlt))]
      exact ih _ u (by omega) ru (fun r hr => newton_ge hm0 hr)
    · rw [if_neg (by rw [cmpabs_lt ru hs, Int.natAbs_natCast, Int.natAbs_natCast]; exact hlt)]
      refine ⟨s, m, rfl, hs, newton_stop hm0 (not_lt.1 hlt), ?_⟩
      by_contra hc
      have := hinv (m + 1) (not_lt.1 hc)
      omega

theorem setbit_zero (b : Nat) : ∃ u, mpz_setbit ⟨false, []⟩ b = .ok u ∧ Rep u ((2 ^ b : Nat) : Int) := by
  obtain ⟨u, e, ru⟩ := setbit_rep b zero_rep
  have hb : bit 0 b = false := by
    have := bit_nonneg 0 b
    simpa using this
  rw [hb] at ru
  refine ⟨u, e, ?_⟩
  simpa using ru

/-- C40 core: `mpz_sqrtrem`. -/
theorem sqrtrem_val {x : Mpz} {X : Nat} (hx : Rep x X) :
    ∃ s r, mpz_sqrtrem x = .ok (s, r) ∧ Rep s (Nat.sqrt X : Nat) ∧ Rep r ((X - Nat.sqrt X ^ 2 : Nat) : Int) := by
  unfold mpz_sqrtrem
  rw [if_neg (by rw [rep_sizen hx]; omega)]
  by_cases h0 : X = 0
  · rw [if_pos ((rep_size0 hx).2 (by omega))]
    exact ⟨_, _, rfl, by rw [h0]; exact zero_rep, by rw [h0]; exact zero_rep⟩
  rw [if_neg (by rw [rep_size0 hx]; omega), bitlen_rep hx, C.ok_bind]
  obtain ⟨u, eu, ru⟩ := setbit_zero ((Nat.size (X : Int).natAbs + 1) / 2 + 1)
  rw [eu, C.ok_bind]
  rw [Int.natAbs_natCast] at ru
  obtain ⟨s, R, es, rs, h1, h2⟩ := sqrt_loop_val hx (by omega) (2 ^ (64 * u.mag.length)) _ u
    (by simpa using rep_lt ru) ru (by
      intro r hr
      by_contra hc
      have h3 := Nat.pow_le_pow_left (Nat.le_of_lt (not_le.1 hc)) 2
      rw [← pow_mul] at h3
      have h4 : 2 ^ Nat.size X ≤ 2 ^ (((Nat.size X + 1) / 2 + 1) * 2) := Nat.pow_le_pow_right (by omega) (by omega)
      have := size_lt X
      omega)
  rw [es, C.ok_bind]
  obtain ⟨t, et, rt⟩ := sqr_rep (z := .heap) false rs trivial
  rw [et, C.ok_bind]
  obtain ⟨r, er, rr⟩ := sub_rep (z := .heap) hx rt trivial
  rw [er, C.ok_bind]
  have hR : R = Nat.sqrt X := by
    have := Nat.sqrt_le' X
    have := Nat.lt_succ_sqrt' X
    exact root_unique (k := 2) h1 h2 (Nat.sqrt_le' X) this
  refine ⟨s, r, rfl, by rw [← hR]; exact rs, ?_⟩
  rw [← hR, Nat.cast_sub h1]
  push_cast
  rw [show (X : Int) - R ^ 2 = X - R * R by ring]
  exact rr

theorem perfect_square_val {x : Mpz} {i : Int} (hx : Rep x i) :
    ∃ b, mpz_perfect_square_p x = .ok b ∧ (b = true ↔ ∃ a : Int, a * a = i) := by
  unfold mpz_perfect_square_p
  by_cases hi : i < 0
  · rw [if_pos ((rep_sizen hx).2 hi)]
    refine ⟨false, rfl, by simp, ?_⟩
    rintro ⟨a, ha⟩
    exfalso
    nlinarith [mul_self_nonneg a]
  · rw [if_neg (by rw [rep_sizen hx]; exact hi)]
    obtain ⟨X, rfl⟩ := Int.eq_ofNat_of_zero_le (not_lt.1 hi)
    obtain ⟨s, r, e, rs, rr⟩ := sqrtrem_val hx
    rw [e, C.ok_bind]
    refine ⟨_, rfl, ?_⟩
    rw [decide_eq_true_iff, rep_size0 rr]
    have hle := Nat.sqrt_le' X
    constructor
    · intro h
      refine ⟨Nat.sqrt X, ?_⟩
      have : X = Nat.sqrt X ^ 2 := by omega
      conv_rhs => rw [this]
      push_cast; ring
    · rintro ⟨a, ha⟩
      have : X = a.natAbs * a.natAbs := by
        have := congrArg Int.natAbs ha
        rw [Int.natAbs_mul] at this
        simpa using this.symm
      have h2 : Nat.sqrt X = a.natAbs := by rw [this, Nat.sqrt_eq]
      rw [h2, this]
      simp [pow_two]

/-! ## Roots of any degree -/

theorem root_bit_ge {n : Nat} {k : Limb} (hk : k ≠ 0) (hn : n < 2 ^ 63) :
    n ≤ mpz_root_bit n k * k.toNat := by
  have hk0 : 0 < k.toNat := Nat.pos_of_ne_zero (fun e => hk (BitVec.eq_of_toNat_eq e))
  have hkl := k.isLt
  unfold mpz_root_bit
  have e : (BitVec.ofNat 64 n + k - 1).toNat = (n + k.toNat - 1) % 2 ^ 64 := by
    rw [BitVec.toNat_sub, BitVec.toNat_add, BitVec.toNat_ofNat, show (1 : BitVec 64).toNat = 1 from rfl]
    omega
  rw [BitVec.toNat_add, BitVec.toNat_udiv, e, show (1 : BitVec 64).toNat = 1 from rfl]
  by_cases hw : n + k.toNat - 1 < 2 ^ 64
  · rw [Nat.mod_eq_of_lt hw]
    by_cases h1 : k.toNat = 1
    · rw [h1, Nat.div_one, Nat.mod_eq_of_lt (by omega)]; omega
    · have h2 : (n + k.toNat - 1) / k.toNat ≤ (n + k.toNat - 1) / 2 := Nat.div_le_div_left (by omega) (by omega)
      rw [Nat.mod_eq_of_lt (by omega)]
      have h3 := Nat.lt_div_mul_add (a := n + k.toNat - 1) hk0
      rw [Nat.add_mul]
      omega
  · have h2 : (n + k.toNat - 1) % 2 ^ 64 < 2 ^ 63 := by omega
    have h3 : (n + k.toNat - 1) % 2 ^ 64 / k.toNat = 0 := Nat.div_eq_of_lt (by omega)
    rw [h3]
    simp only [Nat.zero_add]
    rw [show (1 : Nat) % 2 ^ 64 = 1 from rfl]
    omega

theorem root_loop_val {x : Mpz} {X : Nat} {e : Int} {k : Limb} (hk : k ≠ 0) (he : e = 1 ∨ e = -1)
    (hek : e ^ (k.toNat - 1) = 1) (hx : Rep x (e * X)) (hX : 0 < X) : ∀ (n m : Nat) (s : Mpz),
    m < n → Rep s (e * m) → (∀ r : Nat, r ^ k.toNat ≤ X → r ≤ m) →
    ∃ t R, mpz_root_loop x k n s = .ok t ∧ Rep t (e * (R : Nat)) ∧ R ^ k.toNat ≤ X ∧ X < (R + 1) ^ k.toNat := by
  have hk0 : 0 < k.toNat := Nat.pos_of_ne_zero (fun e => hk (BitVec.eq_of_toNat_eq e))
  have hk1 : (k - 1).toNat = k.toNat - 1 := by
    rw [BitVec.toNat_sub, show (1 : BitVec 64).toNat = 1 from rfl]
    have := k.isLt
    omega
  obtain ⟨j, hj⟩ : ∃ j, k.toNat = j + 1 := ⟨k.toNat - 1, by omega⟩
  intro n
  induction n with
  | zero => intro m s h; omega
  | succ n ih =>
    intro m s hm hs hinv
    have hm0 : 0 < m := hinv 1 (by rw [one_pow]; omega)
    unfold mpz_root_loop
    obtain ⟨t, et, rt⟩ := pow_ui_rep (k - 1) hs
    rw [hk1, mul_pow, hek, one_mul] at rt
    have hp : 0 < m ^ (k.toNat - 1) := Nat.pos_of_ne_zero (pow_ne_zero _ (by omega))
    obtain ⟨u, eu, ru⟩ := quo_rep (q := .heap) hx rt (by exact_mod_cast (by omega : m ^ (k.toNat - 1) ≠ 0)) trivial
    obtain ⟨t2, et2, rt2⟩ := mul_ui_rep (z := .heap) (k - 1) hs trivial
    obtain ⟨t3, et3, rt3⟩ := add_rep (z := .heap) rt2 ru trivial
    obtain ⟨v, w, ev, rv, -⟩ := quo_ui_rep (q := some .heap) k hk rt3 (roomO_some trivial)
    rw [et, C.ok_bind, eu, C.ok_bind, et2, C.ok_bind, et3, C.ok_bind, ev, C.ok_bind]
    dsimp only
    have hv : (e * m * ((k - 1).toNat : Int) + (e * (X : Int)).tdiv ((m : Int) ^ (k.toNat - 1))).tdiv k.toNat =
        e * (((m * j + X / m ^ j) / (j + 1) : Nat) : Int) := by
      rw [hk1, hj, Nat.add_sub_cancel]
      rcases he with rfl | rfl
      · rw [one_mul, one_mul, one_mul, Int.tdiv_eq_ediv_of_nonneg (a := (X : Int)) (by omega), Int.tdiv_eq_ediv_of_nonneg (by positivity)]
        push_cast; rfl
      · rw [show (-1 : Int) * X = -X by ring, Int.neg_tdiv,
          show (-1 : Int) * m * (j : Int) + -(X : Int).tdiv ((m : Int) ^ j) = -((m : Int) * j + (X : Int).tdiv ((m : Int) ^ j)) by ring,
          Int.neg_tdiv, Int.tdiv_eq_ediv_of_nonneg (a := (X : Int)) (by omega), Int.tdiv_eq_ediv_of_nonneg (by positivity)]
        push_cast; ring
    rw [hv] at rv
    have habs : ∀ a : Nat, (e * (a : Int)).natAbs = a := by
      intro a; rcases he with rfl | rfl <;> simp
    by_cases hlt : (m * j + X / m ^ j) / (j + 1) < m
    · rw [if_pos ((cmpabs_lt rv hs).2 (by rw [habs, habs]; exact hlt))]
      exact ih _ v (by omega) rv (fun r hr => newton_ge hm0 (by rw [← hj]; exact hr))
    · rw [if_neg (by rw [cmpabs_lt rv hs, habs, habs]; exact hlt)]
      refine ⟨s, m, rfl, hs, by rw [hj]; exact newton_stop hm0 (not_lt.1 hlt), ?_⟩
      by_contra hc
      have := hinv (m + 1) (not_lt.1 hc)
      omega

theorem even_test (k : Limb) : (k &&& 1 = 0) ↔ k.toNat % 2 = 0 := by
  have := odd_test k
  constructor
  · intro h
    by_contra hc
    exact (this.2 (by omega)) h
  · intro h
    by_contra hc
    have := this.1 hc
    omega

/-- C40 core: `mpz_rootrem`. -/
theorem rootrem_val {x : Mpz} {i : Int} {k : Limb} (hx : Rep x i) (hk : k ≠ 0) (hs : 0 ≤ i ∨ k.toNat % 2 = 1)
    (hsz : x.mag.length < 2 ^ 57) :
    ∃ s r R, mpz_rootrem x k = .ok (s, r) ∧ Rep s (i.sign * (R : Nat)) ∧ R ^ k.toNat ≤ i.natAbs ∧
      i.natAbs < (R + 1) ^ k.toNat ∧ Rep r (i - (i.sign * (R : Nat)) ^ k.toNat) := by
  have hk0 : 0 < k.toNat := Nat.pos_of_ne_zero (fun e => hk (BitVec.eq_of_toNat_eq e))
  unfold mpz_rootrem
  rw [if_neg hk, if_neg (by rw [rep_sizen hx, even_test]; omega)]
  by_cases h0 : i = 0
  · rw [if_pos ((rep_size0 hx).2 h0)]
    subst h0
    refine ⟨_, _, 0, rfl, by simpa using zero_rep, ?_, ?_, ?_⟩
    · rw [zero_pow (by omega)]; simp
    · simp
    · rw [Int.sign_zero, Int.zero_mul, zero_pow (by omega)]; exact zero_rep
  rw [if_neg (by rw [rep_size0 hx]; exact h0), bitlen_rep hx, C.ok_bind]
  have hbits : Nat.size i.natAbs < 2 ^ 63 := by
    have h1 := rep_lt hx
    have h2 : Nat.size i.natAbs ≤ 64 * x.mag.length := Nat.size_le.2 h1
    omega
  obtain ⟨u, eu, ru⟩ := setbit_zero (mpz_root_bit (Nat.size i.natAbs) k)
  rw [eu, C.ok_bind]
  have he : i.sign = 1 ∨ i.sign = -1 := by
    rcases lt_trichotomy i 0 with h | h | h
    · exact Or.inr (Int.sign_eq_neg_one_of_neg h)
    · exact absurd h h0
    · exact Or.inl (Int.sign_eq_one_of_pos h)
  have hek : i.sign ^ (k.toNat - 1) = 1 := by
    rcases he with h | h
    · rw [h, one_pow]
    · rw [h]
      have : i < 0 := Int.sign_eq_neg_one_iff_neg.1 h
      have : Even (k.toNat - 1) := by rw [Nat.even_iff]; omega
      exact this.neg_one_pow
  have hxe : Rep x (i.sign * (i.natAbs : Nat)) := by rw [Int.sign_mul_natAbs]; exact hx
  obtain ⟨v, ev, rv⟩ : ∃ v, (if x.size < 0 then mpz_neg .heap u else .ok u) = .ok v ∧
      Rep v (i.sign * ((2 ^ mpz_root_bit (Nat.size i.natAbs) k : Nat) : Int)) := by
    by_cases hi : i < 0
    · rw [if_pos ((rep_sizen hx).2 hi), Int.sign_eq_neg_one_of_neg hi]
      obtain ⟨v, ev, rv⟩ := neg_rep (z := .heap) ru trivial
      exact ⟨v, ev, by rw [neg_one_mul]; exact rv⟩
    · rw [if_neg (by rw [rep_sizen hx]; exact hi), Int.sign_eq_one_of_pos (by omega), one_mul]
      exact ⟨u, rfl, ru⟩
  rw [ev, C.ok_bind]
  have habs : ∀ a : Nat, (i.sign * (a : Int)).natAbs = a := by
    intro a; rcases he with h | h <;> rw [h] <;> simp
  obtain ⟨s, R, es, rs, h1, h2⟩ := root_loop_val hk he hek hxe (Int.natAbs_pos.2 h0) (2 ^ (64 * v.mag.length)) _ v
    (by have := rep_lt rv; rw [habs] at this; exact this) rv (by
      intro r hr
      by_contra hc
      have h3 := Nat.pow_le_pow_left (Nat.le_of_lt (not_le.1 hc)) k.toNat
      rw [← pow_mul] at h3
      have h4 := Nat.pow_le_pow_right (n := 2) (by omega) (root_bit_ge hk hbits)
      have := size_lt i.natAbs
      omega)
  rw [es, C.ok_bind]
  obtain ⟨t, et, rt⟩ := pow_ui_rep k rs
  rw [et, C.ok_bind]
  obtain ⟨r, er, rr⟩ := sub_rep (z := .heap) hx rt trivial
  rw [er, C.ok_bind]
  exact ⟨s, r, R, rfl, rs, h1, h2, rr⟩

end Torsion.Mpi
