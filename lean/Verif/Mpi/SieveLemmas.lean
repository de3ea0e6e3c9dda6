import Verif.Mpi.RootLemmas
import Verif.Mpi.MpnBits
import Mathlib.NumberTheory.Primorial

/-!
# Lemmas: the sieve, perfect powers and primorials
-/
namespace Torsion.Mpi

open Spec (Rep Room val)

theorem prime_iff (j : Nat) : Nat.Prime j ↔ 2 ≤ j ∧ ∀ q, 2 ≤ q → q * q ≤ j → ¬ q ∣ j := by
  rw [Nat.prime_def_le_sqrt]
  constructor
  · rintro ⟨h, h2⟩
    exact ⟨h, fun q hq hqq => h2 q hq (Nat.le_sqrt.2 hqq)⟩
  · rintro ⟨h, h2⟩
    exact ⟨h, fun q hq hqq => h2 q hq (Nat.le_sqrt.1 hqq)⟩

theorem primes_table : ∀ j < 1024, (val mp_primes).testBit j =
    (decide (2 ≤ j) && (List.range 32).all fun q =>
      decide (q < 2) || decide (j < q * q) || decide (j % q ≠ 0)) := by decide +kernel

theorem primes_bit (j : Nat) (h : j < 1024) : (val mp_primes).testBit j = true ↔ Nat.Prime j := by
  rw [primes_table j h, prime_iff, Bool.and_eq_true, decide_eq_true_iff, List.all_eq_true]
  constructor
  · rintro ⟨h1, h2⟩
    refine ⟨h1, fun q hq hqq hd => ?_⟩
    have h32 : q < 32 := by
      by_contra hc
      have : 32 * 32 ≤ q * q := Nat.mul_le_mul (by omega) (by omega)
      omega
    have := h2 q (List.mem_range.2 h32)
    simp only [Bool.or_eq_true, decide_eq_true_iff] at this
    rcases this with (h3 | h3) | h3
    · omega
    · omega
    · exact h3 (Nat.mod_eq_zero_of_dvd hd)
  · rintro ⟨h1, h2⟩
    refine ⟨h1, fun q _ => ?_⟩
    simp only [Bool.or_eq_true, decide_eq_true_iff]
    by_cases hq : q < 2
    · exact .inl (.inl hq)
    · by_cases hqq : j < q * q
      · exact .inl (.inr hqq)
      · exact .inr fun hd => h2 q (by omega) (by omega) (Nat.dvd_of_mod_eq_zero hd)

theorem mark_val (n p : Nat) (hp : 0 < p) : ∀ (f i : Nat) (zp : List Limb), 0 < f → n + 2 ≤ i + f →
    n / 64 < zp.length →
    ∃ z, mpn_sieve_mark n p f i zp = .ok z ∧ z.length = zp.length ∧
      ∀ j, (val z).testBit j = true ↔ (val zp).testBit j = true ∧ ¬ (j ≤ n ∧ ∃ t, j = i + t * p)
  | 0, _, _, h, _, _ => absurd h (by omega)
  | f + 1, i, zp, _, hf, hl => by
    unfold mpn_sieve_mark
    by_cases hi : i ≤ n
    · rw [if_pos hi]
      obtain ⟨z1, e1, l1, b1⟩ := clrbit_eq zp i (lt_of_le_of_lt (Nat.div_le_div_right hi) hl)
      obtain ⟨z2, e2, l2, b2⟩ := mark_val n p hp f (i + p) z1 (by omega) (by omega) (by omega)
      rw [e1, C.ok_bind, e2]
      refine ⟨z2, rfl, by omega, fun j => ?_⟩
      rw [b2, b1]
      constructor
      · rintro ⟨h1, h2⟩
        rw [Bool.and_eq_true, Bool.not_eq_true', decide_eq_false_iff_not] at h1
        refine ⟨h1.2, ?_⟩
        rintro ⟨h3, t, h4⟩
        rcases Nat.eq_zero_or_pos t with rfl | ht
        · exact h1.1 (by omega)
        · refine h2 ⟨h3, t - 1, ?_⟩
          obtain ⟨t', rfl⟩ : ∃ t', t = t' + 1 := ⟨t - 1, by omega⟩
          rw [h4, Nat.add_sub_cancel]; ring
      · rintro ⟨h1, h2⟩
        rw [Bool.and_eq_true, Bool.not_eq_true', decide_eq_false_iff_not]
        refine ⟨⟨?_, h1⟩, ?_⟩
        · intro h3; exact h2 ⟨by omega, 0, by omega⟩
        · rintro ⟨h3, t, h4⟩
          exact h2 ⟨h3, t + 1, by rw [h4]; ring⟩
    · rw [if_neg hi]
      refine ⟨zp, rfl, rfl, fun j => ⟨fun h => ⟨h, ?_⟩, fun h => h.1⟩⟩
      rintro ⟨h3, t, h4⟩
      have : 0 ≤ t * p := Nat.zero_le _
      omega

/-- What the sieve knows after the candidates below `P`. -/
def SieveInv (n P : Nat) (zp : List Limb) : Prop :=
  ∀ j, 2 ≤ j → j ≤ n → ((val zp).testBit j = true ↔ ∀ q, 2 ≤ q → q < P → q * q ≤ j → ¬ q ∣ j)

theorem sieve_loop_val (n : Nat) : ∀ (f p : Nat) (zp : List Limb), 0 < f → n + 2 ≤ p + f → 2 ≤ p →
    n / 64 < zp.length → SieveInv n p zp →
    ∃ z, mpn_sieve_loop n f p zp = .ok z ∧ z.length = zp.length ∧
      ∀ j, 2 ≤ j → j ≤ n → ((val z).testBit j = true ↔ Nat.Prime j)
  | 0, _, _, h, _, _, _, _ => absurd h (by omega)
  | f + 1, p, zp, _, hf, hp, hl, hinv => by
    unfold mpn_sieve_loop
    by_cases hpp : p * p ≤ n
    · rw [if_pos hpp]
      have hpn : p ≤ n := le_trans (Nat.le_mul_self p) hpp
      have h4 : 2 * 2 ≤ p * p := Nat.mul_le_mul hp hp
      have h4p : 2 * p ≤ p * p := Nat.mul_le_mul_right p hp
      rw [tstbit_eq zp p (lt_of_le_of_lt (Nat.div_le_div_right hpn) hl), C.ok_bind]
      obtain ⟨z1, e1, l1, hinv1⟩ : ∃ z1, (if flag ((val zp).testBit p = true) ≠ 0
          then mpn_sieve_mark n p (n + 1) (p * p) zp else .ok zp) = .ok z1 ∧ z1.length = zp.length ∧
          SieveInv n (p + 1) z1 := by
        by_cases hb : (val zp).testBit p = true
        · rw [flag_pos hb, if_pos (by decide)]
          obtain ⟨z1, e1, l1, b1⟩ := mark_val n p (by omega) (n + 1) (p * p) zp (by omega) (by omega) hl
          refine ⟨z1, e1, l1, fun j hj hjn => ?_⟩
          rw [b1, hinv j hj hjn]
          constructor
          · rintro ⟨h1, h2⟩ q hq hqp hqq hd
            rcases Nat.lt_or_ge q p with h | h
            · exact h1 q hq h hqq hd
            · have : q = p := by omega
              subst this
              obtain ⟨c, hc⟩ := hd
              have hle : q ≤ c := by
                by_contra hcc
                have : q * c < q * q := Nat.mul_lt_mul_of_pos_left (by omega) (by omega)
                omega
              refine h2 ⟨hjn, c - q, ?_⟩
              rw [hc, Nat.sub_mul, Nat.mul_comm c q]
              have : q * q ≤ q * c := Nat.mul_le_mul_left _ hle
              omega
          · intro h
            refine ⟨fun q hq hqp => h q hq (by omega), ?_⟩
            rintro ⟨_, t, ht⟩
            refine h p hp (by omega) ?_ ⟨p + t, ?_⟩
            · rw [ht]; exact Nat.le_add_right _ _
            · rw [ht]; ring
        · rw [flag_neg hb, if_neg (by decide)]
          refine ⟨zp, rfl, rfl, fun j hj hjn => ?_⟩
          rw [hinv j hj hjn]
          rw [hinv p hp hpn] at hb
          push Not at hb
          obtain ⟨r, hr, hrp, hrr, hrd⟩ := hb
          constructor
          · intro h q hq hqp hqq hd
            rcases Nat.lt_or_ge q p with h3 | h3
            · exact h q hq h3 hqq hd
            · have : q = p := by omega
              subst this
              refine h r hr hrp ?_ (dvd_trans hrd hd)
              have : q ≤ q * q := Nat.le_mul_self q
              omega
          · intro h q hq hqp
            exact h q hq (by omega)
      obtain ⟨z2, e2, l2, b2⟩ := sieve_loop_val n f (p + 1) z1 (by omega) (by omega) (by omega) (by omega) hinv1
      rw [e1, C.ok_bind, e2]
      exact ⟨z2, rfl, by omega, b2⟩
    · rw [if_neg hpp]
      refine ⟨zp, rfl, rfl, fun j hj hjn => ?_⟩
      rw [hinv j hj hjn, prime_iff]
      constructor
      · intro h
        refine ⟨hj, fun q hq hqq => h q hq ?_ hqq⟩
        by_contra hc
        have : p * p ≤ q * q := Nat.mul_le_mul (by omega) (by omega)
        omega
      · rintro ⟨_, h⟩ q hq _ hqq
        exact h q hq hqq

theorem three_bit (k : Nat) : (3 : Limb).toNat.testBit k = decide (k < 2) := by
  rw [show (3 : Limb).toNat = 2 ^ 2 - 1 from rfl, Nat.testBit_two_pow_sub_one]

theorem ones_bit (k : Nat) (h : k < 64) : (-1 : Limb).toNat.testBit k = true := by
  rw [show (-1 : Limb).toNat = 2 ^ 64 - 1 from rfl, Nat.testBit_two_pow_sub_one, decide_eq_true h]

/-- The sieve: bit `j` tells whether `j` is prime, for every `j` up to `n`. -/
theorem sieve_val (n : Nat) : ∃ z, mpn_sieve n = .ok z ∧ z.length = (n + 64) / 64 ∧
    ∀ j ≤ n, ((val z).testBit j = true ↔ Nat.Prime j) := by
  unfold mpn_sieve
  by_cases hn : n < 1024
  · have hlen : mp_primes.length = 16 := rfl
    rw [if_pos hn, if_pos (by omega)]
    refine ⟨_, rfl, by rw [List.length_take]; omega, fun j hj => ?_⟩
    rw [← primes_bit j (by omega), val_testBit, val_testBit mp_primes]
    have : (mp_primes.take ((n + 64) / 64)).getD (j / 64) 0 = mp_primes.getD (j / 64) 0 := by
      have h1 : j / 64 < (n + 64) / 64 := by omega
      simp only [List.getD, List.getElem?_take, if_pos h1]
    rw [this]
  · rw [if_neg hn]
    have hl0 : (List.replicate ((n + 64) / 64) (-1 : Limb)).length = (n + 64) / 64 := List.length_replicate ..
    obtain ⟨z, e, l, b⟩ := sieve_loop_val n (n + 1) 2 (List.replicate ((n + 64) / 64) (-1)) (by omega) (by omega)
      (by omega) (by omega) (by
        intro j hj hjn
        rw [val_testBit]
        have : (List.replicate ((n + 64) / 64) (-1 : Limb)).getD (j / 64) 0 = -1 := by
          rw [getD_of_lt (by rw [hl0]; omega), List.getElem_replicate]
        rw [this, ones_bit _ (Nat.mod_lt _ (by omega))]
        simp only [true_iff]
        intro q hq hq2; omega)
    rw [hl0] at l
    rw [e, C.ok_bind, rd_lt (by omega), C.ok_bind, wr_lt _ (by omega), C.ok_bind]
    have b2 : ∀ j ≤ n, ((val (z.set 0 (z.getD 0 0 &&& ~~~3))).testBit j = true ↔ Nat.Prime j) := by
      intro j hj
      rw [val_testBit, getD_set _ _ _ _ (by omega)]
      by_cases h64 : j / 64 = 0
      · rw [if_pos h64, BitVec.toNat_and, Nat.testBit_and, not_bit, three_bit]
        have hz := val_testBit z j
        rw [h64] at hz
        rw [← hz]
        by_cases h2 : 2 ≤ j
        · rw [decide_eq_true (show j % 64 < 64 by omega), decide_eq_false (show ¬ j % 64 < 2 by omega)]
          simpa using b j h2 hj
        · rw [decide_eq_true (show j % 64 < 2 by omega)]
          constructor
          · intro h; simp at h
          · intro h; exact absurd h.two_le h2
      · rw [if_neg h64, ← val_testBit]
        exact b j (by omega) hj
    have l2 : (z.set 0 (z.getD 0 0 &&& ~~~3)).length = (n + 64) / 64 := by rw [List.length_set]; exact l
    generalize z.set 0 (z.getD 0 0 &&& ~~~3) = z2 at *
    by_cases hlo : (n + 1) % 64 ≠ 0
    · rw [if_pos hlo, rd_lt (by omega), C.ok_bind, wr_lt _ (by omega)]
      refine ⟨_, rfl, by rw [List.length_set]; exact l2, fun j hj => ?_⟩
      rw [val_testBit, getD_set _ _ _ _ (by omega), ← b2 j hj, val_testBit z2]
      by_cases hj64 : j / 64 = (n + 64) / 64 - 1
      · rw [if_pos hj64, BitVec.toNat_and, Nat.testBit_and, hj64]
        have : (mpMask ((n + 1) % 64)).toNat.testBit (j % 64) = true := by
          unfold mpMask
          have h1 : (((1 : Limb) <<< ((n + 1) % 64)) - 1).toNat = 2 ^ ((n + 1) % 64) - 1 := by
            have hs : ((1 : Limb) <<< ((n + 1) % 64)).toNat = 2 ^ ((n + 1) % 64) := by
              rw [shl_toNat, show (1 : Limb).toNat = 1 from rfl, Nat.one_mul]
              exact Nat.mod_eq_of_lt (Nat.pow_lt_pow_right (by omega) (Nat.mod_lt _ (by omega)))
            have h3 : 2 ^ ((n + 1) % 64) < 2 ^ 64 := Nat.pow_lt_pow_right (by omega) (Nat.mod_lt _ (by omega))
            have h4 : 0 < 2 ^ ((n + 1) % 64) := by positivity
            rw [BitVec.toNat_sub, hs, show (1 : Limb).toNat = 1 from rfl]
            omega
          rw [h1, Nat.testBit_two_pow_sub_one, decide_eq_true_iff]
          omega
        rw [this, Bool.and_true]
      · rw [if_neg hj64]
    · rw [if_neg hlo]
      exact ⟨z2, rfl, l2, b2⟩

theorem sieve_size_ok {n : Nat} (h : n < 2 ^ 63) : mpn_sieve_size n = .ok ((n + 64) / 64) := by
  unfold mpn_sieve_size mp_bits_max
  rw [C.check, decide_eq_true (show n < 0xffffffff * 0xffffffff by omega)]
  simp only [if_true, C.ok_bind]
  rw [C.check, decide_eq_true (show n ≤ 0xffffffffffffffff - 64 by omega)]
  simp only [if_true, C.ok_bind]
  rw [C.check, decide_eq_true (show n ≤ 2 ^ 63 - 1 by omega)]
  simp only [if_true, C.ok_bind]
  rw [C.check, decide_eq_true (show (n + 64) / 64 ≤ 2 ^ 63 - 1 by omega)]
  simp only [if_true, C.ok_bind]

/-! ## Perfect powers -/

theorem sign_pow_odd (a : Int) {k : Nat} (hk : k % 2 = 1) : (a ^ k).sign = a.sign := by
  have hodd : Odd k := Nat.odd_iff.2 hk
  rcases lt_trichotomy a 0 with h | h | h
  · rw [Int.sign_eq_neg_one_of_neg h, Int.sign_eq_neg_one_of_neg (hodd.pow_neg h)]
  · rw [h, zero_pow (by omega)]
  · rw [Int.sign_eq_one_of_pos h, Int.sign_eq_one_of_pos (pow_pos h k)]

/-- `mpz_root`: exactness tells a perfect power. -/
theorem root_val {x : Mpz} {i : Int} {k : Limb} (z : Bool) (hx : Rep x i) (hk : k ≠ 0)
    (hs : 0 ≤ i ∨ k.toNat % 2 = 1) (hsz : x.mag.length < 2 ^ 57) :
    ∃ s R b, mpz_root z x k = .ok (s, b) ∧ Rep s (i.sign * (R : Nat)) ∧ R ^ k.toNat ≤ i.natAbs ∧
      i.natAbs < (R + 1) ^ k.toNat ∧ (b = true ↔ ∃ a : Int, a ^ k.toNat = i) := by
  have hk0 : 0 < k.toNat := Nat.pos_of_ne_zero (fun e => hk (BitVec.eq_of_toNat_eq e))
  obtain ⟨s, r, R, e, rs, h1, h2, rr⟩ := rootrem_val hx hk hs hsz
  unfold mpz_root
  rw [if_neg (by rw [rep_sizen hx, even_test]; rintro ⟨-, h | h⟩ <;> [exact hk h; omega]), e, C.ok_bind]
  refine ⟨s, R, _, rfl, rs, h1, h2, ?_⟩
  rw [decide_eq_true_iff, rep_size0 rr]
  constructor
  · intro h; exact ⟨i.sign * R, by omega⟩
  · rintro ⟨a, ha⟩
    have habs : i.natAbs = a.natAbs ^ k.toNat := by rw [← ha, Int.natAbs_pow]
    have hR : R = a.natAbs := root_unique (k := k.toNat) h1 h2 (by omega) (by
      rw [habs]; exact Nat.pow_lt_pow_left (by omega) (by omega))
    rw [hR]
    by_cases hodd : k.toNat % 2 = 1
    · have : i.sign = a.sign := by rw [← ha]; exact sign_pow_odd a hodd
      rw [this, Int.sign_mul_natAbs, ha, sub_self]
    · have hi : 0 ≤ i := by omega
      have hev : Even k.toNat := Nat.even_iff.2 (by omega)
      have h3 : (a.natAbs : Int) ^ k.toNat = i := by
        rw [Int.natCast_natAbs, hev.pow_abs, ha]
      rcases eq_or_lt_of_le hi with h0 | hpos
      · rw [← h0] at h3 ⊢
        rw [Int.sign_zero, Int.zero_mul, zero_pow (by omega), sub_zero]
      · rw [Int.sign_eq_one_of_pos hpos, one_mul, h3, sub_self]

theorem power_loop_val {x : Mpz} {i : Int} {n : Nat} {sp : List Limb} (hx : Rep x i) (hsz : x.mag.length < 2 ^ 57)
    (hn : n < 2 ^ 63) (hl : n / 64 < sp.length) (hsp : ∀ j ≤ n, ((val sp).testBit j = true ↔ Nat.Prime j)) :
    ∀ (f p : Nat), 0 < f → n + 2 ≤ p + f → p % 2 = 1 →
    ∃ b, mpz_power_loop x n sp f p = .ok b ∧
      (b = true ↔ ∃ q, p ≤ q ∧ q ≤ n ∧ q % 2 = 1 ∧ Nat.Prime q ∧ ∃ a : Int, a ^ q = i)
  | 0, _, h, _, _ => absurd h (by omega)
  | f + 1, p, _, hf, hp => by
    unfold mpz_power_loop
    by_cases hpn : p ≤ n
    · rw [if_pos hpn, tstbit_eq sp p (lt_of_le_of_lt (Nat.div_le_div_right hpn) hl), C.ok_bind]
      obtain ⟨zr, ez, hz⟩ : ∃ zr, (if flag ((val sp).testBit p = true) ≠ 0 then mpz_root false x (BitVec.ofNat 64 p)
          else .ok (⟨false, []⟩, false)) = .ok zr ∧ (zr.2 = true ↔ Nat.Prime p ∧ ∃ a : Int, a ^ p = i) := by
        by_cases hb : (val sp).testBit p = true
        · rw [flag_pos hb, if_pos (by decide)]
          have hkv : (BitVec.ofNat 64 p).toNat = p := by
            rw [BitVec.toNat_ofNat]; exact Nat.mod_eq_of_lt (by omega)
          obtain ⟨s, R, b, e, -, -, -, hb2⟩ := root_val (k := BitVec.ofNat 64 p) false hx
            (by intro h; have := congrArg BitVec.toNat h; rw [hkv] at this; simp at this; omega)
            (Or.inr (by rw [hkv]; exact hp)) hsz
          rw [hkv] at hb2
          exact ⟨_, e, by rw [hb2]; exact ⟨fun h => ⟨(hsp p hpn).1 hb, h⟩, fun h => h.2⟩⟩
        · rw [flag_neg hb, if_neg (by decide)]
          refine ⟨_, rfl, ?_⟩
          rw [← hsp p hpn]
          simp [hb]
      rw [ez, C.ok_bind]
      by_cases hz2 : zr.2 = true
      · rw [if_pos hz2]
        exact ⟨true, rfl, fun _ => ⟨p, le_refl _, hpn, hp, hz.1 hz2⟩, fun _ => rfl⟩
      · rw [if_neg hz2]
        rcases Nat.eq_zero_or_pos f with hf0 | hf0
        · omega
        obtain ⟨b, e, hb⟩ := power_loop_val hx hsz hn hl hsp f (p + 2) hf0 (by omega) (by omega)
        refine ⟨b, e, ?_⟩
        rw [hb]
        constructor
        · rintro ⟨q, h1, h2⟩; exact ⟨q, by omega, h2⟩
        · rintro ⟨q, h1, h2, h3, h4, h5⟩
          refine ⟨q, ?_, h2, h3, h4, h5⟩
          by_contra hc
          have : q = p := by omega
          subst this
          exact hz2 (hz.2 ⟨h4, h5⟩)
    · rw [if_neg hpn]
      refine ⟨false, rfl, by simp, ?_⟩
      rintro ⟨q, h1, h2, -⟩; omega

theorem perfect_power_val {x : Mpz} {i : Int} (hx : Rep x i) (hsz : x.mag.length < 2 ^ 57) :
    ∃ b, mpz_perfect_power_p x = .ok b ∧ (b = true ↔ ∃ (a : Int) (k : Nat), 2 ≤ k ∧ a ^ k = i) := by
  unfold mpz_perfect_power_p
  rw [bitlen_rep hx, C.ok_bind]
  have hlt := size_lt i.natAbs
  have hbits : Nat.size i.natAbs < 2 ^ 63 := by
    have h2 : Nat.size i.natAbs ≤ 64 * x.mag.length := Nat.size_le.2 (rep_lt hx)
    omega
  by_cases h1 : Nat.size i.natAbs ≤ 1
  · rw [if_pos h1]
    refine ⟨true, rfl, fun _ => ?_, fun _ => rfl⟩
    have : i.natAbs < 2 ^ 1 := lt_of_lt_of_le hlt (Nat.pow_le_pow_right (by omega) h1)
    refine ⟨i, 3, by omega, ?_⟩
    have : i = 0 ∨ i = 1 ∨ i = -1 := by omega
    rcases this with rfl | rfl | rfl <;> norm_num
  rw [if_neg h1]
  obtain ⟨b, eb, hb⟩ := perfect_square_val hx
  rw [eb, C.ok_bind]
  by_cases hbt : b = true
  · rw [if_pos hbt]
    obtain ⟨a, ha⟩ := hb.1 hbt
    exact ⟨true, rfl, fun _ => ⟨a, 2, le_refl _, by rw [← ha]; ring⟩, fun _ => rfl⟩
  rw [if_neg hbt, sieve_size_ok hbits, C.ok_bind]
  obtain ⟨sp, es, ls, hsp⟩ := sieve_val (Nat.size i.natAbs)
  rw [es, C.ok_bind]
  obtain ⟨c, ec, hc⟩ := power_loop_val hx hsz hbits (by omega) hsp (Nat.size i.natAbs + 1) 3 (by omega) (by omega) (by omega)
  refine ⟨c, ec, ?_⟩
  rw [hc]
  constructor
  · rintro ⟨q, h3, -, -, -, a, ha⟩
    exact ⟨a, q, by omega, ha⟩
  · rintro ⟨a, k, hk, ha⟩
    obtain ⟨q, hq, m, rfl⟩ := Nat.exists_prime_and_dvd (show k ≠ 1 by omega)
    have ha2 : (a ^ m) ^ q = i := by rw [← ha, ← pow_mul, Nat.mul_comm]
    have hqodd : q % 2 = 1 := by
      rcases hq.eq_two_or_odd with h | h
      · exfalso
        refine hbt (hb.2 ⟨a ^ m, ?_⟩)
        rw [← ha2, h]; ring
      · exact h
    refine ⟨q, ?_, ?_, hqodd, hq, a ^ m, ha2⟩
    · have := hq.two_le; omega
    · have h3 : i.natAbs = (a ^ m).natAbs ^ q := by rw [← ha2, Int.natAbs_pow]
      have h4 : 2 ^ 1 ≤ i.natAbs := by
        by_contra hcc
        exact h1 (Nat.size_le.2 (by omega))
      have h5 : 2 ≤ (a ^ m).natAbs := by
        by_contra hcc
        have h6 := Nat.pow_le_pow_left (show (a ^ m).natAbs ≤ 1 by omega) q
        rw [one_pow] at h6
        omega
      have h6 := Nat.pow_le_pow_left h5 q
      have h7 : 2 ^ q < 2 ^ Nat.size i.natAbs := by omega
      exact le_of_lt ((Nat.pow_lt_pow_iff_right (by omega)).1 h7)

/-! ## Primorials -/

theorem primorial_step {p : Nat} (hp : 0 < p) : primorial p = primorial (p - 1) * (if Nat.Prime p then p else 1) := by
  obtain ⟨m, rfl⟩ : ∃ m, p = m + 1 := ⟨p - 1, by omega⟩
  rw [Nat.add_sub_cancel]
  unfold primorial
  rw [Finset.range_add_one (n := m + 1), Finset.filter_insert]
  by_cases h : Nat.Prime (m + 1)
  · rw [if_pos h, if_pos h, Finset.prod_insert (by simp), Nat.mul_comm]
  · rw [if_neg h, if_neg h, Nat.mul_one]

theorem primorial_loop_val {n : Nat} {sp : List Limb} (hn2 : 2 ≤ n) (hn : n < 2 ^ 63) (hl : n / 64 < sp.length)
    (hsp : ∀ j ≤ n, ((val sp).testBit j = true ↔ Nat.Prime j)) :
    ∀ (f p : Nat) (z : Mpz), 0 < f → n + 2 ≤ p + f → p % 2 = 1 → 3 ≤ p → p ≤ n + 2 →
      Rep z (primorial (p - 1) : Nat) →
    ∃ t, mpz_primorial_loop n sp f p z = .ok t ∧ Rep t (primorial n : Nat)
  | 0, _, _, h, _, _, _, _, _ => absurd h (by omega)
  | f + 1, p, z, _, hf, hp, hp3, hpn2, hz => by
    have hstep : primorial (p + 1) = primorial p := primorial_succ (by omega) (Nat.odd_iff.2 hp)
    unfold mpz_primorial_loop
    by_cases hpn : p ≤ n
    · rw [if_pos hpn, tstbit_eq sp p (lt_of_le_of_lt (Nat.div_le_div_right hpn) hl), C.ok_bind]
      obtain ⟨u, eu, ru⟩ : ∃ u, (if flag ((val sp).testBit p = true) ≠ 0 then mpz_mul_ui .heap z (BitVec.ofNat 64 p)
          else .ok z) = .ok u ∧ Rep u (primorial p : Nat) := by
        rw [primorial_step (show 0 < p by omega)]
        by_cases hb : (val sp).testBit p = true
        · rw [flag_pos hb, if_pos (by decide), if_pos ((hsp p hpn).1 hb)]
          have hkv : (BitVec.ofNat 64 p).toNat = p := by
            rw [BitVec.toNat_ofNat]; exact Nat.mod_eq_of_lt (by omega)
          obtain ⟨u, eu, ru⟩ := mul_ui_rep (z := .heap) (BitVec.ofNat 64 p) hz trivial
          rw [hkv] at ru
          exact ⟨u, eu, by push_cast; exact ru⟩
        · rw [flag_neg hb, if_neg (by decide), if_neg (fun h => hb ((hsp p hpn).2 h)), Nat.mul_one]
          exact ⟨z, rfl, hz⟩
      rw [eu, C.ok_bind]
      have hf0 : 0 < f := by clear hz ru hstep eu; omega
      exact primorial_loop_val hn2 hn hl hsp f (p + 2) u hf0 (by omega) (by omega) (by omega) (by omega)
        (by rw [show p + 2 - 1 = p + 1 by omega, hstep]; exact ru)
    · rw [if_neg hpn]
      refine ⟨z, rfl, ?_⟩
      rcases (show p = n + 1 ∨ p = n + 2 by omega) with h | h
      · rw [h, Nat.add_sub_cancel] at hz; exact hz
      · rw [h, show n + 2 - 1 = n + 1 by omega] at hz
        have : primorial (n + 1) = primorial n := primorial_succ (by omega) (Nat.odd_iff.2 (by omega))
        rw [this] at hz; exact hz

theorem primorial_val (n : Limb) (hn : n.toNat < 2 ^ 63) :
    ∃ t, mpz_primorial_ui n = .ok t ∧ Rep t (primorial n.toNat : Nat) := by
  unfold mpz_primorial_ui
  by_cases h2 : n.toNat < 2
  · rw [if_pos h2]
    refine ⟨_, rfl, ?_⟩
    have := set_ui_rep 1
    have h : n.toNat = 0 ∨ n.toNat = 1 := by omega
    rcases h with h | h <;> rw [h]
    · rw [primorial_zero]; exact this
    · rw [primorial_one]; exact this
  · rw [if_neg h2, sieve_size_ok hn, C.ok_bind]
    obtain ⟨sp, es, ls, hsp⟩ := sieve_val n.toNat
    rw [es, C.ok_bind]
    exact primorial_loop_val (by omega) hn (by omega) hsp _ _ _ (by omega) (by omega) (by omega) (by omega) (by omega)
      (by rw [show 3 - 1 = 2 from rfl, primorial_two]; exact set_ui_rep 2)

end Torsion.Mpi
