import Verif.Mpi.MpzBitOps

namespace Torsion.Mpi

open Spec (val ival Canon Rep Room bit FirstBit)

/-! ### Scanning -/

theorem bool_ne (a b : Bool) (h : false = (a == b)) : a = !b := by cases a <;> cases b <;> simp_all

/-- The word with which the limbs are compared when looking for the bit `b`. -/
def scanMask (b : Bool) : Limb := if b then 0 else -1

theorem scan_mask_bit (b : Bool) (t : Limb) (k : Nat) :
    (t ^^^ scanMask b).toNat.testBit k = (decide (k < 64) && (t.toNat.testBit k == b)) := by
  rw [BitVec.toNat_xor, Nat.testBit_xor]
  cases b
  · have : (scanMask false).toNat.testBit k = decide (k < 64) := by
      show (2 ^ 64 - 1).testBit k = _
      rw [Nat.testBit_two_pow_sub_one]
    rw [this]
    by_cases h : k < 64
    · rw [decide_eq_true h]; cases t.toNat.testBit k <;> rfl
    · rw [decide_eq_false h, word_bit t k (by omega)]; rfl
  · have : (scanMask true).toNat.testBit k = false := by
      show (0 : Nat).testBit k = _
      rw [Nat.zero_testBit]
    rw [this]
    by_cases h : k < 64
    · rw [decide_eq_true h]; cases t.toNat.testBit k <;> rfl
    · rw [decide_eq_false h, word_bit t k (by omega)]; rfl

/-- The outcome of a scan for `b` over the number `L`, from bit `r` on. -/
def Found (b : Bool) (L base r res : Nat) : Prop :=
  (∃ n, r ≤ n ∧ res = base + n ∧ L.testBit n = b ∧ ∀ j, r ≤ j → j < n → L.testBit j = !b) ∨
  (b = true ∧ (∀ j, r ≤ j → L.testBit j = false) ∧ res = mp_bits_max)

theorem lim_bit (t : Limb) (L' n : Nat) : (t.toNat + 2 ^ 64 * L').testBit n =
    if n < 64 then t.toNat.testBit n else L'.testBit (n - 64) := by
  rw [Nat.add_comm, Nat.testBit_two_pow_mul_add _ t.isLt]

/-- No bit of the first limb from `r` on qualifies: the scan goes on. -/
theorem found_skip {b : Bool} {t : Limb} {L' base r res : Nat} (hr : r ≤ 64)
    (ht : ∀ j, r ≤ j → j < 64 → t.toNat.testBit j = !b) (h : Found b L' (base + 64) 0 res) :
    Found b (t.toNat + 2 ^ 64 * L') base r res := by
  rcases h with ⟨n, -, e, hb, hj⟩ | ⟨hb, hj, e⟩
  · refine .inl ⟨n + 64, by omega, by omega, ?_, ?_⟩
    · rw [lim_bit, if_neg (by omega), Nat.add_sub_cancel]; exact hb
    · intro j h1 h2
      rw [lim_bit]
      by_cases h64 : j < 64
      · rw [if_pos h64]; exact ht j h1 h64
      · rw [if_neg h64]; exact hj _ (by omega) (by omega)
  · refine .inr ⟨hb, ?_, e⟩
    intro j h1
    rw [lim_bit]
    by_cases h64 : j < 64
    · rw [if_pos h64, ht j h1 h64, hb]; rfl
    · rw [if_neg h64]; exact hj _ (by omega)

theorem scan_loop_found (b : Bool) : ∀ (xs : List Limb) (s : Nat) (c : Limb) (L B : Nat), L < 2 ^ (64 * xs.length) →
    L + c.toNat = val xs + 2 ^ (64 * xs.length) * B →
    Found b L (s * 64) 0 (mpn_scan_loop (scanMask b) s c xs)
  | [], s, c, L, B, hL, _ => by
    have hL0 : L = 0 := by simpa using hL
    subst hL0
    unfold mpn_scan_loop
    cases b
    · rw [if_neg (by decide)]
      exact .inl ⟨0, le_rfl, rfl, by simp, fun j _ h => absurd h (by omega)⟩
    · rw [if_pos (by decide)]
      exact .inr ⟨rfl, fun j _ => by simp, rfl⟩
  | x :: xs, s, c, L, B, hL, h => by
    unfold mpn_scan_loop
    rw [List.length_cons, pow64'] at hL h
    rw [val_cons, Nat.mul_assoc] at h
    obtain ⟨L', e, hl', h'⟩ := sub_split hL h
    dsimp only
    rw [e]
    generalize (mp_sub x c).1 = t at *
    by_cases hm : t = scanMask b
    · rw [if_pos hm]
      have ih := scan_loop_found b xs (s + 1) (mp_sub x c).2 L' B hl' h'
      rw [show (s + 1) * 64 = s * 64 + 64 by ring] at ih
      refine found_skip (by omega) (fun j _ h64 => ?_) ih
      have := scan_mask_bit b t j
      rw [hm, BitVec.xor_self, show (0#64).toNat = 0 from rfl, Nat.zero_testBit, ← hm, decide_eq_true h64,
        Bool.true_and] at this
      exact bool_ne _ _ this
    · rw [if_neg hm]
      have hne : t ^^^ scanMask b ≠ 0 := fun e => hm (BitVec.xor_eq_zero_iff.1 e)
      obtain ⟨h1, h2⟩ := mp_ctz_least _ hne
      generalize mp_ctz (t ^^^ scanMask b) = n at *
      rw [scan_mask_bit, Bool.and_eq_true, decide_eq_true_eq, beq_iff_eq] at h1
      refine .inl ⟨n, by omega, rfl, ?_, fun j _ hj => ?_⟩
      · rw [lim_bit, if_pos h1.1]; exact h1.2
      · have h3 := h2 j hj
        rw [scan_mask_bit, decide_eq_true (show j < 64 by omega), Bool.true_and] at h3
        rw [lim_bit, if_pos (by omega)]
        exact bool_ne _ _ h3.symm

theorem not_mask_bit (r k : Nat) (hr : r < 64) : (~~~(mpMask r)).toNat.testBit k = (decide (k < 64) && decide (r ≤ k)) := by
  rw [not_bit, mask_toNat r (by omega), Nat.testBit_two_pow_sub_one]
  by_cases h : k < 64
  · rw [decide_eq_true h, Bool.true_and, Bool.true_and, ← decide_not, decide_eq_decide]; omega
  · rw [decide_eq_false h]; rfl

/-- `m` is one when looking for ones, zero when looking for zeros. -/
theorem scan_found (b : Bool) (xs : List Limb) (c : Limb) (pos L : Nat)
    (hL : L < 2 ^ (64 * (xs.drop (pos / 64)).length)) (h : L + c.toNat = val (xs.drop (pos / 64)) +
      2 ^ (64 * (xs.drop (pos / 64)).length) * 0) :
    Found b L (pos / 64 * 64) (pos % 64) (mpn_scan xs (if b then 1 else 0) c pos) := by
  have hm : (if b then (1 : Limb) else 0) - 1 = scanMask b := by cases b <;> rfl
  unfold mpn_scan
  dsimp only
  rw [hm]
  generalize xs.drop (pos / 64) = ys at *
  cases ys with
  | nil =>
    have hL0 : L = 0 := by simpa using hL
    subst hL0
    dsimp only
    cases b
    · rw [if_neg (by decide)]
      exact .inl ⟨pos % 64, le_rfl, by omega, by simp, fun j h h' => absurd h (by omega)⟩
    · rw [if_pos (by decide)]
      exact .inr ⟨rfl, fun j _ => by simp, rfl⟩
  | cons x xs =>
    dsimp only
    rw [List.length_cons, pow64'] at hL h
    rw [val_cons, Nat.mul_assoc] at h
    obtain ⟨L', e, hl', h'⟩ := sub_split hL h
    rw [e]
    generalize (mp_sub x c).1 = t at *
    have hzb : ∀ k, ((t ^^^ scanMask b) &&& ~~~(mpMask (pos % 64))).toNat.testBit k =
        (decide (k < 64) && decide (pos % 64 ≤ k) && (t.toNat.testBit k == b)) := by
      intro k
      rw [BitVec.toNat_and, Nat.testBit_and, scan_mask_bit, not_mask_bit _ _ (by omega)]
      cases decide (k < 64) <;> cases decide (pos % 64 ≤ k) <;> simp
    generalize (t ^^^ scanMask b) &&& ~~~(mpMask (pos % 64)) = z at *
    by_cases hz : z = 0
    · rw [if_neg (fun hc => hc.1 hz)]
      have ih := scan_loop_found b xs (pos / 64 + 1) (mp_sub x c).2 L' 0 hl' h'
      rw [show (pos / 64 + 1) * 64 = pos / 64 * 64 + 64 by ring] at ih
      refine found_skip (by omega) (fun j h1 h64 => ?_) ih
      have := hzb j
      rw [hz, show (0 : Limb).toNat = 0 from rfl, Nat.zero_testBit, decide_eq_true h64, decide_eq_true h1] at this
      exact bool_ne _ _ this
    · obtain ⟨h1, h2⟩ := mp_ctz_least _ hz
      generalize mp_ctz z = n at *
      rw [hzb, Bool.and_eq_true, Bool.and_eq_true, decide_eq_true_eq, decide_eq_true_eq, beq_iff_eq] at h1
      rw [if_pos ⟨hz, h1.1.2⟩]
      refine .inl ⟨n, h1.1.2, rfl, ?_, fun j hr hj => ?_⟩
      · rw [lim_bit, if_pos h1.1.1]; exact h1.2
      · have h3 := h2 j hj
        rw [hzb, decide_eq_true (show j < 64 by omega), decide_eq_true hr, Bool.true_and, Bool.true_and] at h3
        rw [lim_bit, if_pos (by omega)]
        exact bool_ne _ _ h3.symm

/-- A scan of the upper part of `X`. -/
theorem found_shift {b : Bool} {X pos res : Nat}
    (h : Found b (X / 2 ^ (64 * (pos / 64))) (pos / 64 * 64) (pos % 64) res) :
    (pos ≤ res ∧ X.testBit res = b ∧ ∀ n, pos ≤ n → n < res → X.testBit n = !b) ∨
    (b = true ∧ (∀ n, pos ≤ n → X.testBit n = false) ∧ res = mp_bits_max) := by
  have hs : ∀ n, (X / 2 ^ (64 * (pos / 64))).testBit n = X.testBit (64 * (pos / 64) + n) := fun n => by
    rw [Nat.testBit_div_two_pow, Nat.add_comm]
  rcases h with ⟨n, h1, e, hb, hj⟩ | ⟨hb, hj, e⟩
  · left
    rw [hs] at hb
    refine ⟨by omega, ?_, fun k hk hk' => ?_⟩
    · rw [e, show pos / 64 * 64 + n = 64 * (pos / 64) + n by omega]; exact hb
    · have := hj (k - 64 * (pos / 64)) (by omega) (by omega)
      rw [hs, show 64 * (pos / 64) + (k - 64 * (pos / 64)) = k by omega] at this
      exact this
  · refine .inr ⟨hb, fun k hk => ?_, e⟩
    have := hj (k - 64 * (pos / 64)) (by omega)
    rw [hs, show 64 * (pos / 64) + (k - 64 * (pos / 64)) = k by omega] at this
    exact this

theorem mpn_scan_bits (b : Bool) (xs : List Limb) (pos : Nat) :
    (FirstBit (val xs) b pos (mpn_scan xs (if b then 1 else 0) 0 pos)) ∨
    (b = true ∧ (∀ n, pos ≤ n → bit (val xs) n = false) ∧ mpn_scan xs (if b then 1 else 0) 0 pos = mp_bits_max) := by
  have h := scan_found b xs 0 pos (val (xs.drop (pos / 64))) (val_lt _) rfl
  rw [val_drop] at h
  rcases found_shift h with ⟨h1, h2, h3⟩ | ⟨h1, h2, h3⟩
  · refine .inl ⟨h1, by rw [bit_nonneg]; exact h2, fun n hn hn' => ?_⟩
    rw [bit_nonneg, h3 n hn hn']; cases b <;> simp
  · exact .inr ⟨h1, fun n hn => by rw [bit_nonneg]; exact h2 n hn, h3⟩

/-- The upper limbs of `|x| - 1`. -/
theorem scan_neg {x : Mpz} {i : Int} (hx : Rep x i) (hi : i < 0) (s : Nat) :
    low i / 2 ^ (64 * s) < 2 ^ (64 * (x.mag.drop s).length) ∧
    low i / 2 ^ (64 * s) + (flag (mpn_zero_p (x.mag.take s) = true)).toNat =
      val (x.mag.drop s) + 2 ^ (64 * (x.mag.drop s).length) * 0 := by
  have hl : low i + 1 = val x.mag := by rw [rep_abs hx]; unfold low; rw [if_pos hi]; omega
  have ht := val_take x.mag s
  have hd := val_drop x.mag s
  have hp : 0 < 2 ^ (64 * s) := Nat.two_pow_pos _
  have hdm := Nat.div_add_mod (val x.mag) (2 ^ (64 * s))
  have hlt := Nat.mod_lt (val x.mag) hp
  rw [← ht, ← hd] at hdm
  rw [← ht] at hlt
  have h1 : low i / 2 ^ (64 * s) + (flag (mpn_zero_p (x.mag.take s) = true)).toNat = val (x.mag.drop s) := by
    by_cases hz : mpn_zero_p (x.mag.take s) = true
    · have h0 := (zero_p_iff _).1 hz
      rw [flag_toNat, if_pos hz]
      rw [h0] at hdm
      obtain ⟨D, hD⟩ : ∃ D, val (x.mag.drop s) = D + 1 := by
        refine ⟨val (x.mag.drop s) - 1, ?_⟩
        rcases Nat.eq_zero_or_pos (val (x.mag.drop s)) with h | h
        · rw [h, Nat.mul_zero] at hdm; omega
        · omega
      rw [hD] at hdm ⊢
      rw [Nat.mul_add] at hdm
      have : low i = (2 ^ (64 * s) - 1) + 2 ^ (64 * s) * D := by omega
      rw [this, Nat.add_mul_div_left _ _ hp, Nat.div_eq_of_lt (by omega), Nat.zero_add]
    · have h0 : val (x.mag.take s) ≠ 0 := mt (zero_p_iff _).2 hz
      rw [flag_toNat, if_neg hz, Nat.add_zero]
      have : low i = (val (x.mag.take s) - 1) + 2 ^ (64 * s) * val (x.mag.drop s) := by omega
      rw [this, Nat.add_mul_div_left _ _ hp, Nat.div_eq_of_lt (by omega), Nat.zero_add]
  refine ⟨?_, by rw [h1]; rfl⟩
  have := val_lt (x.mag.drop s)
  omega

theorem scan0_rep {x : Mpz} {i : Int} (pos : Nat) (hx : Rep x i) :
    FirstBit i false pos (mpz_scan0 x pos) ∨
    ((∀ n, pos ≤ n → bit i n = true) ∧ mpz_scan0 x pos = mp_bits_max) := by
  unfold mpz_scan0
  dsimp only
  by_cases hs : pos / 64 ≥ x.mag.length
  · rw [if_pos hs, rep_neg' hx]
    have hb : ∀ n, pos ≤ n → bit i n = decide (i < 0) := fun n hn => by
      rw [bit_low, Nat.testBit_lt_two_pow (lt_of_lt_of_le (low_spec hx).1 (Nat.pow_le_pow_right (by omega) (by omega))),
        Bool.xor_false]
    by_cases hi : i < 0
    · rw [decide_eq_true hi] at hb ⊢
      exact .inr ⟨hb, rfl⟩
    · rw [decide_eq_false hi] at hb ⊢
      exact .inl ⟨le_rfl, hb pos le_rfl, fun n h (h' : n < pos) => absurd h (by omega)⟩
  · rw [if_neg hs]
    by_cases hi : i < 0
    · rw [if_pos ((rep_sizen hx).2 hi)]
      obtain ⟨h1, h2⟩ := scan_neg hx hi (pos / 64)
      have hb : ∀ n, bit i n = !(low i).testBit n := fun n => by rw [bit_low, decide_eq_true hi, Bool.true_xor]
      have hf := scan_found true x.mag _ pos _ h1 h2
      rw [if_pos rfl] at hf
      rcases found_shift hf with ⟨g1, g2, g3⟩ | ⟨-, g2, g3⟩
      · refine .inl ⟨g1, by rw [hb, show (low i).testBit _ = true from g2]; rfl, fun n hn hn' => ?_⟩
        rw [hb, g3 n hn hn']; simp
      · exact .inr ⟨fun n hn => by rw [hb, g2 n hn]; rfl, g3⟩
    · rw [if_neg (mt (rep_sizen hx).1 hi)]
      have hv : i = (val x.mag : Int) := by rw [rep_abs hx]; omega
      rcases mpn_scan_bits false x.mag pos with h | ⟨h, -, -⟩
      · rw [← hv] at h; exact .inl h
      · cases h

theorem scan1_rep {x : Mpz} {i : Int} (pos : Nat) (hx : Rep x i) :
    FirstBit i true pos (mpz_scan1 x pos) ∨
    ((∀ n, pos ≤ n → bit i n = false) ∧ mpz_scan1 x pos = mp_bits_max) := by
  unfold mpz_scan1
  dsimp only
  by_cases hs : pos / 64 ≥ x.mag.length
  · rw [if_pos hs, rep_neg' hx]
    have hb : ∀ n, pos ≤ n → bit i n = decide (i < 0) := fun n hn => by
      rw [bit_low, Nat.testBit_lt_two_pow (lt_of_lt_of_le (low_spec hx).1 (Nat.pow_le_pow_right (by omega) (by omega))),
        Bool.xor_false]
    by_cases hi : i < 0
    · rw [decide_eq_true hi] at hb ⊢
      exact .inl ⟨le_rfl, hb pos le_rfl, fun n h (h' : n < pos) => absurd h (by omega)⟩
    · rw [decide_eq_false hi] at hb ⊢
      exact .inr ⟨hb, rfl⟩
  · rw [if_neg hs]
    by_cases hi : i < 0
    · rw [if_pos ((rep_sizen hx).2 hi)]
      obtain ⟨h1, h2⟩ := scan_neg hx hi (pos / 64)
      have hb : ∀ n, bit i n = !(low i).testBit n := fun n => by rw [bit_low, decide_eq_true hi, Bool.true_xor]
      have hf := scan_found false x.mag _ pos _ h1 h2
      rw [if_neg (by simp)] at hf
      rcases found_shift hf with ⟨g1, g2, g3⟩ | ⟨h, -, -⟩
      · refine .inl ⟨g1, by rw [hb, show (low i).testBit _ = false from g2]; rfl, fun n hn hn' => ?_⟩
        rw [hb, g3 n hn hn']; simp
      · cases h
    · rw [if_neg (mt (rep_sizen hx).1 hi)]
      have hv : i = (val x.mag : Int) := by rw [rep_abs hx]; omega
      rcases mpn_scan_bits true x.mag pos with h | ⟨-, h2, h3⟩
      · rw [← hv] at h; exact .inl h
      · rw [← hv] at h2; exact .inr ⟨h2, h3⟩

/-! ### Lengths and parity -/

theorem odd_rep {x : Mpz} {i : Int} (hx : Rep x i) : mpz_odd_p x = .ok (decide (i % 2 = 1)) := by
  unfold mpz_odd_p
  by_cases h0 : i = 0
  · rw [if_pos ((rep_size0 hx).2 h0), h0]; rfl
  · rw [if_neg (mt (rep_size0 hx).1 h0)]
    obtain ⟨a, e, v⟩ := limb0_rep hx h0
    rw [e, C.ok_bind]
    congr 1
    rw [decide_eq_decide, Ne, ← toNat_eq_zero, BitVec.toNat_and, show (1 : Limb).toNat = 2 ^ 1 - 1 from rfl,
      Nat.and_two_pow_sub_one_eq_mod, v]
    omega

theorem even_rep {x : Mpz} {i : Int} (hx : Rep x i) : mpz_even_p x = .ok (decide (i % 2 = 0)) := by
  unfold mpz_even_p
  rw [odd_rep hx, C.ok_bind]
  congr 1
  rw [← decide_not, decide_eq_decide]
  omega

theorem bitlen_rep {x : Mpz} {i : Int} (hx : Rep x i) : mpz_bitlen x = .ok (Nat.size i.natAbs) := by
  unfold mpz_bitlen
  by_cases h0 : i = 0
  · rw [if_pos ((rep_len hx).2 h0), h0]; simp
  · rw [if_neg (mt (rep_len hx).1 h0)]
    have hne : x.mag ≠ [] := mt (rep_nil hx).1 h0
    have hn := rep_norm hx
    obtain ⟨lo, top, hm⟩ : ∃ lo top, x.mag = lo ++ [top] :=
      ⟨x.mag.dropLast, x.mag.getLast hne, (List.dropLast_concat_getLast hne).symm⟩
    have htop : top ≠ 0 := by
      rw [hm] at hn
      unfold Norm at hn
      rw [List.getLast?_concat] at hn
      rintro rfl; exact hn rfl
    have hv := rep_abs hx
    rw [hm, val_append, val_singleton] at hv
    rw [hm, List.length_append, List.length_singleton, Nat.add_sub_cancel, rd_append_at rfl, C.ok_bind]
    congr 1
    have ht0 : 0 < top.toNat := Nat.pos_of_ne_zero (mt toNat_eq_zero.1 htop)
    have hs1 : Nat.size top.toNat ≤ 64 := Nat.size_le.2 top.isLt
    have hs0 : 0 < Nat.size top.toNat := Nat.size_pos.2 ht0
    rw [mp_clz_eq, ← hv]
    have hl := val_lt lo
    have key : Nat.size (val lo + 2 ^ (64 * lo.length) * top.toNat) = 64 * lo.length + Nat.size top.toNat := by
      apply le_antisymm
      · rw [Nat.size_le, pow_add]
        have : top.toNat + 1 ≤ 2 ^ Nat.size top.toNat := Nat.lt_size_self _
        have h2 := Nat.mul_le_mul_left (2 ^ (64 * lo.length)) this
        rw [Nat.mul_add, Nat.mul_one] at h2
        omega
      · have h1 : 2 ^ (Nat.size top.toNat - 1) ≤ top.toNat := Nat.lt_size.1 (by omega)
        have : 64 * lo.length + (Nat.size top.toNat - 1) <
            Nat.size (val lo + 2 ^ (64 * lo.length) * top.toNat) := by
          rw [Nat.lt_size, pow_add]
          have h2 := Nat.mul_le_mul_left (2 ^ (64 * lo.length)) h1
          omega
        omega
    rw [key]
    omega

theorem bytelen_rep {x : Mpz} {i : Int} (hx : Rep x i) : mpz_bytelen x = .ok ((Nat.size i.natAbs + 7) / 8) := by
  unfold mpz_bytelen
  rw [bitlen_rep hx, C.ok_bind]

theorem ctz_rep {x : Mpz} {i : Int} (hx : Rep x i) (h0 : i ≠ 0) :
    (2 : Int) ^ mpz_ctz x ∣ i ∧ ¬ (2 : Int) ^ (mpz_ctz x + 1) ∣ i := by
  unfold mpz_ctz
  obtain ⟨h1, h2⟩ := (ctz_val x.mag).2 (by rw [rep_abs hx]; omega)
  rw [rep_abs hx] at h1 h2
  generalize mpn_ctz x.mag = n at *
  rw [dvd_natAbs, dvd_natAbs, natAbs_two_pow, natAbs_two_pow]
  refine ⟨?_, ?_⟩
  · rw [h1]; exact Nat.mul_mod_right _ _
  · intro h
    obtain ⟨c, hc⟩ := Nat.dvd_of_mod_eq_zero h
    rw [hc, pow_succ, Nat.mul_assoc, Nat.mul_div_cancel_left _ (Nat.two_pow_pos n)] at h2
    omega

/-! ### Product with rounding shift -/

theorem round_shift (v bits : Nat) (hb : 0 < bits) :
    (2 * v + 2 ^ bits) / (2 * 2 ^ bits) = v / 2 ^ bits + (if v.testBit (bits - 1) then 1 else 0) := by
  obtain ⟨b, rfl⟩ : ∃ b, bits = b + 1 := ⟨bits - 1, by omega⟩
  rw [Nat.add_sub_cancel, odd_half]
  simp only [decide_eq_true_eq]
  have e : (2 * v + 2 ^ (b + 1)) / (2 * 2 ^ (b + 1)) = (v / 2 ^ b + 1) / 2 := by
    rw [show 2 * v + 2 ^ (b + 1) = 2 * (v + 2 ^ b) by ring, show 2 * 2 ^ (b + 1) = 2 * (2 ^ b * 2) by ring,
      Nat.mul_div_mul_left _ _ (by omega), ← Nat.div_div_eq_div_mul, Nat.add_div_right _ (Nat.two_pow_pos b)]
  rw [e, pow_succ, ← Nat.div_div_eq_div_mul]
  split <;> omega

theorem mulshift_rep {x y : Mpz} {i j : Int} {z : Dest} (bits : Nat) (hx : Rep x i) (hy : Rep y j)
    (hr : Room z (x.mag.length + y.mag.length + 1)) :
    ∃ t, mpz_mulshift z x y bits = .ok t ∧ Rep t (Spec.divRound (i * j) (2 ^ bits)) := by
  unfold mpz_mulshift
  obtain ⟨t, e, rt⟩ := mul_rep (z := z) hx hy (room_mono hr (by omega))
  have lt : t.mag.length ≤ x.mag.length + y.mag.length := by
    apply rep_len_le rt
    rw [Int.natAbs_mul, Nat.mul_add, pow_add]
    exact Nat.mul_lt_mul'' (rep_lt hx) (rep_lt hy)
  rw [e, C.ok_bind]
  by_cases hb : bits > 0
  swap
  · rw [if_neg hb]
    refine ⟨_, rfl, ?_⟩
    have h0 : bits = 0 := by omega
    have : Spec.divRound (i * j) (2 ^ bits) = i * j := by
      unfold Spec.divRound
      rw [h0]
      generalize i * j = w
      have : (2 * w.natAbs + ((2 : Int) ^ 0).natAbs) / (2 * ((2 : Int) ^ 0).natAbs) = w.natAbs := by
        rw [show ((2 : Int) ^ 0).natAbs = 1 from rfl]; omega
      rw [this, show ((2 : Int) ^ 0) = 1 from rfl, Int.sign_one, mul_one]
      exact Int.sign_mul_natAbs w
    rw [this]; exact rt
  rw [if_pos hb]
  obtain ⟨a, ea, ra⟩ := abs_rep (z := z) rt (room_mono hr (by omega))
  have la : a.mag.length ≤ t.mag.length := rep_len_mono ra rt (by omega)
  rw [ea, C.ok_bind, tstbit_rep (bits - 1) ra, C.ok_bind]
  obtain ⟨q, eq, rq⟩ := quo_2exp_rep (z := z) bits ra (room_mono hr (by omega))
  have lq := tdiv_len ra rq
  rw [eq, C.ok_bind]
  obtain ⟨s, es, rs⟩ := add_ui_rep (z := z) (flag (bit ((i * j).natAbs : Int) (bits - 1) = true)) rq (room_mono hr (by omega))
  rw [es, C.ok_bind]
  have hval : ((i * j).natAbs : Int).tdiv (2 ^ bits) + ((flag (bit ((i * j).natAbs : Int) (bits - 1) = true)).toNat : Int) =
      (((2 * (i * j).natAbs + 2 ^ bits) / (2 * 2 ^ bits) : Nat) : Int) := by
    rw [round_shift _ _ hb, flag_toNat, bit_nonneg, tdiv_nonneg (by omega)]
    push_cast
    split <;> rfl
  rw [hval] at rs
  have ls := sum_len rq rs (by
    rw [← hval]
    have := flag_le (bit ((i * j).natAbs : Int) (bits - 1) = true)
    omega)
  have hsg : Spec.divRound (i * j) (2 ^ bits) =
      (i * j).sign * (((2 * (i * j).natAbs + 2 ^ bits) / (2 * 2 ^ bits) : Nat) : Int) := by
    unfold Spec.divRound
    rw [natAbs_two_pow, Int.sign_eq_one_of_pos (a := 2 ^ bits) (by positivity), mul_one]
  rw [hsg]
  rw [rep_neg' hx, rep_neg' hy]
  by_cases hs : (decide (i < 0) != decide (j < 0)) = true
  · rw [if_pos hs]
    obtain ⟨u, eu, ru⟩ := neg_rep (z := z) rs (room_mono hr (by omega))
    refine ⟨u, eu, ?_⟩
    by_cases h0 : i * j = 0
    · rw [h0] at ru ⊢
      have : (2 * (0 : Int).natAbs + 2 ^ bits) / (2 * 2 ^ bits) = 0 := by
        apply Nat.div_eq_of_lt
        have := Nat.two_pow_pos bits
        simp
      rw [this] at ru ⊢
      simpa using ru
    · have : i * j < 0 := by
        by_cases hj : j < 0
        · have hi : ¬ i < 0 := by intro h; rw [decide_eq_true h, decide_eq_true hj] at hs; simp at hs
          have : i ≠ 0 := by rintro rfl; simp at h0
          exact mul_neg_of_pos_of_neg (by omega) hj
        · have hi : i < 0 := by by_contra h; rw [decide_eq_false h, decide_eq_false hj] at hs; simp at hs
          have : j ≠ 0 := by rintro rfl; simp at h0
          exact mul_neg_of_neg_of_pos hi (by omega)
      rw [Int.sign_eq_neg_one_of_neg this]
      rw [neg_one_mul]; exact ru
  · rw [if_neg hs]
    refine ⟨_, rfl, ?_⟩
    by_cases h0 : i * j = 0
    · rw [h0] at rs ⊢
      have : (2 * (0 : Int).natAbs + 2 ^ bits) / (2 * 2 ^ bits) = 0 := by
        apply Nat.div_eq_of_lt
        have := Nat.two_pow_pos bits
        simp
      rw [this] at rs ⊢
      simpa using rs
    · have : 0 < i * j := by
        by_cases hj : j < 0
        · have hi : i < 0 := by by_contra h; rw [decide_eq_false h, decide_eq_true hj] at hs; simp at hs
          exact mul_pos_of_neg_of_neg hi hj
        · have hi : ¬ i < 0 := by intro h; rw [decide_eq_true h, decide_eq_false hj] at hs; simp at hs
          have : j ≠ 0 := by rintro rfl; simp at h0
          have : i ≠ 0 := by rintro rfl; simp at h0
          exact mul_pos (by omega) (by omega)
      rw [Int.sign_eq_one_of_pos this, one_mul]
      exact rs

end Torsion.Mpi
