import Verif.Mpi.MpzBitMore

namespace Torsion.Mpi

open Spec (val ival Canon Rep Room bit FirstBit)

/-! ### Logic with a word -/

theorem limb0_rep {x : Mpz} {i : Int} (hx : Rep x i) (h0 : i ≠ 0) :
    ∃ a, limb0 x = .ok a ∧ a.toNat = i.natAbs % 2 ^ 64 := by
  obtain ⟨a, e, v⟩ := val_mod x.mag (mt (rep_nil hx).1 h0)
  exact ⟨a, e, by rw [v, rep_abs hx]⟩

theorem rep_size_pos {x : Mpz} {i : Int} (hx : Rep x i) : x.size > 0 ↔ 0 < i := by
  have h1 := rep_sizen hx
  have h2 := rep_size0 hx
  omega

/-- The low limb of `|i| - 1` for negative `i`. -/
theorem low_limb {a : Limb} {i : Int} (hi : i < 0) (ha : a.toNat = i.natAbs % 2 ^ 64) :
    (a - 1).toNat = low i % 2 ^ 64 := by
  have h1 : low i + 1 = i.natAbs := by unfold low; rw [if_pos hi]; omega
  have h2 := mp_sub_val a 1
  rw [BitVec.toNat_sub, show (1 : Limb).toNat = 1 from rfl, ha, ← h1]
  omega

theorem low_nonneg {i : Int} (hi : ¬ i < 0) : low i = i.natAbs := by unfold low; rw [if_neg hi]; omega

theorem word_bit (w : Limb) (n : Nat) (h : 64 ≤ n) : w.toNat.testBit n = false :=
  Nat.testBit_lt_two_pow (lt_of_lt_of_le w.isLt (Nat.pow_le_pow_right (by omega) h))

theorem mod_bit (v n : Nat) (h : n < 64) : (v % 2 ^ 64).testBit n = v.testBit n := by
  rw [Nat.testBit_mod_two_pow, decide_eq_true h, Bool.true_and]

theorem and_ui_rep {x : Mpz} {i : Int} (y : Limb) (hx : Rep x i) :
    ∃ w, mpz_and_ui x y = .ok w ∧ ∀ n, bit w.toNat n = (bit i n && bit y.toNat n) := by
  unfold mpz_and_ui
  by_cases hi : i < 0
  · rw [if_pos ((rep_sizen hx).2 hi)]
    obtain ⟨a, e, v⟩ := limb0_rep hx (by omega)
    rw [e, C.ok_bind]
    refine ⟨_, rfl, fun n => ?_⟩
    rw [bit_nonneg, bit_nonneg, bit_low, decide_eq_true hi, Bool.true_xor, BitVec.toNat_and, Nat.testBit_and, not_bit,
      low_limb hi v]
    by_cases h : n < 64
    · rw [mod_bit _ _ h, decide_eq_true h, Bool.true_and, Bool.and_comm]
    · rw [word_bit y n (by omega), Bool.false_and, Bool.and_false]
  · rw [if_neg (mt (rep_sizen hx).1 hi)]
    by_cases h0 : i = 0
    · rw [if_pos ((rep_size0 hx).2 h0)]
      refine ⟨_, rfl, fun n => ?_⟩
      have hz : bit (0 : Int) n = false := by simpa using bit_nonneg 0 n
      rw [show (((0 : Limb).toNat : Nat) : Int) = 0 from rfl, h0, hz, Bool.false_and]
    · rw [if_neg (mt (rep_size0 hx).1 h0)]
      obtain ⟨a, e, v⟩ := limb0_rep hx h0
      rw [e, C.ok_bind]
      refine ⟨_, rfl, fun n => ?_⟩
      rw [bit_nonneg, bit_nonneg, bit_low, decide_eq_false hi, Bool.false_xor, BitVec.toNat_and, Nat.testBit_and, v,
        low_nonneg hi]
      by_cases h : n < 64
      · rw [mod_bit _ _ h]
      · rw [word_bit y n (by omega), Bool.and_false, Bool.and_false]

theorem len_si (y : BitVec 64) : (mpz_set_si y).mag.length ≤ 1 := by
  unfold mpz_set_si mpz_make
  dsimp only
  split <;> simp

theorem len_ui (y : Limb) : (mpz_set_ui y).mag.length ≤ 1 := by
  unfold mpz_set_ui
  split <;> simp

theorem and_si_rep {x : Mpz} {i : Int} {z : Dest} (y : BitVec 64) (hx : Rep x i)
    (hr : Room z (max x.mag.length 1 + 1)) :
    ∃ t k, mpz_and_si z x y = .ok t ∧ Rep t k ∧ ∀ n, bit k n = (bit i n && bit y.toInt n) := by
  unfold mpz_and_si
  by_cases hy : y.slt 0 = true
  · rw [if_pos hy]
    have := len_si y
    exact and_rep hx (set_si_rep y) (room_mono hr (by omega))
  · rw [if_neg hy]
    obtain ⟨w, e, hw⟩ := and_ui_rep y hx
    rw [e, C.ok_bind]
    refine ⟨_, _, rfl, set_ui_rep w, ?_⟩
    rw [← toInt_nonneg hy]
    exact hw

theorem set_zero_val (φ : Bool → Bool → Bool) (hφ : ∀ p, φ p false = p) (f : Limb → Limb → Limb)
    (hf : ∀ a b, (f a b).toNat = Nat.bitwise φ a.toNat b.toNat) (xs : List Limb) (hne : xs ≠ []) (y : Limb) :
    ∃ a, C.rd xs 0 = .ok a ∧ val (xs.set 0 (f a y)) = Nat.bitwise φ (val xs) y.toNat := by
  cases xs with
  | nil => exact absurd rfl hne
  | cons x xs =>
    refine ⟨x, rfl, ?_⟩
    have := zip_tail φ hφ f hf (x :: xs) [y] (by simp)
    rw [val_singleton, List.zipWith_cons_cons, List.zipWith_nil_right, List.length_singleton, List.drop_succ_cons,
      List.drop_zero, List.singleton_append] at this
    exact this

theorem or_bitwise (a b : Limb) : (a ||| b).toNat = Nat.bitwise or a.toNat b.toNat := BitVec.toNat_or ..

theorem xor_bitwise (a b : Limb) : (a ^^^ b).toNat = Nat.bitwise xor a.toNat b.toNat := by
  rw [BitVec.toNat_xor]
  apply Nat.eq_of_testBit_eq
  intro n
  rw [Nat.testBit_xor, Nat.testBit_bitwise rfl]

theorem ior_ui_rep {x : Mpz} {i : Int} {z : Dest} (y : Limb) (hx : Rep x i)
    (hr : Room z (max x.mag.length 1 + 1)) :
    ∃ t k, mpz_ior_ui z x y = .ok t ∧ Rep t k ∧ ∀ n, bit k n = (bit i n || bit y.toNat n) := by
  unfold mpz_ior_ui
  by_cases hi : i < 0
  · rw [if_pos ((rep_sizen hx).2 hi)]
    have := len_ui y
    exact ior_rep hx (set_ui_rep y) (room_mono hr (by omega))
  · rw [if_neg (mt (rep_sizen hx).1 hi)]
    by_cases h0 : i = 0
    · rw [if_pos ((rep_size0 hx).2 h0)]
      refine ⟨_, _, rfl, set_ui_rep y, fun n => ?_⟩
      have hz : bit (0 : Int) n = false := by simpa using bit_nonneg 0 n
      rw [h0, hz, Bool.false_or]
    · rw [if_neg (mt (rep_size0 hx).1 h0)]
      obtain ⟨t, et, rt⟩ := set_rep (z := z) hx (room_mono hr (by omega))
      rw [et, C.ok_bind]
      obtain ⟨a, ea, va⟩ := set_zero_val or (by simp) (fun x y => x ||| y) or_bitwise t.mag (mt (rep_nil rt).1 h0) y
      unfold limb0
      rw [ea, C.ok_bind]
      have hor : val (t.mag.set 0 (a ||| y)) = i.natAbs ||| y.toNat := by
        rw [va, rep_abs rt]; rfl
      have hge : i.natAbs ≤ i.natAbs ||| y.toNat := Nat.left_le_or
      refine ⟨_, ((i.natAbs ||| y.toNat : Nat) : Int), rfl, ⟨⟨?_, ?_⟩, ?_⟩, fun n => ?_⟩
      · exact norm_of_ge (rep_norm rt) (by simp) (by rw [hor, rep_abs rt]; exact hge)
      · intro hn
        rw [rep_neg' rt, decide_eq_false hi] at hn
        cases hn
      · unfold ival
        rw [rep_neg' rt, decide_eq_false hi, hor]
        rfl
      · rw [bit_nonneg, bit_nonneg, bit_low, decide_eq_false hi, Bool.false_xor, low_nonneg hi, Nat.testBit_or]

theorem xor_ui_rep {x : Mpz} {i : Int} {z : Dest} (y : Limb) (hx : Rep x i)
    (hr : Room z (max x.mag.length 1 + 1)) :
    ∃ t k, mpz_xor_ui z x y = .ok t ∧ Rep t k ∧ ∀ n, bit k n = (bit i n ^^ bit y.toNat n) := by
  unfold mpz_xor_ui
  by_cases hi : i < 0
  · rw [if_pos ((rep_sizen hx).2 hi)]
    have := len_ui y
    exact xor_rep hx (set_ui_rep y) (room_mono hr (by omega))
  · rw [if_neg (mt (rep_sizen hx).1 hi)]
    by_cases h0 : i = 0
    · rw [if_pos ((rep_size0 hx).2 h0)]
      refine ⟨_, _, rfl, set_ui_rep y, fun n => ?_⟩
      have hz : bit (0 : Int) n = false := by simpa using bit_nonneg 0 n
      rw [h0, hz, Bool.false_xor]
    · rw [if_neg (mt (rep_size0 hx).1 h0)]
      obtain ⟨t, et, rt⟩ := set_rep (z := z) hx (room_mono hr (by omega))
      rw [et, C.ok_bind]
      have htne : t.mag ≠ [] := mt (rep_nil rt).1 h0
      obtain ⟨a, ea, va⟩ := set_zero_val xor (by simp) (fun x y => x ^^^ y) xor_bitwise t.mag htne y
      unfold limb0
      rw [ea, C.ok_bind]
      have hor : val (t.mag.set 0 (a ^^^ y)) = i.natAbs ^^^ y.toNat := by
        rw [va, rep_abs rt]
        apply Nat.eq_of_testBit_eq
        intro n
        rw [Nat.testBit_xor, Nat.testBit_bitwise rfl]
      obtain ⟨u, eu, nu, vu⟩ := trim_ok (t.mag.set 0 (a ^^^ y)) (by
          intro e; exact htne (by simpa using congrArg List.length e)) (by
        by_cases hl : t.mag.length ≤ 1
        · right; simpa using hl
        · left
          rw [List.length_set]
          obtain ⟨b, tl, hb⟩ : ∃ b tl, t.mag = b :: tl := by
            cases h : t.mag with
            | nil => exact absurd h htne
            | cons b tl => exact ⟨b, tl, rfl⟩
          have hn := norm_val_pos (rep_norm rt) htne
          rw [hb] at hl hn ⊢
          rw [List.set_cons_zero, val_cons]
          rw [val_cons, List.length_cons, Nat.add_sub_cancel] at hn
          rw [List.length_cons] at hl ⊢
          have hp : 2 ^ (64 * tl.length) = 2 ^ 64 * 2 ^ (64 * (tl.length + 1 - 2)) := by
            rw [← pow_add]; congr 1; omega
          have := b.isLt
          have := (a ^^^ y).isLt
          rw [hp] at hn
          generalize 2 ^ (64 * (tl.length + 1 - 2)) = P at *
          omega)
      rw [eu, C.ok_bind]
      refine ⟨_, ((i.natAbs ^^^ y.toNat : Nat) : Int), rfl, make_rep' nu ?_, fun n => ?_⟩
      · rw [rep_neg' rt, decide_eq_false hi, vu, hor]
        rfl
      · rw [bit_nonneg, bit_nonneg, bit_low, decide_eq_false hi, Bool.false_xor, low_nonneg hi, Nat.testBit_xor]

theorem xor_si_rep {x : Mpz} {i : Int} {z : Dest} (y : BitVec 64) (hx : Rep x i)
    (hr : Room z (max x.mag.length 1 + 1)) :
    ∃ t k, mpz_xor_si z x y = .ok t ∧ Rep t k ∧ ∀ n, bit k n = (bit i n ^^ bit y.toInt n) := by
  unfold mpz_xor_si
  by_cases hy : y.slt 0 = true
  · rw [if_pos hy]
    have := len_si y
    exact xor_rep hx (set_si_rep y) (room_mono hr (by omega))
  · rw [if_neg hy, ← toInt_nonneg hy]
    exact xor_ui_rep y hx hr

theorem ior_si_rep {x : Mpz} {i : Int} {z : Dest} (y : BitVec 64) (hx : Rep x i)
    (hr : Room z (max x.mag.length 1 + 1)) :
    ∃ t k, mpz_ior_si z x y = .ok t ∧ Rep t k ∧ ∀ n, bit k n = (bit i n || bit y.toInt n) := by
  unfold mpz_ior_si
  by_cases hy : y.slt 0 = true
  · rw [if_pos hy]
    dsimp only
    have hyi := (slt_iff y).1 hy
    have hv := limb_cast_val y
    have hyb : ∀ n, bit y.toInt n = !(low y.toInt).testBit n := fun n => by
      rw [bit_low, decide_eq_true hyi, Bool.true_xor]
    have hlow : low y.toInt + 1 = y.toInt.natAbs := by unfold low; rw [if_pos hyi]; omega
    have hlt : low y.toInt < 2 ^ 63 := by
      have := BitVec.le_two_mul_toInt (x := y)
      omega
    have hl63 : ∀ n, ¬ n < 64 → (low y.toInt).testBit n = false := fun n h =>
      Nat.testBit_lt_two_pow (lt_of_lt_of_le hlt (Nat.pow_le_pow_right (by omega) (by omega)))
    have hvl : (mp_limb_cast y - 1).toNat = low y.toInt := by
      rw [BitVec.toNat_sub, hv, ← hlow, show (1 : Limb).toNat = 1 from rfl]
      omega
    obtain ⟨r, m, er, vr, hm⟩ : ∃ (r : Limb) (m : Nat), (if x.size < 0 then do
        let a ← limb0 x
        C.ok (((a - 1) &&& (mp_limb_cast y - 1)) + 1)
      else if x.size > 0 then do
        let a ← limb0 x
        C.ok (((mp_limb_cast y - 1) &&& ~~~a) + 1)
      else C.ok (mp_limb_cast y)) = .ok r ∧ r.toNat = m + 1 ∧
        ∀ n, (!m.testBit n) = (bit i n || bit y.toInt n) := by
      by_cases hi : i < 0
      · rw [if_pos ((rep_sizen hx).2 hi)]
        obtain ⟨a, e, v⟩ := limb0_rep hx (by omega)
        rw [e, C.ok_bind]
        refine ⟨_, low i % 2 ^ 64 &&& low y.toInt, rfl, ?_, fun n => ?_⟩
        · rw [BitVec.toNat_add, BitVec.toNat_and, hvl, low_limb hi v, show (1 : Limb).toNat = 1 from rfl]
          have := Nat.and_le_right (n := low i % 2 ^ 64) (m := low y.toInt)
          exact Nat.mod_eq_of_lt (by omega)
        · rw [Nat.testBit_and, hyb, bit_low, decide_eq_true hi, Bool.true_xor]
          by_cases h : n < 64
          · rw [mod_bit _ _ h, Bool.not_and]
          · rw [hl63 n h, Bool.and_false, Bool.not_false, Bool.or_true]
      · rw [if_neg (mt (rep_sizen hx).1 hi)]
        by_cases h0 : i = 0
        · rw [if_neg (mt (rep_size_pos hx).1 (by omega))]
          refine ⟨_, low y.toInt, rfl, by omega, fun n => ?_⟩
          have hz : bit (0 : Int) n = false := by simpa using bit_nonneg 0 n
          rw [h0, hz, Bool.false_or, hyb]
        · rw [if_pos ((rep_size_pos hx).2 (by omega))]
          obtain ⟨a, e, v⟩ := limb0_rep hx (by omega)
          rw [e, C.ok_bind]
          refine ⟨_, (mp_limb_cast y - 1).toNat &&& (~~~a).toNat, rfl, ?_, fun n => ?_⟩
          · rw [BitVec.toNat_add, BitVec.toNat_and, hvl, show (1 : Limb).toNat = 1 from rfl]
            have := Nat.and_le_left (n := low y.toInt) (m := (~~~a).toNat)
            exact Nat.mod_eq_of_lt (by omega)
          · rw [Nat.testBit_and, hvl, hyb, bit_low, decide_eq_false hi, Bool.false_xor, not_bit, v, low_nonneg hi]
            by_cases h : n < 64
            · rw [mod_bit _ _ h, decide_eq_true h, Bool.true_and, Bool.not_and, Bool.not_not, Bool.or_comm]
            · rw [hl63 n h, Bool.false_and, Bool.not_false, Bool.or_true]
    rw [er, C.ok_bind]
    have hru := set_ui_rep r
    obtain ⟨t, et, rt⟩ := neg_rep (z := z) hru (room_mono hr (by have := len_ui r; omega))
    refine ⟨t, _, et, rt, fun n => ?_⟩
    rw [← hm n, vr]
    have := bit_tc true m n
    rw [Bool.true_xor] at this
    rw [← this]
    rfl
  · rw [if_neg hy, ← toInt_nonneg hy]
    exact ior_ui_rep y hx hr

/-! ### Logic on vectors -/

theorem zip_testBit (f : Limb → Limb → Limb) (φ : Bool → Bool → Bool)
    (hf : ∀ (a b : Limb) k, k < 64 → (f a b).toNat.testBit k = φ (a.toNat.testBit k) (b.toNat.testBit k))
    (xs ys : List Limb) (h : xs.length = ys.length) (n : Nat) (hn : n < 64 * xs.length) :
    (val (List.zipWith f xs ys)).testBit n = φ ((val xs).testBit n) ((val ys).testBit n) := by
  rw [val_testBit, val_testBit, val_testBit, ← hf _ _ _ (by omega)]
  congr 2
  have h1 : n / 64 < xs.length := by omega
  have h2 : n / 64 < ys.length := by omega
  simp [List.getD_eq_getElem?_getD, h1, h2]

theorem and_tb (a b : Limb) (k : Nat) : (a &&& b).toNat.testBit k = (a.toNat.testBit k && b.toNat.testBit k) := by
  rw [BitVec.toNat_and, Nat.testBit_and]
theorem or_tb (a b : Limb) (k : Nat) : (a ||| b).toNat.testBit k = (a.toNat.testBit k || b.toNat.testBit k) := by
  rw [BitVec.toNat_or, Nat.testBit_or]
theorem xor_tb (a b : Limb) (k : Nat) : (a ^^^ b).toNat.testBit k = (a.toNat.testBit k ^^ b.toNat.testBit k) := by
  rw [BitVec.toNat_xor, Nat.testBit_xor]
theorem not_tb (a : Limb) (k : Nat) (h : k < 64) : (~~~a).toNat.testBit k = !a.toNat.testBit k := by
  rw [not_bit, decide_eq_true h, Bool.true_and]

/-! ### Single bits -/

theorem odd_half (v n : Nat) : v.testBit n = decide (v / 2 ^ n % 2 = 1) := Nat.testBit_eq_decide_div_mod_eq

/-- Bits of the predecessor. -/
theorem pred_bit {v : Nat} (hv : 0 < v) (n : Nat) :
    (v - 1).testBit n = if 2 ^ n ∣ v then !v.testBit n else v.testBit n := by
  rw [odd_half, odd_half]
  have hp : 0 < 2 ^ n := Nat.two_pow_pos n
  have hd := Nat.div_add_mod v (2 ^ n)
  have hm := Nat.mod_lt v hp
  by_cases h : 2 ^ n ∣ v
  · rw [if_pos h]
    have h0 : v % 2 ^ n = 0 := Nat.mod_eq_zero_of_dvd h
    have hq : 1 ≤ v / 2 ^ n := Nat.div_pos (Nat.le_of_dvd hv h) hp
    have h1 : (v - 1) / 2 ^ n = v / 2 ^ n - 1 := by
      obtain ⟨c, hc⟩ : ∃ c, v / 2 ^ n = c + 1 := ⟨v / 2 ^ n - 1, by omega⟩
      rw [hc]
      rw [h0, hc, Nat.mul_add] at hd
      have : v - 1 = (2 ^ n - 1) + 2 ^ n * c := by omega
      rw [this, Nat.add_mul_div_left _ _ hp, Nat.div_eq_of_lt (by omega)]
      omega
    rw [h1, ← decide_not, decide_eq_decide]
    omega
  · rw [if_neg h]
    have h0 : v % 2 ^ n ≠ 0 := fun e => h (Nat.dvd_of_mod_eq_zero e)
    have h1 : (v - 1) / 2 ^ n = v / 2 ^ n := by
      have : v - 1 = (v % 2 ^ n - 1) + 2 ^ n * (v / 2 ^ n) := by omega
      rw [this, Nat.add_mul_div_left _ _ hp, Nat.div_eq_of_lt (by omega), Nat.zero_add]
    rw [h1]

/-- The bits of `i` in terms of those of `|i|`. -/
theorem bit_abs (i : Int) (n : Nat) :
    bit i n = if i < 0 ∧ ¬ (2 : Int) ^ n ∣ i then !i.natAbs.testBit n else i.natAbs.testBit n := by
  have hd : (2 : Int) ^ n ∣ i ↔ 2 ^ n ∣ i.natAbs := by
    rw [dvd_natAbs, natAbs_two_pow, Nat.dvd_iff_mod_eq_zero]
  rw [bit_low]
  by_cases hi : i < 0
  · have : low i = i.natAbs - 1 := by unfold low; rw [if_pos hi]
    rw [decide_eq_true hi, Bool.true_xor, this, pred_bit (by omega)]
    by_cases h : (2 : Int) ^ n ∣ i
    · rw [if_pos (hd.1 h), if_neg (by tauto), Bool.not_not]
    · rw [if_neg (mt hd.2 h), if_pos ⟨hi, h⟩]
  · rw [decide_eq_false hi, Bool.false_xor, low_nonneg hi, if_neg (by tauto)]

theorem tstbit_rep {x : Mpz} {i : Int} (pos : Nat) (hx : Rep x i) : mpz_tstbit x pos = .ok (bit i pos) := by
  unfold mpz_tstbit
  dsimp only
  by_cases hs : pos / 64 ≥ x.mag.length
  · rw [if_pos hs, rep_neg' hx, bit_low]
    have h1 := (low_spec hx).1
    rw [Nat.testBit_lt_two_pow (lt_of_lt_of_le h1 (Nat.pow_le_pow_right (by omega) (by omega))), Bool.xor_false]
  · rw [if_neg hs, rd_lt (by omega), C.ok_bind]
    have hb : decide (x.mag.getD (pos / 64) 0 >>> (pos % 64) &&& 1 ≠ 0) = i.natAbs.testBit pos := by
      rw [← rep_abs hx, val_testBit, bit_and_one]
      cases (x.mag.getD (pos / 64) 0).toNat.testBit (pos % 64) <;> simp [flag]
    rw [bit_abs, hb]
    by_cases hi : i < 0
    · rw [if_pos ((rep_sizen hx).2 hi), divisible_2exp_rep pos hx, C.ok_bind]
      congr 1
      by_cases h : (2 : Int) ^ pos ∣ i
      · rw [decide_eq_true h, if_neg (by tauto)]; simp
      · rw [decide_eq_false h, if_pos ⟨hi, h⟩]; simp
    · rw [if_neg (mt (rep_sizen hx).1 hi), if_neg (by tauto)]

theorem add_bit_nat {m pos : Nat} (h : m.testBit pos = false) (n : Nat) :
    (m + 2 ^ pos).testBit n = (decide (n = pos) || m.testBit n) := by
  have hp : 0 < 2 ^ pos := Nat.two_pow_pos pos
  have hd := Nat.div_add_mod m (2 ^ pos)
  have hl := Nat.mod_lt m hp
  have he : m / 2 ^ pos % 2 = 0 := by
    rw [odd_half] at h
    have := of_decide_eq_false h
    omega
  have e1 : m + 2 ^ pos = 2 ^ pos * (m / 2 ^ pos + 1) + m % 2 ^ pos := by rw [Nat.mul_add]; omega
  conv_rhs => rw [← hd]
  rw [e1, Nat.testBit_two_pow_mul_add _ hl, Nat.testBit_two_pow_mul_add _ hl]
  by_cases hn : n < pos
  · rw [if_pos hn, if_pos hn, decide_eq_false (by omega), Bool.false_or]
  · rw [if_neg hn, if_neg hn]
    by_cases h0 : n = pos
    · subst h0
      rw [Nat.sub_self, decide_eq_true rfl, Bool.true_or, Nat.testBit_zero, decide_eq_true (by omega)]
    · obtain ⟨k, hk⟩ : ∃ k, n - pos = k + 1 := ⟨n - pos - 1, by omega⟩
      rw [hk, decide_eq_false h0, Bool.false_or, Nat.testBit_succ, Nat.testBit_succ]
      congr 1
      omega

/-- Adding `2^pos` sets a clear bit, subtracting it clears a set one. -/
theorem bit_set {i : Int} {pos : Nat} (h : bit i pos = false) (n : Nat) :
    bit (i + 2 ^ pos) n = (decide (n = pos) || bit i n) := by
  rw [bit_low] at h
  rw [bit_low i]
  by_cases hi : i < 0
  · rw [decide_eq_true hi, Bool.true_xor] at *
    have hl : low i + 1 = i.natAbs := by unfold low; rw [if_pos hi]; omega
    have hb : (low i).testBit pos = true := by simpa using h
    have hge : 2 ^ pos ≤ low i := Nat.ge_two_pow_of_testBit hb
    have hsub : (low i - 2 ^ pos).testBit pos = false := by
      rw [odd_half] at hb ⊢
      have hb := of_decide_eq_true hb
      have : (low i - 2 ^ pos) / 2 ^ pos = low i / 2 ^ pos - 1 := by
        have := Nat.sub_mul_div (low i) (2 ^ pos) 1
        simpa using this
      rw [this]
      exact decide_eq_false (by omega)
    have e : i + 2 ^ pos = tc true (low i - 2 ^ pos) := by
      unfold tc; rw [if_pos rfl]; push_cast [Nat.cast_sub hge]; omega
    rw [e, bit_tc, Bool.true_xor]
    have := add_bit_nat hsub n
    rw [Nat.sub_add_cancel hge] at this
    rw [this]
    by_cases hn : n = pos
    · subst hn; rw [hsub, decide_eq_true rfl]; rfl
    · rw [decide_eq_false hn, Bool.false_or, Bool.false_or]
  · rw [decide_eq_false hi, Bool.false_xor] at *
    have e : i + 2 ^ pos = ((low i + 2 ^ pos : Nat) : Int) := by
      rw [low_nonneg hi]; push_cast; rw [abs_of_nonneg (by omega)]
    rw [e, bit_nonneg]
    exact add_bit_nat h n

theorem bit_clear {i : Int} {pos : Nat} (h : bit i pos = true) (n : Nat) :
    bit (i - 2 ^ pos) n = (decide (n ≠ pos) && bit i n) := by
  have h' : bit (-i - 1) pos = false := by rw [bit_com, h]; rfl
  have := bit_set h' n
  rw [show -i - 1 + 2 ^ pos = -(i - 2 ^ pos) - 1 by ring, bit_com, bit_com] at this
  by_cases hn : n = pos
  · subst hn; simpa using this
  · simpa [hn] using this

theorem setbit_abs_rep {z : Mpz} {i : Int} (pos : Nat) (hz : Rep z i) :
    ∃ t, mpz_setbit_abs z pos = .ok t ∧
      Rep t (if i.natAbs.testBit pos then i else if i < 0 then i - 2 ^ pos else i + 2 ^ pos) := by
  unfold mpz_setbit_abs
  dsimp only
  have hzl : (z.mag ++ mpn_zero (pos / 64 + 1 - z.mag.length)).length = max z.mag.length (pos / 64 + 1) := by
    rw [List.length_append, len_zeros]; omega
  obtain ⟨zp, e, l, hb⟩ := setbit_eq (z.mag ++ mpn_zero (pos / 64 + 1 - z.mag.length)) pos (by omega)
  have e2 : (do
      let a ← C.rd (z.mag ++ mpn_zero (pos / 64 + 1 - z.mag.length)) (pos / 64)
      let zp ← C.wr (z.mag ++ mpn_zero (pos / 64 + 1 - z.mag.length)) (pos / 64) (a ||| ((1 : Limb) <<< (pos % 64)))
      C.ok (Mpz.mk z.neg zp)) = (do
      let zp ← mpn_setbit (z.mag ++ mpn_zero (pos / 64 + 1 - z.mag.length)) pos
      C.ok (Mpz.mk z.neg zp)) := by
    unfold mpn_setbit; rw [C.bind_assoc]
  rw [e2, e, C.ok_bind]
  have hv0 : val (z.mag ++ mpn_zero (pos / 64 + 1 - z.mag.length)) = i.natAbs := by
    rw [val_append, val_zeros, Nat.mul_zero, Nat.add_zero, rep_abs hz]
  rw [hv0] at hb
  have hv : val zp = if i.natAbs.testBit pos then i.natAbs else i.natAbs + 2 ^ pos := by
    apply Nat.eq_of_testBit_eq
    intro n
    rw [hb]
    cases h : i.natAbs.testBit pos
    · rw [if_neg (by simp), add_bit_nat h]
    · rw [if_pos rfl]
      by_cases hn : n = pos
      · subst hn; rw [h]; simp
      · rw [decide_eq_false hn, Bool.false_or]
  have hge : i.natAbs ≤ val zp := by
    rw [hv]; split
    · exact le_rfl
    · exact Nat.le_add_right _ _
  have hpow : 2 ^ pos ≤ val zp := Nat.ge_two_pow_of_testBit (by rw [hb]; simp)
  refine ⟨_, rfl, ⟨⟨?_, ?_⟩, ?_⟩⟩
  · show Norm zp
    by_cases hl : pos / 64 < z.mag.length
    · exact norm_of_ge (rep_norm hz) (by omega) (by rw [rep_abs hz]; exact hge)
    · refine norm_of_pow (by intro e; rw [e, hzl, List.length_nil] at l; omega) (le_trans (Nat.pow_le_pow_right (by omega) ?_) hpow)
      omega
  · intro hn e
    rw [show zp = [] from e, val_nil] at hpow
    have := Nat.two_pow_pos pos
    omega
  · unfold ival
    dsimp only
    rw [rep_neg' hz, hv]
    by_cases hi : i < 0
    · rw [decide_eq_true hi, if_pos rfl, if_pos hi]
      split
      · omega
      · push_cast; rw [abs_of_neg hi]; ring
    · rw [decide_eq_false hi, if_neg (by simp), if_neg hi]
      split
      · omega
      · push_cast; rw [abs_of_nonneg (by omega)]

theorem clrbit_abs_rep {z : Mpz} {i : Int} (pos : Nat) (hz : Rep z i) :
    ∃ t, mpz_clrbit_abs z pos = .ok t ∧
      Rep t (if i.natAbs.testBit pos then (if i < 0 then i + 2 ^ pos else i - 2 ^ pos) else i) := by
  unfold mpz_clrbit_abs
  dsimp only
  by_cases hs : pos / 64 < z.mag.length
  · rw [if_pos hs]
    obtain ⟨zp, e, l, hb⟩ := clrbit_eq z.mag pos hs
    have e2 : (do
        let a ← C.rd z.mag (pos / 64)
        let zp ← C.wr z.mag (pos / 64) (a &&& ~~~((1 : Limb) <<< (pos % 64)))
        C.ok (mpz_make z.neg (mpn_strip zp))) = (do
        let zp ← mpn_clrbit z.mag pos
        C.ok (mpz_make z.neg (mpn_strip zp))) := by
      unfold mpn_clrbit; rw [C.bind_assoc]
    rw [e2, e, C.ok_bind]
    rw [rep_abs hz] at hb
    have hv : val zp = if i.natAbs.testBit pos then i.natAbs - 2 ^ pos else i.natAbs := by
      apply Nat.eq_of_testBit_eq
      intro n
      rw [hb]
      cases h : i.natAbs.testBit pos
      · rw [if_neg (by simp)]
        by_cases hn : n = pos
        · subst hn; rw [h]; simp
        · rw [decide_eq_false hn]; rfl
      · rw [if_pos rfl]
        have hge : 2 ^ pos ≤ i.natAbs := Nat.ge_two_pow_of_testBit h
        have := bit_clear (i := (i.natAbs : Int)) (pos := pos) (by rw [bit_nonneg, h]) n
        rw [bit_nonneg, show ((i.natAbs : Int)) - 2 ^ pos = ((i.natAbs - 2 ^ pos : Nat) : Int) by
          push_cast [Nat.cast_sub hge]; rfl, bit_nonneg] at this
        rw [this]; simp
    refine ⟨_, rfl, make_rep' (strip_norm _) ?_⟩
    rw [strip_val, hv, rep_neg' hz]
    by_cases h : i.natAbs.testBit pos = true
    swap
    · rw [if_neg h, if_neg h]
      by_cases hi : i < 0
      · rw [decide_eq_true hi, if_pos rfl]; omega
      · rw [decide_eq_false hi, if_neg (by simp)]; omega
    · rw [if_pos h, if_pos h]
      have hge : 2 ^ pos ≤ i.natAbs := Nat.ge_two_pow_of_testBit h
      push_cast [Nat.cast_sub hge]
      by_cases hi : i < 0
      · rw [decide_eq_true hi, if_pos rfl, if_pos hi, abs_of_neg hi]; ring
      · rw [decide_eq_false hi, if_neg hi, if_neg (by simp), abs_of_nonneg (by omega)]
  · rw [if_neg hs]
    refine ⟨_, rfl, ?_⟩
    have h1 := val_lt z.mag
    rw [rep_abs hz] at h1
    rw [Nat.testBit_lt_two_pow (lt_of_lt_of_le h1 (Nat.pow_le_pow_right (by omega) (by omega))), if_neg (by simp)]
    exact hz

theorem setbit_rep {z : Mpz} {i : Int} (pos : Nat) (hz : Rep z i) :
    ∃ t, mpz_setbit z pos = .ok t ∧ Rep t (if bit i pos then i
      else if i < 0 ∧ (2 : Int) ^ pos ∣ i then i - 2 ^ pos else i + 2 ^ pos) := by
  unfold mpz_setbit
  rw [divisible_2exp_rep pos hz, C.ok_bind, bit_abs]
  have hsz := rep_sizen hz
  by_cases h : i < 0 ∧ ¬ (2 : Int) ^ pos ∣ i
  · rw [if_pos (by rw [hsz]; simpa using h), if_pos h]
    obtain ⟨t, e, rt⟩ := clrbit_abs_rep pos hz
    refine ⟨t, e, ?_⟩
    rw [if_pos h.1] at rt
    cases hb : i.natAbs.testBit pos
    · rw [hb] at rt; simpa using rt
    · rw [hb] at rt
      rw [if_neg (by simp), if_neg (by tauto)]
      exact rt
  · rw [if_neg (by rw [hsz]; simpa using h), if_neg h]
    obtain ⟨t, e, rt⟩ := setbit_abs_rep pos hz
    refine ⟨t, e, ?_⟩
    by_cases hi : i < 0
    · have : (2 : Int) ^ pos ∣ i := by tauto
      rw [if_pos (show i < 0 ∧ (2 : Int) ^ pos ∣ i from ⟨hi, this⟩)]
      rwa [if_pos hi] at rt
    · rw [if_neg (show ¬ (i < 0 ∧ _) by tauto)]
      rwa [if_neg hi] at rt

theorem clrbit_rep {z : Mpz} {i : Int} (pos : Nat) (hz : Rep z i) :
    ∃ t, mpz_clrbit z pos = .ok t ∧ Rep t (if bit i pos then
      (if i < 0 ∧ (2 : Int) ^ pos ∣ i then i + 2 ^ pos else i - 2 ^ pos) else i) := by
  unfold mpz_clrbit
  rw [divisible_2exp_rep pos hz, C.ok_bind, bit_abs]
  have hsz := rep_sizen hz
  by_cases h : i < 0 ∧ ¬ (2 : Int) ^ pos ∣ i
  · rw [if_pos (by rw [hsz]; simpa using h), if_pos h]
    obtain ⟨t, e, rt⟩ := setbit_abs_rep pos hz
    refine ⟨t, e, ?_⟩
    rw [if_pos h.1] at rt
    cases hb : i.natAbs.testBit pos
    · rw [hb] at rt
      rw [if_pos (by simp), if_neg (by tauto)]
      exact rt
    · rw [hb] at rt; simpa using rt
  · rw [if_neg (by rw [hsz]; simpa using h), if_neg h]
    obtain ⟨t, e, rt⟩ := clrbit_abs_rep pos hz
    refine ⟨t, e, ?_⟩
    by_cases hi : i < 0
    · have : (2 : Int) ^ pos ∣ i := by tauto
      rw [if_pos (show i < 0 ∧ (2 : Int) ^ pos ∣ i from ⟨hi, this⟩)]
      rwa [if_pos hi] at rt
    · rw [if_neg (show ¬ (i < 0 ∧ _) by tauto)]
      rwa [if_neg hi] at rt

theorem combit_rep {z : Mpz} {i : Int} (pos : Nat) (hz : Rep z i) :
    ∃ t, mpz_combit z pos = .ok t ∧ Rep t (if bit i pos = (decide (i < 0 ∧ (2 : Int) ^ pos ∣ i)) then
      i + 2 ^ pos else i - 2 ^ pos) := by
  unfold mpz_combit
  rw [tstbit_rep pos hz, C.ok_bind]
  cases hb : bit i pos
  · rw [if_pos (by simp)]
    obtain ⟨t, e, rt⟩ := setbit_rep pos hz
    refine ⟨t, e, ?_⟩
    rw [hb, if_neg (by simp)] at rt
    by_cases h : i < 0 ∧ (2 : Int) ^ pos ∣ i
    · rw [decide_eq_true h, if_neg (by simp)]; rwa [if_pos h] at rt
    · rw [decide_eq_false h, if_pos rfl]; rwa [if_neg h] at rt
  · rw [if_neg (by simp)]
    obtain ⟨t, e, rt⟩ := clrbit_rep pos hz
    refine ⟨t, e, ?_⟩
    rw [hb, if_pos rfl] at rt
    by_cases h : i < 0 ∧ (2 : Int) ^ pos ∣ i
    · rw [decide_eq_true h, if_pos rfl]; rwa [if_pos h] at rt
    · rw [decide_eq_false h, if_neg (by simp)]; rwa [if_neg h] at rt

end Torsion.Mpi
