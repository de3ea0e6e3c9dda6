import Verif.Mpi.SecLemmas

/-! Lemmas about the bits of limb vectors. -/
namespace Torsion.Mpi
open Spec (val)

theorem limb_bit_ge (x : Limb) {i : Nat} (h : 64 ≤ i) : x.toNat.testBit i = false := by
  apply Nat.testBit_lt_two_pow
  exact lt_of_lt_of_le x.isLt (Nat.pow_le_pow_right (by omega) h)

theorem val_testBit : ∀ (a : List Limb) (i : Nat),
    (val a).testBit i = (a.getD (i / 64) 0).toNat.testBit (i % 64)
  | [], i => by simp [val_nil]
  | x :: a, i => by
    rw [val_cons, Nat.add_comm, Nat.testBit_two_pow_mul_add _ x.isLt]
    by_cases h : i < 64
    · rw [if_pos h, Nat.div_eq_of_lt h, Nat.mod_eq_of_lt h]; rfl
    · rw [if_neg h, val_testBit a (i - 64)]
      obtain ⟨k, hk⟩ : ∃ k, i / 64 = k + 1 := ⟨i / 64 - 1, by omega⟩
      rw [show (i - 64) / 64 = k by omega, show (i - 64) % 64 = i % 64 by omega, hk]
      simp

theorem getD_of_lt {a : List Limb} {i : Nat} (h : i < a.length) : a.getD i 0 = a[i] := by
  simp [h]

theorem getD_of_ge {a : List Limb} {i : Nat} (h : a.length ≤ i) : a.getD i 0 = 0 := by
  simp [h]

theorem rd_lt {a : List Limb} {i : Nat} (h : i < a.length) : C.rd a i = .ok (a.getD i 0) := by
  simp [C.rd, h]

theorem rd_ge {a : List Limb} {i : Nat} (h : a.length ≤ i) : C.rd a i = .ub := by
  simp [C.rd, h]

theorem wr_lt {a : List Limb} {i : Nat} (v : Limb) (h : i < a.length) :
    C.wr a i v = .ok (a.set i v) := by simp [C.wr, h]

theorem getD_set (a : List Limb) (k j : Nat) (v : Limb) (h : k < a.length) :
    (a.set k v).getD j 0 = if j = k then v else a.getD j 0 := by
  by_cases hj : j = k
  · subst hj; simp [h]
  · rw [if_neg hj]
    simp only [List.getD, List.getElem?_set_ne (Ne.symm hj)]

theorem bit_and_one (x : Limb) (r : Nat) : ((x >>> r) &&& 1) = flag (x.toNat.testBit r = true) := by
  apply BitVec.eq_of_toNat_eq
  rw [BitVec.toNat_and, shr_toNat, flag_toNat, show (1 : Limb).toNat = 2 ^ 1 - 1 from rfl,
    Nat.and_two_pow_sub_one_eq_mod, Nat.testBit_eq_decide_div_mod_eq]
  simp only [decide_eq_true_eq]
  split <;> omega

theorem tstbit_eq (a : List Limb) (pos : Nat) (h : pos / 64 < a.length) :
    mpn_tstbit a pos = .ok (flag ((val a).testBit pos = true)) := by
  unfold mpn_tstbit
  rw [rd_lt h, C.ok_bind, bit_and_one, val_testBit]

theorem getbit_eq (a : List Limb) (pos : Nat) :
    mpn_getbit a pos = flag ((val a).testBit pos = true) := by
  unfold mpn_getbit
  rw [val_testBit]
  by_cases h : pos / 64 < a.length
  · rw [List.getElem?_eq_getElem h, getD_of_lt h, ← bit_and_one]
  · rw [List.getElem?_eq_none (by omega), getD_of_ge (by omega)]
    exact (flag_neg (by simp)).symm

theorem one_shl_bit (r i : Nat) (hr : r < 64) : ((1 : Limb) <<< r).toNat.testBit i = decide (i = r) := by
  have : ((1 : Limb) <<< r).toNat = 2 ^ r := by
    rw [shl_toNat, show (1 : Limb).toNat = 1 from rfl, Nat.one_mul]
    exact Nat.mod_eq_of_lt (Nat.pow_lt_pow_right (by omega) hr)
  rw [this, Nat.testBit_two_pow]
  simp only [eq_comm]

theorem not_bit (x : Limb) (i : Nat) : (~~~x).toNat.testBit i = (decide (i < 64) && !x.toNat.testBit i) := by
  have := BitVec.getLsbD_not (x := x) (i := i)
  simpa [BitVec.getLsbD] using this

theorem setbit_eq (a : List Limb) (pos : Nat) (h : pos / 64 < a.length) :
    ∃ z, mpn_setbit a pos = .ok z ∧ z.length = a.length ∧
      ∀ i, (val z).testBit i = (decide (i = pos) || (val a).testBit i) := by
  unfold mpn_setbit
  rw [rd_lt h, C.ok_bind, wr_lt _ h]
  refine ⟨_, rfl, by simp, ?_⟩
  intro i
  rw [val_testBit, getD_set _ _ _ _ h, val_testBit]
  by_cases hi : i / 64 = pos / 64
  · rw [if_pos hi, BitVec.toNat_or, Nat.testBit_or, one_shl_bit _ _ (by omega), hi, Bool.or_comm]
    congr 1
    simp only [decide_eq_decide]
    omega
  · rw [if_neg hi, decide_eq_false (by rintro rfl; exact hi rfl), Bool.false_or]

theorem clrbit_eq (a : List Limb) (pos : Nat) (h : pos / 64 < a.length) :
    ∃ z, mpn_clrbit a pos = .ok z ∧ z.length = a.length ∧
      ∀ i, (val z).testBit i = (!decide (i = pos) && (val a).testBit i) := by
  unfold mpn_clrbit
  rw [rd_lt h, C.ok_bind, wr_lt _ h]
  refine ⟨_, rfl, by simp, ?_⟩
  intro i
  rw [val_testBit, getD_set _ _ _ _ h, val_testBit]
  by_cases hi : i / 64 = pos / 64
  · rw [if_pos hi, BitVec.toNat_and, Nat.testBit_and, not_bit, one_shl_bit _ _ (by omega), hi,
      Bool.and_comm, decide_eq_true (Nat.mod_lt _ (by omega)), Bool.true_and]
    congr 2
    simp only [decide_eq_decide]
    omega
  · rw [if_neg hi, decide_eq_false (by rintro rfl; exact hi rfl), Bool.not_false, Bool.true_and]

theorem flag_shl (p : Prop) [Decidable p] (r i : Nat) (hr : r < 64) :
    ((flag p) <<< r).toNat.testBit i = (decide p && decide (i = r)) := by
  by_cases h : p
  · rw [flag_pos h, one_shl_bit r i hr]; simp [h]
  · rw [flag_neg h]
    simp [h]

theorem combit_eq (a : List Limb) (pos : Nat) (h : pos / 64 < a.length) :
    ∃ z, mpn_combit a pos = .ok z ∧ z.length = a.length ∧
      ∀ i, (val z).testBit i = (decide (i = pos) ^^ (val a).testBit i) := by
  unfold mpn_combit
  dsimp only
  rw [rd_lt h, C.ok_bind, wr_lt _ h, C.ok_bind, rd_lt (by simpa using h), C.ok_bind,
    wr_lt _ (by simpa using h)]
  refine ⟨_, rfl, by simp, ?_⟩
  intro i
  rw [val_testBit, getD_set _ _ _ _ (by simpa using h), getD_set _ _ _ _ h, getD_set _ _ _ _ h,
    if_pos rfl, bit_and_one, flag_not, val_testBit]
  by_cases hi : i / 64 = pos / 64
  · rw [if_pos hi, BitVec.toNat_or, Nat.testBit_or, BitVec.toNat_and, Nat.testBit_and, not_bit,
      one_shl_bit _ _ (by omega), flag_shl _ _ _ (by omega), hi,
      decide_eq_true (show i % 64 < 64 from Nat.mod_lt _ (by omega)), Bool.true_and]
    by_cases he : i = pos
    · subst he
      cases hb : (a.getD (i / 64) 0).toNat.testBit (i % 64) <;> simp
    · have he' : ¬ i % 64 = pos % 64 := by omega
      rw [decide_eq_false he, decide_eq_false he']
      simp
  · rw [if_neg hi, if_neg hi, decide_eq_false (by rintro rfl; exact hi rfl), Bool.false_xor]

theorem mask_toNat (bits : Nat) (h : bits < 64) : (mpMask bits).toNat = 2 ^ bits - 1 := by
  unfold mpMask
  have hs : ((1 : Limb) <<< bits).toNat = 2 ^ bits := by
    rw [shl_toNat, show (1 : Limb).toNat = 1 from rfl, Nat.one_mul]
    exact Nat.mod_eq_of_lt (Nat.pow_lt_pow_right (by omega) h)
  rw [BitVec.toNat_sub, hs, show (1 : Limb).toNat = 1 from rfl]
  have h1 : 2 ^ bits < 2 ^ 64 := Nat.pow_lt_pow_right (by omega) h
  have h2 : 0 < 2 ^ bits := Nat.pos_of_ne_zero (by positivity)
  omega

theorem and_mask (x : Limb) (bits : Nat) (h : bits < 64) : (x &&& mpMask bits).toNat = x.toNat % 2 ^ bits := by
  rw [BitVec.toNat_and, mask_toNat bits h, Nat.and_two_pow_sub_one_eq_mod]

theorem getbits_eq (a : List Limb) (pos width : Nat) (h : width < 64) :
    (mpn_getbits a pos width).toNat = val a / 2 ^ pos % 2 ^ width := by
  apply Nat.eq_of_testBit_eq
  intro i
  rw [Nat.testBit_mod_two_pow, Nat.testBit_div_two_pow, val_testBit]
  unfold mpn_getbits
  dsimp only
  by_cases hs : pos / 64 < a.length
  · rw [List.getElem?_eq_getElem hs]
    dsimp only
    have hz : ∀ j, ((a[pos / 64] >>> (pos % 64)) &&& mpMask width).toNat.testBit j
        = (decide (j < width) && a[pos / 64].toNat.testBit (pos % 64 + j)) := by
      intro j
      rw [and_mask _ _ h, Nat.testBit_mod_two_pow, shr_toNat, Nat.testBit_div_two_pow, Nat.add_comm j]
    by_cases hc : pos % 64 + width > 64 ∧ pos / 64 + 1 < a.length
    · rw [if_pos hc, List.getElem?_eq_getElem hc.2]
      dsimp only
      rw [BitVec.toNat_or, Nat.testBit_or, hz, BitVec.toNat_shiftLeft, Nat.testBit_mod_two_pow,
        Nat.testBit_shiftLeft, and_mask _ _ (by omega), Nat.testBit_mod_two_pow]
      by_cases hi : i < width
      · simp only [hi, decide_true, Bool.true_and]
        by_cases hr : pos % 64 + i < 64
        · rw [show (i + pos) / 64 = pos / 64 by omega, show (i + pos) % 64 = pos % 64 + i by omega,
            getD_of_lt hs, decide_eq_false (show ¬ (i ≥ 64 - pos % 64) by omega)]
          simp
        · rw [show (i + pos) / 64 = pos / 64 + 1 by omega,
            show (i + pos) % 64 = i - (64 - pos % 64) by omega, getD_of_lt hc.2,
            limb_bit_ge _ (show 64 ≤ pos % 64 + i by omega),
            decide_eq_true (show i < 64 by omega), decide_eq_true (show i ≥ 64 - pos % 64 by omega),
            decide_eq_true (show i - (64 - pos % 64) < pos % 64 + width - 64 by omega)]
          simp
      · simp only [hi, decide_false, Bool.false_and, Bool.false_or]
        by_cases hr : i ≥ 64 - pos % 64
        · rw [decide_eq_false (show ¬ (i - (64 - pos % 64) < pos % 64 + width - 64) by omega)]
          simp
        · rw [decide_eq_false hr]; simp
    · rw [if_neg hc, hz]
      by_cases hi : i < width
      · simp only [hi, decide_true, Bool.true_and]
        by_cases hr : pos % 64 + i < 64
        · rw [show (i + pos) / 64 = pos / 64 by omega, show (i + pos) % 64 = pos % 64 + i by omega,
            getD_of_lt hs]
        · rw [limb_bit_ge _ (show 64 ≤ pos % 64 + i by omega), getD_of_ge (by omega)]
          simp
      · simp [hi]
  · rw [List.getElem?_eq_none (by omega), getD_of_ge (by omega)]
    simp

theorem mask_val (a : List Limb) (bits : Nat) :
    val (mpn_mask a bits) = val a % 2 ^ bits ∧ (mpn_mask a bits).length = a.length := by
  unfold mpn_mask
  dsimp only
  by_cases h : bits / 64 ≥ a.length
  · rw [if_pos h]
    refine ⟨(Nat.mod_eq_of_lt ?_).symm, rfl⟩
    exact lt_of_lt_of_le (val_lt a) (Nat.pow_le_pow_right (by omega) (by omega))
  · rw [if_neg h]
    have hlt : bits / 64 < a.length := by omega
    have hsp := val_take_drop (bits / 64) a (by omega)
    have hl := val_lt (a.take (bits / 64))
    rw [List.length_take, Nat.min_eq_left (by omega)] at hl
    have hb : 2 ^ bits = 2 ^ (64 * (bits / 64)) * 2 ^ (bits % 64) := by
      rw [← Nat.pow_add]; congr 1; omega
    by_cases hlo : bits % 64 ≠ 0
    · rw [if_pos hlo, List.getElem?_eq_getElem hlt]
      dsimp only
      refine ⟨?_, by simp [len_zeros]; omega⟩
      rw [List.append_assoc, val_append, val_append, val_zeros, List.length_take,
        Nat.min_eq_left (by omega), val_singleton, and_mask _ _ (by omega), hsp, hb,
        Nat.mod_mul, Nat.add_mul_mod_self_left, Nat.mod_eq_of_lt hl,
        Nat.add_mul_div_left _ _ (Nat.pos_of_ne_zero (by positivity)), Nat.div_eq_of_lt hl, Nat.zero_add,
        List.drop_eq_getElem_cons hlt, val_cons]
      have e2 : 2 ^ 64 = 2 ^ (bits % 64) * 2 ^ (64 - bits % 64) := (split_pow _ (by omega)).symm
      rw [e2, Nat.mul_assoc, Nat.add_mul_mod_self_left]
      simp
    · rw [if_neg hlo]
      have h0 : bits % 64 = 0 := by omega
      refine ⟨?_, by simp [len_zeros]; omega⟩
      rw [val_append, val_zeros, hsp, hb, h0, Nat.pow_zero, Nat.mul_one, Nat.add_mul_mod_self_left,
        Nat.mod_eq_of_lt hl]
      simp

theorem ctz_val : ∀ a : List Limb,
    (val a = 0 → mpn_ctz a = 64 * a.length) ∧
    (val a ≠ 0 → val a = 2 ^ mpn_ctz a * (val a / 2 ^ mpn_ctz a) ∧ val a / 2 ^ mpn_ctz a % 2 = 1)
  | [] => by simp [mpn_ctz, val_nil]
  | x :: a => by
    obtain ⟨i1, i2⟩ := ctz_val a
    unfold mpn_ctz
    by_cases h : x ≠ 0
    · rw [if_pos h]
      have hx : x.toNat ≠ 0 := fun h' => h (toNat_eq_zero.1 h')
      refine ⟨fun h' => by rw [val_cons] at h'; omega, fun _ => ?_⟩
      obtain ⟨e, o⟩ := mp_ctz_val x h
      have hl := mp_ctz_lt x h
      have e2 : 2 ^ 64 = 2 ^ mp_ctz x * (2 * 2 ^ (63 - mp_ctz x)) := by
        rw [← Nat.pow_succ', ← Nat.pow_add]; congr 1; omega
      have hp : 0 < 2 ^ mp_ctz x := Nat.pos_of_ne_zero (by positivity)
      have e3 : val (x :: a) = 2 ^ mp_ctz x *
          (x.toNat / 2 ^ mp_ctz x + 2 * (2 ^ (63 - mp_ctz x) * val a)) := by
        rw [val_cons, e2, Nat.mul_add, ← e]; ring
      rw [e3, Nat.mul_div_cancel_left _ hp]
      exact ⟨rfl, by omega⟩
    · rw [if_neg h]
      have hx : x = 0 := by simpa using h
      subst hx
      rw [val_cons, show (0 : Limb).toNat = 0 from rfl, Nat.zero_add]
      refine ⟨fun h' => ?_, fun h' => ?_⟩
      · rw [i1 (by omega), List.length_cons]; omega
      · obtain ⟨e, o⟩ := i2 (by omega)
        have : 2 ^ (64 + mpn_ctz a) = 2 ^ 64 * 2 ^ mpn_ctz a := Nat.pow_add ..
        rw [this, Nat.mul_div_mul_left _ _ (by norm_num)]
        refine ⟨?_, o⟩
        conv_lhs => rw [e]
        ring

theorem size_val_cons (x : Limb) (a : List Limb) (h : val a ≠ 0) :
    Nat.size (val (x :: a)) = 64 + Nat.size (val a) := by
  rw [val_cons]
  have hx := x.isLt
  apply Nat.le_antisymm
  · rw [Nat.size_le, Nat.pow_add]
    have := Nat.lt_size_self (val a)
    omega
  · have hpos : 0 < Nat.size (val a) := Nat.size_pos.2 (by omega)
    have : 64 + Nat.size (val a) - 1 < Nat.size (x.toNat + 2 ^ 64 * val a) := by
      rw [Nat.lt_size]
      have h1 : 2 ^ (Nat.size (val a) - 1) ≤ val a := Nat.lt_size.1 (by omega)
      rw [show 64 + Nat.size (val a) - 1 = 64 + (Nat.size (val a) - 1) by omega, Nat.pow_add]
      omega
    omega

theorem bitlen_val : ∀ a : List Limb, mpn_bitlen a = Nat.size (val a)
  | [] => by simp [mpn_bitlen, val_nil]
  | x :: a => by
    have ih := bitlen_val a
    unfold mpn_bitlen
    cases h : mpn_bitlen a with
    | zero =>
      dsimp only
      rw [h] at ih
      have h0 : val a = 0 := Nat.size_eq_zero.1 ih.symm
      rw [val_cons, h0, Nat.mul_zero, Nat.add_zero]
      by_cases hx : x ≠ 0
      · rw [if_pos hx, mp_bitlen_eq]
      · have : x = 0 := by simpa using hx
        rw [if_neg hx, this]; rfl
    | succ n =>
      dsimp only
      rw [h] at ih
      have h0 : val a ≠ 0 := by
        intro h0; rw [h0, Nat.size_zero] at ih; omega
      rw [size_val_cons x a h0, ih]

theorem mulshift_val (a b : List Limb) (bits : Nat) (hl : a.length = b.length)
    (h1 : 64 * a.length ≤ bits) (h2 : bits < 64 * (2 * a.length)) :
    ∃ z c, mpn_mulshift a b bits = .ok (z, c) ∧ z.length = a.length ∧
      val z + 2 ^ (64 * a.length) * c.toNat = (val a * val b + 2 ^ (bits - 1)) / 2 ^ bits := by
  obtain ⟨e, l⟩ := mul_val a b
  have hn : 0 < a.length := by omega
  unfold mpn_mulshift mpn_mul_n
  dsimp only
  rw [tstbit_eq _ _ (by rw [l]; omega), C.ok_bind]
  have hdl : ((mpn_mul a b).drop (bits / 64)).length = a.length * 2 - bits / 64 := by
    rw [List.length_drop, l]; omega
  have hne : (mpn_mul a b).drop (bits / 64) ≠ [] := by
    intro h0; rw [h0] at hdl; simp at hdl; omega
  have hsp := val_take_drop (bits / 64) (mpn_mul a b) (by rw [l]; omega)
  have htl := val_lt ((mpn_mul a b).take (bits / 64))
  rw [List.length_take, l, Nat.min_eq_left (by omega)] at htl
  have hpow : 2 ^ bits = 2 ^ (64 * (bits / 64)) * 2 ^ (bits % 64) := by
    rw [← Nat.pow_add]; congr 1; omega
  have hz : ∃ zp, (if bits % 64 ≠ 0 then (mpn_rshift ((mpn_mul a b).drop (bits / 64)) (bits % 64)).1
      else (mpn_mul a b).drop (bits / 64)) = zp ∧ val zp = val a * val b / 2 ^ bits ∧
      zp.length = a.length * 2 - bits / 64 := by
    refine ⟨_, rfl, ?_⟩
    have hd : val ((mpn_mul a b).drop (bits / 64)) = val a * val b / 2 ^ (64 * (bits / 64)) := by
      rw [← e, hsp, Nat.add_mul_div_left _ _ (Nat.pos_of_ne_zero (by positivity)),
        Nat.div_eq_of_lt htl, Nat.zero_add]
    by_cases hr : bits % 64 ≠ 0
    · rw [if_pos hr]
      obtain ⟨e1, _, l1⟩ := rshift_val _ (bits % 64) (by omega) hne
      rw [e1, l1, hd, hdl, hpow, Nat.div_div_eq_div_mul]
      exact ⟨rfl, rfl⟩
    · rw [if_neg hr, hd, hdl]
      have h0 : bits % 64 = 0 := by omega
      rw [hpow, h0, Nat.pow_zero, Nat.mul_one]
      exact ⟨rfl, rfl⟩
  obtain ⟨zp, hzp, hv, hzl⟩ := hz
  rw [hzp]
  have hlen : (zp ++ mpn_zero (a.length - (a.length * 2 - bits / 64))).length = a.length := by
    rw [List.length_append, hzl, len_zeros]; omega
  obtain ⟨e3, l3⟩ := sec_add_1_val (zp ++ mpn_zero (a.length - (a.length * 2 - bits / 64)))
    (flag ((val (mpn_mul a b)).testBit (bits - 1) = true))
  rw [hlen] at e3 l3
  refine ⟨_, _, rfl, l3, ?_⟩
  rw [e3, val_append, val_zeros, Nat.mul_zero, Nat.add_zero, hv, flag_toNat, e]
  generalize val a * val b = T
  rw [Nat.testBit_eq_decide_div_mod_eq]
  simp only [decide_eq_true_eq]
  have hb : 2 ^ bits = 2 ^ (bits - 1) * 2 := by rw [← Nat.pow_succ]; congr 1; omega
  have hp : 0 < 2 ^ (bits - 1) := Nat.pos_of_ne_zero (by positivity)
  rw [hb, ← Nat.div_div_eq_div_mul, ← Nat.div_div_eq_div_mul, Nat.add_div_right _ hp]
  split <;> omega

end Torsion.Mpi
