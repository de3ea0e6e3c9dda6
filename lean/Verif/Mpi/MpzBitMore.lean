import Verif.Mpi.MpzBitLemmas

namespace Torsion.Mpi

open Spec (val ival Canon Rep Room bit)

/-! ### Shifts -/

theorem norm_append {a b : List Limb} (hb : Norm b) (hne : b ≠ []) : Norm (a ++ b) := by
  unfold Norm at *
  rw [List.getLast?_append]
  rw [List.getLast?_eq_some_getLast hne] at *
  simpa using hb

theorem norm_of_pow {a : List Limb} (hne : a ≠ []) (h : 2 ^ (64 * (a.length - 1)) ≤ val a) : Norm a := by
  obtain ⟨lo, top, rfl⟩ : ∃ lo top, a = lo ++ [top] :=
    ⟨a.dropLast, a.getLast hne, (List.dropLast_concat_getLast hne).symm⟩
  apply norm_append _ (by simp)
  rw [norm_single]
  rintro rfl
  rw [val_append, val_singleton, show (0 : Limb).toNat = 0 from rfl, Nat.mul_zero, Nat.add_zero,
    List.length_append, List.length_singleton, Nat.add_sub_cancel] at h
  have := val_lt lo
  omega

theorem mul_2exp_rep {x : Mpz} {i : Int} {z : Dest} (bits : Nat) (hx : Rep x i)
    (hr : Room z (x.mag.length + bits / 64 + 1)) :
    ∃ t, mpz_mul_2exp z x bits = .ok t ∧ Rep t (i * 2 ^ bits) := by
  unfold mpz_mul_2exp
  by_cases h0 : i = 0
  · rw [if_pos ((rep_size0 hx).2 h0), h0]
    exact ⟨_, rfl, by simpa using zero_rep⟩
  rw [if_neg (mt (rep_size0 hx).1 h0)]
  by_cases hb : bits = 0
  · rw [if_pos hb, hb]
    obtain ⟨t, e, rt⟩ := set_rep (z := z) hx (room_mono hr (by omega))
    exact ⟨t, e, by simpa using rt⟩
  rw [if_neg hb]
  dsimp only
  rw [grow_ok (room_mono hr (by split <;> omega)), C.ok_bind]
  have hne : x.mag ≠ [] := mt (rep_nil hx).1 h0
  have hv0 : 0 < val x.mag := norm_pos (rep_norm hx) hne
  obtain ⟨hi, ehi, nhi, vhi⟩ : ∃ hi, (if bits % 64 ≠ 0 then
      pushTop (mpn_lshift x.mag (bits % 64)).1 (mpn_lshift x.mag (bits % 64)).2 else x.mag) = hi ∧ Norm hi ∧
      val hi = val x.mag * 2 ^ (bits % 64) := by
    by_cases hr0 : bits % 64 = 0
    · rw [if_neg (by simpa using hr0), hr0]
      exact ⟨_, rfl, rep_norm hx, by simp⟩
    · rw [if_pos hr0]
      obtain ⟨v, l⟩ := lshift_val x.mag (bits % 64) (by omega) hne
      refine ⟨_, rfl, push_norm fun hc => ?_, ?_⟩
      · rw [hc, show (0 : Limb).toNat = 0 from rfl, Nat.mul_zero, Nat.add_zero] at v
        exact norm_of_ge (rep_norm hx) l (by rw [v]; exact Nat.le_mul_of_pos_right _ (Nat.two_pow_pos _))
      · rw [push_val, l, v]
  rw [ehi]
  have hhne : hi ≠ [] := by
    rintro rfl
    rw [val_nil] at vhi
    have := Nat.mul_pos hv0 (Nat.two_pow_pos (bits % 64))
    omega
  refine ⟨_, rfl, make_rep' (norm_append nhi hhne) ?_⟩
  rw [val_append, val_zeros, len_zeros, Nat.zero_add, vhi]
  have : 2 ^ (64 * (bits / 64)) * (val x.mag * 2 ^ (bits % 64)) = val x.mag * 2 ^ bits := by
    conv_rhs => rw [← Nat.div_add_mod bits 64, pow_add]
    ring
  rw [this, rep_abs hx, rep_neg' hx]
  by_cases hi : i < 0
  · rw [decide_eq_true hi, if_pos rfl]
    push_cast
    rw [abs_of_neg hi]; ring
  · rw [decide_eq_false hi, if_neg (by simp)]
    push_cast
    rw [abs_of_nonneg (by omega)]

theorem val_drop (a : List Limb) (s : Nat) : val (a.drop s) = val a / 2 ^ (64 * s) := by
  by_cases h : s ≤ a.length
  · have h1 := val_take_drop s a h
    have h2 := val_lt (a.take s)
    rw [List.length_take, Nat.min_eq_left h] at h2
    rw [h1, Nat.add_mul_div_left _ _ (Nat.two_pow_pos _), Nat.div_eq_of_lt h2, Nat.zero_add]
  · rw [List.drop_eq_nil_of_le (by omega), val_nil]
    exact (Nat.div_eq_of_lt (lt_of_lt_of_le (val_lt a) (Nat.pow_le_pow_right (by omega) (by omega)))).symm

theorem val_take (a : List Limb) (s : Nat) : val (a.take s) = val a % 2 ^ (64 * s) := by
  by_cases h : s ≤ a.length
  · have h1 := val_take_drop s a h
    have h2 := val_lt (a.take s)
    rw [List.length_take, Nat.min_eq_left h] at h2
    rw [h1, Nat.add_mul_mod_self_left, Nat.mod_eq_of_lt h2]
  · rw [List.take_of_length_le (by omega)]
    exact (Nat.mod_eq_of_lt (lt_of_lt_of_le (val_lt a) (Nat.pow_le_pow_right (by omega) (by omega)))).symm

theorem norm_drop {a : List Limb} (ha : Norm a) {s : Nat} (h : s < a.length) : Norm (a.drop s) := by
  unfold Norm at *
  rwa [List.getLast?_drop, if_neg (by omega)]

theorem pow_split (bits : Nat) : 2 ^ (64 * (bits / 64)) * 2 ^ (bits % 64) = 2 ^ bits := by
  rw [← pow_add, Nat.div_add_mod]

theorem natAbs_two_pow (bits : Nat) : ((2 : Int) ^ bits).natAbs = 2 ^ bits := by
  rw [Int.natAbs_pow]; rfl

theorem two_pow_nonneg (bits : Nat) : ¬ (2 : Int) ^ bits < 0 := not_lt.2 (by positivity)

theorem quo_2exp_rep {x : Mpz} {i : Int} {z : Dest} (bits : Nat) (hx : Rep x i)
    (hr : Room z x.mag.length) :
    ∃ t, mpz_quo_2exp z x bits = .ok t ∧ Rep t (i.tdiv (2 ^ bits)) := by
  unfold mpz_quo_2exp
  by_cases h0 : i = 0
  · rw [if_pos ((rep_size0 hx).2 h0), h0]
    exact ⟨_, rfl, by simpa using zero_rep⟩
  rw [if_neg (mt (rep_size0 hx).1 h0)]
  by_cases hb : bits = 0
  · rw [if_pos hb, hb]
    obtain ⟨t, e, rt⟩ := set_rep (z := z) hx hr
    exact ⟨t, e, by simpa using rt⟩
  rw [if_neg hb]
  dsimp only
  by_cases hs : x.mag.length ≤ bits / 64
  · rw [if_pos hs]
    refine ⟨_, rfl, ?_⟩
    have : i.natAbs / 2 ^ bits = 0 := by
      rw [← rep_abs hx]
      exact Nat.div_eq_of_lt (lt_of_lt_of_le (val_lt _) (Nat.pow_le_pow_right (by omega) (by omega)))
    rw [tdiv_eq, natAbs_two_pow, this]
    simpa using zero_rep
  rw [if_neg hs, grow_ok (room_mono hr (by omega)), C.ok_bind]
  have hne : x.mag.drop (bits / 64) ≠ [] := by
    rw [Ne, List.drop_eq_nil_iff]; omega
  have hn := norm_drop (rep_norm hx) (show bits / 64 < x.mag.length by omega)
  obtain ⟨zp, ez, nz, vz⟩ : ∃ zp, (if bits % 64 ≠ 0 then
      trimTop (mpn_rshift (x.mag.drop (bits / 64)) (bits % 64)).1 else .ok (x.mag.drop (bits / 64))) = C.ok zp ∧
      Norm zp ∧ val zp = i.natAbs / 2 ^ bits := by
    by_cases hr0 : bits % 64 = 0
    · rw [if_neg (by simpa using hr0)]
      refine ⟨_, rfl, hn, ?_⟩
      rw [val_drop, rep_abs hx]
      congr 2
      omega
    · rw [if_pos hr0]
      obtain ⟨v, -, l⟩ := rshift_val (x.mag.drop (bits / 64)) (bits % 64) (by omega) hne
      obtain ⟨t, et, nt, vt⟩ := trim_ok (mpn_rshift (x.mag.drop (bits / 64)) (bits % 64)).1
        (by intro e; rw [e] at l; exact hne (List.length_eq_zero_iff.1 l.symm)) (by
          rw [v, l]
          by_cases h1 : (x.mag.drop (bits / 64)).length ≤ 1
          · exact .inr h1
          · left
            rw [Nat.le_div_iff_mul_le (Nat.two_pow_pos _), ← pow_add]
            refine le_trans (Nat.pow_le_pow_right (by omega) ?_) (norm_val_pos hn hne)
            omega)
      refine ⟨t, et, nt, ?_⟩
      rw [vt, v, val_drop, Nat.div_div_eq_div_mul, pow_split, rep_abs hx]
  rw [ez, C.ok_bind]
  refine ⟨_, rfl, make_rep' nz ?_⟩
  rw [vz, tdiv_eq, natAbs_two_pow, rep_neg' hx, decide_eq_false (two_pow_nonneg bits)]
  cases decide (i < 0) <;> rfl

theorem mask_top_val (zp : List Limb) (bits : Nat) (hl : zp.length = (bits + 64 - 1) / 64) :
    ∃ u, maskTop zp (bits % 64) = .ok u ∧ val u = val zp % 2 ^ bits ∧ u.length = zp.length := by
  unfold maskTop
  by_cases h0 : bits % 64 = 0
  · rw [if_neg (by simpa using h0)]
    refine ⟨_, rfl, (Nat.mod_eq_of_lt (lt_of_lt_of_le (val_lt zp) (Nat.pow_le_pow_right (by omega) ?_))).symm, rfl⟩
    omega
  · rw [if_pos h0]
    have hne : zp ≠ [] := by rintro rfl; simp at hl; omega
    obtain ⟨lo, top, rfl⟩ : ∃ lo top, zp = lo ++ [top] :=
      ⟨zp.dropLast, zp.getLast hne, (List.dropLast_concat_getLast hne).symm⟩
    rw [List.length_append, List.length_singleton] at hl
    have e1 : C.rd (lo ++ [top]) ((lo ++ [top]).length - 1) = .ok top := by
      rw [List.length_append, List.length_singleton, Nat.add_sub_cancel]
      exact rd_append_at rfl
    rw [e1, C.ok_bind, wr_lt _ (by simp)]
    refine ⟨_, rfl, ?_, by simp⟩
    have e2 : (lo ++ [top]).set ((lo ++ [top]).length - 1) (top &&& mpMask (bits % 64)) =
        lo ++ [top &&& mpMask (bits % 64)] := by
      rw [List.length_append, List.length_singleton, Nat.add_sub_cancel, List.set_append_right _ _ (by omega)]
      simp
    have hlo : lo.length = bits / 64 := by omega
    rw [e2, val_append, val_singleton, val_append, val_singleton, and_mask _ _ (by omega), hlo, ← pow_split bits,
      Nat.mod_mul, Nat.add_mul_mod_self_left, Nat.add_mul_div_left _ _ (Nat.two_pow_pos _)]
    have := val_lt lo
    rw [hlo] at this
    rw [Nat.mod_eq_of_lt this, Nat.div_eq_of_lt this, Nat.zero_add]

theorem mod_pow_mod (v bits n : Nat) (h : bits ≤ n) : v % 2 ^ n % 2 ^ bits = v % 2 ^ bits :=
  Nat.mod_mod_of_dvd _ (Nat.pow_dvd_pow 2 h)

theorem rem_2exp_rep {x : Mpz} {i : Int} {z : Dest} (bits : Nat) (hx : Rep x i)
    (hr : Room z x.mag.length) :
    ∃ t, mpz_rem_2exp z x bits = .ok t ∧ Rep t (i.tmod (2 ^ bits)) := by
  unfold mpz_rem_2exp
  by_cases h0 : i = 0 ∨ bits = 0
  · rw [if_pos (by rw [rep_size0 hx]; exact h0)]
    refine ⟨_, rfl, ?_⟩
    rcases h0 with h0 | h0
    · rw [h0]; simpa using zero_rep
    · rw [h0]; simpa using zero_rep
  rw [if_neg (by rw [rep_size0 hx]; exact h0)]
  have hb : bits ≠ 0 := fun e => h0 (.inr e)
  dsimp only
  have fin : ∀ zp : List Limb, val zp = i.natAbs % 2 ^ bits → Rep (mpz_make x.neg (mpn_strip zp)) (i.tmod (2 ^ bits)) := by
    intro zp h
    refine make_rep' (strip_norm _) ?_
    rw [strip_val, h, tmod_eq, natAbs_two_pow, rep_neg' hx]
    by_cases hd : i < 0
    · rw [decide_eq_true hd, if_pos rfl, if_pos hd]
    · rw [decide_eq_false hd, if_neg hd, if_neg (by decide)]
  by_cases hz : (bits + 64 - 1) / 64 > x.mag.length
  · rw [if_pos hz, grow_ok hr, C.ok_bind]
    refine ⟨_, rfl, fin _ ?_⟩
    have := val_lt x.mag
    rw [rep_abs hx] at *
    exact (Nat.mod_eq_of_lt (lt_of_lt_of_le this (Nat.pow_le_pow_right (by omega) (by omega)))).symm
  · rw [if_neg hz, grow_ok (room_mono hr (by omega)), C.ok_bind]
    obtain ⟨u, e, v, -⟩ := mask_top_val (x.mag.take ((bits + 64 - 1) / 64)) bits
      (by rw [List.length_take, Nat.min_eq_left (by omega)])
    rw [e, C.ok_bind]
    refine ⟨_, rfl, fin _ ?_⟩
    rw [v, val_take, mod_pow_mod _ _ _ (by omega), rep_abs hx]

theorem tdiv_nonneg {i : Int} (h : 0 ≤ i) (j : Int) : i.tdiv j = i / j := Int.tdiv_eq_ediv_of_nonneg h

theorem div_2exp_rep {x : Mpz} {i : Int} {z : Dest} (bits : Nat) (hx : Rep x i)
    (hr : Room z (x.mag.length + 1)) :
    ∃ t, mpz_div_2exp z x bits = .ok t ∧ Rep t (i / 2 ^ bits) := by
  unfold mpz_div_2exp
  by_cases h : i < 0
  · rw [if_pos ((rep_sizen hx).2 h)]
    obtain ⟨t1, e1, r1⟩ := neg_rep (z := z) hx (room_mono hr (by omega))
    have l1 : t1.mag.length = x.mag.length := by rw [neg_len e1]
    rw [e1, C.ok_bind]
    obtain ⟨t2, e2, r2⟩ := sub_ui_rep (z := z) 1 r1 (by rw [l1]; exact hr)
    rw [show ((1 : Limb).toNat : Int) = 1 from rfl] at r2
    have l2 : t2.mag.length ≤ x.mag.length := rep_len_mono r2 hx (by omega)
    rw [e2, C.ok_bind]
    obtain ⟨t3, e3, r3⟩ := quo_2exp_rep (z := z) bits r2 (room_mono hr (by omega))
    have l3 := tdiv_len r2 r3
    rw [e3, C.ok_bind]
    obtain ⟨t4, e4, r4⟩ := add_ui_rep (z := z) 1 r3 (room_mono hr (by omega))
    rw [show ((1 : Limb).toNat : Int) = 1 from rfl] at r4
    have l4 := sum_len r3 r4 (by omega)
    rw [e4, C.ok_bind]
    obtain ⟨t5, e5, r5⟩ := neg_rep (z := z) r4 (room_mono hr (by omega))
    refine ⟨t5, e5, ?_⟩
    obtain ⟨m, hm⟩ : ∃ m : Nat, i = Int.negSucc m := ⟨i.natAbs - 1, by rw [Int.negSucc_eq]; omega⟩
    have h1 : i / 2 ^ bits = -((-i - 1).tdiv (2 ^ bits) + 1) := by
      rw [tdiv_nonneg (by omega), hm, Int.negSucc_ediv _ (by positivity), Int.negSucc_eq,
        show - -((m : Int) + 1) - 1 = m by omega]
      rfl
    rw [h1]; exact r5
  · rw [if_neg (mt (rep_sizen hx).1 h)]
    obtain ⟨t, e, rt⟩ := quo_2exp_rep (z := z) bits hx (room_mono hr (by omega))
    exact ⟨t, e, by rw [← tdiv_nonneg (by omega)]; exact rt⟩

theorem com_val (a : List Limb) : val (mpn_com a) + val a + 1 = 2 ^ (64 * a.length) ∧ (mpn_com a).length = a.length := by
  induction a with
  | nil => simp [mpn_com, val_nil]
  | cons x a ih =>
    have e : mpn_com (x :: a) = ~~~x :: mpn_com a := rfl
    rw [e, val_cons, val_cons, List.length_cons, List.length_cons, pow64', ih.2]
    have := x.isLt
    have hn : (~~~x).toNat = 2 ^ 64 - 1 - x.toNat := BitVec.toNat_not
    refine ⟨?_, rfl⟩
    have := ih.1
    generalize 2 ^ (64 * a.length) = P at *
    omega

theorem mod_2exp_rep {x : Mpz} {i : Int} {z : Dest} (bits : Nat) (hx : Rep x i)
    (hr : Room z (max x.mag.length (bits / 64 + 1))) :
    ∃ t, mpz_mod_2exp z x bits = .ok t ∧ Rep t (i % 2 ^ bits) := by
  unfold mpz_mod_2exp
  by_cases h0 : i = 0 ∨ bits = 0
  · rw [if_pos (by rw [rep_size0 hx]; exact h0)]
    refine ⟨_, rfl, ?_⟩
    rcases h0 with h0 | h0
    · rw [h0]; simpa using zero_rep
    · rw [h0]; simpa using zero_rep
  rw [if_neg (by rw [rep_size0 hx]; exact h0)]
  have hb : bits ≠ 0 := fun e => h0 (.inr e)
  dsimp only
  generalize hzn : (bits + 64 - 1) / 64 = zn
  have hbz : bits ≤ 64 * zn := by omega
  by_cases hi : i < 0
  · rw [if_pos ((rep_sizen hx).2 hi), grow_ok (room_mono hr (by omega)), C.ok_bind]
    have key : ∃ zp c, (if zn > x.mag.length then (mpn_sub_1 x.mag 1).1 ++ mpn_zero (zn - x.mag.length)
        else (mpn_sub_1 (x.mag.take zn) 1).1) = zp ∧ zp.length = zn ∧
        ((val zp : Int) + 1 = i.natAbs + 2 ^ (64 * zn) * c) := by
      by_cases hz : zn > x.mag.length
      · rw [if_pos hz]
        obtain ⟨v, l⟩ := sub_1_val x.mag 1
        refine ⟨_, 0, rfl, by rw [List.length_append, l, len_zeros]; omega, ?_⟩
        rw [val_append, val_zeros, Nat.mul_zero, Nat.add_zero, mul_zero, add_zero, ← rep_abs hx]
        rw [show (1 : Limb).toNat = 1 from rfl] at v
        have hpos : 0 < val x.mag := by rw [rep_abs hx]; omega
        have hlt := val_lt (mpn_sub_1 x.mag 1).1
        rw [l] at hlt
        have : (mpn_sub_1 x.mag 1).2.toNat = 0 := by
          by_contra hne
          have := Nat.le_mul_of_pos_right (2 ^ (64 * x.mag.length)) (Nat.pos_of_ne_zero hne)
          omega
        rw [this] at v
        omega
      · rw [if_neg hz]
        obtain ⟨v, l⟩ := sub_1_val (x.mag.take zn) 1
        rw [List.length_take, Nat.min_eq_left (by omega)] at v l
        rw [val_take, rep_abs hx, show (1 : Limb).toNat = 1 from rfl] at v
        refine ⟨_, ((mpn_sub_1 (x.mag.take zn) 1).2.toNat : Int) - ((i.natAbs / 2 ^ (64 * zn) : Nat) : Int), rfl, l, ?_⟩
        have hd := Nat.div_add_mod i.natAbs (2 ^ (64 * zn))
        zify at v hd
        rw [v]
        push_cast
        linear_combination hd
    obtain ⟨zp, c, ez, lz, vz⟩ := key
    rw [ez]
    obtain ⟨cv, cl⟩ := com_val zp
    obtain ⟨u, e, v, -⟩ := mask_top_val (mpn_com zp) bits (by rw [cl, lz, hzn])
    rw [e, C.ok_bind]
    refine ⟨_, rfl, make_rep' (strip_norm _) ?_⟩
    rw [strip_val, v, if_neg (by simp)]
    have hdvd : ((2 : Int) ^ bits) ∣ i - (val (mpn_com zp) : Int) := by
      have h1 : i - (val (mpn_com zp) : Int) = 2 ^ (64 * zn) * (c - 1) := by
        rw [lz] at cv
        zify at cv
        have : (i.natAbs : Int) = -i := by omega
        rw [this] at vz
        linear_combination vz - cv
      rw [h1]
      exact Dvd.dvd.mul_right (pow_dvd_pow 2 hbz) _
    push_cast
    exact Int.emod_eq_emod_iff_emod_sub_eq_zero.2 (Int.emod_eq_zero_of_dvd hdvd)
  · rw [if_neg (mt (rep_sizen hx).1 hi)]
    have fin : ∀ zp : List Limb, val zp = i.natAbs % 2 ^ bits → Rep (mpz_make false (mpn_strip zp)) (i % 2 ^ bits) := by
      intro zp h
      refine make_rep' (strip_norm _) ?_
      rw [strip_val, h, if_neg (by simp)]
      push_cast
      rw [abs_of_nonneg (by omega)]
    by_cases hz : zn > x.mag.length
    · rw [if_pos hz, grow_ok (room_mono hr (by omega)), C.ok_bind]
      refine ⟨_, rfl, fin _ ?_⟩
      have := val_lt x.mag
      rw [rep_abs hx] at *
      exact (Nat.mod_eq_of_lt (lt_of_lt_of_le this (Nat.pow_le_pow_right (by omega) (by omega)))).symm
    · rw [if_neg hz, grow_ok (room_mono hr (by omega)), C.ok_bind]
      obtain ⟨u, e, v, -⟩ := mask_top_val (x.mag.take zn) bits
        (by rw [List.length_take, Nat.min_eq_left (by omega), hzn])
      rw [e, C.ok_bind]
      refine ⟨_, rfl, fin _ ?_⟩
      rw [v, val_take, mod_pow_mod _ _ _ (by omega), rep_abs hx]

theorem divisible_2exp_rep {n : Mpz} {i : Int} (bits : Nat) (hn : Rep n i) :
    mpz_divisible_2exp_p n bits = .ok (decide ((2 : Int) ^ bits ∣ i)) := by
  have hd : (2 : Int) ^ bits ∣ i ↔ val n.mag % 2 ^ bits = 0 := by
    rw [dvd_natAbs, natAbs_two_pow, rep_abs hn]
  unfold mpz_divisible_2exp_p
  by_cases h0 : i = 0
  · dsimp only
    rw [if_pos ((rep_size0 hn).2 h0), h0]; simp
  dsimp only
  rw [if_neg (mt (rep_size0 hn).1 h0)]
  have hpos : 0 < val n.mag := by rw [rep_abs hn]; omega
  by_cases hs : bits / 64 ≥ n.mag.length
  · rw [if_pos hs, decide_eq_false]
    rw [hd, Nat.mod_eq_of_lt (lt_of_lt_of_le (val_lt _) (Nat.pow_le_pow_right (by omega) (by omega)))]
    omega
  rw [if_neg hs, rd_lt (by omega), C.ok_bind]
  have hsp : val n.mag = val (n.mag.take (bits / 64)) + 2 ^ (64 * (bits / 64)) *
      ((n.mag.getD (bits / 64) 0).toNat + 2 ^ 64 * val (n.mag.drop (bits / 64 + 1))) := by
    conv_lhs => rw [val_take_drop (bits / 64) n.mag (by omega)]
    rw [List.drop_eq_getElem_cons (by omega), val_cons, getD_of_lt (by omega)]
  have htl := val_lt (n.mag.take (bits / 64))
  rw [List.length_take, Nat.min_eq_left (by omega)] at htl
  have hmod : val n.mag % 2 ^ bits = val (n.mag.take (bits / 64)) +
      2 ^ (64 * (bits / 64)) * ((n.mag.getD (bits / 64) 0).toNat % 2 ^ (bits % 64)) := by
    rw [hsp, ← pow_split bits, Nat.mod_mul, Nat.add_mul_mod_self_left, Nat.add_mul_div_left _ _ (Nat.two_pow_pos _),
      Nat.mod_eq_of_lt htl, Nat.div_eq_of_lt htl, Nat.zero_add,
      show (2 : Nat) ^ 64 = 2 ^ (bits % 64) * 2 ^ (64 - bits % 64) by rw [← pow_add]; congr 1; omega,
      Nat.mul_assoc, Nat.add_mul_mod_self_left]
  have ha := and_mask (n.mag.getD (bits / 64) 0) (bits % 64) (by omega)
  by_cases hm : (n.mag.getD (bits / 64) 0) &&& mpMask (bits % 64) = 0
  · rw [if_neg (by simpa using hm)]
    rw [hm, show (0 : Limb).toNat = 0 from rfl] at ha
    rw [← ha, Nat.mul_zero, Nat.add_zero] at hmod
    congr 1
    rw [Bool.eq_iff_iff, decide_eq_true_iff, hd, hmod, val_zero_iff, List.all_eq_true]
    simp only [decide_eq_true_eq]
  · rw [if_pos hm, decide_eq_false]
    rw [hd, hmod, ← ha]
    have : ((n.mag.getD (bits / 64) 0) &&& mpMask (bits % 64)).toNat ≠ 0 := mt toNat_eq_zero.1 hm
    have := Nat.mul_pos (Nat.two_pow_pos (64 * (bits / 64))) (Nat.pos_of_ne_zero this)
    omega

theorem congruent_2exp_rep {x y : Mpz} {i k : Int} (bits : Nat) (hx : Rep x i) (hy : Rep y k) :
    mpz_congruent_2exp_p x y bits = .ok (decide ((2 : Int) ^ bits ∣ i - k)) := by
  unfold mpz_congruent_2exp_p
  by_cases h : bits = 0
  · rw [if_pos h, h]; simp
  · rw [if_neg h]
    obtain ⟨t, e, rt⟩ := sub_rep (z := mpz_init_vla (mpz_add_size x y)) hx hy (room_vla _ _ le_rfl)
    rw [e, C.ok_bind]
    exact divisible_2exp_rep bits rt

/-! ### Rounded division and product -/

theorem divround_rep {n d : Mpz} {i j : Int} {q : Dest} (hn : Rep n i) (hd : Rep d j) (hj : j ≠ 0)
    (hq : Room q (max n.mag.length d.mag.length + 1)) :
    ∃ a, mpz_divround q n d = .ok a ∧ Rep a (Spec.divRound i j) := by
  have hdl : d.mag.length ≠ 0 := mt (rep_len hd).1 hj
  unfold mpz_divround
  dsimp only
  obtain ⟨t, e, rt⟩ := quo_2exp_rep (z := mpz_init_vla (mpz_add_size n d)) 1 hd
    (room_vla _ _ (by unfold mpz_add_size; omega))
  rw [e, C.ok_bind]
  have lt := tdiv_len hd rt
  have hroom : Room (mpz_init_vla (mpz_add_size n d)) (max n.mag.length t.mag.length + 1) :=
    room_vla _ _ (by unfold mpz_add_size; omega)
  have key : ∃ u k, (if (n.neg != d.neg) = true then mpz_sub (mpz_init_vla (mpz_add_size n d)) n t
      else mpz_add (mpz_init_vla (mpz_add_size n d)) n t) = C.ok u ∧ Rep u k ∧
      k.tdiv j = Spec.divRound i j ∧ k.natAbs ≤ i.natAbs + j.natAbs := by
    have h2 : j.tdiv (2 ^ 1) = j.sign * ((j.natAbs / 2 : Nat) : Int) := by
      rw [tdiv_eq, show ((2 : Int) ^ 1).natAbs = 2 from rfl, decide_eq_false (p := (2 : Int) ^ 1 < 0) (by norm_num)]
      by_cases h : j < 0
      · rw [decide_eq_true h, if_pos (by decide), Int.sign_eq_neg_one_of_neg h]; ring
      · rw [decide_eq_false h, if_neg (by decide), Int.sign_eq_one_of_pos (by omega)]; ring
    have hr2 : ∀ a b : Nat, 0 < b → (2 * a + b) / (2 * b) = (a + b / 2) / b := by
      intro a b hb
      rw [← Nat.div_div_eq_div_mul, show (2 * a + b) / 2 = a + b / 2 by omega]
    rw [h2] at rt
    have hdiv : ∀ k : Int, k.natAbs = i.natAbs + j.natAbs / 2 → (0 < k → 0 ≤ i) → (k < 0 → i ≤ 0) → (i < 0 → k < 0) →
        k.tdiv j = Spec.divRound i j ∧ k.natAbs ≤ i.natAbs + j.natAbs := by
      intro k hk h1 h2 h3
      refine ⟨?_, by omega⟩
      unfold Spec.divRound
      rw [hr2 _ _ (by omega), ← hk, tdiv_eq]
      generalize hqq : k.natAbs / j.natAbs = w
      by_cases hk0 : k = 0
      · have : w = 0 := by rw [← hqq, hk0]; simp
        rw [this]; simp
      by_cases hj0 : j < 0
      · rw [decide_eq_true hj0, Int.sign_eq_neg_one_of_neg hj0]
        by_cases hi : i < 0
        · rw [decide_eq_true (h3 hi), Int.sign_eq_neg_one_of_neg hi]; simp
        · by_cases hi0 : i = 0
          · have : w = 0 := by
              rw [← hqq, hk, hi0]
              exact Nat.div_eq_of_lt (by simp; omega)
            rw [this]; simp
          · rw [decide_eq_false (show ¬ k < 0 by omega), Int.sign_eq_one_of_pos (by omega)]; simp
      · rw [decide_eq_false hj0, Int.sign_eq_one_of_pos (show 0 < j by omega)]
        by_cases hi : i < 0
        · rw [decide_eq_true (h3 hi), Int.sign_eq_neg_one_of_neg hi]; simp
        · by_cases hi0 : i = 0
          · have : w = 0 := by
              rw [← hqq, hk, hi0]
              exact Nat.div_eq_of_lt (by simp; omega)
            rw [this]; simp
          · rw [decide_eq_false (show ¬ k < 0 by omega), Int.sign_eq_one_of_pos (by omega)]; simp
    rw [rep_neg' hn, rep_neg' hd]
    by_cases hs : (decide (i < 0) != decide (j < 0)) = true
    · rw [if_pos hs]
      obtain ⟨u, eu, ru⟩ := sub_rep hn rt hroom
      refine ⟨u, _, eu, ru, ?_⟩
      by_cases hj0 : j < 0
      · have hi : ¬ i < 0 := by intro h; rw [decide_eq_true h, decide_eq_true hj0] at hs; simp at hs
        rw [Int.sign_eq_neg_one_of_neg hj0]
        apply hdiv <;> omega
      · have hi : i < 0 := by
          by_contra h; rw [decide_eq_false h, decide_eq_false hj0] at hs; simp at hs
        rw [Int.sign_eq_one_of_pos (show 0 < j by omega)]
        apply hdiv <;> omega
    · rw [if_neg hs]
      obtain ⟨u, eu, ru⟩ := add_rep hn rt hroom
      refine ⟨u, _, eu, ru, ?_⟩
      by_cases hj0 : j < 0
      · have hi : i < 0 := by
          by_contra h; rw [decide_eq_false h, decide_eq_true hj0] at hs; simp at hs
        rw [Int.sign_eq_neg_one_of_neg hj0]
        apply hdiv <;> omega
      · have hi : ¬ i < 0 := by intro h; rw [decide_eq_true h, decide_eq_false hj0] at hs; simp at hs
        rw [Int.sign_eq_one_of_pos (show 0 < j by omega)]
        apply hdiv <;> omega
  obtain ⟨u, k, eu, ru, ek, hk⟩ := key
  rw [eu, C.ok_bind, ← ek]
  have lu : u.mag.length ≤ max n.mag.length d.mag.length + 1 := by
    by_contra hc
    have hne : u.mag ≠ [] := by intro e; rw [e] at hc; simp at hc
    have h1 := norm_val_pos (rep_norm ru) hne
    have h2 := val_lt n.mag
    have h3 := val_lt d.mag
    rw [rep_abs ru] at h1
    rw [rep_abs hn] at h2
    rw [rep_abs hd] at h3
    have h4 : 2 ^ (64 * n.mag.length) ≤ 2 ^ (64 * max n.mag.length d.mag.length) := Nat.pow_le_pow_right (by omega) (by omega)
    have h5 : 2 ^ (64 * d.mag.length) ≤ 2 ^ (64 * max n.mag.length d.mag.length) := Nat.pow_le_pow_right (by omega) (by omega)
    have h6 : 2 ^ (64 * (max n.mag.length d.mag.length + 1)) ≤ 2 ^ (64 * (u.mag.length - 1)) :=
      Nat.pow_le_pow_right (by omega) (by omega)
    rw [pow64'] at h6
    generalize 2 ^ (64 * max n.mag.length d.mag.length) = P at *
    omega
  exact quo_rep ru hd hj (room_mono hq (by omega))

end Torsion.Mpi
