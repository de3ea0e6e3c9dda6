import Verif.Mpi.MpzDiv

namespace Torsion.Mpi

open Spec (val ival Canon Rep Room)

/-! ### Exact division -/

theorem divexact_val (np dp : List Limb) (hn : Norm dp) (hne : dp ≠ []) (hl : dp.length ≤ np.length)
    (hx : val np % val dp = 0) :
    ∃ q, mpn_divexact np dp = .ok q ∧ q.length = np.length - dp.length + 1 ∧ val q = val np / val dp := by
  obtain ⟨q, r, e, lq, lr, vq, vr⟩ := divmod_val np dp hn hne hl
  have hpos : dp.length ≠ 0 := by have := List.length_pos_iff.2 hne; omega
  unfold mpn_divexact
  rw [show C.check (decide (dp.length ≠ 0)) = .ok () by simp only [C.check, decide_eq_true_eq, if_pos hpos],
    C.ok_bind, e, C.ok_bind]
  have hs : (mpn_strip r).length = 0 := by
    rw [List.length_eq_zero_iff]
    exact (norm_zero (strip_norm r)).1 (by rw [strip_val, vr, hx])
  dsimp only
  rw [show C.check (decide ((mpn_strip r).length = 0)) = .ok () by
    simp only [C.check, decide_eq_true_eq, if_pos hs], C.ok_bind]
  exact ⟨_, rfl, lq, vq⟩

theorem divexact_abort (np dp : List Limb) (hn : Norm dp) (hne : dp ≠ []) (hl : dp.length ≤ np.length)
    (hx : val np % val dp ≠ 0) : mpn_divexact np dp = .abort := by
  obtain ⟨q, r, e, lq, lr, vq, vr⟩ := divmod_val np dp hn hne hl
  have hpos : dp.length ≠ 0 := by have := List.length_pos_iff.2 hne; omega
  unfold mpn_divexact
  rw [show C.check (decide (dp.length ≠ 0)) = .ok () by simp only [C.check, decide_eq_true_eq, if_pos hpos],
    C.ok_bind, e, C.ok_bind]
  have hs : ¬ (mpn_strip r).length = 0 := by
    rw [List.length_eq_zero_iff]
    intro h
    have := strip_val r
    rw [h, val_nil] at this
    omega
  dsimp only
  rw [show C.check (decide ((mpn_strip r).length = 0)) = .abort by
    simp only [C.check, decide_eq_true_eq, if_neg hs], C.abort_bind]

theorem divexact_1_val (np : List Limb) (d : Limb) (hd : d ≠ 0) (hx : val np % d.toNat = 0) :
    ∃ q, mpn_divexact_1 np d = .ok q ∧ q.length = np.length ∧ val q = val np / d.toNat := by
  obtain ⟨q, r, e, lq, vq, vr⟩ := divmod_1_val np d hd
  unfold mpn_divexact_1
  rw [e, C.ok_bind]
  have hr : r = 0 := BitVec.eq_of_toNat_eq (by rw [vr, hx]; rfl)
  subst hr
  exact ⟨_, rfl, lq, vq⟩

theorem divexact_1_abort (np : List Limb) (d : Limb) (hd : d ≠ 0) (hx : val np % d.toNat ≠ 0) :
    mpn_divexact_1 np d = .abort := by
  obtain ⟨q, r, e, lq, vq, vr⟩ := divmod_1_val np d hd
  unfold mpn_divexact_1
  rw [e, C.ok_bind]
  have hr : ¬ r = 0 := by rintro rfl; rw [← vr] at hx; exact hx rfl
  dsimp only
  rw [show C.check (decide (r = 0)) = .abort by
    simp only [C.check, decide_eq_true_eq, if_neg hr], C.abort_bind]

theorem dvd_natAbs {i j : Int} : j ∣ i ↔ i.natAbs % j.natAbs = 0 := by
  rw [← Int.natAbs_dvd_natAbs, Nat.dvd_iff_mod_eq_zero]

theorem mpz_divexact_rep {n d : Mpz} {i j : Int} {q : Dest} (hn : Rep n i) (hd : Rep d j) (hj : j ≠ 0)
    (hx : j ∣ i) (hq : Room q (n.mag.length - d.mag.length + 1)) :
    ∃ a, mpz_divexact q n d = .ok a ∧ Rep a (i / j) := by
  unfold mpz_divexact
  have an := rep_abs hn; have ad := rep_abs hd
  have hne : d.mag ≠ [] := fun e => hj ((rep_nil hd).1 e)
  by_cases h0 : i = 0
  · have : n.mag.length = 0 := (rep_len hn).2 h0
    have hdl : d.mag.length ≠ 0 := fun e => hj ((rep_len hd).1 e)
    rw [if_pos (by omega), h0]
    exact ⟨_, rfl, by simpa using zero_rep⟩
  · have hle : j.natAbs ≤ i.natAbs := Nat.le_of_dvd (by omega) (Int.natAbs_dvd_natAbs.2 hx)
    have hl := rep_len_mono hd hn hle
    rw [if_neg (by omega), grow_ok hq, C.ok_bind]
    obtain ⟨t, e, lt, vt⟩ := divexact_val n.mag d.mag (rep_norm hd) hne hl
      (by rw [an, ad]; exact dvd_natAbs.1 hx)
    rw [e, C.ok_bind]
    obtain ⟨u, eu, nu, vu⟩ := trim_quot (rep_norm hn) (rep_norm hd) hne hl lt vt (by omega)
    rw [eu, C.ok_bind]
    refine ⟨_, rfl, make_rep' nu ?_⟩
    rw [vu, an, ad, rep_neg' hn, rep_neg' hd, ← tdiv_eq]
    have h1 : i.tmod j = 0 := Int.tmod_eq_zero_of_dvd hx
    exact (euclid_nonneg hj h1.ge).1

theorem mpz_divexact_ui_rep {n : Mpz} {i : Int} {q : Dest} (d : Limb) (hn : Rep n i) (hd : d ≠ 0)
    (hx : (d.toNat : Int) ∣ i) (hq : Room q n.mag.length) :
    ∃ a, mpz_divexact_ui q n d = .ok a ∧ Rep a (i / d.toNat) := by
  have an := rep_abs hn
  have hd0 : 0 < d.toNat := Nat.pos_of_ne_zero (fun e => hd (BitVec.eq_of_toNat_eq e))
  have hj : (d.toNat : Int) ≠ 0 := by omega
  have hdl := single_norm (a := d) (by omega)
  unfold mpz_divexact_ui
  rw [if_neg hd]
  by_cases h0 : i = 0
  · rw [if_pos ((rep_len hn).2 h0), h0]
    exact ⟨_, rfl, by simpa using zero_rep⟩
  · rw [if_neg (mt (rep_len hn).1 h0), grow_ok hq, C.ok_bind]
    have hle : d.toNat ≤ i.natAbs := by
      have := Nat.le_of_dvd (by omega) (Int.natAbs_dvd_natAbs.2 hx)
      rwa [Int.natAbs_natCast] at this
    have hx' := dvd_natAbs.1 hx
    rw [Int.natAbs_natCast] at hx'
    obtain ⟨t, e, lt, vt⟩ := divexact_1_val n.mag d hd (by rw [an]; exact hx')
    rw [e, C.ok_bind]
    have hlen : 0 < n.mag.length := Nat.pos_of_ne_zero (mt (rep_len hn).1 h0)
    obtain ⟨u, eu, nu, vu⟩ := trim_quot (d := [d]) (rep_norm hn) hdl (by simp) (by show 1 ≤ n.mag.length; omega)
      (by rw [lt]; simp; omega) (by rw [val_singleton]; exact vt) (by rw [val_singleton]; omega)
    rw [eu, C.ok_bind]
    refine ⟨_, rfl, make_rep' nu ?_⟩
    have h1 : i.tmod d.toNat = 0 := Int.tmod_eq_zero_of_dvd hx
    rw [(euclid_nonneg hj h1.ge).1, vu, val_singleton, an, rep_neg' hn, tdiv_eq, Int.natAbs_natCast,
      decide_eq_false (p := ((d.toNat : Int) < 0)) (by omega)]
    cases decide (i < 0) <;> rfl

theorem mpz_divexact_si_rep {n : Mpz} {i : Int} {q : Dest} (d : BitVec 64) (hn : Rep n i) (hd : d ≠ 0)
    (hx : d.toInt ∣ i) (hq : Room q n.mag.length) :
    ∃ a, mpz_divexact_si q n d = .ok a ∧ Rep a (i / d.toInt) := by
  unfold mpz_divexact_si
  have hv := limb_cast_val d
  obtain ⟨a, e, ra⟩ := mpz_divexact_ui_rep (mp_limb_cast d) hn (cast_ne hd)
    (by rw [hv]; exact Int.natAbs_dvd.2 hx) hq
  rw [e, C.ok_bind]
  rw [hv] at ra
  have hl : a.mag.length ≤ n.mag.length := by
    apply rep_len_mono ra hn
    rw [Int.natAbs_ediv_of_dvd (Int.natAbs_dvd.2 hx)]
    exact Nat.div_le_self _ _
  by_cases h : d.slt 0
  · rw [if_pos h]
    obtain ⟨z, ez, rz⟩ := neg_rep (z := q) ra (room_mono hq hl)
    rw [Int.natCast_natAbs, abs_of_neg ((slt_iff d).1 h), Int.ediv_neg, neg_neg] at rz
    exact ⟨z, ez, rz⟩
  · rw [if_neg h]
    have := mt (slt_iff d).2 h
    rw [Int.natCast_natAbs, abs_of_nonneg (by omega)] at ra
    exact ⟨_, rfl, ra⟩

/-! ### Rounded division -/

theorem round_nat (a d : Nat) (hd : 0 < d) :
    (2 * a + d) / (2 * d) = a / d + (if d ≤ 2 * (a % d) then 1 else 0) := by
  have h1 := Nat.div_add_mod a d
  have h2 := Nat.mod_lt a hd
  generalize a / d = q at *
  generalize a % d = r at *
  have : 2 * a + d = 2 * d * q + (2 * r + d) := by rw [← h1]; ring
  rw [this, Nat.mul_add_div (by omega)]
  congr 1
  split
  · exact Nat.div_eq_of_lt_le (by omega) (by omega)
  · exact Nat.div_eq_of_lt (by omega)

theorem half_test (r d : Limb) :
    (r > d >>> 1 ∨ (r = d >>> 1 ∧ (d &&& 1) = 0)) ↔ d.toNat ≤ 2 * r.toNat := by
  have hh : (d >>> 1).toNat = d.toNat / 2 := by
    rw [BitVec.toNat_ushiftRight, Nat.shiftRight_eq_div_pow]
  have h1 : (d &&& 1) = 0 ↔ d.toNat % 2 = 0 := by
    rw [← toNat_eq_zero, BitVec.toNat_and, show (1 : Limb).toNat = 2 ^ 1 - 1 from rfl,
      Nat.and_two_pow_sub_one_eq_mod]
  rw [h1, gt_iff_lt, BitVec.lt_def, hh]
  have h2 : r = d >>> 1 ↔ r.toNat = d.toNat / 2 := by
    rw [← hh]; exact ⟨fun e => by rw [e], fun e => BitVec.eq_of_toNat_eq e⟩
  rw [h2]
  omega

theorem divRound_nat (i : Int) (d : Nat) (hd : 0 < d) :
    Spec.divRound i d = i.tdiv d + (if d ≤ 2 * (i.natAbs % d) then (if i < 0 then -1 else 1) else 0) := by
  unfold Spec.divRound
  rw [Int.natAbs_natCast, round_nat _ _ hd, tdiv_eq, Int.natAbs_natCast,
    Int.sign_eq_one_of_pos (a := (d : Int)) (by omega), decide_eq_false (p := ((d : Int) < 0)) (by omega)]
  have hm := Nat.mod_lt i.natAbs hd
  generalize hq : i.natAbs / d = q
  by_cases hi : i < 0
  · rw [Int.sign_eq_neg_one_of_neg hi, decide_eq_true hi]
    simp only [if_pos hi]
    split <;> simp ; omega
  · rw [decide_eq_false hi]
    simp only [if_neg hi]
    by_cases h0 : i = 0
    · subst h0
      simp at hq ⊢
      subst hq
      split <;> omega
    · rw [Int.sign_eq_one_of_pos (by omega)]
      split <;> simp

theorem divround_ui_rep {n : Mpz} {i : Int} {q : Dest} (d : Limb) (hd : d ≠ 0) (hn : Rep n i)
    (hq : Room q (n.mag.length + 1)) :
    ∃ a, mpz_divround_ui q n d = .ok a ∧ Rep a (Spec.divRound i d.toNat) := by
  have hd0 : 0 < d.toNat := Nat.pos_of_ne_zero (fun e => hd (BitVec.eq_of_toNat_eq e))
  unfold mpz_divround_ui
  obtain ⟨a, r, e, ra, vr⟩ := quo_ui_rep (q := some q) d hd hn (roomO_some (room_mono hq (by omega)))
  rw [e, C.ok_bind]
  have hl := tdiv_len hn ra
  have hr : r.toNat < d.toNat := by rw [vr]; exact Nat.mod_lt _ hd0
  dsimp only
  simp only [half_test r d]
  rw [divRound_nat _ _ hd0, ← vr]
  by_cases h : d.toNat ≤ 2 * r.toNat
  · rw [if_pos h, if_pos h]
    by_cases hi : i < 0
    · rw [if_pos ((rep_sizen hn).2 hi), if_pos hi]
      exact sub_ui_rep 1 ra (room_mono hq (by omega))
    · rw [if_neg (mt (rep_sizen hn).1 hi), if_neg hi]
      exact add_ui_rep 1 ra (room_mono hq (by omega))
  · rw [if_neg h, if_neg h]
    exact ⟨_, rfl, by rw [Int.add_zero]; exact ra⟩

theorem divRound_neg (i j : Int) : Spec.divRound i (-j) = -Spec.divRound i j := by
  unfold Spec.divRound
  rw [Int.sign_neg, Int.natAbs_neg]; ring

theorem divRound_abs (i : Int) {j : Int} (hj : j ≠ 0) : (Spec.divRound i j).natAbs ≤ i.natAbs + 1 := by
  have key : ∀ d : Nat, 0 < d → (Spec.divRound i d).natAbs ≤ i.natAbs + 1 := by
    intro d hd
    rw [divRound_nat _ _ hd]
    have : (i.tdiv d).natAbs ≤ i.natAbs := by rw [Int.natAbs_tdiv]; exact Nat.div_le_self _ _
    split
    · split <;> omega
    · omega
  obtain ⟨b, rfl | rfl⟩ := j.eq_nat_or_neg
  · exact key b (by omega)
  · rw [divRound_neg, Int.natAbs_neg]; exact key b (by omega)

theorem divround_si_rep {n : Mpz} {i : Int} {q : Dest} (d : BitVec 64) (hd : d ≠ 0) (hn : Rep n i)
    (hq : Room q (n.mag.length + 1)) :
    ∃ a, mpz_divround_si q n d = .ok a ∧ Rep a (Spec.divRound i d.toInt) := by
  unfold mpz_divround_si
  obtain ⟨a, e, ra⟩ := divround_ui_rep (q := q) (mp_limb_cast d) (cast_ne hd) hn hq
  rw [e, C.ok_bind]
  rw [limb_cast_val] at ra
  have hj : d.toInt ≠ 0 := fun e => hd (BitVec.eq_of_toInt_eq e)
  have hl : a.mag.length ≤ n.mag.length + 1 := sum_len hn ra (by
    have := divRound_abs i (j := (d.toInt.natAbs : Int)) (by omega)
    omega)
  by_cases h : d.slt 0
  · rw [if_pos h]
    obtain ⟨z, ez, rz⟩ := neg_rep (z := q) ra (room_mono hq hl)
    rw [Int.natCast_natAbs, abs_of_neg ((slt_iff d).1 h), divRound_neg, neg_neg] at rz
    exact ⟨z, ez, rz⟩
  · rw [if_neg h]
    have := mt (slt_iff d).2 h
    rw [Int.natCast_natAbs, abs_of_nonneg (by omega)] at ra
    exact ⟨_, rfl, ra⟩

/-! ### Divisibility -/

theorem divisible_rep {n d : Mpz} {i j : Int} (hn : Rep n i) (hd : Rep d j) :
    mpz_divisible_p n d = .ok (decide (j ∣ i)) := by
  unfold mpz_divisible_p
  by_cases h0 : i = 0
  · rw [if_pos ((rep_size0 hn).2 h0), h0]; simp
  · rw [if_neg (mt (rep_size0 hn).1 h0)]
    by_cases hj : j = 0
    · rw [if_pos ((rep_size0 hd).2 hj), hj]
      simp [h0]
    · rw [if_neg (mt (rep_size0 hd).1 hj)]
      obtain ⟨r, e, rr⟩ := rem_rep (r := mpz_init_vla d.mag.length) hn hd hj (room_vla _ _ le_rfl)
      rw [e, C.ok_bind]
      congr 1
      rw [decide_eq_decide, rep_size0 rr]
      exact (Int.dvd_iff_tmod_eq_zero).symm

theorem divisible_ui_rep {n : Mpz} {i : Int} (d : Limb) (hn : Rep n i) :
    mpz_divisible_ui_p n d = .ok (decide ((d.toNat : Int) ∣ i)) := by
  unfold mpz_divisible_ui_p
  by_cases h0 : i = 0
  · rw [if_pos ((rep_size0 hn).2 h0), h0]; simp
  · rw [if_neg (mt (rep_size0 hn).1 h0)]
    by_cases hj : d = 0
    · rw [if_pos hj, hj]
      simp [h0]
    · rw [if_neg hj]
      obtain ⟨r, e, vr⟩ := rem_ui_rep d hj hn
      rw [e, C.ok_bind]
      congr 1
      rw [decide_eq_decide, ← toNat_eq_zero, vr, dvd_natAbs, Int.natAbs_natCast]

theorem congruent_rep {x y d : Mpz} {i k j : Int} (hx : Rep x i) (hy : Rep y k) (hd : Rep d j) :
    mpz_congruent_p x y d = .ok (decide (j ∣ i - k)) := by
  unfold mpz_congruent_p
  by_cases hj : j = 0
  · rw [if_pos ((rep_size0 hd).2 hj), cmp_rep hx hy, hj]
    congr 1
    rw [decide_eq_decide, zero_dvd_iff]
    split
    · constructor <;> intro <;> omega
    · split
      · constructor <;> intro <;> omega
      · constructor <;> intro <;> omega
  · rw [if_neg (mt (rep_size0 hd).1 hj)]
    obtain ⟨t, e, rt⟩ := sub_rep (z := mpz_init_vla (mpz_add_size x y)) hx hy (room_vla _ _ le_rfl)
    rw [e, C.ok_bind]
    exact divisible_rep rt hd

theorem congruent_ui_rep {x y : Mpz} {i k : Int} (d : Limb) (hx : Rep x i) (hy : Rep y k) :
    mpz_congruent_ui_p x y d = .ok (decide ((d.toNat : Int) ∣ i - k)) := by
  unfold mpz_congruent_ui_p
  by_cases hj : d = 0
  · rw [if_pos hj, cmp_rep hx hy, hj]
    congr 1
    rw [decide_eq_decide, show ((0 : Limb).toNat : Int) = 0 from rfl, zero_dvd_iff]
    split
    · constructor <;> intro <;> omega
    · split
      · constructor <;> intro <;> omega
      · constructor <;> intro <;> omega
  · rw [if_neg hj]
    obtain ⟨t, e, rt⟩ := sub_rep (z := mpz_init_vla (mpz_add_size x y)) hx hy (room_vla _ _ le_rfl)
    rw [e, C.ok_bind]
    exact divisible_ui_rep d rt

/-! ### Powers -/

theorem half_toNat (y : Limb) : (y >>> 1).toNat = y.toNat / 2 := by
  rw [BitVec.toNat_ushiftRight, Nat.shiftRight_eq_div_pow]

theorem pow_sqr_rep : ∀ (k : Nat) (y : Limb) (x : Mpz) (i : Int), Rep x i → y.toNat = 2 ^ k - 1 →
    ∃ t, mpz_pow_ui_sqr y x = .ok t ∧ Rep t (i ^ 2 ^ k) := by
  intro k
  induction k with
  | zero =>
    intro y x i hx hy
    have : y = 0 := toNat_eq_zero.1 (by rw [hy]; rfl)
    rw [mpz_pow_ui_sqr, dif_pos this]
    exact ⟨_, rfl, by simpa using hx⟩
  | succ k ih =>
    intro y x i hx hy
    have hp := Nat.two_pow_pos k
    have h1 : 2 ^ (k + 1) = 2 * 2 ^ k := Nat.pow_succ'
    have hne : ¬ y = 0 := by
      intro e; rw [e, show (0 : Limb).toNat = 0 from rfl] at hy
      omega
    rw [mpz_pow_ui_sqr, dif_neg hne]
    obtain ⟨t, e, rt⟩ := sqr_rep (z := .heap) false hx trivial
    rw [e, C.ok_bind]
    obtain ⟨u, eu, ru⟩ := ih (y >>> 1) t (i * i) rt (by rw [half_toNat, hy]; omega)
    refine ⟨u, eu, ?_⟩
    rw [h1, pow_mul, pow_two]; exact ru

theorem odd_test (y : Limb) : (y &&& 1 ≠ 0) ↔ y.toNat % 2 = 1 := by
  rw [Ne, ← toNat_eq_zero, BitVec.toNat_and, show (1 : Limb).toNat = 2 ^ 1 - 1 from rfl,
      Nat.and_two_pow_sub_one_eq_mod]
  omega

theorem pow_bin_rep : ∀ (n : Nat) (y : Limb) (z u : Mpz) (a i : Int), y.toNat = n → Rep z a → Rep u i →
    ∃ t, mpz_pow_ui_bin y z u = .ok t ∧ Rep t (a * i ^ y.toNat) := by
  intro n
  induction n using Nat.strong_induction_on with
  | _ n ih =>
    intro y z u a i hy hz hu
    by_cases h : y = 0
    · rw [mpz_pow_ui_bin, dif_pos h, h]
      exact ⟨_, rfl, by simpa using hz⟩
    · rw [mpz_pow_ui_bin, dif_neg h]
      have hne : y.toNat ≠ 0 := mt toNat_eq_zero.1 h
      have hz' : ∃ z', (if y &&& 1 ≠ 0 then mpz_mul .heap z u else .ok z) = C.ok z' ∧
          Rep z' (a * i ^ (y.toNat % 2)) := by
        by_cases ho : y.toNat % 2 = 1
        · rw [if_pos ((odd_test y).2 ho), ho, pow_one]
          exact mul_rep hz hu trivial
        · rw [if_neg (mt (odd_test y).1 ho), show y.toNat % 2 = 0 by omega, pow_zero, mul_one]
          exact ⟨_, rfl, hz⟩
      obtain ⟨z', e1, r1⟩ := hz'
      obtain ⟨u', e2, r2⟩ := sqr_rep (z := .heap) false hu trivial
      rw [e1, C.ok_bind, e2, C.ok_bind]
      obtain ⟨t, et, rt⟩ := ih (y.toNat / 2) (by omega) (y >>> 1) z' u' _ _ (half_toNat y) r1 r2
      refine ⟨t, et, ?_⟩
      rw [half_toNat, ← pow_two, ← pow_mul, mul_assoc, ← pow_add, Nat.mod_add_div] at rt
      exact rt

theorem pow2_of_and : ∀ y : Nat, y ≠ 0 → y &&& (y - 1) = 0 → ∃ k, y = 2 ^ k := by
  intro y
  induction y using Nat.strong_induction_on with
  | _ y ih =>
    intro h0 h
    rcases Nat.even_or_odd' y with ⟨m, rfl | rfl⟩
    · have hm : m ≠ 0 := by omega
      have h2 : m &&& (m - 1) = 0 := by
        apply Nat.eq_of_testBit_eq
        intro j
        have := congrArg (fun n => Nat.testBit n (j + 1)) h
        rw [Nat.testBit_and, Nat.zero_testBit, Nat.testBit_add_one, Nat.testBit_add_one] at this
        rw [show 2 * m / 2 = m by omega, show (2 * m - 1) / 2 = m - 1 by omega] at this
        rw [Nat.testBit_and, Nat.zero_testBit]; exact this
      obtain ⟨k, hk⟩ := ih m (by omega) hm h2
      exact ⟨k + 1, by rw [hk, Nat.pow_succ']⟩
    · have : m = 0 := by
        apply Nat.eq_of_testBit_eq
        intro j
        have := congrArg (fun n => Nat.testBit n (j + 1)) h
        rw [Nat.testBit_and, Nat.zero_testBit, Nat.testBit_add_one, Nat.testBit_add_one] at this
        rw [show (2 * m + 1) / 2 = m by omega, show (2 * m + 1 - 1) / 2 = m by omega, Bool.and_self] at this
        rw [Nat.zero_testBit]; exact this
      exact ⟨0, by rw [this]; rfl⟩

theorem pow_ui_rep {x : Mpz} {i : Int} (y : Limb) (hx : Rep x i) :
    ∃ t, mpz_pow_ui x y = .ok t ∧ Rep t (i ^ y.toNat) := by
  unfold mpz_pow_ui
  by_cases h0 : y = 0
  · rw [if_pos h0, h0]
    exact ⟨_, rfl, by simpa using set_ui_rep 1⟩
  rw [if_neg h0]
  by_cases h1 : y = 1
  · rw [if_pos h1, h1]
    exact ⟨_, rfl, by simpa using hx⟩
  rw [if_neg h1]
  have hy0 : y.toNat ≠ 0 := mt toNat_eq_zero.1 h0
  by_cases h2 : i = 0
  · rw [if_pos ((rep_size0 hx).2 h2), h2, zero_pow hy0]
    exact ⟨_, rfl, zero_rep⟩
  rw [if_neg (mt (rep_size0 hx).1 h2)]
  by_cases h3 : y &&& (y - 1) = 0
  · rw [if_pos h3]
    have hs : (y - 1).toNat = y.toNat - 1 := by
      rw [BitVec.toNat_sub_of_le (by rw [BitVec.le_def]; show 1 ≤ y.toNat; omega)]; rfl
    have h4 := congrArg BitVec.toNat h3
    rw [BitVec.toNat_and, hs, show (0 : Limb).toNat = 0 from rfl] at h4
    obtain ⟨k, hk⟩ := pow2_of_and _ hy0 h4
    obtain ⟨t, e, rt⟩ := pow_sqr_rep k (y - 1) x i hx (by rw [hs, hk])
    exact ⟨t, e, by rw [hk]; exact rt⟩
  · rw [if_neg h3]
    obtain ⟨t, e, rt⟩ := pow_bin_rep _ y (mpz_set_ui 1) x _ _ rfl (set_ui_rep 1) hx
    refine ⟨t, e, ?_⟩
    simpa using rt

/-! ### Every integer is represented -/

theorem nat_rep (n : Nat) : ∃ a : List Limb, Norm a ∧ val a = n := by
  induction n using Nat.strong_induction_on with
  | _ n ih =>
    by_cases h0 : n = 0
    · exact ⟨[], norm_nil, h0 ▸ rfl⟩
    · obtain ⟨a, ha, va⟩ := ih (n / 2 ^ 64) (Nat.div_lt_self (by omega) (by norm_num))
      refine ⟨mpn_strip (BitVec.ofNat 64 n :: a), strip_norm _, ?_⟩
      rw [strip_val, val_cons, va, BitVec.toNat_ofNat]
      exact Nat.mod_add_div n (2 ^ 64)

theorem int_rep (i : Int) : ∃ x, Rep x i := by
  obtain ⟨a, ha, va⟩ := nat_rep i.natAbs
  refine ⟨_, make_rep' (s := decide (i < 0)) ha ?_⟩
  rw [va]
  by_cases h : i < 0
  · rw [decide_eq_true h, if_pos rfl]; omega
  · rw [decide_eq_false h, if_neg (by simp)]; omega

theorem get_si_rep {x : Mpz} {i : Int} (hx : Rep x i) :
    ∃ r, mpz_get_si x = .ok r ∧ (-2 ^ 63 ≤ i → i < 2 ^ 63 → r.toInt = i) := by
  unfold mpz_get_si
  obtain ⟨t, e, vt⟩ := get_ui_rep hx
  rw [e, C.ok_bind]
  refine ⟨_, rfl, fun h1 h2 => ?_⟩
  rw [Nat.mod_eq_of_lt (by omega)] at vt
  have hm : t.toNat < 2 ^ 63 → t &&& 0x7fffffffffffffff = t := by
    intro h
    apply BitVec.eq_of_toNat_eq
    rw [BitVec.toNat_and, show (0x7fffffffffffffff : Limb).toNat = 2 ^ 63 - 1 from rfl,
      Nat.and_two_pow_sub_one_eq_mod, Nat.mod_eq_of_lt h]
  unfold mp_long_cast
  dsimp only
  by_cases hi : i < 0
  · rw [if_pos ((rep_sizen hx).2 hi)]
    by_cases he : t = 0x8000000000000000
    · rw [if_pos he]
      rw [he, show (0x8000000000000000 : Limb).toNat = 2 ^ 63 from rfl] at vt
      rw [show (0x8000000000000000 : BitVec 64).toInt = -2 ^ 63 from rfl]
      omega
    · rw [if_neg he]
      have hlt : t.toNat < 2 ^ 63 := by
        have : t.toNat ≠ 2 ^ 63 := fun e => he (BitVec.eq_of_toNat_eq e)
        omega
      rw [hm hlt, toInt_neg_small hlt]; omega
  · rw [if_neg (mt (rep_sizen hx).1 hi)]
    have hlt : t.toNat < 2 ^ 63 := by omega
    rw [hm hlt, toInt_small hlt]; omega

end Torsion.Mpi
