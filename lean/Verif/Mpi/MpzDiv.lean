import Verif.Mpi.MpzLemmas

namespace Torsion.Mpi

open Spec (val ival Canon Rep Room)

/-! ### Truncated and Euclidean division of integers -/

theorem tdiv_eq (i j : Int) :
    i.tdiv j = if decide (i < 0) != decide (j < 0) then -((i.natAbs / j.natAbs : Nat) : Int)
      else ((i.natAbs / j.natAbs : Nat) : Int) := by
  obtain ⟨a, rfl | rfl⟩ := i.eq_nat_or_neg <;> obtain ⟨b, rfl | rfl⟩ := j.eq_nat_or_neg
  · have h1 : ¬ (a : Int) < 0 := by omega
    have h2 : ¬ (b : Int) < 0 := by omega
    rw [decide_eq_false h1, decide_eq_false h2]; simp
  · have h1 : ¬ (a : Int) < 0 := by omega
    by_cases h : b = 0
    · subst h; simp
    · have h2 : -(b : Int) < 0 := by omega
      rw [decide_eq_false h1, decide_eq_true h2]; simp [Int.tdiv_neg]
  · have h1 : ¬ (b : Int) < 0 := by omega
    by_cases h : a = 0
    · subst h; simp
    · have h2 : -(a : Int) < 0 := by omega
      rw [decide_eq_false h1, decide_eq_true h2]; simp [Int.neg_tdiv]
  · by_cases h : a = 0
    · subst h; simp
    · by_cases h' : b = 0
      · subst h'; simp
      · have h1 : -(a : Int) < 0 := by omega
        have h2 : -(b : Int) < 0 := by omega
        rw [decide_eq_true h1, decide_eq_true h2]; simp [Int.neg_tdiv, Int.tdiv_neg]

theorem tmod_eq (i j : Int) :
    i.tmod j = if i < 0 then -((i.natAbs % j.natAbs : Nat) : Int) else ((i.natAbs % j.natAbs : Nat) : Int) := by
  obtain ⟨b, hb⟩ : ∃ b : Nat, i.tmod j = i.tmod b ∧ j.natAbs = b := by
    obtain ⟨b, rfl | rfl⟩ := j.eq_nat_or_neg
    · exact ⟨b, rfl, by omega⟩
    · exact ⟨b, Int.tmod_neg .., by omega⟩
  rw [hb.1, hb.2]
  obtain ⟨a, rfl | rfl⟩ := i.eq_nat_or_neg
  · rw [if_neg (by omega), Int.natAbs_natCast, Int.ofNat_tmod]
  · by_cases h : a = 0
    · subst h; simp
    · rw [if_pos (by omega), Int.neg_tmod, Int.natAbs_neg, Int.natAbs_natCast, Int.ofNat_tmod]

/-- Quotient and remainder of the Euclidean division are determined by the range of the remainder. -/
theorem ediv_of {i j q r : Int} (h : i = j * q + r) (h0 : 0 ≤ r) (h1 : r < j.natAbs) : i / j = q ∧ i % j = r := by
  rcases lt_trichotomy j 0 with hj | hj | hj
  · exact (Int.ediv_emod_unique' hj).2 ⟨by rw [h]; ring, h0, by omega⟩
  · subst hj; simp at h1; omega
  · exact (Int.ediv_emod_unique hj).2 ⟨by rw [h]; ring, h0, by omega⟩

theorem tmod_lt (i : Int) {j : Int} (hj : j ≠ 0) : (i.tmod j).natAbs < j.natAbs := by
  rw [Int.natAbs_tmod]; exact Nat.mod_lt _ (by omega)

theorem euclid_nonneg {i j : Int} (hj : j ≠ 0) (h : 0 ≤ i.tmod j) : i / j = i.tdiv j ∧ i % j = i.tmod j := by
  apply ediv_of (Int.mul_tdiv_add_tmod i j).symm h
  have := tmod_lt i hj
  omega

theorem euclid_neg {i j : Int} (hj : j ≠ 0) (h : i.tmod j < 0) :
    i / j = (if j < 0 then i.tdiv j + 1 else i.tdiv j - 1) ∧
    i % j = (if j < 0 then i.tmod j - j else i.tmod j + j) := by
  have h1 := Int.mul_tdiv_add_tmod i j
  have h2 := tmod_lt i hj
  by_cases hn : j < 0
  · rw [if_pos hn, if_pos hn]
    apply ediv_of
    · linear_combination -h1
    · omega
    · omega
  · rw [if_neg hn, if_neg hn]
    apply ediv_of
    · linear_combination -h1
    · omega
    · omega

/-! ### `mpz_quorem` -/

/-- Room for an output that may be absent. -/
def RoomO (z : Option Dest) (n : Nat) : Prop := ∀ d, z = some d → Room d n

theorem growO {z : Option Dest} {n : Nat} (h : RoomO z n) :
    ifDest z () (fun q => mpz_grow q n) = C.ok () := by
  cases z with
  | none => rfl
  | some q => exact grow_ok (h q rfl)

theorem roomO_none (n : Nat) : RoomO none n := by intro d h; cases h
theorem roomO_some {z : Dest} {n : Nat} (h : Room z n) : RoomO (some z) n := by
  intro d e; cases e; exact h
theorem roomO_mono {z : Option Dest} {m n : Nat} (h : RoomO z n) (hm : m ≤ n) : RoomO z m :=
  fun d e => room_mono (h d e) hm

theorem div_small {i j : Int} (h : i.natAbs < j.natAbs) : i.tdiv j = 0 ∧ i.tmod j = i := by
  constructor
  · rw [tdiv_eq, Nat.div_eq_of_lt h]; simp
  · rw [tmod_eq, Nat.mod_eq_of_lt h]; split <;> omega

theorem quot_pow {a b m n : Nat} (hb : 2 ^ (64 * n) ≤ b) (ha : a < 2 ^ (64 * m)) (h : n ≤ m) :
    a / b < 2 ^ (64 * (m - n)) := by
  rw [Nat.div_lt_iff_lt_mul (Nat.lt_of_lt_of_le (Nat.two_pow_pos _) hb)]
  refine Nat.lt_of_lt_of_le ha ?_
  rw [show 64 * m = 64 * (m - n) + 64 * n by omega, Nat.pow_add]
  exact Nat.mul_le_mul_left _ hb

theorem trim_quot {n d q : List Limb} (hn : Norm n) (hd : Norm d) (hne : d ≠ []) (hle : d.length ≤ n.length)
    (hl : q.length = n.length - d.length + 1) (hv : val q = val n / val d) (hge : val d ≤ val n) :
    ∃ t, trimTop q = .ok t ∧ Norm t ∧ val t = val n / val d := by
  have hpos := norm_pos hd hne
  rw [← hv]
  apply trim_ok
  · rintro rfl; rw [List.length_nil] at hl; omega
  · by_cases h1 : q.length ≤ 1
    · right; exact h1
    · left
      rw [hv, hl, Nat.le_div_iff_mul_le hpos]
      have h2 := norm_val_pos hn (by rintro rfl; rw [List.length_nil] at hle hl; omega)
      have h3 := val_lt d
      have h4 : 2 ^ (64 * (n.length - d.length + 1 - 2)) * 2 ^ (64 * d.length) = 2 ^ (64 * (n.length - 1)) := by
        rw [← Nat.pow_add]; congr 1; omega
      calc _ ≤ 2 ^ (64 * (n.length - d.length + 1 - 2)) * 2 ^ (64 * d.length) := Nat.mul_le_mul_left _ h3.le
        _ = _ := h4
        _ ≤ _ := h2

theorem quorem_rep {n d : Mpz} {i j : Int} {q r : Option Dest} (hn : Rep n i) (hd : Rep d j) (hj : j ≠ 0)
    (hqr : q.isSome ∨ r.isSome) (hq : RoomO q (n.mag.length - d.mag.length + 1)) (hr : RoomO r d.mag.length) :
    ∃ a b, mpz_quorem q r n d = .ok (a, b) ∧ Rep a (i.tdiv j) ∧ Rep b (i.tmod j) := by
  have an := rep_abs hn; have ad := rep_abs hd
  have hne : d.mag ≠ [] := fun e => hj ((rep_nil hd).1 e)
  have hl : d.mag.length ≠ 0 := fun e => hj ((rep_len hd).1 e)
  have hc : ¬ ((q.isNone ∧ r.isNone) ∨ d.mag.length = 0) := by
    rintro (⟨h1, h2⟩ | h)
    · rcases hqr with h | h
      · cases q <;> simp at h h1
      · cases r <;> simp at h h2
    · exact hl h
  unfold mpz_quorem
  rw [if_neg hc, cmp2_val _ _ (rep_norm hn) (rep_norm hd), an, ad]
  by_cases h1 : i.natAbs < j.natAbs
  · rw [if_pos h1, if_pos (by decide)]
    have hs : ifDest r n (fun r => mpz_set r n) = C.ok n := by
      cases r with
      | none => rfl
      | some r =>
        show mpz_set r n = .ok n
        unfold mpz_set
        rw [grow_ok (room_mono (hr r rfl) (rep_len_mono hn hd h1.le)), C.ok_bind]
    rw [hs, C.ok_bind]
    obtain ⟨e1, e2⟩ := div_small h1
    exact ⟨_, _, rfl, by rw [e1]; exact zero_rep, by rw [e2]; exact hn⟩
  · rw [if_neg (show ¬ (if i.natAbs < j.natAbs then (-1 : Int) else if i.natAbs = j.natAbs then 0 else 1) < 0 by
      rw [if_neg h1]; split <;> decide)]
    rw [growO hq, C.ok_bind, growO hr, C.ok_bind]
    have hle := rep_len_mono hd hn (by omega)
    obtain ⟨a, b, e, la, lb, va, vb⟩ := divmod_val n.mag d.mag (rep_norm hd) hne hle
    rw [e, C.ok_bind]
    obtain ⟨t, et, nt, vt⟩ := trim_quot (rep_norm hn) (rep_norm hd) hne hle la va (by omega)
    rw [et, C.ok_bind]
    refine ⟨_, _, rfl, make_rep' nt ?_, make_rep' (strip_norm _) ?_⟩
    · rw [vt, an, ad, rep_neg' hn, rep_neg' hd]; exact tdiv_eq i j
    · rw [strip_val, vb, an, ad, rep_neg' hn, tmod_eq]
      simp only [decide_eq_true_eq]

theorem quorem_zero {n d : Mpz} (q r : Option Dest) (hd : Rep d 0) : mpz_quorem q r n d = .abort := by
  unfold mpz_quorem
  rw [if_pos (Or.inr ((rep_len hd).2 rfl))]

theorem quo_rep {n d : Mpz} {i j : Int} {q : Dest} (hn : Rep n i) (hd : Rep d j) (hj : j ≠ 0)
    (hq : Room q (n.mag.length - d.mag.length + 1)) :
    ∃ a, mpz_quo q n d = .ok a ∧ Rep a (i.tdiv j) := by
  obtain ⟨a, b, e, ra, -⟩ := quorem_rep (q := some q) (r := none) hn hd hj (by simp) (roomO_some hq) (roomO_none _)
  unfold mpz_quo
  rw [e, C.ok_bind]
  exact ⟨_, rfl, ra⟩

theorem rem_rep {n d : Mpz} {i j : Int} {r : Dest} (hn : Rep n i) (hd : Rep d j) (hj : j ≠ 0)
    (hr : Room r d.mag.length) :
    ∃ b, mpz_rem r n d = .ok b ∧ Rep b (i.tmod j) := by
  obtain ⟨a, b, e, -, rb⟩ := quorem_rep (q := none) (r := some r) hn hd hj (by simp) (roomO_none _) (roomO_some hr)
  unfold mpz_rem
  rw [e, C.ok_bind]
  exact ⟨_, rfl, rb⟩

theorem divmod_rep {n d : Mpz} {i j : Int} {q r : Option Dest} (hn : Rep n i) (hd : Rep d j) (hj : j ≠ 0)
    (hqr : q.isSome ∨ r.isSome) (hq : RoomO q (n.mag.length - d.mag.length + 2)) (hr : RoomO r (d.mag.length + 1)) :
    ∃ a b, mpz_divmod q r n d = .ok (a, b) ∧ (q.isSome → Rep a (i / j)) ∧ Rep b (i % j) := by
  unfold mpz_divmod
  by_cases hi : i < 0
  · rw [if_pos ((rep_sizen hn).2 hi)]
    have hroom : Room (r.getD (mpz_init_vla (d.mag.length + 1))) (d.mag.length + 1) := by
      cases r with
      | none => exact room_vla _ _ le_rfl
      | some r => exact hr r rfl
    dsimp only
    generalize r.getD (mpz_init_vla (d.mag.length + 1)) = rd at hroom
    obtain ⟨a, b, e, ra, rb⟩ := quorem_rep (q := q) (r := some rd) hn hd hj (by simp)
      (roomO_mono hq (by omega)) (roomO_some (room_mono hroom (by omega)))
    rw [e, C.ok_bind]
    dsimp only
    by_cases hb : i.tmod j < 0
    · rw [if_pos ((rep_sizen rb).2 hb)]
      obtain ⟨e1, e2⟩ := euclid_neg hj hb
      have hzq : ∃ zq, ifDest q a (fun q => if d.size < 0 then mpz_add_ui q a 1 else mpz_sub_ui q a 1) = C.ok zq ∧ (q.isSome → Rep zq (i / j)) := by
        cases q with
        | none => exact ⟨_, rfl, by simp⟩
        | some q =>
          have hra : Room q (a.mag.length + 1) := by
            refine room_mono (hq q rfl) ?_
            have : a.mag.length ≤ n.mag.length - d.mag.length + 1 := by
              apply rep_len_le ra
              rw [Int.natAbs_tdiv]
              show i.natAbs / j.natAbs < _
              by_cases hlt : i.natAbs < j.natAbs
              · rw [Nat.div_eq_of_lt hlt]; exact Nat.two_pow_pos _
              · have hle := rep_len_mono hd hn (by omega)
                have hdl : d.mag.length ≠ 0 := fun e => hj ((rep_len hd).1 e)
                have hdp := norm_val_pos (rep_norm hd) (fun e => hj ((rep_nil hd).1 e))
                rw [rep_abs hd] at hdp
                have := quot_pow hdp (rep_lt hn) (by omega)
                rwa [show n.mag.length - (d.mag.length - 1) = n.mag.length - d.mag.length + 1 by omega] at this
            omega
          by_cases hjn : j < 0
          · show ∃ zq, (if d.size < 0 then mpz_add_ui q a 1 else mpz_sub_ui q a 1) = C.ok zq ∧ _
            rw [if_pos ((rep_sizen hd).2 hjn)]
            obtain ⟨t, et, rt⟩ := add_ui_rep (z := q) 1 ra hra
            refine ⟨t, et, fun _ => ?_⟩
            rw [e1, if_pos hjn]; exact rt
          · show ∃ zq, (if d.size < 0 then mpz_add_ui q a 1 else mpz_sub_ui q a 1) = C.ok zq ∧ _
            rw [if_neg (mt (rep_sizen hd).1 hjn)]
            obtain ⟨t, et, rt⟩ := sub_ui_rep (z := q) 1 ra hra
            refine ⟨t, et, fun _ => ?_⟩
            rw [e1, if_neg hjn]; exact rt
      obtain ⟨zq, ezq, rzq⟩ := hzq
      rw [ezq, C.ok_bind]
      have hbl := rep_len_mono rb hd (tmod_lt i hj).le
      have hroom' : Room rd (max b.mag.length d.mag.length + 1) := room_mono hroom (by omega)
      have hzr : ∃ zr, (if d.size < 0 then mpz_sub rd b d else mpz_add rd b d) = C.ok zr ∧ Rep zr (i % j) := by
        rw [e2]
        by_cases hjn : j < 0
        · rw [if_pos ((rep_sizen hd).2 hjn), if_pos hjn]
          exact sub_rep rb hd hroom'
        · rw [if_neg (mt (rep_sizen hd).1 hjn), if_neg hjn]
          exact add_rep rb hd hroom'
      obtain ⟨zr, ezr, rzr⟩ := hzr
      rw [ezr, C.ok_bind]
      exact ⟨_, _, rfl, rzq, rzr⟩
    · rw [if_neg (mt (rep_sizen rb).1 hb)]
      obtain ⟨e1, e2⟩ := euclid_nonneg (i := i) hj (by omega)
      exact ⟨_, _, rfl, fun _ => by rw [e1]; exact ra, by rw [e2]; exact rb⟩
  · rw [if_neg (mt (rep_sizen hn).1 hi)]
    have hb : 0 ≤ i.tmod j := Int.tmod_nonneg j (by omega)
    obtain ⟨e1, e2⟩ := euclid_nonneg hj hb
    rw [e1, e2]
    obtain ⟨a, b, e, ra, rb⟩ := quorem_rep hn hd hj hqr (roomO_mono hq (by omega)) (roomO_mono hr (by omega))
    exact ⟨a, b, e, fun _ => ra, rb⟩

theorem divmod_zero {n d : Mpz} (q r : Option Dest) (hd : Rep d 0) : mpz_divmod q r n d = .abort := by
  unfold mpz_divmod
  split
  · dsimp only
    rw [quorem_zero _ _ hd]; rfl
  · exact quorem_zero _ _ hd

theorem div_rep {n d : Mpz} {i j : Int} {q : Dest} (hn : Rep n i) (hd : Rep d j) (hj : j ≠ 0)
    (hq : Room q (n.mag.length - d.mag.length + 2)) :
    ∃ a, mpz_div q n d = .ok a ∧ Rep a (i / j) := by
  obtain ⟨a, b, e, ra, -⟩ := divmod_rep (q := some q) (r := none) hn hd hj (by simp) (roomO_some hq) (roomO_none _)
  unfold mpz_div
  rw [e, C.ok_bind]
  exact ⟨_, rfl, ra rfl⟩

theorem mod_rep {n d : Mpz} {i j : Int} {r : Dest} (hn : Rep n i) (hd : Rep d j) (hj : j ≠ 0)
    (hr : Room r (d.mag.length + 1)) :
    ∃ b, mpz_mod r n d = .ok b ∧ Rep b (i % j) := by
  obtain ⟨a, b, e, -, rb⟩ := divmod_rep (q := none) (r := some r) hn hd hj (by simp) (roomO_none _) (roomO_some hr)
  unfold mpz_mod
  rw [e, C.ok_bind]
  exact ⟨_, rfl, rb⟩

/-! ### Division by words -/

theorem quo_ui_rep {n : Mpz} {i : Int} {q : Option Dest} (d : Limb) (hd : d ≠ 0) (hn : Rep n i)
    (hq : RoomO q n.mag.length) :
    ∃ a r, mpz_quo_ui q n d = .ok (a, r) ∧ Rep a (i.tdiv d.toNat) ∧ r.toNat = i.natAbs % d.toNat := by
  have an := rep_abs hn
  have hd0 : 0 < d.toNat := Nat.pos_of_ne_zero (fun e => hd (BitVec.eq_of_toNat_eq e))
  unfold mpz_quo_ui
  rw [if_neg hd]
  by_cases h0 : i = 0
  · rw [if_pos ((rep_len hn).2 h0), h0]
    exact ⟨_, _, rfl, by simpa using zero_rep, by simp⟩
  · rw [if_neg (mt (rep_len hn).1 h0)]
    have hne : n.mag ≠ [] := fun e => h0 ((rep_nil hn).1 e)
    obtain ⟨n0, e0, v0⟩ := val_mod n.mag hne
    unfold limb0
    rw [e0, C.ok_bind]
    by_cases h1 : n.mag.length = 1 ∧ n0 < d
    · rw [if_pos h1]
      obtain ⟨x, ex⟩ := List.length_eq_one_iff.1 h1.1
      have hx : n0 = x := by rw [ex] at e0; exact (C.ok.inj e0).symm
      have hlt := h1.2
      rw [BitVec.lt_def] at hlt
      rw [ex, val_singleton] at an
      rw [hx] at hlt ⊢
      obtain ⟨e1, e2⟩ := div_small (i := i) (j := (d.toNat : Int)) (by rw [Int.natAbs_natCast]; omega)
      refine ⟨_, _, rfl, by rw [e1]; exact zero_rep, ?_⟩
      rw [Nat.mod_eq_of_lt (by omega)]; exact an
    · rw [if_neg h1, growO hq, C.ok_bind]
      obtain ⟨qp, r, e, lq, vq, vr⟩ := divmod_1_val n.mag d hd
      rw [e, C.ok_bind]
      have hnl : 0 < n.mag.length := List.length_pos_iff.2 hne
      have htrim : ∃ t, trimTop qp = .ok t ∧ Norm t ∧ val t = val qp := by
        apply trim_ok
        · rintro rfl; rw [List.length_nil] at lq; omega
        · by_cases hl : qp.length ≤ 1
          · right; exact hl
          · left
            rw [vq, Nat.le_div_iff_mul_le hd0, lq]
            have h2 := norm_val_pos (rep_norm hn) hne
            have h3 := d.isLt
            have h4 : 2 ^ (64 * (n.mag.length - 2)) * 2 ^ 64 = 2 ^ (64 * (n.mag.length - 1)) := by
              rw [← Nat.pow_add]; congr 1; omega
            calc _ ≤ 2 ^ (64 * (n.mag.length - 2)) * 2 ^ 64 := Nat.mul_le_mul_left _ h3.le
              _ = _ := h4
              _ ≤ _ := h2
      obtain ⟨t, et, nt, vt⟩ := htrim
      dsimp only
      rw [et, C.ok_bind]
      refine ⟨_, _, rfl, make_rep' nt ?_, by rw [vr, an]⟩
      rw [vt, vq, an, rep_neg' hn, tdiv_eq, Int.natAbs_natCast, decide_eq_false (p := ((d.toNat : Int) < 0)) (by omega)]
      cases decide (i < 0) <;> rfl

theorem quo_ui_zero (q : Option Dest) (n : Mpz) : mpz_quo_ui q n 0 = .abort := by
  unfold mpz_quo_ui; rw [if_pos rfl]

theorem rem_ui_rep {n : Mpz} {i : Int} (d : Limb) (hd : d ≠ 0) (hn : Rep n i) :
    ∃ r, mpz_rem_ui n d = .ok r ∧ r.toNat = i.natAbs % d.toNat := by
  obtain ⟨a, r, e, -, vr⟩ := quo_ui_rep (q := none) d hd hn (roomO_none _)
  unfold mpz_rem_ui
  rw [e, C.ok_bind]
  exact ⟨_, rfl, vr⟩

theorem cast_ne {d : BitVec 64} (hd : d ≠ 0) : mp_limb_cast d ≠ 0 := by
  intro e
  have := limb_cast_val d
  rw [e] at this
  have h : d.toInt = 0 := by
    have h0 : (0 : Limb).toNat = 0 := rfl
    omega
  exact hd (BitVec.eq_of_toInt_eq h)

theorem toInt_small {r : BitVec 64} (h : r.toNat < 2 ^ 63) : r.toInt = r.toNat := by
  rw [BitVec.toInt_eq_toNat_cond, if_pos (by omega)]

theorem toInt_neg_small {r : BitVec 64} (h : r.toNat < 2 ^ 63) : (-r).toInt = -(r.toNat : Int) := by
  rw [BitVec.toInt_neg, toInt_small h]
  rw [Int.bmod_eq_of_le] <;> norm_num <;> omega

theorem toInt_abs_le (d : BitVec 64) : d.toInt.natAbs ≤ 2 ^ 63 := by
  have hd := d.isLt
  rw [BitVec.toInt_eq_toNat_cond]
  split <;> omega

theorem tdiv_len {a n : Mpz} {i j : Int} (hn : Rep n i) (ha : Rep a (i.tdiv j)) :
    a.mag.length ≤ n.mag.length := by
  apply rep_len_mono ha hn
  rw [Int.natAbs_tdiv]; exact Nat.div_le_self _ _

theorem quo_si_rep {n : Mpz} {i : Int} {q : Option Dest} (d : BitVec 64) (hd : d ≠ 0) (hn : Rep n i)
    (hq : RoomO q n.mag.length) :
    ∃ a r, mpz_quo_si q n d = .ok (a, r) ∧ (q.isSome → Rep a (i.tdiv d.toInt)) ∧ r.toInt = i.tmod d.toInt := by
  unfold mpz_quo_si
  obtain ⟨a, r, e, ra, vr⟩ := quo_ui_rep (q := q) (mp_limb_cast d) (cast_ne hd) hn hq
  rw [e, C.ok_bind]
  have hl := tdiv_len hn ra
  rw [limb_cast_val] at ra vr
  have hz : ∃ z, ifDest q a (fun q => if d.slt 0 then mpz_neg q a else .ok a) = .ok z ∧
      (q.isSome → Rep z (i.tdiv d.toInt)) := by
    cases q with
    | none => exact ⟨_, rfl, by simp⟩
    | some q =>
      show ∃ z, (if d.slt 0 then mpz_neg q a else .ok a) = .ok z ∧ _
      by_cases h : d.slt 0
      · rw [if_pos h]
        obtain ⟨z, ez, rz⟩ := neg_rep (z := q) ra (room_mono (hq q rfl) hl)
        refine ⟨z, ez, fun _ => ?_⟩
        rw [Int.natCast_natAbs, abs_of_neg ((slt_iff d).1 h), Int.tdiv_neg, neg_neg] at rz
        exact rz
      · rw [if_neg h]
        refine ⟨_, rfl, fun _ => ?_⟩
        have := mt (slt_iff d).2 h
        rw [Int.natCast_natAbs, abs_of_nonneg (by omega)] at ra
        exact ra
  obtain ⟨z, ez, rz⟩ := hz
  dsimp only
  rw [ez, C.ok_bind]
  refine ⟨_, _, rfl, rz, ?_⟩
  have hdi : 0 < d.toInt.natAbs := by
    have : d.toInt ≠ 0 := fun e => hd (BitVec.eq_of_toInt_eq e)
    omega
  have hr : r.toNat < 2 ^ 63 := by
    rw [vr]; exact Nat.lt_of_lt_of_le (Nat.mod_lt _ hdi) (toInt_abs_le d)
  rw [tmod_eq]
  by_cases h : i < 0
  · rw [if_pos ((rep_sizen hn).2 h), if_pos h, toInt_neg_small hr, vr]
  · rw [if_neg (mt (rep_sizen hn).1 h), if_neg h, toInt_small hr, vr]

theorem quo_si_zero (q : Option Dest) (n : Mpz) : mpz_quo_si q n 0 = .abort := by
  unfold mpz_quo_si
  rw [show mp_limb_cast 0 = 0 from rfl, quo_ui_zero]; rfl

theorem div_ui_rep {n : Mpz} {i : Int} {q : Option Dest} (d : Limb) (hd : d ≠ 0) (hn : Rep n i)
    (hq : RoomO q (n.mag.length + 1)) :
    ∃ a r, mpz_div_ui q n d = .ok (a, r) ∧ (q.isSome → Rep a (i / d.toNat)) ∧ (r.toNat : Int) = i % d.toNat := by
  have hd0 : 0 < d.toNat := Nat.pos_of_ne_zero (fun e => hd (BitVec.eq_of_toNat_eq e))
  have hj : (d.toNat : Int) ≠ 0 := by omega
  unfold mpz_div_ui
  obtain ⟨a, r, e, ra, vr⟩ := quo_ui_rep (q := q) d hd hn (roomO_mono hq (by omega))
  rw [e, C.ok_bind]
  have hl := tdiv_len hn ra
  have htm := tmod_eq i d.toNat
  rw [Int.natAbs_natCast, ← vr] at htm
  have hrd : r.toNat < d.toNat := by rw [vr]; exact Nat.mod_lt _ hd0
  dsimp only
  by_cases h : i < 0 ∧ r ≠ 0
  · rw [if_pos ⟨(rep_sizen hn).2 h.1, h.2⟩]
    have hr0 : 0 < r.toNat := Nat.pos_of_ne_zero (fun e => h.2 (BitVec.eq_of_toNat_eq e))
    rw [if_pos h.1] at htm
    obtain ⟨e1, e2⟩ := euclid_neg hj (i := i) (by omega)
    rw [if_neg (by omega)] at e1 e2
    have hz : ∃ z, ifDest q a (fun q => mpz_sub_ui q a 1) = .ok z ∧ (q.isSome → Rep z (i / d.toNat)) := by
      cases q with
      | none => exact ⟨_, rfl, by simp⟩
      | some q =>
        obtain ⟨z, ez, rz⟩ := sub_ui_rep (z := q) 1 ra (room_mono (hq q rfl) (by omega))
        exact ⟨z, ez, fun _ => by rw [e1]; exact rz⟩
    obtain ⟨z, ez, rz⟩ := hz
    rw [ez, C.ok_bind]
    refine ⟨_, _, rfl, rz, ?_⟩
    rw [e2, htm, BitVec.toNat_sub_of_le (by rw [BitVec.le_def]; omega)]
    omega
  · rw [if_neg (by rw [rep_sizen hn]; exact h)]
    have h0 : 0 ≤ i.tmod d.toNat := by
      rw [htm]
      split
      · have : r = 0 := by by_contra hc; exact h ⟨by assumption, hc⟩
        rw [this]; simp
      · omega
    obtain ⟨e1, e2⟩ := euclid_nonneg hj h0
    refine ⟨_, _, rfl, fun _ => by rw [e1]; exact ra, ?_⟩
    rw [e2, htm]
    rw [htm] at h0
    split
    · rw [if_pos (by assumption)] at h0; omega
    · rfl

theorem mod_ui_rep {n : Mpz} {i : Int} (d : Limb) (hd : d ≠ 0) (hn : Rep n i) :
    ∃ r, mpz_mod_ui n d = .ok r ∧ (r.toNat : Int) = i % d.toNat := by
  obtain ⟨a, r, e, -, vr⟩ := div_ui_rep (q := none) d hd hn (roomO_none _)
  unfold mpz_mod_ui
  rw [e, C.ok_bind]
  exact ⟨_, rfl, vr⟩

theorem toInt_bounds (d : BitVec 64) : -2 ^ 63 ≤ d.toInt ∧ d.toInt < 2 ^ 63 := by
  have hd := d.isLt
  rw [BitVec.toInt_eq_toNat_cond]
  constructor <;> split <;> omega

theorem div_si_rep {n : Mpz} {i : Int} {q : Option Dest} (d : BitVec 64) (hd : d ≠ 0) (hn : Rep n i)
    (hq : RoomO q (n.mag.length + 1)) :
    ∃ a r, mpz_div_si q n d = .ok (a, r) ∧ (q.isSome → Rep a (i / d.toInt)) ∧ r.toInt = i % d.toInt := by
  have hj : d.toInt ≠ 0 := fun e => hd (BitVec.eq_of_toInt_eq e)
  unfold mpz_div_si
  obtain ⟨a, r, e, ra, vr⟩ := quo_si_rep (q := q) d hd hn (roomO_mono hq (by omega))
  rw [e, C.ok_bind]
  dsimp only
  have hb := toInt_bounds d
  have hlt := tmod_lt i hj
  by_cases h : r.slt 0
  · rw [if_pos h]
    have hr := (slt_iff r).1 h
    rw [vr] at hr
    obtain ⟨e1, e2⟩ := euclid_neg hj hr
    have hz : ∃ z, ifDest q a (fun q => if d.slt 0 then mpz_add_ui q a 1 else mpz_sub_ui q a 1) = .ok z ∧
        (q.isSome → Rep z (i / d.toInt)) := by
      cases q with
      | none => exact ⟨_, rfl, by simp⟩
      | some q =>
        show ∃ z, (if d.slt 0 then mpz_add_ui q a 1 else mpz_sub_ui q a 1) = .ok z ∧ _
        have ra := ra rfl
        have hl := tdiv_len hn ra
        by_cases hs : d.slt 0
        · rw [if_pos hs]
          obtain ⟨z, ez, rz⟩ := add_ui_rep (z := q) 1 ra (room_mono (hq q rfl) (by omega))
          exact ⟨z, ez, fun _ => by rw [e1, if_pos ((slt_iff d).1 hs)]; exact rz⟩
        · rw [if_neg hs]
          obtain ⟨z, ez, rz⟩ := sub_ui_rep (z := q) 1 ra (room_mono (hq q rfl) (by omega))
          exact ⟨z, ez, fun _ => by rw [e1, if_neg (mt (slt_iff d).2 hs)]; exact rz⟩
    obtain ⟨z, ez, rz⟩ := hz
    rw [ez, C.ok_bind]
    refine ⟨_, _, rfl, rz, ?_⟩
    rw [e2]
    by_cases hs : d.slt 0
    · have hs' := (slt_iff d).1 hs
      rw [if_pos hs, if_pos hs', BitVec.toInt_sub, vr]
      rw [Int.bmod_eq_of_le] <;> norm_num <;> omega
    · have hs' := mt (slt_iff d).2 hs
      rw [if_neg hs, if_neg hs', BitVec.toInt_add, vr]
      rw [Int.bmod_eq_of_le] <;> norm_num <;> omega
  · rw [if_neg h]
    have hr := mt (slt_iff r).2 h
    rw [vr] at hr
    obtain ⟨e1, e2⟩ := euclid_nonneg hj (i := i) (by omega)
    exact ⟨_, _, rfl, by rw [e1]; exact ra, by rw [e2]; exact vr⟩

theorem rem_si_rep {n : Mpz} {i : Int} (d : BitVec 64) (hd : d ≠ 0) (hn : Rep n i) :
    ∃ r, mpz_rem_si n d = .ok r ∧ r.toInt = i.tmod d.toInt := by
  obtain ⟨a, r, e, -, vr⟩ := quo_si_rep (q := none) d hd hn (roomO_none _)
  unfold mpz_rem_si
  rw [e, C.ok_bind]
  exact ⟨_, rfl, vr⟩

theorem mod_si_rep {n : Mpz} {i : Int} (d : BitVec 64) (hd : d ≠ 0) (hn : Rep n i) :
    ∃ r, mpz_mod_si n d = .ok r ∧ r.toInt = i % d.toInt := by
  obtain ⟨a, r, e, -, vr⟩ := div_si_rep (q := none) d hd hn (roomO_none _)
  unfold mpz_mod_si
  rw [e, C.ok_bind]
  exact ⟨_, rfl, vr⟩

end Torsion.Mpi
