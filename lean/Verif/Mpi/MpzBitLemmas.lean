import Verif.Mpi.MpzBit
import Verif.Mpi.BitSpec
import Verif.Mpi.MpzMore

namespace Torsion.Mpi

open Spec (val ival Canon Rep Room bit)

/-! ### Bits of integers -/

/-- The integer whose two's complement form has sign `s` and the bits of `m`, inverted if `s`. -/
def tc (s : Bool) (m : Nat) : Int := if s then -(m + 1 : Nat) else m

theorem bit_tc (s : Bool) (m n : Nat) : bit (tc s m) n = (s ^^ m.testBit n) := by
  unfold bit tc
  rw [Nat.testBit_eq_decide_div_mod_eq]
  have hp : (0 : Int) < 2 ^ n := by positivity
  cases s with
  | false =>
    rw [if_neg (by simp), Bool.false_xor, decide_eq_decide]
    have : (m : Int) / 2 ^ n % 2 = ((m / 2 ^ n % 2 : Nat) : Int) := by push_cast; rfl
    rw [this]; omega
  | true =>
    rw [if_pos rfl]
    have h1 : (-((m + 1 : Nat) : Int)) / 2 ^ n = -(((m / 2 ^ n : Nat) : Int)) - 1 := by
      have := Int.negSucc_ediv m hp
      rw [Int.negSucc_eq] at this
      have h2 : ((m : Int)).ediv (2 ^ n) = ((m / 2 ^ n : Nat) : Int) := by push_cast; rfl
      rw [h2] at this
      push_cast at this ⊢
      omega
    rw [h1, Bool.true_xor, ← decide_not, decide_eq_decide]
    omega

/-- Every integer in that form. -/
theorem tc_mask (i : Int) : i = tc (decide (i < 0)) (i.natAbs - (if i < 0 then 1 else 0)) := by
  unfold tc
  by_cases h : i < 0
  · rw [decide_eq_true h, if_pos rfl, if_pos h]; omega
  · rw [decide_eq_false h, if_neg (by simp), if_neg h]; omega

theorem bit_eq (i : Int) (n : Nat) :
    bit i n = (decide (i < 0) ^^ (i.natAbs - (if i < 0 then 1 else 0)).testBit n) := by
  conv_lhs => rw [tc_mask i]
  exact bit_tc _ _ _

theorem bit_nonneg (m n : Nat) : bit (m : Int) n = m.testBit n := by
  have := bit_tc false m n
  simpa [tc] using this

theorem tc_neg (s : Bool) (m : Nat) : decide (tc s m < 0) = s := by
  unfold tc
  cases s with
  | false => rw [if_neg (by simp)]; exact decide_eq_false (by omega)
  | true => rw [if_pos rfl]; exact decide_eq_true (by omega)

theorem bit_ext {i j : Int} (h : ∀ n, bit i n = bit j n) : i = j := by
  obtain ⟨s, m, rfl⟩ : ∃ s m, i = tc s m := ⟨_, _, tc_mask i⟩
  obtain ⟨s', m', rfl⟩ : ∃ s m, j = tc s m := ⟨_, _, tc_mask j⟩
  simp only [bit_tc] at h
  have hs : s = s' := by
    have := h (m + m')
    rwa [Nat.testBit_lt_two_pow (x := m) (lt_of_le_of_lt (by omega) Nat.lt_two_pow_self),
      Nat.testBit_lt_two_pow (x := m') (lt_of_le_of_lt (by omega) (Nat.lt_two_pow_self (n := m + m'))),
      Bool.xor_false, Bool.xor_false] at this
  subst hs
  have : m = m' := Nat.eq_of_testBit_eq fun n => by
    have := h n
    cases s <;> simpa using this
  rw [this]

/-! ### The logic loops -/

theorem bitwise_zeros (φ : Bool → Bool → Bool) : Nat.bitwise φ 0 0 = 0 := by
  unfold Nat.bitwise; simp

theorem bitwise_zero_r (φ : Bool → Bool → Bool) (hφ : ∀ p, φ p false = p) (a : Nat) : Nat.bitwise φ a 0 = a := by
  apply Nat.eq_of_testBit_eq
  intro n
  rw [Nat.testBit_bitwise (hφ false), Nat.zero_testBit, hφ]

theorem bitwise_split (φ : Bool → Bool → Bool) (hφ : φ false false = false) (a b a' b' : Nat)
    (ha : a < 2 ^ 64) (hb : b < 2 ^ 64) :
    Nat.bitwise φ (a + 2 ^ 64 * a') (b + 2 ^ 64 * b') = Nat.bitwise φ a b + 2 ^ 64 * Nat.bitwise φ a' b' := by
  apply Nat.eq_of_testBit_eq
  intro n
  rw [Nat.testBit_bitwise hφ, Nat.add_comm a, Nat.add_comm b, Nat.add_comm (Nat.bitwise φ a b),
    Nat.testBit_two_pow_mul_add _ ha, Nat.testBit_two_pow_mul_add _ hb,
    Nat.testBit_two_pow_mul_add _ (Nat.bitwise_lt_two_pow ha hb)]
  split
  · rw [Nat.testBit_bitwise hφ]
  · rw [Nat.testBit_bitwise hφ]

/-- One limb of a subtraction. -/
theorem sub_split {x c : Limb} {X V P b : Nat} (hX : X < 2 ^ 64 * P)
    (h : X + c.toNat = (x.toNat + 2 ^ 64 * V) + 2 ^ 64 * (P * b)) :
    ∃ X', X = (mp_sub x c).1.toNat + 2 ^ 64 * X' ∧ X' < P ∧ X' + (mp_sub x c).2.toNat = V + P * b := by
  obtain ⟨h1, h2⟩ := mp_sub_val x c
  have h3 := (mp_sub x c).1.isLt
  generalize (mp_sub x c).1.toNat = z at *
  generalize (mp_sub x c).2.toNat = d at *
  generalize P * b = w at *
  refine ⟨X / 2 ^ 64, ?_, ?_, ?_⟩ <;> omega

theorem bit_loop_val {f : Limb → Limb → Limb} {g : Limb → Limb} {φ : Bool → Bool → Bool}
    (hφ : φ false false = false) (hf : ∀ a b, (f a b).toNat = Nat.bitwise φ a.toNat b.toNat)
    (hg : ∀ a, (g a).toNat = Nat.bitwise φ a.toNat 0) :
    ∀ (xs ys : List Limb) (cx cy cz : Limb) (X Y bx bY : Nat), ys.length ≤ xs.length → cz.toNat ≤ 1 →
      X < 2 ^ (64 * xs.length) → X + cx.toNat = val xs + 2 ^ (64 * xs.length) * bx →
      Y < 2 ^ (64 * ys.length) → Y + cy.toNat = val ys + 2 ^ (64 * ys.length) * bY →
      val (mpz_bit_loop f g cx cy cz xs ys).1 +
        2 ^ (64 * xs.length) * (mpz_bit_loop f g cx cy cz xs ys).2.toNat = Nat.bitwise φ X Y + cz.toNat ∧
      (mpz_bit_loop f g cx cy cz xs ys).1.length = xs.length := by
  intro xs
  induction xs with
  | nil =>
    intro ys cx cy cz X Y bx bY hl hz hX eX hY eY
    have : ys = [] := List.length_eq_zero_iff.1 (by simpa using hl)
    subst this
    simp only [List.length_nil, Nat.mul_zero, pow_zero, Nat.lt_one_iff] at hX hY
    subst hX hY
    simp only [mpz_bit_loop, val_nil, List.length_nil, Nat.mul_zero, pow_zero, Nat.one_mul, bitwise_zeros]
    simp
  | cons x xs ih =>
    intro ys cx cy cz X Y bx bY hl hz hX eX hY eY
    rw [List.length_cons, pow64'] at hX
    rw [List.length_cons, val_cons, pow64', Nat.mul_assoc] at eX
    obtain ⟨X', rfl, hX', eX'⟩ := sub_split hX eX
    cases ys with
    | nil =>
      simp only [List.length_nil, Nat.mul_zero, pow_zero, Nat.lt_one_iff] at hY
      subst hY
      rw [mpz_bit_loop]
      obtain ⟨a1, a2⟩ := mp_add_val (g (mp_sub x cx).1) cz
      have := ih [] (mp_sub x cx).2 cy (mp_add (g (mp_sub x cx).1) cz).2 X' 0 bx bY (by simp) a2 hX' eX'
        (by simp) eY
      dsimp only
      rw [List.length_cons, List.length_cons, this.2, val_cons, pow64]
      refine ⟨?_, rfl⟩
      have hs := bitwise_split φ hφ (mp_sub x cx).1.toNat 0 X' 0 (mp_sub x cx).1.isLt (by norm_num)
      rw [Nat.mul_zero, Nat.add_zero] at hs
      rw [hs, ← hg]
      have := this.1
      omega
    | cons y ys =>
      rw [List.length_cons, pow64'] at hY
      rw [List.length_cons, val_cons, pow64', Nat.mul_assoc] at eY
      obtain ⟨Y', rfl, hY', eY'⟩ := sub_split hY eY
      rw [mpz_bit_loop]
      obtain ⟨a1, a2⟩ := mp_add_val (f (mp_sub x cx).1 (mp_sub y cy).1) cz
      have := ih ys (mp_sub x cx).2 (mp_sub y cy).2 (mp_add (f (mp_sub x cx).1 (mp_sub y cy).1) cz).2 X' Y' bx bY
        (by simpa using hl) a2 hX' eX' hY' eY'
      dsimp only
      rw [List.length_cons, List.length_cons, this.2, val_cons, pow64]
      refine ⟨?_, rfl⟩
      rw [bitwise_split φ hφ _ _ _ _ (mp_sub x cx).1.isLt (mp_sub y cy).1.isLt, ← hf]
      have := this.1
      omega

/-- The part of an integer below its sign. -/
def low (i : Int) : Nat := i.natAbs - (if i < 0 then 1 else 0)

theorem low_spec {x : Mpz} {i : Int} (hx : Rep x i) :
    low i < 2 ^ (64 * x.mag.length) ∧
    low i + (flag (x.neg = true)).toNat = val x.mag + 2 ^ (64 * x.mag.length) * 0 := by
  have h1 := rep_abs hx
  have h2 := val_lt x.mag
  have h3 : (flag (x.neg = true)).toNat = if i < 0 then 1 else 0 := by
    rw [flag_toNat]; simp only [rep_neg hx]
  unfold low
  rw [h3, h1] at *
  split <;> omega

theorem bit_low (i : Int) (n : Nat) : bit i n = (decide (i < 0) ^^ (low i).testBit n) := bit_eq i n

theorem toNat_testBit (x : Limb) (n : Nat) : x.toNat.testBit n = x.getLsbD n := rfl

theorem bitwise_and_mask (s t : Bool) (hst : (s && t) = false) (a b : Limb) :
    ((a ^^^ -(flag (s = true))) &&& (b ^^^ -(flag (t = true)))).toNat =
      Nat.bitwise (fun p q => (p ^^ s) && (q ^^ t)) a.toNat b.toNat := by
  apply Nat.eq_of_testBit_eq
  intro n
  rw [Nat.testBit_bitwise (by simpa using hst)]
  simp only [toNat_testBit, BitVec.getLsbD_and, BitVec.getLsbD_xor]
  have key : ∀ u : Bool, (-(flag (u = true)) : Limb).getLsbD n = (u && decide (n < 64)) := by
    intro u
    cases u with
    | false => rw [flag_neg (by simp)]; simp
    | true =>
      rw [flag_pos rfl, show (-1 : Limb) = BitVec.allOnes 64 from rfl, BitVec.getLsbD_allOnes]; simp
  rw [key, key]
  by_cases hn : n < 64
  · simp [hn]
  · rw [BitVec.getLsbD_of_ge a n (by omega), BitVec.getLsbD_of_ge b n (by omega)]
    simp [hn, hst]

theorem mask_and_right (s t : Bool) (a : Limb) :
    (a ^^^ -(flag (s = true))) &&& -(flag (t = true)) = (a ^^^ -(flag (s = true))) &&& (0 ^^^ -(flag (t = true))) := by
  rw [show (0 : Limb) ^^^ -(flag (t = true)) = -(flag (t = true)) from BitVec.zero_xor]

theorem zip_bitwise (φ : Bool → Bool → Bool) (hφ : φ false false = false) (f : Limb → Limb → Limb)
    (hf : ∀ a b, (f a b).toNat = Nat.bitwise φ a.toNat b.toNat) : ∀ (xs ys : List Limb), xs.length = ys.length →
      val (List.zipWith f xs ys) = Nat.bitwise φ (val xs) (val ys)
  | [], [], _ => by simp [val_nil, bitwise_zeros]
  | x :: xs, y :: ys, h => by
    rw [List.zipWith_cons_cons, val_cons, val_cons, val_cons, bitwise_split φ hφ _ _ _ _ x.isLt y.isLt,
      zip_bitwise φ hφ f hf xs ys (by simpa using h), hf]

theorem and_sorted_rep {x y : Mpz} {i j : Int} {z : Dest} (hx : Rep x i) (hy : Rep y j)
    (hl : y.mag.length ≤ x.mag.length) (hr : Room z (x.mag.length + 1)) :
    ∃ t k, mpz_and_sorted z x y = .ok t ∧ Rep t k ∧ ∀ n, bit k n = (bit i n && bit j n) := by
  unfold mpz_and_sorted
  rw [grow_ok hr, C.ok_bind]
  obtain ⟨lx, ex⟩ := low_spec hx
  obtain ⟨ly, ey⟩ := low_spec hy
  have nx := rep_neg' hx; have ny := rep_neg' hy
  by_cases h1 : x.neg ∧ y.neg
  · rw [if_pos h1]
    rw [flag_pos h1.1] at ex; rw [flag_pos h1.2] at ey
    obtain ⟨v, l⟩ := bit_loop_val (φ := or) (f := fun zx zy => zx ||| zy) (g := fun zx => zx) rfl
      (fun a b => BitVec.toNat_or ..) (fun a => (bitwise_zero_r _ (by simp) _).symm) x.mag y.mag 1 1 1
      (low i) (low j) 0 0 hl (by decide) lx ex ly ey
    refine ⟨_, tc true (Nat.bitwise or (low i) (low j)), rfl, make_rep' (strip_norm _) ?_, fun n => ?_⟩
    · rw [strip_val, val_append, val_singleton, l, v]; rfl
    · rw [bit_tc, Nat.testBit_bitwise rfl, bit_low i, bit_low j, ← nx, ← ny, h1.1, h1.2]
      simp
  rw [if_neg h1]
  by_cases h2 : x.neg ∨ y.neg
  · rw [if_pos h2]
    have hst : (x.neg && y.neg) = false := by
      cases hx : x.neg <;> cases hy : y.neg <;> simp_all
    obtain ⟨v, l⟩ := bit_loop_val (φ := fun p q => (p ^^ x.neg) && (q ^^ y.neg)) (by simpa using hst)
      (f := fun zx zy => (zx ^^^ -(flag (x.neg = true))) &&& (zy ^^^ -(flag (y.neg = true))))
      (g := fun zx => (zx ^^^ -(flag (x.neg = true))) &&& -(flag (y.neg = true)))
      (bitwise_and_mask _ _ hst) (fun a => by rw [mask_and_right, bitwise_and_mask _ _ hst]; rfl) x.mag y.mag
      (flag (x.neg = true)) (flag (y.neg = true)) 0
      (low i) (low j) 0 0 hl (by decide) lx ex ly ey
    have hlt := Nat.bitwise_lt_two_pow (f := fun p q => (p ^^ x.neg) && (q ^^ y.neg)) lx
      (lt_of_lt_of_le ly (Nat.pow_le_pow_right (by omega) (Nat.mul_le_mul_left 64 hl)))
    have v' := v
    rw [show (0 : Limb).toNat = 0 from rfl, Nat.add_zero] at v
    refine ⟨_, tc false (Nat.bitwise (fun p q => (p ^^ x.neg) && (q ^^ y.neg)) (low i) (low j)), rfl,
      make_rep' (strip_norm _) ?_, fun n => ?_⟩
    · rw [strip_val]
      have h0 : (mpz_bit_loop (fun zx zy => (zx ^^^ -(flag (x.neg = true))) &&& (zy ^^^ -(flag (y.neg = true))))
        (fun zx => (zx ^^^ -(flag (x.neg = true))) &&& -(flag (y.neg = true)))
        (flag (x.neg = true)) (flag (y.neg = true)) 0 x.mag y.mag).2.toNat = 0 := by
        by_contra hne
        have := Nat.le_mul_of_pos_right (2 ^ (64 * x.mag.length)) (Nat.pos_of_ne_zero hne)
        omega
      rw [h0, Nat.mul_zero, Nat.add_zero] at v
      rw [v]; rfl
    · rw [bit_tc, Nat.testBit_bitwise (by simpa using hst), bit_low i, bit_low j, ← nx, ← ny, Bool.false_xor,
        Bool.xor_comm, Bool.xor_comm y.neg]
  · rw [if_neg h2]
    have e1 : x.neg = false := by cases hx : x.neg <;> simp_all
    have e2 : y.neg = false := by cases hx : y.neg <;> simp_all
    refine ⟨_, tc false (Nat.bitwise and (low i) (low j)), rfl, make_rep' (strip_norm _) ?_, fun n => ?_⟩
    · rw [flag_neg (by simp [e1])] at ex
      rw [flag_neg (by simp [e2])] at ey
      have hz : mpn_and_n x.mag y.mag = List.zipWith (fun a b => a &&& b) (x.mag.take y.mag.length) y.mag := by
        unfold mpn_and_n
        rw [List.zipWith_eq_zipWith_take_min, Nat.min_eq_right hl, List.take_length]
      rw [strip_val, hz, zip_bitwise and rfl _ (fun a b => BitVec.toNat_and ..) _ _ (by simp [hl])]
      have hm : val (x.mag.take y.mag.length) = low i % 2 ^ (64 * y.mag.length) := by
        have h := val_take_drop y.mag.length x.mag hl
        have h' := val_lt (x.mag.take y.mag.length)
        rw [List.length_take, Nat.min_eq_left hl] at h'
        have : low i = val x.mag := by simpa using ex
        rw [this, h, Nat.add_mul_mod_self_left, Nat.mod_eq_of_lt h']
      have hy' : val y.mag = low j := by simpa using ey.symm
      rw [hm, hy']
      show ((Nat.bitwise and (low i) (low j) : Nat) : Int) = _
      rw [if_neg (by simp)]
      congr 1
      apply Nat.eq_of_testBit_eq
      intro n
      rw [Nat.testBit_bitwise rfl, Nat.testBit_bitwise rfl, Nat.testBit_mod_two_pow]
      by_cases hn : n < 64 * y.mag.length
      · simp [hn]
      · rw [Nat.testBit_lt_two_pow (x := low j) (lt_of_lt_of_le ly (Nat.pow_le_pow_right (by omega) (by omega)))]
        simp
    · rw [bit_tc, Nat.testBit_bitwise rfl, bit_low i, bit_low j, ← nx, ← ny, e1, e2]
      simp

theorem and_rep {x y : Mpz} {i j : Int} {z : Dest} (hx : Rep x i) (hy : Rep y j)
    (hr : Room z (max x.mag.length y.mag.length + 1)) :
    ∃ t k, mpz_and z x y = .ok t ∧ Rep t k ∧ ∀ n, bit k n = (bit i n && bit j n) := by
  unfold mpz_and
  by_cases h : x.mag.length < y.mag.length
  · rw [if_pos h]
    obtain ⟨t, k, e, rt, hb⟩ := and_sorted_rep hy hx h.le (room_mono hr (by omega))
    exact ⟨t, k, e, rt, fun n => by rw [hb, Bool.and_comm]⟩
  · rw [if_neg h]
    exact and_sorted_rep hx hy (by omega) (room_mono hr (by omega))

/-- `a` with the low limbs combined with `b`: the tail of the longer operand is copied. -/
theorem zip_tail (φ : Bool → Bool → Bool) (hφ : ∀ p, φ p false = p) (f : Limb → Limb → Limb)
    (hf : ∀ a b, (f a b).toNat = Nat.bitwise φ a.toNat b.toNat) : ∀ (xs ys : List Limb), ys.length ≤ xs.length →
      val (List.zipWith f xs ys ++ xs.drop ys.length) = Nat.bitwise φ (val xs) (val ys)
  | xs, [], _ => by
    rw [List.zipWith_nil_right, List.nil_append, List.length_nil, List.drop_zero, val_nil, bitwise_zero_r φ hφ]
  | x :: xs, y :: ys, h => by
    rw [List.zipWith_cons_cons, List.cons_append, val_cons, val_cons, val_cons, List.length_cons, List.drop_succ_cons,
      bitwise_split φ (hφ false) _ _ _ _ x.isLt y.isLt, zip_tail φ hφ f hf xs ys (by simpa using h), hf]

theorem ior_masks (s t : Bool) (h : (s || t) = true) :
    -(flag (s = true) ^^^ 1) &&& -(flag (s = true) ^^^ flag (t = true)) = -(flag ((!s) = true)) ∧
    -(flag (t = true) ^^^ 1) &&& -(flag (s = true) ^^^ flag (t = true)) = -(flag ((!t) = true)) ∧
    ((!s) && (!t)) = false := by
  cases s <;> cases t <;> simp at h <;> decide

theorem ior_sorted_rep {x y : Mpz} {i j : Int} {z : Dest} (hx : Rep x i) (hy : Rep y j)
    (hl : y.mag.length ≤ x.mag.length) (hr : Room z (x.mag.length + 1)) :
    ∃ t k, mpz_ior_sorted z x y = .ok t ∧ Rep t k ∧ ∀ n, bit k n = (bit i n || bit j n) := by
  unfold mpz_ior_sorted
  rw [grow_ok hr, C.ok_bind]
  obtain ⟨lx, ex⟩ := low_spec hx
  obtain ⟨ly, ey⟩ := low_spec hy
  have nx := rep_neg' hx; have ny := rep_neg' hy
  by_cases h2 : x.neg ∨ y.neg
  · rw [if_pos h2]
    have hst : (x.neg || y.neg) = true := by simpa using h2
    obtain ⟨m1, m2, m3⟩ := ior_masks _ _ hst
    dsimp only
    rw [m1, m2]
    obtain ⟨v, l⟩ := bit_loop_val (φ := fun p q => (p ^^ !x.neg) && (q ^^ !y.neg)) (by simpa using m3)
      (f := fun zx zy => (zx ^^^ -(flag ((!x.neg) = true))) &&& (zy ^^^ -(flag ((!y.neg) = true))))
      (g := fun zx => (zx ^^^ -(flag ((!x.neg) = true))) &&& -(flag ((!y.neg) = true)))
      (bitwise_and_mask _ _ m3) (fun a => by rw [mask_and_right, bitwise_and_mask _ _ m3]; rfl) x.mag y.mag
      (flag (x.neg = true)) (flag (y.neg = true)) 1
      (low i) (low j) 0 0 hl (by decide) lx ex ly ey
    refine ⟨_, tc true (Nat.bitwise (fun p q => (p ^^ !x.neg) && (q ^^ !y.neg)) (low i) (low j)), rfl,
      make_rep' (strip_norm _) ?_, fun n => ?_⟩
    · rw [strip_val, val_append, val_singleton, l, v]; rfl
    · rw [bit_tc, Nat.testBit_bitwise (by simpa using m3), bit_low i, bit_low j, ← nx, ← ny]
      cases x.neg <;> cases y.neg <;> simp
  · rw [if_neg h2]
    have e1 : x.neg = false := by cases hx : x.neg <;> simp_all
    have e2 : y.neg = false := by cases hx : y.neg <;> simp_all
    refine ⟨_, tc false (Nat.bitwise or (low i) (low j)), rfl, make_rep' (strip_norm _) ?_, fun n => ?_⟩
    · rw [flag_neg (by simp [e1])] at ex
      rw [flag_neg (by simp [e2])] at ey
      rw [strip_val, mpn_ior_n, zip_tail or (by simp) _ (fun a b => BitVec.toNat_or ..) _ _ hl]
      rw [show val x.mag = low i by simpa using ex.symm, show val y.mag = low j by simpa using ey.symm]
      rfl
    · rw [bit_tc, Nat.testBit_bitwise rfl, bit_low i, bit_low j, ← nx, ← ny, e1, e2]
      simp

theorem ior_rep {x y : Mpz} {i j : Int} {z : Dest} (hx : Rep x i) (hy : Rep y j)
    (hr : Room z (max x.mag.length y.mag.length + 1)) :
    ∃ t k, mpz_ior z x y = .ok t ∧ Rep t k ∧ ∀ n, bit k n = (bit i n || bit j n) := by
  unfold mpz_ior
  by_cases h : x.mag.length < y.mag.length
  · rw [if_pos h]
    obtain ⟨t, k, e, rt, hb⟩ := ior_sorted_rep hy hx h.le (room_mono hr (by omega))
    exact ⟨t, k, e, rt, fun n => by rw [hb, Bool.or_comm]⟩
  · rw [if_neg h]
    exact ior_sorted_rep hx hy (by omega) (room_mono hr (by omega))

theorem xor_sorted_rep {x y : Mpz} {i j : Int} {z : Dest} (hx : Rep x i) (hy : Rep y j)
    (hl : y.mag.length ≤ x.mag.length) (hr : Room z (x.mag.length + 1)) :
    ∃ t k, mpz_xor_sorted z x y = .ok t ∧ Rep t k ∧ ∀ n, bit k n = (bit i n ^^ bit j n) := by
  unfold mpz_xor_sorted
  rw [grow_ok hr, C.ok_bind]
  obtain ⟨lx, ex⟩ := low_spec hx
  obtain ⟨ly, ey⟩ := low_spec hy
  have nx := rep_neg' hx; have ny := rep_neg' hy
  by_cases h2 : x.neg ∨ y.neg
  · rw [if_pos h2]
    have hc : (flag (x.neg = true) ^^^ flag (y.neg = true)) = flag ((x.neg != y.neg) = true) := by
      cases x.neg <;> cases y.neg <;> decide
    dsimp only
    rw [hc]
    obtain ⟨v, l⟩ := bit_loop_val (φ := bne) (f := fun zx zy => zx ^^^ zy) (g := fun zx => zx) rfl
      (fun a b => BitVec.toNat_xor ..) (fun a => (bitwise_zero_r _ (by simp) _).symm) x.mag y.mag
      (flag (x.neg = true)) (flag (y.neg = true)) (flag ((x.neg != y.neg) = true))
      (low i) (low j) 0 0 hl (flag_le _) lx ex ly ey
    refine ⟨_, tc (x.neg != y.neg) (Nat.bitwise bne (low i) (low j)), rfl, make_rep' (strip_norm _) ?_, fun n => ?_⟩
    · rw [strip_val, val_append, val_singleton, l, v, flag_toNat]
      unfold tc
      cases (x.neg != y.neg) <;> simp
    · rw [bit_tc, Nat.testBit_bitwise rfl, bit_low i, bit_low j, ← nx, ← ny]
      cases x.neg <;> cases y.neg <;> simp
  · rw [if_neg h2]
    have e1 : x.neg = false := by cases hx : x.neg <;> simp_all
    have e2 : y.neg = false := by cases hx : y.neg <;> simp_all
    refine ⟨_, tc false (Nat.bitwise bne (low i) (low j)), rfl, make_rep' (strip_norm _) ?_, fun n => ?_⟩
    · rw [flag_neg (by simp [e1])] at ex
      rw [flag_neg (by simp [e2])] at ey
      rw [strip_val, mpn_xor_n, zip_tail bne (by simp) _ (fun a b => BitVec.toNat_xor ..) _ _ hl]
      rw [show val x.mag = low i by simpa using ex.symm, show val y.mag = low j by simpa using ey.symm]
      rfl
    · rw [bit_tc, Nat.testBit_bitwise rfl, bit_low i, bit_low j, ← nx, ← ny, e1, e2]
      simp

theorem xor_rep {x y : Mpz} {i j : Int} {z : Dest} (hx : Rep x i) (hy : Rep y j)
    (hr : Room z (max x.mag.length y.mag.length + 1)) :
    ∃ t k, mpz_xor z x y = .ok t ∧ Rep t k ∧ ∀ n, bit k n = (bit i n ^^ bit j n) := by
  unfold mpz_xor
  by_cases h : x.mag.length < y.mag.length
  · rw [if_pos h]
    obtain ⟨t, k, e, rt, hb⟩ := xor_sorted_rep hy hx h.le (room_mono hr (by omega))
    exact ⟨t, k, e, rt, fun n => by rw [hb, Bool.xor_comm]⟩
  · rw [if_neg h]
    exact xor_sorted_rep hx hy (by omega) (room_mono hr (by omega))

theorem com_rep {x : Mpz} {i : Int} {z : Dest} (hx : Rep x i) (hr : Room z (x.mag.length + 1)) :
    ∃ t, mpz_com z x = .ok t ∧ Rep t (-i - 1) := by
  unfold mpz_com
  by_cases h : i < 0
  · rw [if_pos ((rep_sizen hx).2 h)]
    obtain ⟨t, e, rt⟩ := neg_rep (z := z) hx (room_mono hr (by omega))
    rw [e, C.ok_bind]
    have := neg_len e
    exact sub_ui_rep 1 rt (by rw [this]; exact hr)
  · rw [if_neg (mt (rep_sizen hx).1 h)]
    obtain ⟨t, e, rt⟩ := add_ui_rep (z := z) 1 hx hr
    rw [e, C.ok_bind]
    rw [show ((1 : Limb).toNat : Int) = 1 from rfl] at rt
    have hl := sum_len hx rt (by omega)
    obtain ⟨u, eu, ru⟩ := neg_rep (z := z) rt (room_mono hr hl)
    exact ⟨u, eu, by rw [show -i - 1 = -(i + 1) by omega]; exact ru⟩

theorem bit_com (i : Int) (n : Nat) : bit (-i - 1) n = !bit i n := by
  obtain ⟨s, m, rfl⟩ : ∃ s m, i = tc s m := ⟨_, _, tc_mask i⟩
  have : -tc s m - 1 = tc (!s) m := by unfold tc; cases s <;> simp; omega
  rw [this, bit_tc, bit_tc]
  cases s <;> simp

end Torsion.Mpi
