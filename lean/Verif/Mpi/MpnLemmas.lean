import Verif.Mpi.Mpn
import Verif.Mpi.Spec
import Verif.Mpi.BitLemmas
import Mathlib.Tactic.LinearCombination

/-! Lemmas about vectors of limbs. -/
namespace Torsion.Mpi
open Spec (val)

theorem val_nil : val [] = 0 := rfl
theorem val_cons (x : Limb) (xs : List Limb) : val (x :: xs) = x.toNat + 2 ^ 64 * val xs := rfl

theorem pow64 (n k : Nat) : 2 ^ (64 * (n + 1)) * k = 2 ^ 64 * (2 ^ (64 * n) * k) := by
  rw [Nat.mul_succ, Nat.pow_add]; ring

theorem pow64' (n : Nat) : 2 ^ (64 * (n + 1)) = 2 ^ 64 * 2 ^ (64 * n) := by
  rw [Nat.mul_succ, Nat.pow_add]; ring

theorem val_append (a b : List Limb) : val (a ++ b) = val a + 2 ^ (64 * a.length) * val b := by
  induction a with
  | nil => simp [val_nil]
  | cons x a ih =>
    rw [List.cons_append, val_cons, val_cons, ih, List.length_cons, pow64]; ring

theorem val_lt (a : List Limb) : val a < 2 ^ (64 * a.length) := by
  induction a with
  | nil => simp [val_nil]
  | cons x a ih =>
    rw [val_cons, List.length_cons, pow64']
    have := x.isLt
    omega

theorem val_zeros (n : Nat) : val (mpn_zero n) = 0 := by
  unfold mpn_zero
  induction n with
  | zero => rfl
  | succ n ih => rw [List.replicate_succ, val_cons, ih]; rfl

theorem len_zeros (n : Nat) : (mpn_zero n).length = n := List.length_replicate ..

theorem val_singleton (x : Limb) : val [x] = x.toNat := by rw [val_cons, val_nil]; omega

theorem val_inj : ∀ {a b : List Limb}, a.length = b.length → val a = val b → a = b
  | [], [], _, _ => rfl
  | [], _ :: _, h, _ => by simp at h
  | _ :: _, [], h, _ => by simp at h
  | x :: a, y :: b, h, e => by
    rw [val_cons, val_cons] at e
    have hx := x.isLt; have hy := y.isLt
    have e1 : x.toNat = y.toNat := by omega
    have e2 : val a = val b := by omega
    rw [BitVec.eq_of_toNat_eq e1, val_inj (by simpa using h) e2]

theorem val_set_1 (n : Nat) (x : Limb) : val (mpn_set_1 n x) = x.toNat := by
  unfold mpn_set_1; rw [val_cons, val_zeros]; omega

theorem val_take_drop (n : Nat) (a : List Limb) (h : n ≤ a.length) :
    val a = val (a.take n) + 2 ^ (64 * n) * val (a.drop n) := by
  conv_lhs => rw [← List.take_append_drop n a, val_append, List.length_take, Nat.min_eq_left h]

theorem toNat_eq_zero {x : Limb} : x.toNat = 0 ↔ x = 0 := by
  constructor
  · intro h; exact BitVec.eq_of_toNat_eq (by rw [h]; rfl)
  · rintro rfl; rfl

/-! ### Strip, comparison -/

theorem strip_val (a : List Limb) : val (mpn_strip a) = val a := by
  induction a with
  | nil => rfl
  | cons x a ih =>
    unfold mpn_strip
    cases h : mpn_strip a with
    | nil =>
      rw [h, val_nil] at ih
      simp only [val_cons, ← ih]
      by_cases hx : x = 0
      · rw [if_pos hx, hx]; rfl
      · rw [if_neg hx, val_singleton]; omega
    | cons y ys => rw [h] at ih; simp only [val_cons] at ih ⊢; omega

/-- No leading zero limb. -/
def Norm (a : List Limb) : Prop := a.getLast? ≠ some 0

theorem norm_nil : Norm [] := by simp [Norm]

theorem norm_cons {x y : Limb} {ys : List Limb} : Norm (x :: y :: ys) ↔ Norm (y :: ys) := by
  simp [Norm, List.getLast?_cons_cons]

theorem norm_single {x : Limb} : Norm [x] ↔ x ≠ 0 := by simp [Norm]

theorem strip_norm (a : List Limb) : Norm (mpn_strip a) := by
  induction a with
  | nil => exact norm_nil
  | cons x a ih =>
    unfold mpn_strip
    cases h : mpn_strip a with
    | nil =>
      dsimp only
      by_cases hx : x = 0
      · rw [if_pos hx]; exact norm_nil
      · rw [if_neg hx]; exact norm_single.2 hx
    | cons y ys => rw [h] at ih; exact norm_cons.2 ih

theorem strip_prefix (a : List Limb) : ∃ k, a = mpn_strip a ++ List.replicate k 0 := by
  induction a with
  | nil => exact ⟨0, rfl⟩
  | cons x a ih =>
    obtain ⟨k, hk⟩ := ih
    unfold mpn_strip
    cases h : mpn_strip a with
    | nil =>
      rw [h] at hk
      dsimp only
      by_cases hx : x = 0
      · rw [if_pos hx]
        refine ⟨k + 1, ?_⟩
        rw [hx]
        conv_lhs => rw [hk]
        simp [List.replicate_succ]
      · rw [if_neg hx]
        refine ⟨k, ?_⟩
        conv_lhs => rw [hk]
        simp
    | cons y ys =>
      rw [h] at hk
      refine ⟨k, ?_⟩
      conv_lhs => rw [hk]
      simp

theorem norm_val_pos : ∀ {a : List Limb}, Norm a → a ≠ [] → 2 ^ (64 * (a.length - 1)) ≤ val a
  | [], _, h => absurd rfl h
  | [x], hn, _ => by
    have hx := norm_single.1 hn
    rw [val_singleton]
    have : x.toNat ≠ 0 := fun h => hx (toNat_eq_zero.1 h)
    simp; omega
  | x :: y :: ys, hn, _ => by
    have ih := norm_val_pos (norm_cons.1 hn) (by simp)
    rw [val_cons]
    simp only [List.length_cons, Nat.add_sub_cancel] at ih ⊢
    rw [pow64']
    omega

theorem norm_length_le {a b : List Limb} (hb : Norm b) (h : val b ≤ val a) : b.length ≤ a.length := by
  by_cases hn : b = []
  · simp [hn]
  · have h1 := norm_val_pos hb hn
    have h2 := val_lt a
    by_contra hc
    have : 2 ^ (64 * a.length) ≤ 2 ^ (64 * (b.length - 1)) :=
      Nat.pow_le_pow_right (by omega) (by omega)
    omega

theorem norm_inj {a b : List Limb} (ha : Norm a) (hb : Norm b) (h : val a = val b) : a = b :=
  val_inj (Nat.le_antisymm (norm_length_le ha h.le) (norm_length_le hb h.ge)) h

theorem norm_zero {a : List Limb} (ha : Norm a) : val a = 0 ↔ a = [] := by
  constructor
  · intro h; exact norm_inj ha norm_nil h
  · rintro rfl; rfl

theorem strip_len (a : List Limb) : (mpn_strip a).length ≤ a.length :=
  norm_length_le (strip_norm a) (strip_val a).le

theorem zero_p_iff (a : List Limb) : mpn_zero_p a = true ↔ val a = 0 := by
  induction a with
  | nil => simp [mpn_zero_p, val_nil]
  | cons x a ih =>
    unfold mpn_zero_p
    rw [val_cons]
    by_cases hx : x = 0
    · rw [if_neg (by simpa using hx), ih, hx]
      simp
    · rw [if_pos hx]
      have : x.toNat ≠ 0 := fun h => hx (toNat_eq_zero.1 h)
      constructor
      · intro h; exact absurd h (by decide)
      · intro h; omega

/-- The result of a C comparison. -/
theorem cmp_val : ∀ (a b : List Limb), a.length = b.length →
    mpn_cmp a b = if val a < val b then -1 else if val a = val b then 0 else 1
  | [], [], _ => by simp [mpn_cmp]
  | [], _ :: _, h => by simp at h
  | _ :: _, [], h => by simp at h
  | x :: a, y :: b, h => by
    have ih := cmp_val a b (by simpa using h)
    unfold mpn_cmp
    rw [val_cons, val_cons]
    have hx := x.isLt; have hy := y.isLt
    dsimp only
    rcases Nat.lt_trichotomy (val a) (val b) with h1 | h1 | h1
    · rw [if_pos h1] at ih
      rw [ih, if_pos (by decide), if_pos (by omega)]
    · rw [if_neg (by omega), if_pos h1] at ih
      rw [ih, if_neg (by decide)]
      by_cases hxy : x = y
      · rw [if_neg (by simpa using hxy), if_neg (by rw [hxy]; omega), if_pos (by rw [hxy]; omega)]
      · have hne : x.toNat ≠ y.toNat := fun h => hxy (BitVec.eq_of_toNat_eq h)
        rw [if_pos hxy]
        by_cases hlt : x < y
        · rw [if_pos hlt, if_pos (by rw [BitVec.lt_def] at hlt; omega)]
        · rw [if_neg hlt]
          rw [BitVec.lt_def] at hlt
          rw [if_neg (by omega), if_neg (by omega)]
    · rw [if_neg (by omega), if_neg (by omega)] at ih
      rw [ih, if_pos (by decide), if_neg (by omega), if_neg (by omega)]

theorem cmp2_val (a b : List Limb) (ha : Norm a) (hb : Norm b) :
    mpn_cmp2 a b = if val a < val b then -1 else if val a = val b then 0 else 1 := by
  unfold mpn_cmp2
  by_cases h : a.length = b.length
  · rw [if_neg (by simpa using h), cmp_val a b h]
  · rw [if_pos h]
    by_cases hl : a.length < b.length
    · have : val a < val b := by
        by_contra hc
        have := norm_length_le hb (Nat.le_of_not_lt hc)
        omega
      rw [if_pos hl, if_pos this]
    · have : val b < val a := by
        by_contra hc
        have := norm_length_le ha (Nat.le_of_not_lt hc)
        omega
      rw [if_neg hl, if_neg (by omega), if_neg (by omega)]

theorem cmp_1_val (a : List Limb) (y : Limb) (ha : Norm a) :
    mpn_cmp_1 a y = if val a < y.toNat then -1 else if val a = y.toNat then 0 else 1 := by
  match a, ha with
  | [], _ =>
    unfold mpn_cmp_1
    rw [val_nil]
    by_cases h : y = 0
    · subst h; simp
    · have : y.toNat ≠ 0 := fun h' => h (toNat_eq_zero.1 h')
      dsimp only
      rw [if_pos (Ne.symm h), if_pos (show (0 : Limb) < y by rw [BitVec.lt_def]; exact Nat.pos_of_ne_zero this),
        if_pos (by omega)]
  | [x], _ =>
    unfold mpn_cmp_1
    rw [val_singleton]
    dsimp only
    by_cases h : x = y
    · subst h; simp
    · have : x.toNat ≠ y.toNat := fun h' => h (BitVec.eq_of_toNat_eq h')
      rw [if_pos h]
      by_cases hlt : x < y
      · rw [if_pos hlt, if_pos (by rw [BitVec.lt_def] at hlt; exact hlt)]
      · rw [if_neg hlt]
        rw [BitVec.lt_def] at hlt
        rw [if_neg (by omega), if_neg (by omega)]
  | x :: z :: zs, ha =>
    have := norm_val_pos ha (by simp)
    simp only [List.length_cons, Nat.add_sub_cancel] at this
    have h2 : 2 ^ 64 ≤ 2 ^ (64 * (zs.length + 1)) := Nat.pow_le_pow_right (by omega) (by omega)
    have := y.isLt
    unfold mpn_cmp_1
    dsimp only
    rw [if_neg (by omega), if_neg (by omega)]

/-! ### Addition and subtraction -/

theorem add_1_val : ∀ (a : List Limb) (y : Limb),
    val (mpn_add_1 a y).1 + 2 ^ (64 * a.length) * (mpn_add_1 a y).2.toNat = val a + y.toNat ∧
    (mpn_add_1 a y).1.length = a.length
  | [], y => by simp [mpn_add_1, val_nil]
  | x :: a, y => by
    unfold mpn_add_1
    by_cases h : y = 0
    · rw [if_pos h, h]; exact ⟨by simp, rfl⟩
    · rw [if_neg h]
      dsimp only
      obtain ⟨ih, il⟩ := add_1_val a (flag (x + y < y))
      refine ⟨?_, by simp [il]⟩
      rw [val_cons, val_cons, List.length_cons, pow64]
      have e : (x + y).toNat + 2 ^ 64 * (flag (x + y < y)).toNat = x.toNat + y.toNat :=
        (mp_add_val x y).1
      omega

theorem add_nc_val : ∀ (c : Limb) (a b : List Limb), a.length = b.length → c.toNat ≤ 1 →
    val (mpn_add_nc c a b).1 + 2 ^ (64 * a.length) * (mpn_add_nc c a b).2.toNat
      = val a + val b + c.toNat ∧
    (mpn_add_nc c a b).1.length = a.length ∧ (mpn_add_nc c a b).2.toNat ≤ 1
  | c, [], [], _, h => by simp [mpn_add_nc, val_nil, h]
  | _, [], _ :: _, h, _ => by simp at h
  | _, _ :: _, [], h, _ => by simp at h
  | c, x :: a, y :: b, h, hc => by
    unfold mpn_add_nc
    dsimp only
    have e := mp_add_1_val x y c
    have hc' := mp_add_1_carry x y c hc
    obtain ⟨ih, il, ic⟩ := add_nc_val (mp_add_1 x y c).2 a b (by simpa using h) hc'
    refine ⟨?_, by simp [il], ic⟩
    rw [val_cons, val_cons, val_cons, List.length_cons, pow64]
    omega

theorem add_n_val (a b : List Limb) (h : a.length = b.length) :
    val (mpn_add_n a b).1 + 2 ^ (64 * a.length) * (mpn_add_n a b).2.toNat = val a + val b ∧
    (mpn_add_n a b).1.length = a.length ∧ (mpn_add_n a b).2.toNat ≤ 1 :=
  add_nc_val 0 a b h (by decide)

theorem add_val (a b : List Limb) (h : b.length ≤ a.length) :
    ∃ z c, mpn_add a b = .ok (z, c) ∧ z.length = a.length ∧ c.toNat ≤ 1 ∧
      val z + 2 ^ (64 * a.length) * c.toNat = val a + val b := by
  unfold mpn_add
  simp only [C.check, decide_eq_true_eq, if_pos h, C.ok_bind]
  have ht : (a.take b.length).length = b.length := by simp [h]
  obtain ⟨e, l, c1⟩ := add_n_val (a.take b.length) b ht
  rw [ht] at e l
  have hs := val_take_drop b.length a h
  by_cases hlt : b.length < a.length
  · rw [if_pos hlt]
    obtain ⟨e2, l2⟩ := add_1_val (a.drop b.length) (mpn_add_n (a.take b.length) b).2
    refine ⟨_, _, rfl, ?_, ?_, ?_⟩
    · simp only [List.length_append, l, l2, List.length_drop]; omega
    · have h1 := val_lt (a.drop b.length)
      generalize (mpn_add_1 (a.drop b.length) (mpn_add_n (a.take b.length) b).2).2.toNat = k at *
      by_contra hk
      have : 2 ^ (64 * (a.drop b.length).length) * 2 ≤ 2 ^ (64 * (a.drop b.length).length) * k :=
        Nat.mul_le_mul_left _ (by omega)
      omega
    · rw [val_append, l]
      have hp : 2 ^ (64 * a.length) = 2 ^ (64 * b.length) * 2 ^ (64 * (a.drop b.length).length) := by
        rw [← Nat.pow_add, List.length_drop]; congr 1; omega
      rw [hp, hs]
      linear_combination e + 2 ^ (64 * b.length) * e2
  · have hl : a.length = b.length := by omega
    rw [if_neg hlt]
    refine ⟨(mpn_add_n (a.take b.length) b).1, (mpn_add_n (a.take b.length) b).2, rfl, by omega, c1, ?_⟩
    rw [hl]
    rw [List.drop_of_length_le (by omega), val_nil] at hs
    omega

theorem sec_add_1_val : ∀ (a : List Limb) (y : Limb),
    val (mpn_sec_add_1 a y).1 + 2 ^ (64 * a.length) * (mpn_sec_add_1 a y).2.toNat = val a + y.toNat ∧
    (mpn_sec_add_1 a y).1.length = a.length
  | [], y => by simp [mpn_sec_add_1, val_nil]
  | x :: a, y => by
    unfold mpn_sec_add_1
    dsimp only
    obtain ⟨ih, il⟩ := sec_add_1_val a (mp_add x y).2
    refine ⟨?_, by simp [il]⟩
    rw [val_cons, val_cons, List.length_cons, pow64]
    have e := (mp_add_val x y).1
    omega

/-- A vector and a carry are determined by their combined value. -/
theorem carry_inj {a b : List Limb} {c d : Limb} {n : Nat} (ha : a.length = n) (hb : b.length = n)
    (h : val a + 2 ^ (64 * n) * c.toNat = val b + 2 ^ (64 * n) * d.toNat) : a = b ∧ c = d := by
  have h1 := val_lt a; have h2 := val_lt b
  rw [ha] at h1; rw [hb] at h2
  have hp : 0 < 2 ^ (64 * n) := Nat.pos_of_ne_zero (by positivity)
  have hv : val a = val b := by
    have := congrArg (· % 2 ^ (64 * n)) h
    simpa [Nat.add_mul_mod_self_left, Nat.mod_eq_of_lt h1, Nat.mod_eq_of_lt h2] using this
  have hc : c.toNat = d.toNat := by
    rw [hv] at h
    exact Nat.eq_of_mul_eq_mul_left hp (by omega)
  exact ⟨val_inj (by omega) hv, BitVec.eq_of_toNat_eq hc⟩

theorem sec_add_1_eq (a : List Limb) (y : Limb) : mpn_sec_add_1 a y = mpn_add_1 a y := by
  obtain ⟨e1, l1⟩ := sec_add_1_val a y
  obtain ⟨e2, l2⟩ := add_1_val a y
  obtain ⟨h1, h2⟩ := carry_inj l1 l2 (e1.trans e2.symm)
  exact Prod.ext h1 h2

theorem sec_add_eq (a b : List Limb) : mpn_sec_add a b = mpn_add a b := by
  unfold mpn_sec_add mpn_add
  simp only [sec_add_1_eq]

theorem sub_1_val : ∀ (a : List Limb) (y : Limb),
    val (mpn_sub_1 a y).1 + y.toNat = val a + 2 ^ (64 * a.length) * (mpn_sub_1 a y).2.toNat ∧
    (mpn_sub_1 a y).1.length = a.length
  | [], y => by simp [mpn_sub_1, val_nil]
  | x :: a, y => by
    unfold mpn_sub_1
    by_cases h : y = 0
    · rw [if_pos h, h]; exact ⟨by simp, rfl⟩
    · rw [if_neg h]
      dsimp only
      obtain ⟨ih, il⟩ := sub_1_val a (flag (x - y > x))
      refine ⟨?_, by simp [il]⟩
      rw [val_cons, val_cons, List.length_cons, pow64]
      have e : (x - y).toNat + y.toNat = x.toNat + 2 ^ 64 * (flag (x - y > x)).toNat :=
        (mp_sub_val x y).1
      omega

theorem sub_nc_val : ∀ (c : Limb) (a b : List Limb), a.length = b.length → c.toNat ≤ 1 →
    val (mpn_sub_nc c a b).1 + val b + c.toNat
      = val a + 2 ^ (64 * a.length) * (mpn_sub_nc c a b).2.toNat ∧
    (mpn_sub_nc c a b).1.length = a.length ∧ (mpn_sub_nc c a b).2.toNat ≤ 1
  | c, [], [], _, h => by simp [mpn_sub_nc, val_nil, h]
  | _, [], _ :: _, h, _ => by simp at h
  | _, _ :: _, [], h, _ => by simp at h
  | c, x :: a, y :: b, h, hc => by
    unfold mpn_sub_nc
    dsimp only
    have e := mp_sub_1_val x y c
    have hc' := mp_sub_1_borrow x y c hc
    obtain ⟨ih, il, ic⟩ := sub_nc_val (mp_sub_1 x y c).2 a b (by simpa using h) hc'
    refine ⟨?_, by simp [il], ic⟩
    rw [val_cons, val_cons, val_cons, List.length_cons, pow64]
    omega

theorem sub_n_val (a b : List Limb) (h : a.length = b.length) :
    val (mpn_sub_n a b).1 + val b = val a + 2 ^ (64 * a.length) * (mpn_sub_n a b).2.toNat ∧
    (mpn_sub_n a b).1.length = a.length ∧ (mpn_sub_n a b).2.toNat ≤ 1 :=
  sub_nc_val 0 a b h (by decide)

/-- The borrow of a subtraction. -/
theorem sub_n_borrow (a b : List Limb) (h : a.length = b.length) :
    (mpn_sub_n a b).2.toNat = if val a < val b then 1 else 0 := by
  obtain ⟨e, l, c⟩ := sub_n_val a b h
  have h1 := val_lt (mpn_sub_n a b).1
  have h2 := val_lt a
  rw [l] at h1
  rcases Nat.le_one_iff_eq_zero_or_eq_one.1 c with h0 | h0 <;> rw [h0] at e ⊢ <;> split <;> omega

theorem sub_n_exact (a b : List Limb) (h : a.length = b.length) (hle : val b ≤ val a) :
    val (mpn_sub_n a b).1 = val a - val b := by
  obtain ⟨e, _, _⟩ := sub_n_val a b h
  rw [sub_n_borrow a b h, if_neg (by omega)] at e
  omega

theorem sub_val (a b : List Limb) (h : b.length ≤ a.length) :
    ∃ z c, mpn_sub a b = .ok (z, c) ∧ z.length = a.length ∧ c.toNat ≤ 1 ∧
      val z + val b = val a + 2 ^ (64 * a.length) * c.toNat := by
  unfold mpn_sub
  simp only [C.check, decide_eq_true_eq, if_pos h, C.ok_bind]
  have ht : (a.take b.length).length = b.length := by simp [h]
  obtain ⟨e, l, c1⟩ := sub_n_val (a.take b.length) b ht
  rw [ht] at e l
  have hs := val_take_drop b.length a h
  by_cases hlt : b.length < a.length
  · rw [if_pos hlt]
    obtain ⟨e2, l2⟩ := sub_1_val (a.drop b.length) (mpn_sub_n (a.take b.length) b).2
    refine ⟨_, _, rfl, ?_, ?_, ?_⟩
    · simp only [List.length_append, l, l2, List.length_drop]; omega
    · have h1 := val_lt (mpn_sub_1 (a.drop b.length) (mpn_sub_n (a.take b.length) b).2).1
      rw [l2] at h1
      generalize (mpn_sub_1 (a.drop b.length) (mpn_sub_n (a.take b.length) b).2).2.toNat = k at *
      have hpos : 1 ≤ 2 ^ (64 * (a.drop b.length).length) := Nat.one_le_two_pow
      by_contra hk
      have : 2 ^ (64 * (a.drop b.length).length) * 2 ≤ 2 ^ (64 * (a.drop b.length).length) * k :=
        Nat.mul_le_mul_left _ (by omega)
      omega
    · rw [val_append, l]
      have hp : 2 ^ (64 * a.length) = 2 ^ (64 * b.length) * 2 ^ (64 * (a.drop b.length).length) := by
        rw [← Nat.pow_add, List.length_drop]; congr 1; omega
      rw [hp, hs]
      linear_combination e + 2 ^ (64 * b.length) * e2
  · have hl : a.length = b.length := by omega
    rw [if_neg hlt]
    refine ⟨(mpn_sub_n (a.take b.length) b).1, (mpn_sub_n (a.take b.length) b).2, rfl, by omega, c1, ?_⟩
    rw [hl]
    rw [List.drop_of_length_le (by omega), val_nil] at hs
    omega

theorem sec_sub_1_val : ∀ (a : List Limb) (y : Limb),
    val (mpn_sec_sub_1 a y).1 + y.toNat = val a + 2 ^ (64 * a.length) * (mpn_sec_sub_1 a y).2.toNat ∧
    (mpn_sec_sub_1 a y).1.length = a.length
  | [], y => by simp [mpn_sec_sub_1, val_nil]
  | x :: a, y => by
    unfold mpn_sec_sub_1
    dsimp only
    obtain ⟨ih, il⟩ := sec_sub_1_val a (mp_sub x y).2
    refine ⟨?_, by simp [il]⟩
    rw [val_cons, val_cons, List.length_cons, pow64]
    have e := (mp_sub_val x y).1
    omega

/-- A difference and a borrow are determined. -/
theorem borrow_inj {a b : List Limb} {c d : Limb} {n s t : Nat} (ha : a.length = n) (hb : b.length = n)
    (h1 : val a + s = t + 2 ^ (64 * n) * c.toNat) (h2 : val b + s = t + 2 ^ (64 * n) * d.toNat) :
    a = b ∧ c = d := by
  have l1 := val_lt a; have l2 := val_lt b
  rw [ha] at l1; rw [hb] at l2
  have hp : 0 < 2 ^ (64 * n) := Nat.pos_of_ne_zero (by positivity)
  have hh : val a + 2 ^ (64 * n) * d.toNat = val b + 2 ^ (64 * n) * c.toNat := by omega
  have hv : val a = val b := by
    have := congrArg (· % 2 ^ (64 * n)) hh
    simpa [Nat.add_mul_mod_self_left, Nat.mod_eq_of_lt l1, Nat.mod_eq_of_lt l2] using this
  refine ⟨val_inj (by omega) hv, BitVec.eq_of_toNat_eq ?_⟩
  exact Nat.eq_of_mul_eq_mul_left hp (by omega)

theorem sec_sub_1_eq (a : List Limb) (y : Limb) : mpn_sec_sub_1 a y = mpn_sub_1 a y := by
  obtain ⟨e1, l1⟩ := sec_sub_1_val a y
  obtain ⟨e2, l2⟩ := sub_1_val a y
  obtain ⟨h1, h2⟩ := borrow_inj l1 l2 e1 e2
  exact Prod.ext h1 h2

theorem sec_sub_eq (a b : List Limb) : mpn_sec_sub a b = mpn_sub a b := by
  unfold mpn_sec_sub mpn_sub
  simp only [sec_sub_1_eq]

/-! ### Multiplication -/

theorem mul_1c_val (y : Limb) : ∀ (c : Limb) (a : List Limb),
    val (mpn_mul_1c y c a).1 + 2 ^ (64 * a.length) * (mpn_mul_1c y c a).2.toNat
      = val a * y.toNat + c.toNat ∧
    (mpn_mul_1c y c a).1.length = a.length
  | c, [] => by simp [mpn_mul_1c, val_nil]
  | c, x :: a => by
    unfold mpn_mul_1c
    dsimp only
    have e := mp_mul_1_val x y c
    obtain ⟨ih, il⟩ := mul_1c_val y (mp_mul_1 x y c).2 a
    refine ⟨?_, by simp [il]⟩
    rw [val_cons, val_cons, List.length_cons, pow64]
    linear_combination e + 2 ^ 64 * ih

theorem mul_1_val (a : List Limb) (y : Limb) :
    val (mpn_mul_1 a y).1 + 2 ^ (64 * a.length) * (mpn_mul_1 a y).2.toNat = val a * y.toNat ∧
    (mpn_mul_1 a y).1.length = a.length := mul_1c_val y 0 a

theorem addmul_1c_val (y : Limb) : ∀ (c : Limb) (z a : List Limb), z.length = a.length →
    val (mpn_addmul_1c y c z a).1 + 2 ^ (64 * a.length) * (mpn_addmul_1c y c z a).2.toNat
      = val z + val a * y.toNat + c.toNat ∧
    (mpn_addmul_1c y c z a).1.length = a.length
  | c, [], [], _ => by simp [mpn_addmul_1c, val_nil]
  | _, [], _ :: _, h => by simp at h
  | _, _ :: _, [], h => by simp at h
  | c, z :: zs, x :: a, h => by
    unfold mpn_addmul_1c
    dsimp only
    have e := mp_addmul_1_val z x y c
    obtain ⟨ih, il⟩ := addmul_1c_val y (mp_addmul_1 z x y c).2 zs a (by simpa using h)
    refine ⟨?_, by simp [il]⟩
    rw [val_cons, val_cons, val_cons, List.length_cons, pow64]
    linear_combination e + 2 ^ 64 * ih

theorem addmul_1_val (z a : List Limb) (y : Limb) (h : z.length = a.length) :
    val (mpn_addmul_1 z a y).1 + 2 ^ (64 * a.length) * (mpn_addmul_1 z a y).2.toNat
      = val z + val a * y.toNat ∧
    (mpn_addmul_1 z a y).1.length = a.length := addmul_1c_val y 0 z a h

theorem submul_1c_val (y : Limb) : ∀ (c : Limb) (z a : List Limb), z.length = a.length →
    val (mpn_submul_1c y c z a).1 + val a * y.toNat + c.toNat
      = val z + 2 ^ (64 * a.length) * (mpn_submul_1c y c z a).2.toNat ∧
    (mpn_submul_1c y c z a).1.length = a.length
  | c, [], [], _ => by simp [mpn_submul_1c, val_nil]
  | _, [], _ :: _, h => by simp at h
  | _, _ :: _, [], h => by simp at h
  | c, z :: zs, x :: a, h => by
    unfold mpn_submul_1c
    dsimp only
    have e := mp_submul_1_val z x y c
    obtain ⟨ih, il⟩ := submul_1c_val y (mp_submul_1 z x y c).2 zs a (by simpa using h)
    refine ⟨?_, by simp [il]⟩
    rw [val_cons, val_cons, val_cons, List.length_cons, pow64]
    linear_combination e + 2 ^ 64 * ih

theorem submul_1_val (z a : List Limb) (y : Limb) (h : z.length = a.length) :
    val (mpn_submul_1 z a y).1 + val a * y.toNat
      = val z + 2 ^ (64 * a.length) * (mpn_submul_1 z a y).2.toNat ∧
    (mpn_submul_1 z a y).1.length = a.length := submul_1c_val y 0 z a h

theorem mul_loop_val (a : List Limb) : ∀ (w b : List Limb), w.length = a.length + 1 →
    val (mpn_mul_loop a w b) = val w + 2 ^ 64 * (val a * val b) ∧
    (mpn_mul_loop a w b).length = a.length + 1 + b.length
  | w, [], h => by simp [mpn_mul_loop, val_nil, h]
  | [], _ :: _, h => by simp at h
  | w :: ws, y :: b, h => by
    unfold mpn_mul_loop
    dsimp only
    have hw : ws.length = a.length := by simpa using h
    obtain ⟨e, l⟩ := addmul_1_val ws a y hw
    obtain ⟨ih, il⟩ := mul_loop_val a ((mpn_addmul_1 ws a y).1 ++ [(mpn_addmul_1 ws a y).2]) b
      (by simp [l])
    refine ⟨?_, by simp only [List.length_cons, il]; omega⟩
    rw [val_cons, ih, val_append, l, val_singleton, val_cons, val_cons]
    linear_combination 2 ^ 64 * e

theorem mul_val (a b : List Limb) :
    val (mpn_mul a b) = val a * val b ∧ (mpn_mul a b).length = a.length + b.length := by
  unfold mpn_mul
  cases b with
  | nil => simp [val_zeros, val_nil, len_zeros]
  | cons y b =>
    dsimp only
    obtain ⟨e, l⟩ := mul_1_val a y
    obtain ⟨ih, il⟩ := mul_loop_val a ((mpn_mul_1 a y).1 ++ [(mpn_mul_1 a y).2]) b (by simp [l])
    refine ⟨?_, by rw [il, List.length_cons]; omega⟩
    rw [ih, val_append, l, val_singleton, val_cons]
    linear_combination e

/-! ### Shifts -/

theorem or_disjoint (a b : Limb) (k : Nat) (ha : a.toNat % 2 ^ k = 0) (hb : b.toNat < 2 ^ k) :
    (a ||| b).toNat = a.toNat + b.toNat := by
  rw [BitVec.toNat_or]
  have : a.toNat = 2 ^ k * (a.toNat / 2 ^ k) := by
    have := Nat.div_add_mod a.toNat (2 ^ k); omega
  rw [this]
  exact (Nat.two_pow_add_eq_or_of_lt hb _).symm

theorem split_pow (bits : Nat) (h : bits ≤ 64) : 2 ^ bits * 2 ^ (64 - bits) = 2 ^ 64 := by
  rw [← Nat.pow_add]; congr 1; omega

/-- Shifting a limb left and taking in the top bits of the limb below. -/
theorem shl_or (x y : Limb) (bits : Nat) (h1 : bits ≤ 64) :
    ((y <<< bits) ||| (x >>> (64 - bits))).toNat
      = y.toNat * 2 ^ bits % 2 ^ 64 + x.toNat / 2 ^ (64 - bits) := by
  rw [or_disjoint _ _ bits, shl_toNat, shr_toNat]
  · rw [shl_toNat, ← split_pow bits h1, Nat.mul_comm y.toNat, Nat.mul_mod_mul_left]
    exact Nat.mul_mod_right _ _
  · rw [shr_toNat]
    apply Nat.div_lt_of_lt_mul
    rw [Nat.mul_comm, split_pow bits h1]
    exact x.isLt

theorem shl_split (x : Limb) (bits : Nat) (h : bits ≤ 64) :
    x.toNat * 2 ^ bits % 2 ^ 64 + 2 ^ 64 * (x.toNat / 2 ^ (64 - bits)) = x.toNat * 2 ^ bits := by
  have h1 := Nat.mod_add_div (x.toNat * 2 ^ bits) (2 ^ 64)
  have h2 : x.toNat * 2 ^ bits / 2 ^ 64 = x.toNat / 2 ^ (64 - bits) := by
    rw [← split_pow bits h, Nat.mul_comm x.toNat]
    exact Nat.mul_div_mul_left _ _ (Nat.pos_of_ne_zero (by positivity))
  rw [← h2]; exact h1

theorem lshift_loop_val (bits : Nat) (h : bits ≤ 64) : ∀ (x : Limb) (a : List Limb),
    val (mpn_lshift_loop bits x a).1 + 2 ^ (64 * a.length) * (mpn_lshift_loop bits x a).2.toNat
      = val a * 2 ^ bits + x.toNat / 2 ^ (64 - bits) ∧
    (mpn_lshift_loop bits x a).1.length = a.length
  | x, [] => by simp [mpn_lshift_loop, val_nil, Nat.shiftRight_eq_div_pow]
  | x, y :: a => by
    unfold mpn_lshift_loop
    dsimp only
    obtain ⟨ih, il⟩ := lshift_loop_val bits h y a
    refine ⟨?_, by simp [il]⟩
    rw [val_cons, val_cons, List.length_cons, pow64, shl_or x y bits h]
    have e := shl_split y bits h
    linear_combination e + 2 ^ 64 * ih

theorem lshift_val (a : List Limb) (bits : Nat) (h : bits ≤ 64) (hne : a ≠ []) :
    val (mpn_lshift a bits).1 + 2 ^ (64 * a.length) * (mpn_lshift a bits).2.toNat = val a * 2 ^ bits ∧
    (mpn_lshift a bits).1.length = a.length := by
  cases a with
  | nil => exact absurd rfl hne
  | cons x a =>
    unfold mpn_lshift
    dsimp only
    obtain ⟨ih, il⟩ := lshift_loop_val bits h x a
    refine ⟨?_, by simp [il]⟩
    rw [val_cons, val_cons, List.length_cons, pow64, shl_toNat]
    have e := shl_split x bits h
    linear_combination e + 2 ^ 64 * ih

theorem lshift_carry (a : List Limb) (bits : Nat) (h : bits ≤ 64) (hne : a ≠ []) :
    (mpn_lshift a bits).2.toNat < 2 ^ bits := by
  obtain ⟨e, l⟩ := lshift_val a bits h hne
  have h1 := val_lt a
  by_contra hc
  have : 2 ^ (64 * a.length) * 2 ^ bits ≤ 2 ^ (64 * a.length) * (mpn_lshift a bits).2.toNat :=
    Nat.mul_le_mul_left _ (by omega)
  have h2 : val a * 2 ^ bits < 2 ^ (64 * a.length) * 2 ^ bits :=
    Nat.mul_lt_mul_of_pos_right h1 (Nat.pos_of_ne_zero (by positivity))
  omega

theorem rshift_loop_val (bits : Nat) (h : bits ≤ 64) : ∀ a : List Limb,
    val (mpn_rshift_loop bits a) = val a / 2 ^ bits ∧ (mpn_rshift_loop bits a).length = a.length
  | [] => by simp [mpn_rshift_loop, val_nil]
  | [x] => by
    unfold mpn_rshift_loop
    rw [val_singleton, val_singleton, shr_toNat]
    exact ⟨rfl, rfl⟩
  | x :: y :: a => by
    obtain ⟨ih, il⟩ := rshift_loop_val bits h (y :: a)
    unfold mpn_rshift_loop
    refine ⟨?_, by simp only [List.length_cons, il]⟩
    have hb : 0 < 2 ^ bits := Nat.pos_of_ne_zero (by positivity)
    have e1 := shl_or x y (64 - bits) (by omega)
    rw [show 64 - (64 - bits) = bits by omega] at e1
    rw [val_cons, ih, e1, val_cons x]
    -- high part
    have hv : val (y :: a) = y.toNat + 2 ^ 64 * val a := rfl
    have hs := split_pow bits h
    have e2 : 2 ^ 64 * val (y :: a) = 2 ^ bits * (2 ^ (64 - bits) * val (y :: a)) := by
      rw [← hs]; ring
    rw [e2, Nat.add_mul_div_left _ _ hb]
    -- 2^(64-bits) * V = 2^64 * (V / 2^bits) + (y * 2^(64-bits)) % 2^64
    have e3 : y.toNat * 2 ^ (64 - bits) % 2 ^ 64 = val (y :: a) * 2 ^ (64 - bits) % 2 ^ 64 := by
      rw [hv, Nat.add_mul, Nat.mul_assoc, Nat.add_mul_mod_self_left]
    have e4 : val (y :: a) * 2 ^ (64 - bits) / 2 ^ 64 = val (y :: a) / 2 ^ bits := by
      rw [← hs, Nat.mul_comm]
      rw [Nat.mul_comm (2 ^ bits)]
      exact Nat.mul_div_mul_left _ _ (Nat.pos_of_ne_zero (by positivity))
    have e5 := Nat.mod_add_div (val (y :: a) * 2 ^ (64 - bits)) (2 ^ 64)
    rw [e3]
    rw [e4] at e5
    rw [Nat.mul_comm (2 ^ (64 - bits))]
    omega

theorem rshift_val (a : List Limb) (bits : Nat) (h : bits ≤ 64) (hne : a ≠ []) :
    val (mpn_rshift a bits).1 = val a / 2 ^ bits ∧ (mpn_rshift a bits).2.toNat = val a % 2 ^ bits ∧
    (mpn_rshift a bits).1.length = a.length := by
  cases a with
  | nil => exact absurd rfl hne
  | cons x a =>
    unfold mpn_rshift
    obtain ⟨e, l⟩ := rshift_loop_val bits h (x :: a)
    refine ⟨e, ?_, l⟩
    dsimp only
    rw [shr_toNat, shl_toNat, val_cons]
    have hs := split_pow bits h
    have hp : 0 < 2 ^ (64 - bits) := Nat.pos_of_ne_zero (by positivity)
    have e1 : x.toNat * 2 ^ (64 - bits) % 2 ^ 64 = 2 ^ (64 - bits) * (x.toNat % 2 ^ bits) := by
      rw [← hs, Nat.mul_comm (2 ^ bits), Nat.mul_comm x.toNat, Nat.mul_mod_mul_left]
    rw [e1, Nat.mul_div_cancel_left _ hp]
    have e2 : 2 ^ 64 * val a = 2 ^ bits * (2 ^ (64 - bits) * val a) := by rw [← hs]; ring
    rw [e2, Nat.add_mul_mod_self_left]

/-! ### Squaring -/

theorem sqr_diag_len (a : List Limb) : (mpn_sqr_diag a).length = 2 * a.length := by
  induction a with
  | nil => rfl
  | cons x a ih => unfold mpn_sqr_diag; simp only [List.length_cons, ih]; omega

theorem sqr_diag_cons (x : Limb) (a : List Limb) :
    val (mpn_sqr_diag (x :: a)) = x.toNat * x.toNat + 2 ^ 128 * val (mpn_sqr_diag a) := by
  conv_lhs => unfold mpn_sqr_diag
  dsimp only
  rw [val_cons, val_cons, mp_sqr_eq]
  have := mp_mul_val x x
  linear_combination this

theorem sqr_diag_append (a : List Limb) (x : Limb) : val (mpn_sqr_diag (a ++ [x]))
    = val (mpn_sqr_diag a) + 2 ^ (128 * a.length) * (x.toNat * x.toNat) := by
  induction a with
  | nil => rw [List.nil_append, sqr_diag_cons]; simp [mpn_sqr_diag, val_nil]
  | cons y a ih =>
    rw [List.cons_append, sqr_diag_cons, sqr_diag_cons, ih, List.length_cons, Nat.mul_succ, Nat.pow_add]
    ring

/-- The state of the loop: twice `tp` and the squares make the square of the limbs done. -/
theorem sqr_loop_val : ∀ (done tp a : List Limb), 2 ≤ done.length → tp.length = 2 * done.length - 1 →
    val (mpn_sqr_diag done) + 2 * val tp = val done * val done →
    val (mpn_sqr_diag (done ++ a)) + 2 * val (mpn_sqr_loop done tp a)
      = val (done ++ a) * val (done ++ a) ∧
    (mpn_sqr_loop done tp a).length = 2 * (done.length + a.length) - 1
  | done, tp, [], h2, hl, hv => by
    rw [List.append_nil]
    exact ⟨hv, hl⟩
  | done, tp, x :: a, h2, hl, hv => by
    have hdl : ((tp ++ [0]).drop done.length).length = done.length := by
      simp only [List.length_drop, List.length_append, hl, List.length_singleton]; omega
    obtain ⟨e, l⟩ := addmul_1_val ((tp ++ [0]).drop done.length) done x hdl
    have htl : ((tp ++ [(0 : Limb)]).take done.length).length = done.length := by
      simp only [List.length_take, List.length_append, hl, List.length_singleton]; omega
    have hsp := val_take_drop done.length (tp ++ [0]) (by
      simp only [List.length_append, hl, List.length_singleton]; omega)
    have htp : val (tp ++ [0]) = val tp := by
      rw [val_append, val_singleton]; simp
    rw [htp] at hsp
    have key := sqr_loop_val (done ++ [x])
      ((tp ++ [0]).take done.length ++ (mpn_addmul_1 ((tp ++ [0]).drop done.length) done x).1 ++
        [(mpn_addmul_1 ((tp ++ [0]).drop done.length) done x).2]) a
      (by simp; omega)
      (by simp only [List.length_append, htl, l, List.length_singleton]; omega)
      (by
        rw [sqr_diag_append, val_append, val_append, val_append, htl, List.length_append, htl, l,
          val_singleton, val_singleton]
        have hp : 2 ^ (64 * (done.length + done.length))
            = 2 ^ (64 * done.length) * 2 ^ (64 * done.length) := by
          rw [← Nat.pow_add]; congr 1; omega
        have hp2 : 2 ^ (128 * done.length) = 2 ^ (64 * done.length) * 2 ^ (64 * done.length) := by
          rw [← Nat.pow_add]; congr 1; omega
        rw [hp, hp2]
        generalize 2 ^ (64 * done.length) = P at *
        linear_combination hv + 2 * P * e - 2 * hsp)
    conv_lhs at key => skip
    rw [List.append_assoc, List.singleton_append] at key
    unfold mpn_sqr_loop
    refine ⟨key.1, ?_⟩
    rw [key.2]
    simp only [List.length_append, List.length_cons, List.length_nil]
    omega

theorem sqr_val (a : List Limb) :
    val (mpn_sqr a) = val a * val a ∧ (mpn_sqr a).length = 2 * a.length := by
  match a with
  | [] => simp [mpn_sqr, val_nil]
  | [x] =>
    unfold mpn_sqr
    dsimp only
    refine ⟨?_, rfl⟩
    have := mp_mul_val x x
    rw [mp_sqr_eq, val_cons, val_singleton, val_singleton]
    exact this
  | x0 :: x1 :: xs =>
    unfold mpn_sqr
    dsimp only
    have hm := mp_mul_val x0 x1
    obtain ⟨e, l⟩ := sqr_loop_val [x0, x1] [0, (mp_mul x0 x1).2, (mp_mul x0 x1).1] xs (by simp)
      (by simp) (by
        rw [sqr_diag_cons, sqr_diag_cons]
        simp only [val_cons, val_nil, mpn_sqr_diag]
        rw [show (0 : Limb).toNat = 0 from rfl]
        linear_combination 2 * 2 ^ 64 * hm)
    simp only [List.cons_append, List.nil_append, List.length_cons, List.length_nil] at e l
    -- the loop keeps the lowest limb
    have hlow : ∀ (done tp a : List Limb), 2 ≤ done.length → tp.length = 2 * done.length - 1 →
        tp.head? = some 0 → (mpn_sqr_loop done tp a).head? = some 0 := by
      intro done tp a
      induction a generalizing done tp with
      | nil => intro _ _ h; exact h
      | cons x a ih =>
        intro h1 h2 h3
        unfold mpn_sqr_loop
        have hdl : ((tp ++ [0]).drop done.length).length = done.length := by
          simp only [List.length_drop, List.length_append, h2, List.length_singleton]; omega
        obtain ⟨_, l⟩ := addmul_1_val ((tp ++ [0]).drop done.length) done x hdl
        apply ih
        · simp; omega
        · simp only [List.length_append, List.length_take, l, List.length_singleton, h2]; omega
        · cases tp with
          | nil => simp at h3
          | cons t tp =>
            simp only [List.head?_cons, Option.some.injEq] at h3
            subst h3
            obtain ⟨k, hk⟩ : ∃ k, done.length = k + 1 := ⟨done.length - 1, by omega⟩
            rw [hk]
            simp
    have h0 := hlow [x0, x1] [0, (mp_mul x0 x1).2, (mp_mul x0 x1).1] xs (by simp) (by simp) rfl
    generalize mpn_sqr_loop [x0, x1] [0, (mp_mul x0 x1).2, (mp_mul x0 x1).1] xs = tp at *
    cases tp with
    | nil => simp at h0
    | cons t tp =>
      simp only [List.head?_cons, Option.some.injEq] at h0
      subst h0
      simp only [List.drop_succ_cons, List.drop_zero, List.take_succ_cons, List.take_zero]
      have hne : tp ≠ [] := by
        rintro rfl
        simp only [List.length_cons, List.length_nil] at l
        omega
      obtain ⟨e1, l1⟩ := lshift_val tp 1 (by omega) hne
      have hlen : ((0 : Limb) :: ((mpn_lshift tp 1).1 ++ [(mpn_lshift tp 1).2])).length
          = 2 * (xs.length + 2) := by
        simp only [List.length_cons, List.length_append, l1, List.length_nil]
        simp only [List.length_cons] at l
        omega
      have hsum : val ((0 : Limb) :: ((mpn_lshift tp 1).1 ++ [(mpn_lshift tp 1).2]))
          = 2 * val ((0 : Limb) :: tp) := by
        rw [val_cons, val_cons, val_append, val_singleton, l1, show (0 : Limb).toNat = 0 from rfl]
        linear_combination 2 ^ 64 * e1
      simp only [List.cons_append, List.nil_append]
      have hdl := sqr_diag_len (x0 :: x1 :: xs)
      simp only [List.length_cons] at hdl
      obtain ⟨e2, l2, _⟩ := add_n_val (mpn_sqr_diag (x0 :: x1 :: xs))
        ((0 : Limb) :: ((mpn_lshift tp 1).1 ++ [(mpn_lshift tp 1).2])) (by rw [hlen, hdl])
      rw [hsum, e, hdl] at e2
      refine ⟨?_, by simp only [l2, hdl, List.length_cons]⟩
      have hlt := val_lt (x0 :: x1 :: xs)
      simp only [List.length_cons] at hlt
      have hsq : val (x0 :: x1 :: xs) * val (x0 :: x1 :: xs) < 2 ^ (64 * (2 * (xs.length + 1 + 1))) := by
        have := Nat.mul_lt_mul'' hlt hlt
        rw [← Nat.pow_add] at this
        rwa [show 64 * (2 * (xs.length + 1 + 1)) = 64 * (xs.length + 1 + 1) + 64 * (xs.length + 1 + 1) by
          omega]
      generalize (mpn_add_n (mpn_sqr_diag (x0 :: x1 :: xs))
        ((0 : Limb) :: ((mpn_lshift tp 1).1 ++ [(mpn_lshift tp 1).2]))).2.toNat = k at *
      have : k = 0 := by
        by_contra hk
        have : 2 ^ (64 * (2 * (xs.length + 1 + 1))) * 1 ≤ 2 ^ (64 * (2 * (xs.length + 1 + 1))) * k :=
          Nat.mul_le_mul_left _ (by omega)
        omega
      rw [this] at e2
      omega

end Torsion.Mpi
