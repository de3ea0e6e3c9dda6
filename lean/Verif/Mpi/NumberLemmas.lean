import Verif.Mpi.IntEq
import Verif.Mpi.Number
import Verif.Mpi.NumberSpec

/-!
# Lemmas: factorials, binomials, Fibonacci and Lucas numbers
-/
namespace Torsion.Mpi
open Torsion.Spec

theorem mul_ui_of (i : Int) (w : Limb) : mpz_mul_ui .heap (mpz_of i) w = .ok (mpz_of (i * w.toNat)) :=
  of_of (mul_ui_rep w (of_rep i) trivial)
@[simp] theorem neg_of (i : Int) : mpz_neg .heap (mpz_of i) = .ok (mpz_of (-i)) :=
  of_of (neg_rep (of_rep i) trivial)
@[simp] theorem mul_2exp_of (i : Int) (b : Nat) : mpz_mul_2exp .heap (mpz_of i) b = .ok (mpz_of (i * 2 ^ b)) :=
  of_of (mul_2exp_rep b (of_rep i) trivial)
theorem quo_ui_of (i : Int) (d : Limb) (hd : d ≠ 0) :
    ∃ r, mpz_quo_ui (some .heap) (mpz_of i) d = .ok (mpz_of (i.tdiv d.toNat), r) := by
  obtain ⟨a, r, e, ha, -⟩ := quo_ui_rep (q := some .heap) d hd (of_rep i) (roomO_some trivial)
  exact ⟨r, by rw [e, rep_of ha]⟩
theorem zero_of : (⟨false, []⟩ : Mpz) = mpz_of 0 := rep_of zero_rep
@[simp] theorem size_neg_of (i : Int) : (mpz_of i).size < 0 ↔ i < 0 := rep_sizen (of_rep i)
@[simp] theorem size_zero_of (i : Int) : (mpz_of i).size = 0 ↔ i = 0 := rep_size0 (of_rep i)

/-! ### Multifactorials -/

/-- The factors below `n`. -/
def lowFactors (n m : Nat) : Nat := ∏ i ∈ (Finset.Icc 1 (n - 1)).filter (fun i => i % m = n % m), i

theorem multi_succ {n m : Nat} (hn : 0 < n) : multiFactorial n m = n * lowFactors n m := by
  unfold multiFactorial lowFactors
  have h : (Finset.Icc 1 n).filter (fun i => i % m = n % m) =
      insert n ((Finset.Icc 1 (n - 1)).filter (fun i => i % m = n % m)) := by
    ext i
    simp only [Finset.mem_filter, Finset.mem_Icc, Finset.mem_insert]
    constructor
    · rintro ⟨⟨h1, h2⟩, h3⟩
      by_cases h : i = n
      · exact Or.inl h
      · exact Or.inr ⟨⟨h1, by omega⟩, h3⟩
    · rintro (rfl | ⟨⟨h1, h2⟩, h3⟩)
      · exact ⟨⟨hn, le_refl _⟩, rfl⟩
      · exact ⟨⟨h1, by omega⟩, h3⟩
  rw [h, Finset.prod_insert (by simp; omega)]

theorem low_small {n m : Nat} (h : n ≤ m) : lowFactors n m = 1 := by
  unfold lowFactors
  rw [Finset.filter_false_of_mem, Finset.prod_empty]
  intro i hi e
  rw [Finset.mem_Icc] at hi
  rw [Nat.mod_eq_of_lt (by omega : i < m)] at e
  rcases Nat.lt_or_ge n m with h1 | h1
  · rw [Nat.mod_eq_of_lt h1] at e; omega
  · have : n = m := by omega
    subst this
    rw [Nat.mod_self] at e; omega

theorem low_step {n m : Nat} (hm : 0 < m) (h : m < n) : lowFactors n m = (n - m) * lowFactors (n - m) m := by
  rw [← multi_succ (by omega : 0 < n - m)]
  unfold lowFactors multiFactorial
  congr 1
  ext i
  simp only [Finset.mem_filter, Finset.mem_Icc]
  have e : n % m = (n - m) % m := Nat.mod_eq_sub_mod (by omega)
  rw [e]
  constructor
  · rintro ⟨⟨h1, h2⟩, h3⟩
    refine ⟨⟨h1, ?_⟩, h3⟩
    by_contra hc
    have h4 : n % m = i % m := by rw [e, h3]
    have h5 : m ∣ n - i := (Nat.modEq_iff_dvd' (by omega)).1 h4.symm
    have := Nat.le_of_dvd (by omega) h5
    omega
  · rintro ⟨⟨h1, h2⟩, h3⟩
    exact ⟨⟨h1, by omega⟩, h3⟩

theorem mfac_loop_of {m : Limb} (hm : 0 < m.toNat) : ∀ (f : Nat) (n : Limb) (v : Int), n.toNat < f →
    mpz_mfac_loop m f n (mpz_of v) = .ok (mpz_of (v * lowFactors n.toNat m.toNat))
  | 0, _, _, h => absurd h (by omega)
  | f + 1, n, v, h => by
    unfold mpz_mfac_loop
    by_cases hc : m < n
    · have hc' : m.toNat < n.toNat := hc
      have hs : (n - m).toNat = n.toNat - m.toNat := BitVec.toNat_sub_of_le (show m.toNat ≤ n.toNat by omega)
      rw [if_pos hc, mul_ui_of, C.ok_bind, mfac_loop_of hm f _ _ (by omega), low_step hm hc', hs]
      push_cast
      rw [mul_assoc]
    · rw [if_neg hc, low_small (not_lt.1 hc), Nat.cast_one, mul_one]

theorem mfac_of (n m : Limb) : mpz_mfac_uiui n m = .ok (mpz_of (multiFactorial n.toNat m.toNat)) := by
  unfold mpz_mfac_uiui
  by_cases h0 : n = 0
  · subst h0
    rw [if_pos rfl, set_ui_of]
    rfl
  have hn : 0 < n.toNat := Nat.pos_of_ne_zero fun e => h0 (BitVec.eq_of_toNat_eq e)
  rw [if_neg h0]
  by_cases hm0 : m = 0
  · subst hm0
    rw [if_pos rfl, set_ui_of, multi_succ hn]
    have : lowFactors n.toNat (0 : Limb).toNat = 1 := by
      unfold lowFactors
      rw [Finset.filter_false_of_mem, Finset.prod_empty]
      intro i hi e
      rw [Finset.mem_Icc] at hi
      rw [show (0 : Limb).toNat = 0 from rfl, Nat.mod_zero, Nat.mod_zero] at e
      omega
    rw [this, Nat.mul_one]
  · have hm : 0 < m.toNat := Nat.pos_of_ne_zero fun e => hm0 (BitVec.eq_of_toNat_eq e)
    rw [if_neg hm0, set_ui_of, mfac_loop_of hm _ _ _ (by omega), multi_succ hn]
    push_cast
    rfl

theorem multi_one (n : Nat) : multiFactorial n 1 = n.factorial := by
  induction n with
  | zero => rfl
  | succ n ih =>
    rw [multi_succ (by omega), Nat.factorial_succ, ← ih]
    congr 1
    unfold lowFactors multiFactorial
    simp [Nat.mod_one]

theorem multi_two : ∀ n : Nat, multiFactorial n 2 = n.doubleFactorial
  | 0 => rfl
  | 1 => rfl
  | n + 2 => by
    rw [multi_succ (by omega), Nat.doubleFactorial_add_two]
    by_cases h : n = 0
    · subst h; rfl
    · rw [low_step (by omega) (by omega), Nat.add_sub_cancel, ← multi_succ (by omega), multi_two n]

/-! ### Binomials -/

theorem choose_step (m i : Nat) : ((m.choose i * (m - i) : Nat) : Int).tdiv ((i + 1 : Nat) : Int) = (m.choose (i + 1) : Nat) := by
  rw [← Nat.choose_succ_right_eq]
  push_cast
  exact Int.mul_tdiv_cancel _ (by omega)

theorem limb_succ {i : Limb} {c : Nat} (h : i.toNat + (c + 1) < 2 ^ 64) : (i + 1).toNat = i.toNat + 1 := by
  rw [BitVec.toNat_add, show (1 : Limb).toNat = 1 from rfl, Nat.mod_eq_of_lt (by omega)]

theorem limb_succ_ne {i : Limb} {c : Nat} (h : i.toNat + (c + 1) < 2 ^ 64) : i + 1 ≠ 0 := fun e => by
  have := limb_succ h
  rw [e] at this
  simp at this

theorem bin_loop_of (m : Nat) : ∀ (c : Nat) (i : Limb), i.toNat + c < 2 ^ 64 → i.toNat + c ≤ m →
    mpz_bin_loop c i (mpz_of (m.choose i.toNat : Nat)) (mpz_of ((m - i.toNat : Nat) : Int)) =
      .ok (mpz_of (m.choose (i.toNat + c) : Nat))
  | 0, _, _, _ => rfl
  | c + 1, i, h, hm => by
    unfold mpz_bin_loop
    obtain ⟨r, hr⟩ := quo_ui_of (((m.choose i.toNat : Nat) : Int) * ((m - i.toNat : Nat) : Int)) (i + 1) (limb_succ_ne h)
    have hs := limb_succ h
    rw [mul_of, C.ok_bind, hr, C.ok_bind, sub_1_of, C.ok_bind, ← Nat.cast_mul, hs, choose_step,
      show ((m - i.toNat : Nat) : Int) - 1 = ((m - (i.toNat + 1) : Nat) : Int) by omega, ← hs,
      bin_loop_of m c (i + 1) (by omega) (by omega), hs, Nat.add_assoc, Nat.add_comm 1 c]

theorem bin_uiui_loop_of (n : Limb) : ∀ (c : Nat) (i : Limb), i.toNat + c < 2 ^ 64 → i.toNat + c ≤ n.toNat →
    mpz_bin_uiui_loop n c i (mpz_of (n.toNat.choose i.toNat : Nat)) = .ok (mpz_of (n.toNat.choose (i.toNat + c) : Nat))
  | 0, _, _, _ => rfl
  | c + 1, i, h, hm => by
    unfold mpz_bin_uiui_loop
    have hle : i ≤ n := by show i.toNat ≤ n.toNat; omega
    have hsub : (n - i).toNat = n.toNat - i.toNat := BitVec.toNat_sub_of_le hle
    obtain ⟨r, hr⟩ := quo_ui_of (((n.toNat.choose i.toNat : Nat) : Int) * ((n - i).toNat : Int)) (i + 1) (limb_succ_ne h)
    have hs := limb_succ h
    rw [mul_ui_of, C.ok_bind, hr, C.ok_bind, hsub, ← Nat.cast_mul, hs, choose_step, ← hs,
      bin_uiui_loop_of n c (i + 1) (by omega) (by omega), hs, Nat.add_assoc, Nat.add_comm 1 c]

theorem bin_uiui_of (n k : Limb) : mpz_bin_uiui n k = .ok (mpz_of (n.toNat.choose k.toNat : Nat)) := by
  unfold mpz_bin_uiui
  by_cases h : n < k
  · rw [if_pos h, Nat.choose_eq_zero_of_lt h, zero_of]
    rfl
  · have h' : k.toNat ≤ n.toNat := not_lt.1 h
    have hs : (n - k).toNat = n.toNat - k.toNat := BitVec.toNat_sub_of_le (show k.toNat ≤ n.toNat from h')
    have hn := n.isLt
    have h0 := bin_uiui_loop_of n (if n - k < k then n - k else k).toNat 0
      (by rw [show (0 : Limb).toNat = 0 from rfl]; split <;> omega)
      (by rw [show (0 : Limb).toNat = 0 from rfl]; split <;> omega)
    rw [if_neg h, set_ui_of]
    rw [show (0 : Limb).toNat = 0 from rfl, Nat.choose_zero_right, Nat.zero_add] at h0
    rw [show (1 : Limb).toNat = 1 from rfl, h0]
    split
    · rw [hs, Nat.choose_symm h']
    · rfl

theorem and_one_ne (k : Limb) : (k &&& 1 ≠ 0) ↔ k.toNat % 2 = 1 := by
  rw [ne_eq, BitVec.toNat_eq, BitVec.toNat_and, show (1 : Limb).toNat = 1 from rfl, show (0 : Limb).toNat = 0 from rfl,
    Nat.and_one_is_mod]
  omega

/-- The magnitude whose binomial is taken. -/
def binTop (n : Int) (k : Nat) : Nat := if n < 0 then n.natAbs + k - 1 else n.natAbs

/-- The value of `mpz_bin_ui`. -/
def binVal (n : Int) (k : Nat) : Int := (if n < 0 ∧ k % 2 = 1 then -1 else 1) * ((binTop n k).choose k : Nat)

theorem bin_ui_of (n : Int) (k : Limb) : mpz_bin_ui (mpz_of n) k = .ok (mpz_of (binVal n k.toNat)) := by
  unfold mpz_bin_ui
  have hm : (if (mpz_of n).size < 0 then do
      let m ← mpz_neg .heap (mpz_of n)
      let m ← mpz_add_ui .heap m k
      mpz_sub_ui .heap m 1
    else mpz_set .heap (mpz_of n) : C Mpz) = .ok (mpz_of (binTop n k.toNat : Nat)) := by
    unfold binTop
    by_cases h : n < 0
    · rw [if_pos ((size_neg_of n).2 h), if_pos h, neg_of, C.ok_bind, add_ui_of, C.ok_bind, sub_1_of]
      congr 2
      omega
    · rw [if_neg (mt (size_neg_of n).1 h), if_neg h, set_of]
      congr 2
      omega
  rw [hm, C.ok_bind]
  generalize hM : binTop n k.toNat = M
  have hneg : (decide ((mpz_of n).size < 0) && decide (k &&& 1 ≠ 0)) = decide (n < 0 ∧ k.toNat % 2 = 1) := by
    rw [← Bool.decide_and]
    exact decide_eq_decide.2 (and_congr (size_neg_of n) (and_one_ne k))
  dsimp only
  rw [hneg, cmp_ui_of]
  unfold binVal
  rw [hM]
  by_cases hlt : M < k.toNat
  · rw [if_pos (by rw [if_pos (by omega)]; decide), Nat.choose_eq_zero_of_lt hlt, Nat.cast_zero, mul_zero, zero_of]
  rw [if_neg (by rw [if_neg (by omega)]; split <;> decide), sub_ui_of, C.ok_bind,
    show ((M : Int) - k.toNat) = ((M - k.toNat : Nat) : Int) by omega, cmp_ui_of]
  have hk : ∃ k' : Limb, (if (if ((M - k.toNat : Nat) : Int) < k.toNat then (-1 : Int) else
      if ((M - k.toNat : Nat) : Int) = k.toNat then 0 else 1) < 0 then mpz_get_ui (mpz_of ((M - k.toNat : Nat) : Int))
      else .ok k : C Limb) = .ok k' ∧ k'.toNat ≤ M ∧ M.choose k'.toNat = M.choose k.toNat := by
    by_cases h : M - k.toNat < k.toNat
    · obtain ⟨r, e, hr⟩ := get_ui_rep (of_rep ((M - k.toNat : Nat) : Int))
      refine ⟨r, by rw [if_pos (by rw [if_pos (by omega)]; decide), e], ?_⟩
      rw [Int.natAbs_natCast, Nat.mod_eq_of_lt (by have := k.isLt; omega)] at hr
      rw [hr]
      exact ⟨Nat.sub_le _ _, Nat.choose_symm (by omega)⟩
    · exact ⟨k, by rw [if_neg (by rw [if_neg (by omega)]; split <;> decide)], by omega, rfl⟩
  obtain ⟨k', e, h1, h2⟩ := hk
  rw [e, C.ok_bind]
  have h0 := bin_loop_of M k'.toNat 0 (by have := k'.isLt; simpa using this) (by simpa using h1)
  rw [show (0 : Limb).toNat = 0 from rfl, Nat.choose_zero_right, Nat.sub_zero, Nat.zero_add] at h0
  rw [set_ui_of, show (1 : Limb).toNat = 1 from rfl, h0, C.ok_bind, h2]
  by_cases hn : n < 0 ∧ k.toNat % 2 = 1
  · rw [if_pos (by simpa using hn), if_pos hn, neg_of, neg_one_mul]
  · rw [if_neg (by simpa using hn), if_neg hn, one_mul]

theorem falling_nat (n k : Nat) : falling n k = (n.choose k * k.factorial : Nat) := by
  induction k with
  | zero => simp [falling]
  | succ k ih =>
    unfold falling at ih ⊢
    rw [Finset.prod_range_succ, ih, Nat.factorial_succ]
    have h := Nat.choose_succ_right_eq n k
    by_cases hk : k ≤ n
    · have : (n : Int) - k = ((n - k : Nat) : Int) := by omega
      rw [this]
      push_cast
      have h' : ((n.choose (k + 1) : Nat) : Int) * (k + 1) = (n.choose k : Nat) * ((n - k : Nat) : Int) := by exact_mod_cast h
      linear_combination (-(k.factorial : Int)) * h'
    · rw [Nat.choose_eq_zero_of_lt (by omega), Nat.choose_eq_zero_of_lt (by omega)]
      simp

theorem falling_neg (a k : Nat) : falling (-(a : Int)) k = (-1) ^ k * falling ((a : Int) + k - 1) k := by
  unfold falling
  have hc : (-1 : Int) ^ k = ∏ _i ∈ Finset.range k, (-1 : Int) := by rw [Finset.prod_const, Finset.card_range]
  rw [← Finset.prod_range_reflect (fun i => (a : Int) + k - 1 - (i : Nat)), hc, ← Finset.prod_mul_distrib]
  refine Finset.prod_congr rfl fun i hi => ?_
  have := Finset.mem_range.1 hi
  push_cast [Nat.sub_sub, Nat.cast_sub (show 1 + i ≤ k by omega)]
  ring

theorem binVal_spec (n : Int) (k : Nat) : IsBinomial n k (binVal n k) := by
  unfold IsBinomial binVal binTop
  by_cases h : n < 0
  · obtain ⟨a, rfl⟩ : ∃ a : Nat, n = -(a : Int) := ⟨n.natAbs, by omega⟩
    rw [if_pos h, falling_neg, show (a : Int) + k - 1 = ((a + k - 1 : Nat) : Int) by omega, falling_nat,
      show (-(a : Int)).natAbs = a by omega]
    push_cast
    by_cases hk : k % 2 = 1
    · rw [if_pos ⟨h, hk⟩, Odd.neg_one_pow (Nat.odd_iff.2 hk)]; ring
    · rw [if_neg (fun c => hk c.2), Even.neg_one_pow (Nat.even_iff.2 (by omega))]; ring
  · obtain ⟨a, rfl⟩ : ∃ a : Nat, n = a := ⟨n.natAbs, by omega⟩
    rw [if_neg h, if_neg (fun c => h c.1), one_mul, falling_nat, Int.natAbs_natCast]
    push_cast
    rfl

theorem binomial_unique {n : Int} {k : Nat} {a b : Int} (ha : IsBinomial n k a) (hb : IsBinomial n k b) : a = b :=
  mul_right_cancel₀ (by exact_mod_cast k.factorial_ne_zero) (ha.trans hb.symm)

theorem bin_siui_of (n : BitVec 64) (k : Limb) : mpz_bin_siui n k = .ok (mpz_of (binVal n.toInt k.toNat)) := by
  unfold mpz_bin_siui
  have hsl : n.slt 0 = true ↔ n.toInt < 0 := by simp [BitVec.slt]
  have hc := limb_cast_val n
  by_cases h : n.toInt < 0
  · rw [if_pos (hsl.2 h)]
    by_cases ho : mp_limb_cast n + k < k
    · have e : (⟨true, [mp_limb_cast n]⟩ : Mpz) = mpz_of n.toInt := by
        refine rep_of ⟨⟨?_, fun _ => by simp⟩, ?_⟩
        · intro hz
          rw [List.getLast?_singleton] at hz
          have := congrArg BitVec.toNat (Option.some.inj hz)
          rw [hc] at this
          simp at this
          omega
        · unfold ival
          rw [if_pos rfl, val_cons, hc]
          rw [show val ([] : List Limb) = 0 from rfl, Nat.mul_zero, Nat.add_zero]
          omega
      rw [if_pos ho, e, bin_ui_of]
    · have hge : k.toNat ≤ (mp_limb_cast n + k).toNat := not_lt.1 ho
      have hs : (mp_limb_cast n + k).toNat = n.toInt.natAbs + k.toNat := by
        rw [BitVec.toNat_add, hc] at hge ⊢
        have h1 := k.isLt
        have h2 : n.toInt.natAbs < 2 ^ 64 := by rw [← hc]; exact (mp_limb_cast n).isLt
        omega
      have h1 : (mp_limb_cast n + k - 1).toNat = n.toInt.natAbs + k.toNat - 1 := by
        rw [BitVec.toNat_sub_of_le (by show (1 : Limb).toNat ≤ _; rw [hs]; show 1 ≤ _; omega), hs]
        rfl
      rw [if_neg ho, bin_uiui_of, C.ok_bind, h1]
      unfold binVal binTop
      rw [if_pos h]
      by_cases hk : k.toNat % 2 = 1
      · rw [if_pos ((and_one_ne k).2 hk), if_pos ⟨h, hk⟩, neg_of, neg_one_mul]
      · rw [if_neg (mt (and_one_ne k).1 hk), if_neg (fun c => hk c.2), one_mul]
  · rw [if_neg (mt hsl.1 h), bin_uiui_of]
    unfold binVal binTop
    rw [if_neg h, if_neg (fun c => h c.1), one_mul]
    have : n.toInt.natAbs = n.toNat := by
      have e := BitVec.toInt_eq_toNat_cond n
      have := n.isLt
      split at e <;> omega
    rw [this]

/-! ### Fibonacci and Lucas numbers -/

theorem fib_step_of (b : Bool) (j : Nat) :
    mpz_fib_step b (mpz_of (Nat.fib j : Nat)) (mpz_of (Nat.fib (j + 1) : Nat)) =
      .ok (mpz_of (Nat.fib (2 * j + b.toNat) : Nat), mpz_of (Nat.fib (2 * j + b.toNat + 1) : Nat)) := by
  have h1 : ((Nat.fib j : Nat) : Int) * ((Nat.fib (j + 1) : Nat) + (Nat.fib (j + 1) : Nat) - (Nat.fib j : Nat)) =
      (Nat.fib (2 * j) : Nat) := by
    rw [Nat.fib_two_mul]
    have : Nat.fib j ≤ 2 * Nat.fib (j + 1) := by have := Nat.fib_le_fib_succ (n := j); omega
    push_cast [Nat.cast_sub this]
    ring
  have h2 : ((Nat.fib j : Nat) : Int) * (Nat.fib j : Nat) + (Nat.fib (j + 1) : Nat) * (Nat.fib (j + 1) : Nat) =
      (Nat.fib (2 * j + 1) : Nat) := by
    rw [Nat.fib_two_mul_add_one]
    push_cast
    ring
  unfold mpz_fib_step
  simp only [add_of, sub_of, mul_of, sqr_of, C.ok_bind]
  rw [h1, h2]
  cases b with
  | false => rfl
  | true =>
    simp only [if_true]
    rw [← Nat.cast_add, ← Nat.fib_add_two]
    rfl

theorem fib_loop_of (n : Limb) : ∀ i, mpz_fib_loop n i (mpz_of (Nat.fib (n.toNat / 2 ^ i) : Nat))
    (mpz_of (Nat.fib (n.toNat / 2 ^ i + 1) : Nat)) = .ok (mpz_of (Nat.fib n.toNat : Nat), mpz_of (Nat.fib (n.toNat + 1) : Nat))
  | 0 => by rw [pow_zero, Nat.div_one]; rfl
  | i + 1 => by
    unfold mpz_fib_loop
    rw [fib_step_of, C.ok_bind]
    have : 2 * (n.toNat / 2 ^ (i + 1)) + (decide ((n >>> i) &&& 1 ≠ 0)).toNat = n.toNat / 2 ^ i := by
      have h := and_one_ne (n >>> i)
      rw [BitVec.toNat_ushiftRight, Nat.shiftRight_eq_div_pow] at h
      rw [pow_succ, ← Nat.div_div_eq_div_mul]
      by_cases hb : n.toNat / 2 ^ i % 2 = 1
      · rw [decide_eq_true (h.2 hb), Bool.toNat_true]; omega
      · rw [decide_eq_false (mt h.1 hb), Bool.toNat_false]; omega
    dsimp only
    rw [this]
    exact fib_loop_of n i

theorem fib2_of (n : Limb) : mpz_fib2_ui n =
    .ok (mpz_of (Nat.fib n.toNat : Nat), mpz_of (if n = 0 then 0 else (Nat.fib (n.toNat - 1) : Nat))) := by
  unfold mpz_fib2_ui
  by_cases h : n = 0
  · subst h
    rw [if_pos rfl, if_pos rfl, zero_of]
    rfl
  · have hn : 0 < n.toNat := Nat.pos_of_ne_zero fun e => h (BitVec.eq_of_toNat_eq e)
    have h1 : (n - 1).toNat = n.toNat - 1 := BitVec.toNat_sub_of_le (show (1 : Limb).toNat ≤ _ from hn)
    have h0 := fib_loop_of (n - 1) (mp_bitlen (n - 1))
    have hz : (n - 1).toNat / 2 ^ mp_bitlen (n - 1) = 0 := by
      refine Nat.div_eq_of_lt ?_
      rw [mp_bitlen_eq]
      exact Nat.lt_size_self _
    rw [hz] at h0
    rw [if_neg h, if_neg h, set_ui_of, set_ui_of]
    rw [show mpz_of ((0 : Limb).toNat : Int) = mpz_of (Nat.fib 0 : Nat) from rfl,
      show mpz_of ((1 : Limb).toNat : Int) = mpz_of (Nat.fib (0 + 1) : Nat) from rfl, h0, C.ok_bind, h1,
      Nat.sub_add_cancel hn]

theorem lucas_fib (n : Nat) : lucasNumber (n + 1) = Nat.fib (n + 1) + 2 * Nat.fib n ∧
    lucasNumber n + Nat.fib n = 2 * Nat.fib (n + 1) := by
  induction n with
  | zero => exact ⟨rfl, rfl⟩
  | succ n ih =>
    have h : lucasNumber (n + 2) = lucasNumber n + lucasNumber (n + 1) := rfl
    have h2 := Nat.fib_add_two (n := n)
    show lucasNumber (n + 2) = Nat.fib (n + 2) + _ ∧ _ = 2 * Nat.fib (n + 2)
    constructor <;> omega

theorem lucnum2_of (n : Limb) : mpz_lucnum2_ui n =
    .ok (mpz_of (lucasNumber n.toNat : Nat), mpz_of (if n = 0 then 0 else (lucasNumber (n.toNat - 1) : Nat))) := by
  unfold mpz_lucnum2_ui
  by_cases h : n = 0
  · subst h
    rw [if_pos rfl, if_pos rfl, zero_of, set_ui_of]
    rfl
  · have hn : 0 < n.toNat := Nat.pos_of_ne_zero fun e => h (BitVec.eq_of_toNat_eq e)
    rw [if_neg h, if_neg h, fib2_of, C.ok_bind, if_neg h]
    obtain ⟨m, hm⟩ : ∃ m, n.toNat = m + 1 := ⟨n.toNat - 1, by omega⟩
    rw [hm, Nat.add_sub_cancel]
    obtain ⟨h1, h2⟩ := lucas_fib m
    simp only [add_of, sub_of, C.ok_bind]
    congr 3
    · rw [h1]; push_cast; ring
    · have : ((lucasNumber m : Nat) : Int) + (Nat.fib m : Nat) = 2 * (Nat.fib (m + 1) : Nat) := by exact_mod_cast h2
      linarith

end Torsion.Mpi
