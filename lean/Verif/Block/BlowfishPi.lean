import Verif.Block.BlowfishLemmas
import Mathlib.Analysis.SpecialFunctions.Complex.Arctan
import Mathlib.Analysis.SpecialFunctions.Trigonometric.Arctan
import Mathlib.Analysis.SpecificLimits.Normed
import Mathlib.Algebra.Order.Floor.Semifield

/-!
The initial state of Blowfish is made of the binary digits of π: Machin's formula in integers of 33376 bits.
-/
namespace Torsion.Bf

open Torsion.Spec

/-- The difference of two terms next to each other of the series of arctan (1 / x), times 2 ^ K, in integers. -/
def leaf (x K j : Nat) : Nat := 2 ^ K / (x ^ (4 * j + 1) * (4 * j + 1)) - 2 ^ K / (x ^ (4 * j + 3) * (4 * j + 3))

/-- The sum of 2 ^ d differences. -/
def tree (x K : Nat) : Nat → Nat → Nat
  | 0, j => leaf x K j
  | d + 1, j => tree x K d (2 * j) + tree x K d (2 * j + 1)

/-- The terms of the series of arctan (1 / x). -/
noncomputable def term (x : Nat) (n : Nat) : ℝ := ((x : ℝ)⁻¹) ^ (2 * n + 1) / ((2 * n + 1 : ℕ) : ℝ)

theorem term_eq (x n : Nat) : term x n = 1 / (((x ^ (2 * n + 1) * (2 * n + 1) : ℕ)) : ℝ) := by
  unfold term
  push_cast
  rw [inv_pow, one_div, mul_inv, div_eq_mul_inv]

theorem term_anti (x : Nat) (hx : 1 < x) : Antitone (term x) := by
  refine antitone_nat_of_succ_le (fun n => ?_)
  rw [term_eq, term_eq]
  have h1 : 0 < x ^ (2 * n + 1) * (2 * n + 1) := Nat.mul_pos (Nat.pow_pos (by omega)) (by omega)
  refine one_div_le_one_div_of_le (by exact_mod_cast h1) ?_
  exact_mod_cast Nat.mul_le_mul (Nat.pow_le_pow_right (by omega) (by omega)) (by omega)

theorem term_sum (x : Nat) (hx : 1 < x) :
    Filter.Tendsto (fun n => ∑ i ∈ Finset.range n, (-1 : ℝ) ^ i * term x i) Filter.atTop (nhds (Real.arctan ((x : ℝ)⁻¹))) := by
  have h1 : ‖((x : ℝ)⁻¹)‖ < 1 := by
    rw [Real.norm_of_nonneg (by positivity)]
    exact inv_lt_one_of_one_lt₀ (by exact_mod_cast hx)
  have h := (Real.hasSum_arctan h1).tendsto_sum_nat
  refine h.congr (fun n => Finset.sum_congr rfl (fun i _ => ?_))
  unfold term
  rw [mul_div_assoc]

theorem pair_sum (f : Nat → ℝ) (n : Nat) :
    ∑ i ∈ Finset.range (2 * n), (-1 : ℝ) ^ i * f i = ∑ j ∈ Finset.range n, (f (2 * j) - f (2 * j + 1)) := by
  induction n with
  | zero => simp
  | succ n ih =>
    rw [Finset.sum_range_succ, ← ih, show 2 * (n + 1) = 2 * n + 1 + 1 by ring, Finset.sum_range_succ, Finset.sum_range_succ, pow_succ,
      show (-1 : ℝ) ^ (2 * n) = 1 by simp]
    ring

theorem leaf_near (x K j : Nat) (hx : 1 < x) :
    |(leaf x K j : ℝ) - 2 ^ K * (term x (2 * j) - term x (2 * j + 1))| ≤ 1 := by
  unfold leaf
  rw [term_eq, term_eq, show 2 * (2 * j) + 1 = 4 * j + 1 by ring, show 2 * (2 * j + 1) + 1 = 4 * j + 3 by ring]
  have ha : 0 < x ^ (4 * j + 1) * (4 * j + 1) := Nat.mul_pos (Nat.pow_pos (by omega)) (by omega)
  have hb : 0 < x ^ (4 * j + 3) * (4 * j + 3) := Nat.mul_pos (Nat.pow_pos (by omega)) (by omega)
  have hab : x ^ (4 * j + 1) * (4 * j + 1) ≤ x ^ (4 * j + 3) * (4 * j + 3) :=
    Nat.mul_le_mul (Nat.pow_le_pow_right (by omega) (by omega)) (by omega)
  generalize x ^ (4 * j + 1) * (4 * j + 1) = a at *
  generalize x ^ (4 * j + 3) * (4 * j + 3) = b at *
  rw [Nat.cast_sub (Nat.div_le_div_left hab ha)]
  have fl : ∀ c : Nat, 0 < c → ((2 ^ K / c : ℕ) : ℝ) ≤ 2 ^ K * (1 / c) ∧ 2 ^ K * (1 / (c : ℝ)) < ((2 ^ K / c : ℕ) : ℝ) + 1 := by
    intro c hc
    have hc' : (0 : ℝ) < c := by exact_mod_cast hc
    rw [mul_one_div]
    constructor
    · rw [le_div_iff₀ hc']
      exact_mod_cast Nat.div_mul_le_self (2 ^ K) c
    · rw [div_lt_iff₀ hc']
      have := Nat.lt_div_mul_add hc (a := 2 ^ K)
      have h2 : 2 ^ K < (2 ^ K / c + 1) * c := by rw [Nat.add_mul, Nat.one_mul]; exact this
      exact_mod_cast h2
  obtain ⟨a1, a2⟩ := fl a ha
  obtain ⟨b1, b2⟩ := fl b hb
  rw [mul_sub, abs_le]
  constructor <;> linarith

theorem tree_sum (x K : Nat) : ∀ d j, tree x K d j = ∑ i ∈ Finset.range (2 ^ d), leaf x K (2 ^ d * j + i)
  | 0, j => by simp [tree]
  | d + 1, j => by
    rw [tree, tree_sum x K d, tree_sum x K d, show 2 ^ (d + 1) = 2 ^ d + 2 ^ d by ring, Finset.sum_range_add]
    congr 1
    · refine Finset.sum_congr rfl (fun i _ => ?_)
      congr 1; ring
    · refine Finset.sum_congr rfl (fun i _ => ?_)
      congr 1; ring

theorem tree_near (x K d : Nat) (hx : 1 < x) :
    |(tree x K d 0 : ℝ) - 2 ^ K * ∑ i ∈ Finset.range (2 * 2 ^ d), (-1 : ℝ) ^ i * term x i| ≤ 2 ^ d := by
  rw [tree_sum, pair_sum, Finset.mul_sum, Nat.cast_sum, ← Finset.sum_sub_distrib]
  refine (Finset.abs_sum_le_sum_abs _ _).trans ?_
  have hl : ∀ i ∈ Finset.range (2 ^ d),
      |(leaf x K (2 ^ d * 0 + i) : ℝ) - 2 ^ K * (term x (2 * i) - term x (2 * i + 1))| ≤ 1 := by
    intro i _
    rw [Nat.mul_zero, Nat.zero_add]
    exact leaf_near x K i hx
  refine (Finset.sum_le_sum hl).trans ?_
  simp

/-- The sum of the differences is near 2 ^ K arctan (1 / x). -/
theorem tree_arctan (x K d : Nat) (hx : 1 < x) (hK : 2 ^ K ≤ x ^ (2 * (2 * 2 ^ d) + 1)) :
    (tree x K d 0 : ℝ) - 2 ^ d ≤ 2 ^ K * Real.arctan ((x : ℝ)⁻¹) ∧
      2 ^ K * Real.arctan ((x : ℝ)⁻¹) ≤ (tree x K d 0 : ℝ) + 2 ^ d + 1 := by
  have h1 := (term_anti x hx).alternating_series_le_tendsto (term_sum x hx) (2 ^ d)
  have h2 := (term_anti x hx).tendsto_le_alternating_series (term_sum x hx) (2 ^ d)
  rw [Finset.sum_range_succ] at h2
  have hn := abs_le.1 (tree_near x K d hx)
  have hp : (0 : ℝ) < 2 ^ K := by positivity
  have ht : 2 ^ K * term x (2 * 2 ^ d) ≤ 1 := by
    rw [term_eq, mul_one_div]
    have hc : 0 < x ^ (2 * (2 * 2 ^ d) + 1) * (2 * (2 * 2 ^ d) + 1) := Nat.mul_pos (Nat.pow_pos (by omega)) (by omega)
    rw [div_le_one (by exact_mod_cast hc)]
    exact_mod_cast hK.trans (Nat.le_mul_of_pos_right _ (by omega))
  rw [show (-1 : ℝ) ^ (2 * 2 ^ d) = 1 by simp, one_mul] at h2
  have e1 := mul_le_mul_of_nonneg_left h1 hp.le
  have e2 := mul_le_mul_of_nonneg_left h2 hp.le
  rw [mul_add] at e2
  constructor <;> linarith [hn.1, hn.2]

/-- The bound on π from Machin's formula. -/
theorem machin (K d e N s : Nat) (h5 : 2 ^ K ≤ 5 ^ (2 * (2 * 2 ^ d) + 1)) (h239 : 2 ^ K ≤ 239 ^ (2 * (2 * 2 ^ e) + 1))
    (hlo : N * 2 ^ s + 16 * 2 ^ d + 4 * (tree 239 K e 0 + 2 ^ e + 1) ≤ 16 * tree 5 K d 0)
    (hhi : 16 * (tree 5 K d 0 + 2 ^ d + 1) + 4 * 2 ^ e < (N + 1) * 2 ^ s + 4 * tree 239 K e 0) :
    (N : ℝ) * 2 ^ s ≤ Real.pi * 2 ^ K ∧ Real.pi * 2 ^ K < (N + 1) * 2 ^ s := by
  obtain ⟨a1, a2⟩ := tree_arctan 5 K d (by decide) h5
  obtain ⟨b1, b2⟩ := tree_arctan 239 K e (by decide) h239
  have hm := Real.four_mul_arctan_inv_5_sub_arctan_inv_239
  have hpi : Real.pi * 2 ^ K = 16 * (2 ^ K * Real.arctan ((5 : ℕ) : ℝ)⁻¹) - 4 * (2 ^ K * Real.arctan ((239 : ℕ) : ℝ)⁻¹) := by
    have : Real.pi = 4 * (4 * Real.arctan 5⁻¹ - Real.arctan 239⁻¹) := by rw [hm]; ring
    push_cast
    rw [this]; ring
  have hlo' : (N : ℝ) * 2 ^ s + 16 * 2 ^ d + 4 * (tree 239 K e 0 + 2 ^ e + 1) ≤ 16 * tree 5 K d 0 := by exact_mod_cast hlo
  have hhi' : (16 : ℝ) * (tree 5 K d 0 + 2 ^ d + 1) + 4 * 2 ^ e < (N + 1) * 2 ^ s + 4 * tree 239 K e 0 := by exact_mod_cast hhi
  rw [hpi]
  constructor <;> linarith

/-- All words of the tables, in one number. -/
def join (ws : List (BitVec 32)) : Nat := ws.foldl (fun a w => 2 ^ 32 * a + w.toNat) 3

theorem join_get (ws : List (BitVec 32)) : ∀ i (hi : i < ws.length),
    BitVec.ofNat 32 (join ws / 2 ^ (32 * (ws.length - 1 - i))) = ws[i] := by
  induction ws using List.reverseRecOn with
  | nil => intro i hi; exact absurd hi (by simp)
  | append_singleton l w ih =>
    intro i hi
    have hj : join (l ++ [w]) = 2 ^ 32 * join l + w.toNat := by unfold join; rw [List.foldl_append]; rfl
    rw [List.length_append, List.length_singleton] at hi
    rw [hj, List.length_append, List.length_singleton]
    have hw := w.isLt
    by_cases c : i = l.length
    · subst c
      rw [show l.length + 1 - 1 - l.length = 0 by omega, Nat.mul_zero, Nat.pow_zero, Nat.div_one, List.getElem_append_right (by omega)]
      apply BitVec.eq_of_toNat_eq
      rw [BitVec.toNat_ofNat]
      simp only [Nat.sub_self, List.getElem_cons_zero]
      omega
    · rw [List.getElem_append_left (by omega), ← ih i (by omega), show l.length + 1 - 1 - i = (l.length - 1 - i) + 1 by omega,
        show 32 * (l.length - 1 - i + 1) = 32 + 32 * (l.length - 1 - i) by ring, Nat.pow_add, ← Nat.div_div_eq_div_mul]
      congr 2
      omega

/-- The tables of the code in the order of the digits. -/
def piWords : List (BitVec 32) :=
  blowfish_P.toList ++ (blowfish_S0.toList ++ (blowfish_S1.toList ++ (blowfish_S2.toList ++ blowfish_S3.toList)))

/-- The four conditions of `machin`. -/
def machinCheck (K d e N s : Nat) : Bool :=
  (2 ^ K).ble (5 ^ (2 * (2 * 2 ^ d) + 1)) && (2 ^ K).ble (239 ^ (2 * (2 * 2 ^ e) + 1)) &&
    (N * 2 ^ s + 16 * 2 ^ d + 4 * (tree 239 K e 0 + 2 ^ e + 1)).ble (16 * tree 5 K d 0) &&
    (16 * (tree 5 K d 0 + 2 ^ d + 1) + 4 * 2 ^ e + 1).ble ((N + 1) * 2 ^ s + 4 * tree 239 K e 0)

theorem machin_floor (L d e N s : Nat) (h : machinCheck (L + s) d e N s = true) : ⌊Real.pi * 2 ^ L⌋₊ = N := by
  unfold machinCheck at h
  rw [Bool.and_eq_true, Bool.and_eq_true, Bool.and_eq_true] at h
  obtain ⟨⟨⟨h1, h2⟩, h3⟩, h4⟩ := h
  obtain ⟨m1, m2⟩ := machin (L + s) d e N s (Nat.le_of_ble_eq_true h1) (Nat.le_of_ble_eq_true h2) (Nat.le_of_ble_eq_true h3)
    (Nat.le_of_ble_eq_true h4)
  rw [pow_add, ← mul_assoc] at m1 m2
  have hp : (0 : ℝ) < 2 ^ s := by positivity
  have hpi := Real.pi_pos
  rw [Nat.floor_eq_iff (by positivity)]
  exact ⟨le_of_mul_le_mul_right m1 hp, lt_of_mul_lt_mul_right m2 hp.le⟩

theorem pi_check : machinCheck (33344 + 32) 12 11 (join piWords) 32 = true := by
  decide +kernel

theorem pi_floor : ⌊Real.pi * 2 ^ 33344⌋₊ = join piWords := machin_floor 33344 12 11 _ 32 pi_check

theorem piWords_len : piWords.length = 1042 := by
  unfold piWords
  simp

/-- The digits of π in the order of the words. -/
theorem bfPi_get (i : Nat) (hi : i < 1042) : bfPi i = piWords[i]'(by rw [piWords_len]; exact hi) := by
  unfold bfPi
  rw [if_pos hi, ← join_get piWords i (by rw [piWords_len]; exact hi), piWords_len, ← pi_floor]
  congr 1
  have hs : (Real.pi * 2 ^ (32 * (i + 1)) : ℝ) = Real.pi * 2 ^ 33344 / ((2 ^ (32 * (1042 - 1 - i)) : ℕ) : ℝ) := by
    rw [eq_div_iff (by positivity)]
    push_cast
    rw [mul_assoc, ← pow_add]
    congr 2
    omega
  rw [hs, Nat.floor_div_natCast]

theorem piWords_eq : piWords = blowfish_P.toList ++ blowfish_initial.S.toList := by
  have h : blowfish_initial.S.toList =
      (blowfish_S0 ++ blowfish_S1 ++ blowfish_S2 ++ blowfish_S3 : Vector (BitVec 32) (256 + 256 + 256 + 256)).toList := rfl
  rw [h, Vector.toList_append, Vector.toList_append, Vector.toList_append, List.append_assoc, List.append_assoc]
  rfl

/-- The initial state of the code is made of the digits of π. -/
theorem initial_pi : ofCtx blowfish_initial = bfPi := by
  funext i
  by_cases h : i < 1042
  · rw [bfPi_get i h]
    simp only [piWords_eq]
    by_cases c : i < 18
    · rw [ofCtx_P _ c, List.getElem_append_left (by simpa using c), Vector.getElem_toList]
      rfl
    · obtain ⟨j, rfl⟩ : ∃ j, i = 18 + j := ⟨i - 18, by omega⟩
      rw [ofCtx_S _ (by omega), List.getElem_append_right (by simp)]
      simp only [Vector.length_toList, Nat.add_sub_cancel_left, Vector.getElem_toList]
  · unfold bfPi ofCtx
    rw [if_neg h, dif_neg (by omega), dif_neg (by omega)]

end Torsion.Bf
