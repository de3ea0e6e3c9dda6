import Verif.Mpi.SecLemmas
import Verif.Mpi.MpnBits

/-!
# Properties of the limb vector arithmetic (C31, C32, C35)

`Spec.val` is the number a vector of limbs stands for. Every theorem speaks of vectors of every length.
-/
namespace Torsion

open Spec (val)

/-! ### C31: addition, subtraction, comparison -/

/-- C31. `mpn_add_1` adds a limb: the vector and the carry above it are the exact sum. -/
theorem mpn_add_1_exact (x : List Limb) (y : Limb) :
    val (mpn_add_1 x y).1 + 2 ^ (64 * x.length) * (mpn_add_1 x y).2.toNat = val x + y.toNat ∧
    (mpn_add_1 x y).1.length = x.length := Mpi.add_1_val x y

example : mpn_add_1 [BitVec.allOnes 64, BitVec.allOnes 64] 1 = ([0, 0], 1) := by decide

/-- C31. `mpn_add_n` adds two vectors of one length with carry 0 or 1. -/
theorem mpn_add_n_exact (x y : List Limb) (h : x.length = y.length) :
    val (mpn_add_n x y).1 + 2 ^ (64 * x.length) * (mpn_add_n x y).2.toNat = val x + val y ∧
    (mpn_add_n x y).1.length = x.length ∧ (mpn_add_n x y).2.toNat ≤ 1 := Mpi.add_n_val x y h

example : ([3, 4] : List Limb).length = ([BitVec.allOnes 64, 1] : List Limb).length := by decide
example : mpn_add_n [3, 4] [BitVec.allOnes 64, 1] = ([2, 6], 0) := by decide

/-- C31. `mpn_add` aborts iff the second vector is longer than the first, and adds otherwise. -/
theorem mpn_add_exact (x y : List Limb) :
    (x.length < y.length → mpn_add x y = .abort) ∧
    (y.length ≤ x.length → ∃ z c, mpn_add x y = .ok (z, c) ∧ z.length = x.length ∧ c.toNat ≤ 1 ∧
      val z + 2 ^ (64 * x.length) * c.toNat = val x + val y) := by
  refine ⟨fun h => ?_, Mpi.add_val x y⟩
  unfold mpn_add
  simp only [C.check, decide_eq_true_eq, if_neg (Nat.not_le.2 h), C.abort_bind]

example : mpn_add [BitVec.allOnes 64, BitVec.allOnes 64, 7] [1] = .ok ([0, 0, 8], 0) := by decide

/-- C31. The constant-time additions return what the plain ones return. -/
theorem mpn_sec_add_agrees (x y : List Limb) (l : Limb) :
    mpn_sec_add_1 x l = mpn_add_1 x l ∧ mpn_sec_add x y = mpn_add x y :=
  ⟨Mpi.sec_add_1_eq x l, Mpi.sec_add_eq x y⟩

/-- C31. `mpn_sub_1` subtracts a limb: the difference is the vector less the borrow above it. -/
theorem mpn_sub_1_exact (x : List Limb) (y : Limb) :
    val (mpn_sub_1 x y).1 + y.toNat = val x + 2 ^ (64 * x.length) * (mpn_sub_1 x y).2.toNat ∧
    (mpn_sub_1 x y).1.length = x.length := Mpi.sub_1_val x y

example : mpn_sub_1 [0, 0, 1] 1 = ([BitVec.allOnes 64, BitVec.allOnes 64, 0], 0) := by decide

/-- C31. `mpn_sub_n` subtracts two vectors of one length; the borrow says whether the second is larger. -/
theorem mpn_sub_n_exact (x y : List Limb) (h : x.length = y.length) :
    val (mpn_sub_n x y).1 + val y = val x + 2 ^ (64 * x.length) * (mpn_sub_n x y).2.toNat ∧
    (mpn_sub_n x y).1.length = x.length ∧
    (mpn_sub_n x y).2.toNat = (if val x < val y then 1 else 0) :=
  ⟨(Mpi.sub_n_val x y h).1, (Mpi.sub_n_val x y h).2.1, Mpi.sub_n_borrow x y h⟩

example : mpn_sub_n [0, 5] [1, 5] = ([BitVec.allOnes 64, BitVec.allOnes 64], 1) := by decide

/-- C31. `mpn_sub` aborts iff the second vector is longer than the first, and subtracts otherwise. -/
theorem mpn_sub_exact (x y : List Limb) :
    (x.length < y.length → mpn_sub x y = .abort) ∧
    (y.length ≤ x.length → ∃ z c, mpn_sub x y = .ok (z, c) ∧ z.length = x.length ∧ c.toNat ≤ 1 ∧
      val z + val y = val x + 2 ^ (64 * x.length) * c.toNat) := by
  refine ⟨fun h => ?_, Mpi.sub_val x y⟩
  unfold mpn_sub
  simp only [C.check, decide_eq_true_eq, if_neg (Nat.not_le.2 h), C.abort_bind]

example : mpn_sub [0, 0, 8] [1] = .ok ([BitVec.allOnes 64, BitVec.allOnes 64, 7], 0) := by decide

/-- C31. The constant-time subtractions return what the plain ones return. -/
theorem mpn_sec_sub_agrees (x y : List Limb) (l : Limb) :
    mpn_sec_sub_1 x l = mpn_sub_1 x l ∧ mpn_sec_sub x y = mpn_sub x y :=
  ⟨Mpi.sec_sub_1_eq x l, Mpi.sec_sub_eq x y⟩

/-- C31. `mpn_sub_mod` subtracts modulo `m`. -/
theorem mpn_sub_mod_exact (x y m : List Limb) (hx : x.length = m.length) (hy : y.length = m.length)
    (hxm : val x < val m) (hym : val y < val m) :
    (val (mpn_sub_mod x y m) : Int) = ((val x : Int) - val y) % val m ∧
    (mpn_sub_mod x y m).length = m.length := by
  unfold mpn_sub_mod
  rw [Mpi.cmp_val x y (by omega)]
  by_cases h : val x < val y
  · rw [if_pos h, if_neg (by decide)]
    have hl := (Mpi.sub_n_val y x (by omega)).2.1
    have e := Mpi.sub_n_exact y x (by omega) (by omega)
    have hl' : m.length = (mpn_sub_n y x).1.length := by omega
    have e' := Mpi.sub_n_exact m _ hl' (by omega)
    rw [e', e]
    refine ⟨?_, (Mpi.sub_n_val m _ hl').2.1⟩
    rw [← Int.add_emod_right, Int.emod_eq_of_lt (by omega) (by omega)]
    omega
  · have hge : (if val x < val y then (-1 : Int) else if val x = val y then 0 else 1) ≥ 0 := by
      rw [if_neg h]; split <;> decide
    rw [if_pos hge, Mpi.sub_n_exact x y (by omega) (by omega)]
    refine ⟨?_, ?_⟩
    · rw [Int.emod_eq_of_lt (by omega) (by omega)]; omega
    · rw [(Mpi.sub_n_val x y (by omega)).2.1]; exact hx

example : mpn_sub_mod [3, 1] [4, 1] [7, 2] = [6, 2] := by decide

/-- C31. `mpn_cmp` orders two vectors of one length by their numbers. -/
theorem mpn_cmp_exact (x y : List Limb) (h : x.length = y.length) :
    mpn_cmp x y = if val x < val y then -1 else if val x = val y then 0 else 1 := Mpi.cmp_val x y h

example : mpn_cmp [9, 1] [1, 2] = -1 := by decide

/-- C31. `mpn_cmp2` orders two vectors without leading zero limbs by their numbers. -/
theorem mpn_cmp2_exact (x y : List Limb) (hx : x.getLast? ≠ some 0) (hy : y.getLast? ≠ some 0) :
    mpn_cmp2 x y = if val x < val y then -1 else if val x = val y then 0 else 1 :=
  Mpi.cmp2_val x y hx hy

example : ([9, 1] : List Limb).getLast? ≠ some 0 ∧ mpn_cmp2 [9, 1] [10] = 1 := by decide

/-- C31. `mpn_cmp_1` compares a vector without leading zero limbs with a limb. -/
theorem mpn_cmp_1_exact (x : List Limb) (y : Limb) (hx : x.getLast? ≠ some 0) :
    mpn_cmp_1 x y = if val x < y.toNat then -1 else if val x = y.toNat then 0 else 1 :=
  Mpi.cmp_1_val x y hx

example : mpn_cmp_1 [] 1 = -1 ∧ mpn_cmp_1 [5] 5 = 0 ∧ mpn_cmp_1 [0, 1] (BitVec.allOnes 64) = 1 := by decide

/-- C31. Stripping leading zero limbs keeps the number and leaves a non-zero leading limb; a vector is
recognised as zero, in plain and in constant time, iff its number is zero. -/
theorem mpn_strip_zero_exact (x : List Limb) :
    val (mpn_strip x) = val x ∧ (mpn_strip x).getLast? ≠ some 0 ∧
    (mpn_zero_p x = true ↔ val x = 0) ∧ mpn_sec_zero_p x = flag (val x = 0) :=
  ⟨Mpi.strip_val x, Mpi.strip_norm x, Mpi.zero_p_iff x, Mpi.sec_zero_p_eq x⟩

example : mpn_strip [0, 3, 0, 0] = [0, 3] := by decide

/-- C31. The constant-time comparisons decide the order of the numbers. -/
theorem mpn_sec_compare_exact (x y : List Limb) (h : x.length = y.length) :
    mpn_sec_equal_p x y = flag (val x = val y) ∧ mpn_sec_lt_p x y = flag (val x < val y) ∧
    mpn_sec_lte_p x y = flag (val x ≤ val y) ∧ mpn_sec_gt_p x y = flag (val x > val y) ∧
    mpn_sec_gte_p x y = flag (val x ≥ val y) ∧ mpn_sec_cmp x y = mpn_cmp x y :=
  ⟨Mpi.sec_equal_p_eq x y h, Mpi.sec_lt_p_eq x y h, Mpi.sec_lte_p_eq x y h, Mpi.sec_gt_p_eq x y h,
   Mpi.sec_gte_p_eq x y h, Mpi.sec_cmp_eq x y h⟩

example : mpn_sec_lt_p [9, 1] [1, 2] = 1 ∧ mpn_sec_cmp [9, 1] [1, 2] = -1 := by decide

/-- C31. The conditional operations do all or nothing: for a zero condition the operand is kept, for any
other condition the operation takes place. -/
theorem mpn_cnd_exact (x y : List Limb) (c : Limb) (h : x.length = y.length) :
    mpn_cnd_zero x c = (if c = 0 then x else mpn_zero x.length) ∧
    mpn_cnd_select x y c = (if c = 0 then x else y) ∧
    mpn_cnd_swap x y c = (if c = 0 then (x, y) else (y, x)) ∧
    mpn_cnd_add_n x y c = (if c = 0 then (x, 0) else mpn_add_n x y) ∧
    mpn_cnd_sub_n x y c = (if c = 0 then (x, 0) else mpn_sub_n x y) ∧
    mpn_cnd_neg x c = (if c = 0 then (x, 0) else mpn_neg x) :=
  ⟨Mpi.cnd_zero_eq x c, Mpi.cnd_select_eq x y c h, Mpi.cnd_swap_eq x y c h, Mpi.cnd_add_n_eq x y c h,
   Mpi.cnd_sub_n_eq x y c h, Mpi.cnd_neg_eq x c⟩

example : mpn_cnd_swap [1, 2] [3, 4] 0x100 = ([3, 4], [1, 2]) := by decide

/-- C31. The constant-time table lookup returns the chosen entry. -/
theorem mpn_sec_tabselect_exact (z : List Limb) (ts : List (List Limb)) (which : Nat)
    (ht : ∀ t ∈ ts, t.length = z.length) (h : which < ts.length) :
    mpn_sec_tabselect z ts which = ts[which] := Mpi.tabselect_eq z ts which ht h

example : mpn_sec_tabselect [0, 0] [[1, 2], [3, 4], [5, 6]] 1 = [3, 4] := by decide

/-- C31. `mpn_neg` is negation modulo `2^(64 n)`; the borrow says whether the number is non-zero. -/
theorem mpn_neg_exact (x : List Limb) :
    val (mpn_neg x).1 = (2 ^ (64 * x.length) - val x) % 2 ^ (64 * x.length) ∧
    (mpn_neg x).1.length = x.length ∧ (mpn_neg x).2.toNat = if val x = 0 then 0 else 1 := Mpi.neg_val x

example : mpn_neg [0, 1] = ([0, BitVec.allOnes 64], 1) := by decide

/-- C31. `mpn_reduce_weak` reduces a number below `2 n`, whose top limb is `hi`, modulo `n`. -/
theorem mpn_reduce_weak_exact (x n : List Limb) (hi : Limb) (hl : x.length = n.length)
    (h : val x + 2 ^ (64 * n.length) * hi.toNat < 2 * val n) :
    val (mpn_reduce_weak x n hi).1 = (val x + 2 ^ (64 * n.length) * hi.toNat) % val n ∧
    (mpn_reduce_weak x n hi).1.length = n.length := Mpi.reduce_weak_val x n hi hl h

example : (mpn_reduce_weak [3] [0xffffffffffffffff] 1).1 = [4] := by decide

/-- C31. The versions of the limb steps for compilers with 128-bit integers equal the portable ones. -/
theorem mp_wide_agrees (z x y c : Limb) :
    mp_add_wide x y = mp_add x y ∧ mp_sub_wide x y = mp_sub x y ∧ mp_mul_wide x y = mp_mul x y ∧
    mp_add_1_wide x y c = mp_add_1 x y c ∧ mp_sub_1_wide x y c = mp_sub_1 x y c ∧
    mp_mul_1_wide x y c = mp_mul_1 x y c ∧ mp_addmul_1_wide z x y c = mp_addmul_1 z x y c ∧
    mp_submul_1_wide z x y c = mp_submul_1 z x y c ∧ mp_neg_1_wide x c = mp_neg_1 x c :=
  ⟨Mpi.mp_add_wide_eq x y, Mpi.mp_sub_wide_eq x y, Mpi.mp_mul_wide_eq x y, Mpi.mp_add_1_wide_eq x y c,
   Mpi.mp_sub_1_wide_eq x y c, Mpi.mp_mul_1_wide_eq x y c, Mpi.mp_addmul_1_wide_eq z x y c,
   Mpi.mp_submul_1_wide_eq z x y c, Mpi.mp_neg_1_wide_eq x c⟩

/-! ### C32: multiplication and squaring -/

/-- C32. `mpn_mul_1` multiplies by a limb. -/
theorem mpn_mul_1_exact (x : List Limb) (y : Limb) :
    val (mpn_mul_1 x y).1 + 2 ^ (64 * x.length) * (mpn_mul_1 x y).2.toNat = val x * y.toNat ∧
    (mpn_mul_1 x y).1.length = x.length := Mpi.mul_1_val x y

/-- C32. `mpn_addmul_1` adds a multiple. -/
theorem mpn_addmul_1_exact (z x : List Limb) (y : Limb) (h : z.length = x.length) :
    val (mpn_addmul_1 z x y).1 + 2 ^ (64 * x.length) * (mpn_addmul_1 z x y).2.toNat
      = val z + val x * y.toNat ∧
    (mpn_addmul_1 z x y).1.length = x.length := Mpi.addmul_1_val z x y h

example : mpn_addmul_1 [BitVec.allOnes 64] [BitVec.allOnes 64] (BitVec.allOnes 64)
    = ([0], BitVec.allOnes 64) := by decide

/-- C32. `mpn_submul_1` subtracts a multiple. -/
theorem mpn_submul_1_exact (z x : List Limb) (y : Limb) (h : z.length = x.length) :
    val (mpn_submul_1 z x y).1 + val x * y.toNat
      = val z + 2 ^ (64 * x.length) * (mpn_submul_1 z x y).2.toNat ∧
    (mpn_submul_1 z x y).1.length = x.length := Mpi.submul_1_val z x y h

example : mpn_submul_1 [0] [BitVec.allOnes 64] (BitVec.allOnes 64)
    = ([BitVec.allOnes 64], BitVec.allOnes 64) := by decide

/-- C32. `mpn_mul` multiplies vectors of any two lengths. -/
theorem mpn_mul_exact (x y : List Limb) :
    val (mpn_mul x y) = val x * val y ∧ (mpn_mul x y).length = x.length + y.length := Mpi.mul_val x y

example : mpn_mul [1, BitVec.allOnes 64] [BitVec.allOnes 64]
    = [BitVec.allOnes 64, 1, BitVec.allOnes 64 - 1] := by decide

/-- C32. `mpn_sqr` squares a vector of any length. -/
theorem mpn_sqr_exact (x : List Limb) :
    val (mpn_sqr x) = val x * val x ∧ (mpn_sqr x).length = 2 * x.length := Mpi.sqr_val x

example : mpn_sqr [0, 1, 2] = [0, 0, 1, 4, 4, 0] := by decide

/-- C32. `mpn_mulshift` is the product divided by `2^bits`, rounded to nearest with ties upwards. -/
theorem mpn_mulshift_exact (x y : List Limb) (bits : Nat) (hl : x.length = y.length)
    (h1 : 64 * x.length ≤ bits) (h2 : bits < 64 * (2 * x.length)) :
    ∃ z c, mpn_mulshift x y bits = .ok (z, c) ∧ z.length = x.length ∧
      val z + 2 ^ (64 * x.length) * c.toNat = (val x * val y + 2 ^ (bits - 1)) / 2 ^ bits :=
  Mpi.mulshift_val x y bits hl h1 h2

example : mpn_mulshift [0, 1] [0, 3] 129 = .ok ([2, 0], 0) := by decide

/-! ### C35: shifts and bits of limb vectors -/

/-- C35. `mpn_lshift` multiplies by a power of two; what leaves the vector is returned. -/
theorem mpn_lshift_exact (x : List Limb) (bits : Nat) (h : bits ≤ 64) (hne : x ≠ []) :
    val (mpn_lshift x bits).1 + 2 ^ (64 * x.length) * (mpn_lshift x bits).2.toNat = val x * 2 ^ bits ∧
    (mpn_lshift x bits).1.length = x.length := Mpi.lshift_val x bits h hne

example : mpn_lshift [1, 0x8000000000000001] 4 = ([16, 16], 8) := by decide

/-- C35. `mpn_rshift` divides by a power of two and returns the remainder. -/
theorem mpn_rshift_exact (x : List Limb) (bits : Nat) (h : bits ≤ 64) (hne : x ≠ []) :
    val (mpn_rshift x bits).1 = val x / 2 ^ bits ∧ (mpn_rshift x bits).2.toNat = val x % 2 ^ bits ∧
    (mpn_rshift x bits).1.length = x.length := Mpi.rshift_val x bits h hne

/-- C35. Bits are read, set, cleared and flipped at any position inside the vector, and nothing else
changes; `mpn_getbit` reads zeros above the vector. -/
theorem mpn_bits_exact (x : List Limb) (pos : Nat) :
    mpn_getbit x pos = flag ((val x).testBit pos = true) ∧
    (pos < 64 * x.length →
      mpn_tstbit x pos = .ok (flag ((val x).testBit pos = true)) ∧
      (∃ z, mpn_setbit x pos = .ok z ∧ z.length = x.length ∧
        ∀ i, (val z).testBit i = (decide (i = pos) || (val x).testBit i)) ∧
      (∃ z, mpn_clrbit x pos = .ok z ∧ z.length = x.length ∧
        ∀ i, (val z).testBit i = (!decide (i = pos) && (val x).testBit i)) ∧
      (∃ z, mpn_combit x pos = .ok z ∧ z.length = x.length ∧
        ∀ i, (val z).testBit i = (decide (i = pos) ^^ (val x).testBit i))) := by
  refine ⟨Mpi.getbit_eq x pos, fun h => ?_⟩
  have h' : pos / 64 < x.length := by omega
  exact ⟨Mpi.tstbit_eq x pos h', Mpi.setbit_eq x pos h', Mpi.clrbit_eq x pos h', Mpi.combit_eq x pos h'⟩

example : mpn_combit [1, 2] 65 = .ok [1, 0] := by decide

/-- C35. `mpn_getbits` extracts a window of fewer than 64 bits, also across a limb boundary;
`mpn_mask` keeps the low bits. -/
theorem mpn_window_exact (x : List Limb) (pos width bits : Nat) (h : width < 64) :
    (mpn_getbits x pos width).toNat = val x / 2 ^ pos % 2 ^ width ∧
    val (mpn_mask x bits) = val x % 2 ^ bits ∧ (mpn_mask x bits).length = x.length :=
  ⟨Mpi.getbits_eq x pos width h, Mpi.mask_val x bits⟩

example : mpn_getbits [0xf000000000000000, 0x5] 62 4 = 0x7 := by decide

/-- C35. `mpn_bitlen` and `mpn_bytelen` are the lengths of the number in base 2 and in base 256;
`mpn_ctz` is the exponent of two in it. -/
theorem mpn_length_exact (x : List Limb) :
    mpn_bitlen x = Nat.size (val x) ∧ mpn_bytelen x = (Nat.size (val x) + 7) / 8 ∧
    (val x = 0 → mpn_ctz x = 64 * x.length) ∧
    (val x ≠ 0 → 2 ^ mpn_ctz x ∣ val x ∧ ¬ 2 ^ (mpn_ctz x + 1) ∣ val x) := by
  refine ⟨Mpi.bitlen_val x, by rw [mpn_bytelen, Mpi.bitlen_val], (Mpi.ctz_val x).1, fun h => ?_⟩
  obtain ⟨h1, h2⟩ := (Mpi.ctz_val x).2 h
  refine ⟨⟨_, h1⟩, fun ⟨k, hk⟩ => ?_⟩
  rw [hk, pow_succ, Nat.mul_assoc, Nat.mul_div_cancel_left _ (Nat.two_pow_pos _)] at h2
  omega

example : mpn_ctz [0, 8] = 67 ∧ mpn_bitlen [0, 8, 0] = 68 := by decide

end Torsion
