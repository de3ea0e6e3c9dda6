import Verif.Mpi.Compact

/-!
# Bit operations on integers (C35) and the compact form (C55)

`Spec.bit i n` is bit `n` of the infinite two's complement form of the integer `i`. An integer is determined
by its bits (`bit_determines`), so a theorem which gives all bits of a result gives the result.
-/
namespace Torsion

open Spec (Rep Room bit FirstBit ones fromCompact)

/-- The specification function is what it should be: two integers with the same bits are equal. -/
theorem bit_determines (i j : Int) (h : ∀ n, bit i n = bit j n) : i = j := Mpi.bit_ext h

example : (bit (-4) 0, bit (-4) 1, bit (-4) 2, bit (-4) 100) = (false, false, true, true) := by decide

/-! ### Logic -/

/-- C35. Conjunction, disjunction, exclusive or and complement, bit by bit, for operands of either sign. -/
theorem mpz_logic_exact (z : Dest) (x y : Mpz) (i j : Int) (hx : Rep x i) (hy : Rep y j)
    (hr : Room z (max x.mag.length y.mag.length + 1)) :
    (∃ t k, mpz_and z x y = .ok t ∧ Rep t k ∧ ∀ n, bit k n = (bit i n && bit j n)) ∧
    (∃ t k, mpz_ior z x y = .ok t ∧ Rep t k ∧ ∀ n, bit k n = (bit i n || bit j n)) ∧
    (∃ t k, mpz_xor z x y = .ok t ∧ Rep t k ∧ ∀ n, bit k n = (bit i n ^^ bit j n)) ∧
    (∃ t k, mpz_com z x = .ok t ∧ Rep t k ∧ ∀ n, bit k n = !bit i n) := by
  refine ⟨Mpi.and_rep hx hy hr, Mpi.ior_rep hx hy hr, Mpi.xor_rep hx hy hr, ?_⟩
  obtain ⟨t, e, rt⟩ := Mpi.com_rep (z := z) hx (Mpi.room_mono hr (by omega))
  exact ⟨t, _, e, rt, Mpi.bit_com i⟩

example : mpz_and .heap ⟨true, [0, 1]⟩ ⟨false, [7, 3]⟩ = .ok ⟨false, [0, 3]⟩ := by decide
example : mpz_ior .heap ⟨true, [6]⟩ ⟨false, [3]⟩ = .ok ⟨true, [5]⟩ := by decide
example : mpz_and .heap ⟨true, [1, 1]⟩ ⟨true, [0, 1]⟩ = .ok ⟨true, [0, 2]⟩ := by decide

/-- C35. The same with a word, unsigned (`mpz_and_ui` returns a word) or signed. -/
theorem mpz_logic_word_exact (z : Dest) (x : Mpz) (i : Int) (w : BitVec 64) (hx : Rep x i)
    (hr : Room z (max x.mag.length 1 + 1)) :
    (∃ t : Limb, mpz_and_ui x w = .ok t ∧ ∀ n, bit t.toNat n = (bit i n && bit w.toNat n)) ∧
    (∃ t k, mpz_ior_ui z x w = .ok t ∧ Rep t k ∧ ∀ n, bit k n = (bit i n || bit w.toNat n)) ∧
    (∃ t k, mpz_xor_ui z x w = .ok t ∧ Rep t k ∧ ∀ n, bit k n = (bit i n ^^ bit w.toNat n)) ∧
    (∃ t k, mpz_and_si z x w = .ok t ∧ Rep t k ∧ ∀ n, bit k n = (bit i n && bit w.toInt n)) ∧
    (∃ t k, mpz_ior_si z x w = .ok t ∧ Rep t k ∧ ∀ n, bit k n = (bit i n || bit w.toInt n)) ∧
    (∃ t k, mpz_xor_si z x w = .ok t ∧ Rep t k ∧ ∀ n, bit k n = (bit i n ^^ bit w.toInt n)) :=
  ⟨Mpi.and_ui_rep w hx, Mpi.ior_ui_rep w hx hr, Mpi.xor_ui_rep w hx hr, Mpi.and_si_rep w hx hr,
    Mpi.ior_si_rep w hx hr, Mpi.xor_si_rep w hx hr⟩

example : mpz_and_ui ⟨true, [0, 5]⟩ 12 = .ok 0 := by decide
example : mpz_ior_si .heap ⟨false, [0, 1]⟩ (-3) = .ok ⟨true, [3]⟩ := by decide

/-- C35. Logic on vectors of limbs of the same length. -/
theorem mpn_logic_exact (x y : List Limb) (h : x.length = y.length) (n : Nat) (hn : n < 64 * x.length) :
    (Spec.val (mpn_and_n x y)).testBit n = ((Spec.val x).testBit n && (Spec.val y).testBit n) ∧
    (Spec.val (mpn_ior_n x y)).testBit n = ((Spec.val x).testBit n || (Spec.val y).testBit n) ∧
    (Spec.val (mpn_xor_n x y)).testBit n = ((Spec.val x).testBit n ^^ (Spec.val y).testBit n) ∧
    (Spec.val (mpn_andn_n x y)).testBit n = ((Spec.val x).testBit n && !(Spec.val y).testBit n) ∧
    (Spec.val (mpn_iorn_n x y)).testBit n = ((Spec.val x).testBit n || !(Spec.val y).testBit n) ∧
    (Spec.val (mpn_nand_n x y)).testBit n = !((Spec.val x).testBit n && (Spec.val y).testBit n) ∧
    (Spec.val (mpn_nior_n x y)).testBit n = !((Spec.val x).testBit n || (Spec.val y).testBit n) ∧
    (Spec.val (mpn_xnor_n x y)).testBit n = !((Spec.val x).testBit n ^^ (Spec.val y).testBit n) ∧
    Spec.val (mpn_com x) + Spec.val x + 1 = 2 ^ (64 * x.length) :=
  ⟨Mpi.zip_testBit _ (fun a b => a && b) (fun a b k _ => Mpi.and_tb a b k) x y h n hn,
    Mpi.zip_testBit _ (fun a b => a || b) (fun a b k _ => Mpi.or_tb a b k) x y h n hn,
    Mpi.zip_testBit _ (fun a b => a ^^ b) (fun a b k _ => Mpi.xor_tb a b k) x y h n hn,
    Mpi.zip_testBit _ (fun a b => a && !b) (fun a b k hk => by rw [Mpi.and_tb, Mpi.not_tb _ _ hk]) x y h n hn,
    Mpi.zip_testBit _ (fun a b => a || !b) (fun a b k hk => by rw [Mpi.or_tb, Mpi.not_tb _ _ hk]) x y h n hn,
    Mpi.zip_testBit _ (fun a b => !(a && b)) (fun a b k hk => by rw [Mpi.not_tb _ _ hk, Mpi.and_tb]) x y h n hn,
    Mpi.zip_testBit _ (fun a b => !(a || b)) (fun a b k hk => by rw [Mpi.not_tb _ _ hk, Mpi.or_tb]) x y h n hn,
    Mpi.zip_testBit _ (fun a b => !(a ^^ b)) (fun a b k hk => by rw [Mpi.not_tb _ _ hk, Mpi.xor_tb]) x y h n hn,
    (Mpi.com_val x).1⟩

example : mpn_nand_n [5, 1] [4, 3] = [0xfffffffffffffffb, 0xfffffffffffffffe] := by decide

/-! ### Powers of two -/

/-- C35. Shifts: to the left a product, to the right a quotient that is cut towards zero (`quo`, with the
remainder `rem` of the sign of the operand) or towards minus infinity (`div`, with `mod` in `[0, 2^bits)`). -/
theorem mpz_2exp_exact (z : Dest) (x : Mpz) (i : Int) (bits : Nat) (hx : Rep x i)
    (hr : Room z (x.mag.length + bits / 64 + 1)) :
    (∃ t, mpz_mul_2exp z x bits = .ok t ∧ Rep t (i * 2 ^ bits)) ∧
    (∃ t, mpz_quo_2exp z x bits = .ok t ∧ Rep t (i.tdiv (2 ^ bits))) ∧
    (∃ t, mpz_rem_2exp z x bits = .ok t ∧ Rep t (i.tmod (2 ^ bits))) ∧
    (∃ t, mpz_div_2exp z x bits = .ok t ∧ Rep t (i / 2 ^ bits)) ∧
    (∃ t, mpz_mod_2exp z x bits = .ok t ∧ Rep t (i % 2 ^ bits)) :=
  ⟨Mpi.mul_2exp_rep bits hx hr, Mpi.quo_2exp_rep bits hx (Mpi.room_mono hr (by omega)),
    Mpi.rem_2exp_rep bits hx (Mpi.room_mono hr (by omega)), Mpi.div_2exp_rep bits hx (Mpi.room_mono hr (by omega)),
    Mpi.mod_2exp_rep bits hx (Mpi.room_mono hr (by omega))⟩

example : mpz_mul_2exp .heap ⟨true, [3]⟩ 127 = .ok ⟨true, [0, 0x8000000000000000, 1]⟩ := by decide
example : mpz_div_2exp .heap ⟨true, [5]⟩ 1 = .ok ⟨true, [3]⟩ := by decide
example : mpz_quo_2exp .heap ⟨true, [5]⟩ 1 = .ok ⟨true, [2]⟩ := by decide
example : mpz_mod_2exp .heap ⟨true, [5]⟩ 66 = .ok ⟨false, [0xfffffffffffffffb, 3]⟩ := by decide
example : mpz_rem_2exp .heap ⟨true, [5, 6]⟩ 66 = .ok ⟨true, [5, 2]⟩ := by decide

/-- C35. Divisibility by, and congruence modulo, a power of two. -/
theorem mpz_2exp_predicates_exact (x y : Mpz) (i j : Int) (bits : Nat) (hx : Rep x i) (hy : Rep y j) :
    mpz_divisible_2exp_p x bits = .ok (decide ((2 : Int) ^ bits ∣ i)) ∧
    mpz_congruent_2exp_p x y bits = .ok (decide ((2 : Int) ^ bits ∣ i - j)) :=
  ⟨Mpi.divisible_2exp_rep bits hx, Mpi.congruent_2exp_rep bits hx hy⟩

example : mpz_divisible_2exp_p ⟨true, [0, 4]⟩ 66 = .ok true := by decide
example : mpz_congruent_2exp_p ⟨true, [1]⟩ ⟨false, [7]⟩ 3 = .ok true := by decide

/-- C35. Division rounded to nearest, halves away from zero, and the product shifted right with the same
rounding. -/
theorem mpz_rounded_exact (z : Dest) (x y : Mpz) (i j : Int) (bits : Nat) (hx : Rep x i) (hy : Rep y j)
    (hr : Room z (x.mag.length + y.mag.length + 1)) :
    (j ≠ 0 → ∃ t, mpz_divround z x y = .ok t ∧ Rep t (Spec.divRound i j)) ∧
    (∃ t, mpz_mulshift z x y bits = .ok t ∧ Rep t (Spec.divRound (i * j) (2 ^ bits))) :=
  ⟨fun hj => Mpi.divround_rep hx hy hj (Mpi.room_mono hr (by omega)), Mpi.mulshift_rep bits hx hy hr⟩

example : mpz_divround .heap ⟨true, [7]⟩ ⟨false, [2]⟩ = .ok ⟨true, [4]⟩ := by decide
example : mpz_mulshift .heap ⟨true, [7]⟩ ⟨false, [1, 1]⟩ 65 = .ok ⟨true, [4]⟩ := by decide

/-! ### Single bits -/

/-- C35. Reading a bit. -/
theorem mpz_tstbit_exact (x : Mpz) (i : Int) (pos : Nat) (hx : Rep x i) :
    mpz_tstbit x pos = .ok (bit i pos) := Mpi.tstbit_rep pos hx

example : mpz_tstbit ⟨true, [0, 1]⟩ 64 = .ok true := by decide
example : mpz_tstbit ⟨true, [0, 1]⟩ 63 = .ok false := by decide

/-- C35. What `mpz_setbit` does, for every integer and position: the bit is set, except if the integer is
negative, a multiple of `2^pos`, and the bit is clear. Then `2^pos` is subtracted instead of added. -/
theorem mpz_setbit_partial (z : Mpz) (i : Int) (pos : Nat) (hz : Rep z i) :
    ∃ t k, mpz_setbit z pos = .ok t ∧ Rep t k ∧
      (¬ (i < 0 ∧ (2 : Int) ^ pos ∣ i ∧ bit i pos = false) → ∀ n, bit k n = (decide (n = pos) || bit i n)) ∧
      (i < 0 ∧ (2 : Int) ^ pos ∣ i ∧ bit i pos = false → k = i - 2 ^ pos) := by
  obtain ⟨t, e, rt⟩ := Mpi.setbit_rep pos hz
  refine ⟨t, _, e, rt, ?_, ?_⟩
  · intro hc n
    cases hb : bit i pos
    · rw [if_neg (by simp), if_neg (fun h => hc ⟨h.1, h.2, hb⟩), Mpi.bit_set hb]
    · rw [if_pos rfl]
      by_cases hn : n = pos
      · subst hn; rw [hb]; simp
      · rw [decide_eq_false hn, Bool.false_or]
  · rintro ⟨h1, h2, h3⟩
    rw [h3, if_neg (by simp), if_pos ⟨h1, h2⟩]

/-- C35. What `mpz_clrbit` does, for every integer and position: the bit is cleared, except if the integer
is negative, a multiple of `2^pos`, and the bit is set. Then `2^pos` is added instead of subtracted. -/
theorem mpz_clrbit_partial (z : Mpz) (i : Int) (pos : Nat) (hz : Rep z i) :
    ∃ t k, mpz_clrbit z pos = .ok t ∧ Rep t k ∧
      (¬ (i < 0 ∧ (2 : Int) ^ pos ∣ i ∧ bit i pos = true) → ∀ n, bit k n = (decide (n ≠ pos) && bit i n)) ∧
      (i < 0 ∧ (2 : Int) ^ pos ∣ i ∧ bit i pos = true → k = i + 2 ^ pos) := by
  obtain ⟨t, e, rt⟩ := Mpi.clrbit_rep pos hz
  refine ⟨t, _, e, rt, ?_, ?_⟩
  · intro hc n
    cases hb : bit i pos
    · rw [if_neg (by simp)]
      by_cases hn : n = pos
      · subst hn; rw [hb]; simp
      · rw [decide_eq_true hn, Bool.true_and]
    · rw [if_pos rfl, if_neg (fun h => hc ⟨h.1, h.2, hb⟩), Mpi.bit_clear hb]
  · rintro ⟨h1, h2, h3⟩
    rw [h3, if_pos rfl, if_pos ⟨h1, h2⟩]

/-- C35. What `mpz_combit` does: the bit is inverted, except if the integer is negative and a multiple of
`2^pos`. Then the sign of the correction is wrong. -/
theorem mpz_combit_partial (z : Mpz) (i : Int) (pos : Nat) (hz : Rep z i) :
    ∃ t k, mpz_combit z pos = .ok t ∧ Rep t k ∧
      (¬ (i < 0 ∧ (2 : Int) ^ pos ∣ i) → ∀ n, bit k n = (decide (n = pos) ^^ bit i n)) ∧
      (i < 0 ∧ (2 : Int) ^ pos ∣ i → k = if bit i pos then i + 2 ^ pos else i - 2 ^ pos) := by
  obtain ⟨t, e, rt⟩ := Mpi.combit_rep pos hz
  refine ⟨t, _, e, rt, ?_, ?_⟩
  · intro hc n
    rw [decide_eq_false hc]
    cases hb : bit i pos
    · rw [if_pos rfl, Mpi.bit_set hb]
      by_cases hn : n = pos
      · subst hn; rw [hb]; simp
      · rw [decide_eq_false hn]; simp
    · rw [if_neg (by simp), Mpi.bit_clear hb]
      by_cases hn : n = pos
      · subst hn; rw [hb]; simp
      · rw [decide_eq_true hn, decide_eq_false hn]; simp
  · intro h
    rw [decide_eq_true h]

example : mpz_setbit ⟨true, [6]⟩ 2 = .ok ⟨true, [2]⟩ := by decide
example : mpz_clrbit ⟨true, [3]⟩ 2 = .ok ⟨true, [7]⟩ := by decide

/-- C35. The exceptions are real, so `mpz_setbit` does not set bit 1 of -4 properly: the result is -6 where
it should be -2. -/
theorem mpz_setbit_wrong : ∃ z t i k pos, Rep z i ∧ mpz_setbit z pos = .ok t ∧ Rep t k ∧
    ∃ n, bit k n ≠ (decide (n = pos) || bit i n) :=
  ⟨⟨true, [4]⟩, ⟨true, [6]⟩, -4, -6, 1, ⟨⟨by decide, fun _ => by decide⟩, by decide⟩, by decide,
    ⟨⟨by decide, fun _ => by decide⟩, by decide⟩, 2, by decide⟩

/-- C35. Clearing bit 2 of -4 gives 0 where it should be -8. -/
theorem mpz_clrbit_wrong : ∃ z t i k pos, Rep z i ∧ mpz_clrbit z pos = .ok t ∧ Rep t k ∧
    ∃ n, bit k n ≠ (decide (n ≠ pos) && bit i n) :=
  ⟨⟨true, [4]⟩, ⟨false, []⟩, -4, 0, 2, ⟨⟨by decide, fun _ => by decide⟩, by decide⟩, by decide,
    ⟨⟨by decide, fun h => by cases h⟩, by decide⟩, 3, by decide⟩

/-- C35. Inverting bit 1 of -4 gives -6 where it should be -2. -/
theorem mpz_combit_wrong : ∃ z t i k pos, Rep z i ∧ mpz_combit z pos = .ok t ∧ Rep t k ∧
    ∃ n, bit k n ≠ (decide (n = pos) ^^ bit i n) :=
  ⟨⟨true, [4]⟩, ⟨true, [6]⟩, -4, -6, 1, ⟨⟨by decide, fun _ => by decide⟩, by decide⟩, by decide,
    ⟨⟨by decide, fun _ => by decide⟩, by decide⟩, 2, by decide⟩

/-! ### Searching and counting -/

/-- C35. The first zero or one from a position on, and `MP_BITS_MAX` if there is none. -/
theorem mpz_scan_exact (x : Mpz) (i : Int) (pos : Nat) (hx : Rep x i) :
    (FirstBit i false pos (mpz_scan0 x pos) ∨
      ((∀ n, pos ≤ n → bit i n = true) ∧ mpz_scan0 x pos = 2 ^ 63 - 1)) ∧
    (FirstBit i true pos (mpz_scan1 x pos) ∨
      ((∀ n, pos ≤ n → bit i n = false) ∧ mpz_scan1 x pos = 2 ^ 63 - 1)) :=
  ⟨Mpi.scan0_rep pos hx, Mpi.scan1_rep pos hx⟩

example : mpz_scan0 ⟨true, [0, 2]⟩ 65 = 2 ^ 63 - 1 := by decide
example : mpz_scan1 ⟨true, [0, 2]⟩ 3 = 65 := by decide
example : mpz_scan0 ⟨true, [0, 2]⟩ 3 = 3 := by decide

/-- C35. The same for vectors of limbs. A zero is always found: there are zeros above the top limb. -/
theorem mpn_scan_exact (x : List Limb) (pos : Nat) :
    FirstBit (Spec.val x) false pos (mpn_scan0 x pos) ∧
    (FirstBit (Spec.val x) true pos (mpn_scan1 x pos) ∨
      ((∀ n, pos ≤ n → bit (Spec.val x) n = false) ∧ mpn_scan1 x pos = 2 ^ 63 - 1)) := by
  refine ⟨?_, ?_⟩
  · rcases Mpi.mpn_scan_bits false x pos with h | ⟨h, -⟩
    · exact h
    · cases h
  · rcases Mpi.mpn_scan_bits true x pos with h | ⟨-, h, h'⟩
    · exact .inl h
    · exact .inr ⟨h, h'⟩

example : mpn_scan0 [BitVec.allOnes 64, 7] 10 = 67 := by decide

/-- C35. The number of ones, and the number of places where two integers differ; `MP_BITS_MAX` where that is
infinite. -/
theorem mpz_counts_exact (x y : Mpz) (i j : Int) (hx : Rep x i) (hy : Rep y j) :
    (0 ≤ i → mpz_popcount x = ones i.natAbs) ∧ (i < 0 → mpz_popcount x = 2 ^ 63 - 1) ∧
    (∀ d : Nat, (∀ n, bit d n = (bit i n ^^ bit j n)) → mpz_hamdist x y = ones d) ∧
    ((¬ (i < 0 ↔ j < 0)) → mpz_hamdist x y = 2 ^ 63 - 1) := by
  rw [Mpi.popcount_rep hx, Mpi.hamdist_rep hx hy]
  refine ⟨fun h => if_neg (by omega), fun h => if_pos h, fun d hd => ?_, fun h => if_neg h⟩
  have hx1 := Mpi.bit_low i
  have hy1 := Mpi.bit_low j
  by_cases hs : i < 0 ↔ j < 0
  · rw [if_pos hs]
    congr 1
    apply Nat.eq_of_testBit_eq
    intro n
    have := hd n
    rw [Mpi.bit_nonneg, hx1, hy1, show decide (i < 0) = decide (j < 0) from decide_eq_decide.2 hs] at this
    rw [this, Nat.testBit_xor]
    cases decide (j < 0) <;> cases (Mpi.low i).testBit n <;> cases (Mpi.low j).testBit n <;> rfl
  · exfalso
    have hbig : ∀ m k : Nat, m.testBit (m + k) = false := fun m k =>
      Nat.testBit_lt_two_pow (lt_of_le_of_lt (by omega) Nat.lt_two_pow_self)
    have := hd (Mpi.low i + (Mpi.low j + d))
    rw [Mpi.bit_nonneg, hx1, hy1, hbig, show Mpi.low i + (Mpi.low j + d) = Mpi.low j + (Mpi.low i + d) by omega, hbig,
      show Mpi.low j + (Mpi.low i + d) = d + (Mpi.low i + Mpi.low j) by omega, hbig, Bool.xor_false, Bool.xor_false] at this
    by_cases h1 : i < 0
    · have h2 : ¬ j < 0 := fun h => hs ⟨fun _ => h, fun _ => h1⟩
      rw [decide_eq_true h1, decide_eq_false h2] at this; cases this
    · have h2 : j < 0 := by by_contra h; exact hs ⟨fun h' => absurd h' h1, fun h' => absurd h' h⟩
      rw [decide_eq_false h1, decide_eq_true h2] at this; cases this

example : mpz_popcount ⟨false, [0xf0f0, 3]⟩ = 10 := by decide
example : mpz_hamdist ⟨true, [0, 1]⟩ ⟨true, [1]⟩ = 64 := by decide
example : ones 0xf0f3 = 10 := by decide

/-- C35. The same for limbs and vectors of limbs. -/
theorem mpn_counts_exact (w : Limb) (x y : List Limb) :
    mp_popcount w = ones w.toNat ∧ mpn_popcount x = ones (Spec.val x) ∧
    (x.length = y.length → mpn_hamdist x y = ones (Spec.val x ^^^ Spec.val y)) :=
  ⟨Mpi.mp_popcount_eq w, Mpi.mpn_popcount_eq x, Mpi.mpn_hamdist_eq x y⟩

example : mpn_hamdist [1, 2] [2, 2] = 2 := by decide

/-- C35. Parity, length in bits and in bytes, and the number of trailing zeros. -/
theorem mpz_length_exact (x : Mpz) (i : Int) (hx : Rep x i) :
    mpz_odd_p x = .ok (decide (i % 2 = 1)) ∧ mpz_even_p x = .ok (decide (i % 2 = 0)) ∧
    mpz_bitlen x = .ok (Nat.size i.natAbs) ∧ mpz_bytelen x = .ok ((Nat.size i.natAbs + 7) / 8) ∧
    (i = 0 → mpz_ctz x = 0) ∧
    (i ≠ 0 → (2 : Int) ^ mpz_ctz x ∣ i ∧ ¬ (2 : Int) ^ (mpz_ctz x + 1) ∣ i) := by
  refine ⟨Mpi.odd_rep hx, Mpi.even_rep hx, Mpi.bitlen_rep hx, Mpi.bytelen_rep hx, fun h => ?_, Mpi.ctz_rep hx⟩
  unfold mpz_ctz
  rw [(Mpi.rep_nil hx).2 h]
  rfl

example : mpz_bitlen ⟨true, [0, 5]⟩ = .ok 67 := by decide
example : mpz_ctz ⟨true, [0, 12]⟩ = 66 := by decide

/-! ### Compact form -/

/-- C55. Reading a compact word. Bits above 31 are ignored. -/
theorem mpz_set_compact_exact (w : Limb) :
    ∃ t, mpz_set_compact w = .ok t ∧ Rep t (fromCompact w.toNat) := Mpi.set_compact_rep w

example : mpz_set_compact 0x1b0404cb = .ok ⟨false, [0, 0, 0, 0x404cb]⟩ := by decide

/-- C55. Writing an integer of at most 254 bytes: the word fits 32 bits and stands for the integer cut
towards zero after a whole number of bytes. At least 16 significant bits are kept if anything is cut. -/
theorem mpz_get_compact_exact (x : Mpz) (i : Int) (hx : Rep x i) (hs : Nat.size i.natAbs ≤ 254 * 8) :
    ∃ w d, mpz_get_compact x = .ok w ∧ w.toNat < 2 ^ 32 ∧
      fromCompact w.toNat = i.sign * ((i.natAbs / 256 ^ d * 256 ^ d : Nat) : Int) ∧ i.natAbs / 256 ^ d < 2 ^ 23 ∧
      (d = 0 ∨ 2 ^ 15 ≤ i.natAbs / 256 ^ d) := Mpi.get_compact_rep hx hs

/-- C55. Whatever can be written as three bytes below `2^23` followed by zero bytes comes back unchanged. -/
theorem mpz_compact_roundtrip (x : Mpz) (i : Int) (m e : Nat) (hx : Rep x i) (hi : i.natAbs = m * 256 ^ e)
    (hm : m < 2 ^ 23) (hs : Nat.size i.natAbs ≤ 254 * 8) :
    ∃ w, mpz_get_compact x = .ok w ∧ mpz_set_compact w = .ok x := by
  obtain ⟨w, d, ew, -, hv, h1, h2⟩ := Mpi.get_compact_rep hx hs
  obtain ⟨t, et, rt⟩ := Mpi.set_compact_rep w
  have hde : d ≤ e := by
    rcases h2 with h2 | h2
    · omega
    · by_contra hc
      have h4 : i.natAbs / 256 ^ d ≤ m / 256 := by
        rw [hi]
        calc m * 256 ^ e / 256 ^ d ≤ m * 256 ^ e / 256 ^ (e + 1) :=
              Nat.div_le_div_left (Nat.pow_le_pow_right (by omega) (by omega)) (by positivity)
          _ = m / 256 := by
              rw [pow_succ, Nat.mul_comm (256 ^ e) 256]
              exact Nat.mul_div_mul_right _ _ (by positivity)
      omega
  have hdiv : i.natAbs / 256 ^ d * 256 ^ d = i.natAbs := by
    rw [hi]; exact Nat.div_mul_cancel (Dvd.dvd.mul_left (Nat.pow_dvd_pow _ hde) _)
  rw [hdiv, Int.sign_mul_natAbs] at hv
  rw [hv] at rt
  exact ⟨w, ew, by rw [et, Mpi.rep_unique rt hx]⟩

example : mpz_get_compact ⟨true, [0, 0, 0, 0x404cb]⟩ = .ok 0x1b8404cb := by decide

end Torsion
