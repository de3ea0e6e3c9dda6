import Verif.Mpi.LimbLemmas

/-! Lemmas about counting bits of a limb. -/
namespace Torsion.Mpi

theorem popcount_ones : ∀ k : Fin 65, mp_popcount (BitVec.ofNat 64 (2 ^ k.val - 1)) = k.val := by
  decide +kernel

theorem popcount_pow (x : Limb) (k : Nat) (hk : k ≤ 64) (hx : x.toNat = 2 ^ k - 1) :
    mp_popcount x = k := by
  have : x = BitVec.ofNat 64 (2 ^ k - 1) := by
    rw [← hx]; simp
  rw [this]
  exact popcount_ones ⟨k, by omega⟩

/-- `y` has bit `i` iff `x` has one of the bits `i .. i + w - 1`. -/
def Smear (x y : Limb) (w : Nat) : Prop :=
  ∀ i, y.toNat.testBit i = true ↔ ∃ j < w, x.toNat.testBit (i + j) = true

theorem smear_step {x y : Limb} {w : Nat} (h : Smear x y w) : Smear x (y ||| (y >>> w)) (w + w) := by
  intro i
  rw [BitVec.toNat_or, Nat.testBit_or, BitVec.toNat_ushiftRight, Nat.testBit_shiftRight,
    Bool.or_eq_true, h i, h (w + i)]
  constructor
  · rintro (⟨j, hj, e⟩ | ⟨j, hj, e⟩)
    · exact ⟨j, by omega, e⟩
    · exact ⟨w + j, by omega, by rw [show i + (w + j) = w + i + j by omega]; exact e⟩
  · rintro ⟨j, hj, e⟩
    by_cases hw : j < w
    · exact Or.inl ⟨j, hw, e⟩
    · exact Or.inr ⟨j - w, by omega, by rw [show w + i + (j - w) = i + j by omega]; exact e⟩

theorem smear_one (x : Limb) : Smear x x 1 := by
  intro i
  constructor
  · intro h; exact ⟨0, by omega, h⟩
  · rintro ⟨j, hj, e⟩
    rw [show j = 0 by omega] at e
    exact e

theorem size_le (x : Limb) : Nat.size x.toNat ≤ 64 := Nat.size_le.2 x.isLt

theorem smear_full {x y : Limb} (h : Smear x y 64) : y.toNat = 2 ^ Nat.size x.toNat - 1 := by
  apply Nat.eq_of_testBit_eq
  intro i
  rw [Nat.testBit_two_pow_sub_one, Bool.eq_iff_iff, h i, decide_eq_true_iff, Nat.lt_size]
  constructor
  · rintro ⟨j, _, e⟩
    exact le_trans (Nat.pow_le_pow_right (by omega) (by omega)) (Nat.ge_two_pow_of_testBit e)
  · intro hi
    obtain ⟨k, hk, e⟩ := Nat.exists_ge_and_testBit_of_ge_two_pow hi
    have hk64 : k < 64 := by
      by_contra hc
      have h1 := Nat.ge_two_pow_of_testBit e
      have h2 : 2 ^ 64 ≤ 2 ^ k := Nat.pow_le_pow_right (by omega) (by omega)
      have := x.isLt
      omega
    exact ⟨k - i, by omega, by rw [show i + (k - i) = k by omega]; exact e⟩

theorem mp_clz_eq (x : Limb) : mp_clz x = 64 - Nat.size x.toNat := by
  unfold mp_clz
  have h := smear_step (smear_step (smear_step (smear_step (smear_step (smear_step (smear_one x))))))
  have e := smear_full h
  dsimp only [Nat.reduceAdd] at e ⊢
  rw [popcount_pow _ _ (size_le x) e]

theorem mp_bitlen_eq (x : Limb) : mp_bitlen x = Nat.size x.toNat := by
  unfold mp_bitlen
  rw [mp_clz_eq]
  have := size_le x
  omega

theorem isolate (x : Limb) (k : Nat) (hk : x.getLsbD k = true) (hmin : ∀ j < k, x.getLsbD j = false) :
    x &&& -x = BitVec.twoPow 64 k := by
  have hk64 : k < 64 := by
    by_contra hc
    rw [BitVec.getLsbD_of_ge _ _ (by omega)] at hk
    exact absurd hk (by decide)
  apply BitVec.eq_of_getLsbD_eq
  intro i hi
  rw [BitVec.getLsbD_and, BitVec.getLsbD_neg, BitVec.getLsbD_twoPow]
  rcases Nat.lt_trichotomy i k with h | h | h
  · rw [hmin i h]
    simp; omega
  · subst h
    have : ¬ ∃ j < i, x.getLsbD j = true := by
      rintro ⟨j, hj, e⟩
      rw [hmin j hj] at e
      exact absurd e (by decide)
    rw [hk]
    simp only [this, hi]
    simp
  · have : ∃ j < i, x.getLsbD j = true := ⟨k, h, hk⟩
    simp only [hi, this]
    simp; omega

theorem mp_ctz_zero : mp_ctz 0 = 64 := by decide +kernel

theorem mp_ctz_least (x : Limb) (h : x ≠ 0) :
    x.toNat.testBit (mp_ctz x) = true ∧ (∀ j < mp_ctz x, x.toNat.testBit j = false) := by
  have hex : ∃ k, x.getLsbD k = true := by
    by_contra hc
    push Not at hc
    apply h
    apply BitVec.eq_of_getLsbD_eq
    intro i _
    have := hc i
    simp only [Bool.not_eq_true] at this
    rw [this]; simp
  have hk := Nat.find_spec hex
  have hm : ∀ j < Nat.find hex, x.getLsbD j = false := by
    intro j hj
    have := Nat.find_min hex hj
    simpa using this
  have hk64 : Nat.find hex < 64 := by
    by_contra hc
    rw [BitVec.getLsbD_of_ge _ _ (by omega)] at hk
    exact absurd hk (by decide)
  have e : mp_ctz x = Nat.find hex := by
    unfold mp_ctz
    rw [isolate x _ hk hm]
    refine popcount_pow _ _ (by omega) ?_
    rw [BitVec.toNat_sub, BitVec.toNat_twoPow]
    have h1 : 2 ^ Nat.find hex < 2 ^ 64 := Nat.pow_lt_pow_right (by omega) hk64
    have h2 : 0 < 2 ^ Nat.find hex := Nat.pos_of_ne_zero (by positivity)
    rw [Nat.mod_eq_of_lt h1, show (1 : Limb).toNat = 1 from rfl]
    omega
  rw [e]
  exact ⟨hk, hm⟩

theorem mp_ctz_lt (x : Limb) (h : x ≠ 0) : mp_ctz x < 64 := by
  by_contra hc
  have := (mp_ctz_least x h).1
  have h1 := Nat.ge_two_pow_of_testBit this
  have h2 : 2 ^ 64 ≤ 2 ^ mp_ctz x := Nat.pow_le_pow_right (by omega) (by omega)
  have := x.isLt
  omega

theorem low_zero_mod {n k : Nat} (h : ∀ j < k, n.testBit j = false) : n % 2 ^ k = 0 := by
  apply Nat.eq_of_testBit_eq
  intro i
  rw [Nat.testBit_mod_two_pow, Nat.zero_testBit]
  by_cases hi : i < k
  · simp [h i hi]
  · simp [hi]

/-- The number is an odd multiple of `2^ctz`. -/
theorem mp_ctz_val (x : Limb) (h : x ≠ 0) :
    x.toNat = 2 ^ mp_ctz x * (x.toNat / 2 ^ mp_ctz x) ∧ x.toNat / 2 ^ mp_ctz x % 2 = 1 := by
  obtain ⟨h1, h2⟩ := mp_ctz_least x h
  refine ⟨?_, ?_⟩
  · have := low_zero_mod h2
    have := Nat.div_add_mod x.toNat (2 ^ mp_ctz x)
    omega
  · rw [Nat.testBit_eq_decide_div_mod_eq] at h1
    simpa using h1

end Torsion.Mpi
