import Verif.Mpi.MpzMore

/-!
# The signed integers are the integers (C34)

`Spec.Rep x i`: the `mpz_t` `x` is in normal form (no leading zero limb, no negative zero) and stands for
`i`. Each theorem says that the result of the operation represents the integer result, so it is in normal
form again and no operation aborts or leaves its memory. `Spec.Room z n` says that a destination which
cannot be resized (a stack temporary) has `n` limbs; it holds for every heap destination.
-/
namespace Torsion

open Spec (Rep Room)

/-- C34. Every integer has a representation and only one: comparing or hashing the stored form is
comparing integers. -/
theorem mpz_rep_bijective (i : Int) : ∃ x, Rep x i ∧ ∀ y, Rep y i → y = x := by
  obtain ⟨x, hx⟩ := Mpi.int_rep i
  exact ⟨x, hx, fun y hy => Mpi.rep_unique hy hx⟩

example : Rep ⟨true, [0, 3]⟩ (-(3 * 2 ^ 64)) := by
  refine ⟨⟨by decide, fun _ => by decide⟩, ?_⟩
  decide

/-- C34. Sum and difference. -/
theorem mpz_add_sub_exact (z : Dest) (x y : Mpz) (i j : Int) (hx : Rep x i) (hy : Rep y j)
    (hr : Room z (max x.mag.length y.mag.length + 1)) :
    (∃ t, mpz_add z x y = .ok t ∧ Rep t (i + j)) ∧ (∃ t, mpz_sub z x y = .ok t ∧ Rep t (i - j)) :=
  ⟨Mpi.add_rep hx hy hr, Mpi.sub_rep hx hy hr⟩

example : mpz_sub .heap ⟨false, [0, 0, 1]⟩ ⟨false, [BitVec.allOnes 64, BitVec.allOnes 64]⟩ = .ok ⟨false, [1]⟩ := by
  decide
example : mpz_add .heap ⟨true, [0, 0, 1]⟩ ⟨false, [0, 0, 1]⟩ = .ok ⟨false, []⟩ := by decide

/-- C34. Sum and difference with a word, signed or not, on either side. -/
theorem mpz_add_sub_word_exact (z : Dest) (x : Mpz) (i : Int) (w : BitVec 64) (hx : Rep x i)
    (hr : Room z (x.mag.length + 1)) :
    (∃ t, mpz_add_ui z x w = .ok t ∧ Rep t (i + w.toNat)) ∧
    (∃ t, mpz_sub_ui z x w = .ok t ∧ Rep t (i - w.toNat)) ∧
    (∃ t, mpz_ui_sub z w x = .ok t ∧ Rep t (w.toNat - i)) ∧
    (∃ t, mpz_add_si z x w = .ok t ∧ Rep t (i + w.toInt)) ∧
    (∃ t, mpz_sub_si z x w = .ok t ∧ Rep t (i - w.toInt)) ∧
    (∃ t, mpz_si_sub z w x = .ok t ∧ Rep t (w.toInt - i)) :=
  ⟨Mpi.add_ui_rep w hx hr, Mpi.sub_ui_rep w hx hr, Mpi.ui_sub_rep w hx hr, Mpi.add_si_rep w hx hr,
    Mpi.sub_si_rep w hx hr, Mpi.si_sub_rep w hx hr⟩

example : mpz_sub_ui .heap ⟨false, [3]⟩ 5 = .ok ⟨true, [2]⟩ := by decide
example : mpz_si_sub .heap 0x8000000000000000 ⟨true, [0x8000000000000000]⟩ = .ok ⟨false, []⟩ := by decide

/-- C34. Negation, absolute value, assignment. -/
theorem mpz_neg_abs_set_exact (z : Dest) (x : Mpz) (i : Int) (hx : Rep x i) (hr : Room z x.mag.length) :
    (∃ t, mpz_neg z x = .ok t ∧ Rep t (-i)) ∧ (∃ t, mpz_abs z x = .ok t ∧ Rep t |i|) ∧
    (∃ t, mpz_set z x = .ok t ∧ Rep t i) := by
  refine ⟨Mpi.neg_rep hx hr, ?_, Mpi.set_rep hx hr⟩
  rw [← Int.natCast_natAbs]
  exact Mpi.abs_rep hx hr

/-- C34. Words in and out: the low 64 bits of the magnitude come back, and as a signed word every integer
in its range. -/
theorem mpz_set_get_word_exact (w : BitVec 64) (x : Mpz) (i : Int) (hx : Rep x i) :
    Rep (mpz_set_ui w) w.toNat ∧ Rep (mpz_set_si w) w.toInt ∧
    (∃ r, mpz_get_ui x = .ok r ∧ r.toNat = i.natAbs % 2 ^ 64) ∧
    (∃ r, mpz_get_si x = .ok r ∧ (-2 ^ 63 ≤ i → i < 2 ^ 63 → r.toInt = i)) :=
  ⟨Mpi.set_ui_rep w, Mpi.set_si_rep w, Mpi.get_ui_rep hx, Mpi.get_si_rep hx⟩

/-- C34. Sign and comparison, with integers, words and signed words, and of magnitudes. -/
theorem mpz_cmp_exact (x y : Mpz) (i j : Int) (w : BitVec 64) (hx : Rep x i) (hy : Rep y j) :
    mpz_sgn x = i.sign ∧ mpz_cmp x y = (i - j).sign ∧ mpz_cmp_ui x w = (i - w.toNat).sign ∧
    mpz_cmp_si x w = (i - w.toInt).sign ∧ mpz_cmpabs x y = (|i| - |j|).sign := by
  have key : ∀ a b : Int, (a - b).sign = if a < b then -1 else if a = b then 0 else 1 := by
    intro a b
    split
    · exact Int.sign_eq_neg_one_of_neg (by omega)
    · split
      · rw [Int.sub_eq_zero.2 (by assumption)]; rfl
      · exact Int.sign_eq_one_of_pos (by omega)
  refine ⟨Mpi.sgn_rep hx, (Mpi.cmp_rep hx hy).trans (key _ _).symm, (Mpi.cmp_ui_rep hx w).trans (key _ _).symm,
    (Mpi.cmp_si_rep hx w).trans (key _ _).symm, (Mpi.cmpabs_rep hx hy).trans ?_⟩
  rw [key, ← Int.natCast_natAbs, ← Int.natCast_natAbs]
  simp only [Int.ofNat_lt, Int.natCast_inj]

example : mpz_cmp_si ⟨true, [0x8000000000000000]⟩ 0x8000000000000000 = 0 := by decide

/-- C34. Product. -/
theorem mpz_mul_exact (z : Dest) (x y : Mpz) (i j : Int) (hx : Rep x i) (hy : Rep y j)
    (hr : Room z (x.mag.length + y.mag.length)) : ∃ t, mpz_mul z x y = .ok t ∧ Rep t (i * j) :=
  Mpi.mul_rep hx hy hr

example : mpz_mul .heap ⟨true, [BitVec.allOnes 64]⟩ ⟨false, [BitVec.allOnes 64]⟩ = .ok ⟨true, [1, 0xfffffffffffffffe]⟩ := by
  decide

/-- C34. Square, whether or not the destination is the argument. -/
theorem mpz_sqr_exact (z : Dest) (x : Mpz) (i : Int) (al : Bool) (hx : Rep x i)
    (hr : Room z (x.mag.length * 2)) : ∃ t, mpz_sqr z x al = .ok t ∧ Rep t (i * i) :=
  Mpi.sqr_rep al hx hr

/-- C34. Product with a word. -/
theorem mpz_mul_word_exact (z : Dest) (x : Mpz) (i : Int) (w : BitVec 64) (hx : Rep x i)
    (hr : Room z (x.mag.length + 1)) :
    (∃ t, mpz_mul_ui z x w = .ok t ∧ Rep t (i * w.toNat)) ∧
    (∃ t, mpz_mul_si z x w = .ok t ∧ Rep t (i * w.toInt)) :=
  ⟨Mpi.mul_ui_rep w hx hr, Mpi.mul_si_rep w hx hr⟩

/-- C34. Multiply and add, multiply and subtract. -/
theorem mpz_addmul_exact (z : Dest) (s x y : Mpz) (k i j : Int) (hs : Rep s k) (hx : Rep x i) (hy : Rep y j)
    (hr : Room z (max s.mag.length (x.mag.length + y.mag.length) + 1)) :
    (∃ t, mpz_addmul z s x y = .ok t ∧ Rep t (k + i * j)) ∧
    (∃ t, mpz_submul z s x y = .ok t ∧ Rep t (k - i * j)) :=
  ⟨Mpi.addmul_rep hs hx hy hr, Mpi.submul_rep hs hx hy hr⟩

/-- C34. The same with a word. -/
theorem mpz_addmul_word_exact (z : Dest) (s x : Mpz) (k i : Int) (w : BitVec 64) (hs : Rep s k) (hx : Rep x i)
    (hr : Room z (max s.mag.length (x.mag.length + 1) + 1)) :
    (∃ t, mpz_addmul_ui z s x w = .ok t ∧ Rep t (k + i * w.toNat)) ∧
    (∃ t, mpz_submul_ui z s x w = .ok t ∧ Rep t (k - i * w.toNat)) ∧
    (∃ t, mpz_addmul_si z s x w = .ok t ∧ Rep t (k + i * w.toInt)) ∧
    (∃ t, mpz_submul_si z s x w = .ok t ∧ Rep t (k - i * w.toInt)) :=
  ⟨Mpi.addmul_ui_rep w hs hx hr, Mpi.submul_ui_rep w hs hx hr, Mpi.addmul_si_rep w hs hx hr,
    Mpi.submul_si_rep w hs hx hr⟩

/-- C34. Powers, with 0^0 = 1. -/
theorem mpz_pow_ui_exact (x : Mpz) (i : Int) (y w : Limb) (hx : Rep x i) :
    (∃ t, mpz_pow_ui x y = .ok t ∧ Rep t (i ^ y.toNat)) ∧
    (∃ t, mpz_ui_pow_ui w y = .ok t ∧ Rep t ((w.toNat : Int) ^ y.toNat)) :=
  ⟨Mpi.pow_ui_rep y hx, Mpi.pow_ui_rep y (Mpi.set_ui_rep w)⟩

example : mpz_pow_ui ⟨true, [3]⟩ 3 = .ok ⟨true, [27]⟩ := by decide +kernel

end Torsion
