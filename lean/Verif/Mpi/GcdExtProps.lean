import Verif.Mpi.GcdExt
import Verif.Mpi.GcdProps

/-!
# The extended greatest common divisor on vectors, and integers that fit a word (C34, C37)

`Spec.val` is the number a limb vector stands for, lowest limb first; `Spec.Rep x i`: the `mpz_t` `x` is in
normal form and stands for `i`.
-/
namespace Torsion

open Spec (Rep Room val)

namespace Mpi

theorem rep_vec {l : List Limb} (h : Norm l) : Rep ⟨false, l⟩ (val l) :=
  ⟨⟨h, fun e => by cases e⟩, by simp [Spec.ival]⟩

theorem val_pad (l : List Limb) (n : Nat) : val (l ++ List.replicate n 0) = val l := by
  rw [val_append, show val (List.replicate n 0) = 0 from val_zeros n, Nat.mul_zero, Nat.add_zero]

end Mpi

/-- C37. `mpn_gcdext` on a non-empty `x` (leading zeros allowed) and a normalised `y` that is not longer:
`g` is the greatest common divisor in as many limbs as `y` has, `gn` of them in use; `s` has one limb more,
`sn` is the number of those in use with the sign of the coefficient, and the coefficient `c` is smaller than
`y` with `c·x ≡ g` modulo `y`. -/
theorem mpn_gcdext_exact (x y : List Limb) (hx0 : x ≠ []) (hy0 : y ≠ []) (hy : y.getLast? ≠ some 0)
    (hl : y.length ≤ x.length) :
    ∃ g s sn gn, mpn_gcdext x y = .ok (g, s, sn, gn) ∧ g.length = y.length ∧ s.length = y.length + 1 ∧
      val g = Nat.gcd (val x) (val y) ∧ gn ≤ g.length ∧ (g.take gn).getLast? ≠ some 0 ∧
      val (g.take gn) = val g ∧ sn.natAbs ≤ y.length ∧ (s.take sn.natAbs).getLast? ≠ some 0 ∧
      val (s.take sn.natAbs) = val s ∧ val s < val y ∧
      (val y : Int) ∣ (if sn < 0 then -(val s : Int) else val s) * val x - Nat.gcd (val x) (val y) := by
  have vy : 0 < val y := Mpi.norm_pos hy hy0
  have rx : Rep ⟨false, mpn_strip x⟩ (val x) := by
    have := Mpi.rep_vec (Mpi.strip_norm x); rwa [Mpi.strip_val] at this
  have ry : Rep ⟨false, y⟩ (val y) := Mpi.rep_vec hy
  obtain ⟨g, s, t, c, d, e, rg, rs, -, hb⟩ := mpz_gcdext_exact _ _ _ _ rx ry
  obtain ⟨b, eb, rb⟩ := Mpi.rem_rep (r := .heap) rs ry (by omega) (Mpi.room_heap _)
  have hgcd : Int.gcd (val x) (val y) = Nat.gcd (val x) (val y) := rfl
  rw [hgcd] at rg hb
  have hgy : Nat.gcd (val x) (val y) ≤ val y := Nat.gcd_le_right _ vy
  have hbt : (c.tmod (val y)).natAbs < val y := by
    have := Int.natAbs_tmod c (val y)
    rw [this, Int.natAbs_natCast]
    exact Nat.mod_lt _ vy
  have lg : g.mag.length ≤ y.length := Mpi.rep_len_mono rg ry (by simpa using hgy)
  have lb : b.mag.length ≤ y.length := Mpi.rep_len_mono rb ry (by simpa using hbt.le)
  have hx' : x.length ≠ 0 := fun h => hx0 (List.length_eq_zero_iff.1 h)
  have hy' : y.length ≠ 0 := fun h => hy0 (List.length_eq_zero_iff.1 h)
  have hrd : C.rd y (y.length - 1) = .ok (y.getLast hy0) := by
    unfold C.rd
    rw [← List.getLast?_eq_getElem?, List.getLast?_eq_some_getLast hy0]
  have htop : y.getLast hy0 ≠ 0 := fun h => hy (by rw [List.getLast?_eq_some_getLast hy0, h])
  have hsz : b.size.natAbs = b.mag.length := by
    unfold Mpz.size; split <;> simp
  have ag : val g.mag = Nat.gcd (val x) (val y) := by simpa using Mpi.rep_abs rg
  have ab : val b.mag = (c.tmod (val y)).natAbs := Mpi.rep_abs rb
  refine ⟨g.mag ++ List.replicate (y.length - g.mag.length) 0,
    b.mag ++ List.replicate (y.length + 1 - b.mag.length) 0, b.size, g.mag.length, ?_, ?_, ?_, ?_, ?_, ?_, ?_,
    ?_, ?_, ?_, ?_, ?_⟩
  · unfold mpn_gcdext
    simp only [if_neg hx', if_neg hy', hrd, C.ok_bind, if_neg htop, if_neg (Nat.not_lt.2 hl), e, eb, C.check,
      decide_eq_true lg, decide_eq_true (Nat.le_succ_of_le lb), if_true]
  · rw [List.length_append, List.length_replicate]; omega
  · rw [List.length_append, List.length_replicate]; omega
  · rw [Mpi.val_pad, ag]
  · rw [List.length_append]; omega
  · rw [List.take_left]; exact Mpi.rep_norm rg
  · rw [List.take_left, Mpi.val_pad]
  · omega
  · rw [hsz, List.take_left]; exact Mpi.rep_norm rb
  · rw [hsz, List.take_left, Mpi.val_pad]
  · rw [Mpi.val_pad, ab]; exact hbt
  · rw [Mpi.val_pad, ab]
    have hc : (if b.size < 0 then -((c.tmod (val y)).natAbs : Int) else (c.tmod (val y)).natAbs)
        = c.tmod (val y) := by
      by_cases h : c.tmod (val y) < 0
      · rw [if_pos ((Mpi.rep_sizen rb).2 h)]; omega
      · rw [if_neg (fun h' => h ((Mpi.rep_sizen rb).1 h'))]; omega
    rw [hc]
    have h1 := Int.tmod_add_mul_tdiv c (val y)
    refine ⟨-(c.tdiv (val y)) * val x - d, ?_⟩
    rw [← hb]
    have : c.tmod (val y) = c - val y * c.tdiv (val y) := by omega
    rw [this]; ring

/-- C37. Otherwise `mpn_gcdext` aborts. -/
theorem mpn_gcdext_abort (x y : List Limb)
    (h : x = [] ∨ y = [] ∨ y.getLast? = some 0 ∨ x.length < y.length) : mpn_gcdext x y = .abort := by
  unfold mpn_gcdext
  by_cases hx : x.length = 0
  · simp only [if_pos hx]
  by_cases hy : y.length = 0
  · simp only [if_neg hx, if_pos hy]
  have hy0 : y ≠ [] := fun e => hy (by rw [e]; rfl)
  have hrd : C.rd y (y.length - 1) = .ok (y.getLast hy0) := by
    unfold C.rd
    rw [← List.getLast?_eq_getElem?, List.getLast?_eq_some_getLast hy0]
  simp only [if_neg hx, if_neg hy, hrd, C.ok_bind]
  by_cases ht : y.getLast hy0 = 0
  · rw [if_pos ht]
  · rw [if_neg ht, if_pos]
    rcases h with h | h | h | h
    · exact absurd (by rw [h]; rfl) hx
    · exact absurd h hy0
    · rw [List.getLast?_eq_some_getLast hy0] at h
      exact absurd (Option.some.inj h) ht
    · exact h

example : mpn_gcdext [12, 0] [18] = .ok ([6], [2, 0], 1, 1) := by decide +kernel
example : mpn_gcdext [12] [18, 0] = .abort := by decide +kernel

/-- C34. `mpz_fits_ui_p` says whether the absolute value is that of a word, `mpz_fits_si_p` whether the
integer is a signed word; then `mpz_get_ui` and `mpz_get_si` return it. -/
theorem mpz_fits_exact (x : Mpz) (i : Int) (hx : Rep x i) :
    (mpz_fits_ui_p x = true ↔ i.natAbs < 2 ^ 64) ∧
    (∃ b, mpz_fits_si_p x = .ok b ∧ (b = true ↔ -2 ^ 63 ≤ i ∧ i < 2 ^ 63)) ∧
    (mpz_fits_ui_p x = true → ∃ r, mpz_get_ui x = .ok r ∧ r.toNat = i.natAbs) ∧
    (mpz_fits_si_p x = .ok true → ∃ r, mpz_get_si x = .ok r ∧ r.toInt = i) := by
  have hlen : x.mag.length ≤ 1 ↔ i.natAbs < 2 ^ 64 := by
    constructor
    · intro h
      have h1 := Mpi.rep_lt hx
      have : 2 ^ (64 * x.mag.length) ≤ 2 ^ 64 := Nat.pow_le_pow_right (by decide) (by omega)
      omega
    · intro h
      exact Mpi.rep_len_le hx (by simpa using h)
  have hu : mpz_fits_ui_p x = true ↔ i.natAbs < 2 ^ 64 := by
    unfold mpz_fits_ui_p; rw [decide_eq_true_iff]; exact hlen
  have hs : ∃ b, mpz_fits_si_p x = .ok b ∧ (b = true ↔ -2 ^ 63 ≤ i ∧ i < 2 ^ 63) := by
    unfold mpz_fits_si_p
    by_cases h1 : x.mag.length > 1
    · rw [if_pos h1]
      refine ⟨false, rfl, ?_⟩
      have : ¬ i.natAbs < 2 ^ 64 := fun h => by have := hlen.2 h; omega
      constructor
      · intro h; cases h
      · intro h; omega
    · rw [if_neg h1]
      by_cases h0 : x.size = 0
      · rw [if_pos h0]
        have := (Mpi.rep_size0 hx).1 h0
        exact ⟨true, rfl, by simp [this]⟩
      · rw [if_neg h0]
        have hi : i ≠ 0 := fun e => h0 ((Mpi.rep_size0 hx).2 e)
        have hl0 : x.mag.length ≠ 0 := fun e => hi ((Mpi.rep_len hx).1 e)
        obtain ⟨l, hl⟩ : ∃ l, x.mag = [l] := List.length_eq_one_iff.1 (by omega)
        have hv := Mpi.rep_abs hx
        rw [hl, Mpi.val_singleton] at hv
        have hrd : C.rd x.mag 0 = .ok l := by rw [hl]; rfl
        by_cases hn : x.size < 0
        · rw [if_pos hn, hrd]
          have := (Mpi.rep_sizen hx).1 hn
          refine ⟨_, rfl, ?_⟩
          rw [decide_eq_true_iff, BitVec.le_def, show (0x8000000000000000 : Limb).toNat = 2 ^ 63 from rfl]
          omega
        · rw [if_neg hn, hrd]
          have : ¬ i < 0 := fun h => hn ((Mpi.rep_sizen hx).2 h)
          refine ⟨_, rfl, ?_⟩
          rw [decide_eq_true_iff, BitVec.lt_def, show (0x8000000000000000 : Limb).toNat = 2 ^ 63 from rfl]
          omega
  refine ⟨hu, hs, fun h => ?_, fun h => ?_⟩
  · obtain ⟨r, e, hr⟩ := Mpi.get_ui_rep hx
    exact ⟨r, e, by rw [hr, Nat.mod_eq_of_lt (hu.1 h)]⟩
  · obtain ⟨b, eb, hb⟩ := hs
    rw [h] at eb
    cases eb
    obtain ⟨r, e, hr⟩ := Mpi.get_si_rep hx
    exact ⟨r, e, hr (hb.1 rfl).1 (hb.1 rfl).2⟩

example : mpz_fits_si_p ⟨true, [0x8000000000000000]⟩ = .ok true ∧
    mpz_fits_si_p ⟨false, [0x8000000000000000]⟩ = .ok false := by decide +kernel

end Torsion
