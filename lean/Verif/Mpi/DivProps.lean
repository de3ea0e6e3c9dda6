import Verif.Mpi.MpzMore

/-!
# Division is exact (C33)

`Spec.val` is the number of a limb vector, `Spec.Rep x i` says that the `mpz_t` `x` is in normal form and
stands for `i`. Quotients that truncate are `Int.tdiv`, Euclidean ones (remainder never negative) `/` and
`%` on `Int`.
-/
namespace Torsion

open Spec (val Rep Room)

/-! ### One and two limbs -/

/-- C33. `mp_div` divides two limbs by one exactly when the quotient fits, and never returns otherwise. -/
theorem mp_div_exact (n1 n0 d : Limb) :
    (n1.toNat < d.toNat → ∃ q r, mp_div n1 n0 d = .ok (q, r) ∧
      q.toNat = (n1.toNat * 2 ^ 64 + n0.toNat) / d.toNat ∧
      r.toNat = (n1.toNat * 2 ^ 64 + n0.toNat) % d.toNat) ∧
    (d.toNat ≤ n1.toNat → n1 ≠ 0 → mp_div n1 n0 d = .abort) :=
  ⟨Mpi.mp_div_val n1 n0 d, Mpi.mp_div_large n1 n0 d⟩

example : mp_div 5 7 11 = .ok (0x745d1745d1745d17, 10) := by decide +kernel
example : mp_div 11 7 11 = .abort := by decide

/-- C33. Division by a precomputed reciprocal: for every normalised divisor the reciprocal is
`(2^128 - 1) / d - 2^64`, and division with it is exact for every numerator below `d * 2^64`, whichever
correction steps it takes. -/
theorem mp_div_2by1_exact (u1 u0 d : Limb) (hd : 2 ^ 63 ≤ d.toNat) (hu : u1.toNat < d.toNat) :
    ∃ v, mp_inv_2by1 d = .ok v ∧ v.toNat + 2 ^ 64 = (2 ^ 128 - 1) / d.toNat ∧
      (mp_div_2by1 u1 u0 d v).1.toNat = (u1.toNat * 2 ^ 64 + u0.toNat) / d.toNat ∧
      (mp_div_2by1 u1 u0 d v).2.toNat = (u1.toNat * 2 ^ 64 + u0.toNat) % d.toNat := by
  obtain ⟨v, e, hv⟩ := Mpi.mp_inv_2by1_val d hd
  exact ⟨v, e, hv, Mpi.mp_div_2by1_val u1 u0 d v hd hu hv⟩

example : 2 ^ 63 ≤ (0x8000000000000001 : Limb).toNat ∧ (0x8000000000000000 : Limb).toNat <
    (0x8000000000000001 : Limb).toNat := by decide

/-! ### Limb vectors -/

/-- C33. Division of a vector by a limb: exact for every vector, aborting for the zero limb. -/
theorem mpn_divmod_1_exact (np : List Limb) (d : Limb) :
    (d = 0 → mpn_divmod_1 np d = .abort) ∧
    (d ≠ 0 → ∃ q r, mpn_divmod_1 np d = .ok (q, r) ∧ q.length = np.length ∧
      val q = val np / d.toNat ∧ r.toNat = val np % d.toNat) :=
  ⟨fun h => h ▸ Mpi.divmod_1_zero np, Mpi.divmod_1_val np d⟩

example : mpn_divmod_1 [5, 0, 7] 10 =
    .ok ([0x3333333333333333, 0xb333333333333333, 0], 7) := by decide +kernel

/-- C33. Division of a vector by a vector. It returns exactly when the divisor is not longer than the
numerator and has a non-zero top limb; it then returns quotient and remainder. No other outcome exists, so
the correction steps never read or write out of bounds and never run out. -/
theorem mpn_divmod_exact (np dp : List Limb) :
    (dp = [] ∨ dp.getLast? = some 0 ∨ np.length < dp.length → mpn_divmod np dp = .abort) ∧
    (dp ≠ [] → dp.getLast? ≠ some 0 → dp.length ≤ np.length →
      ∃ q r, mpn_divmod np dp = .ok (q, r) ∧ q.length = np.length - dp.length + 1 ∧
        r.length = dp.length ∧ val q = val np / val dp ∧ val r = val np % val dp) := by
  refine ⟨fun h => Mpi.divmod_abort np dp ?_, fun h1 h2 h3 => Mpi.divmod_val np dp h2 h1 h3⟩
  rcases h with h | h | h
  · exact .inl h
  · exact .inr (.inl fun hn => hn h)
  · exact .inr (.inr h)

/-- The rare branch in which the two-limb estimate is still one too large and the divisor is added back. -/
example : mpn_divmod [3, 0, 0, 0x8000000000000000] [1, 0, 0x2000000000000000] =
    .ok ([0xffffffffffffffff, 3], [4, 0xfffffffffffffffc, 0x1fffffffffffffff]) := by decide +kernel

/-- C33. The exact divisions return the quotient when there is no remainder and abort otherwise. -/
theorem mpn_divexact_exact (np dp : List Limb) (h1 : dp ≠ []) (h2 : dp.getLast? ≠ some 0)
    (h3 : dp.length ≤ np.length) :
    (val dp ∣ val np → ∃ q, mpn_divexact np dp = .ok q ∧ q.length = np.length - dp.length + 1 ∧
      val q * val dp = val np) ∧
    (¬ val dp ∣ val np → mpn_divexact np dp = .abort) := by
  rw [Nat.dvd_iff_mod_eq_zero]
  refine ⟨fun h => ?_, Mpi.divexact_abort np dp h2 h1 h3⟩
  obtain ⟨q, e, l, v⟩ := Mpi.divexact_val np dp h2 h1 h3 h
  exact ⟨q, e, l, by rw [v]; exact Nat.div_mul_cancel (Nat.dvd_of_mod_eq_zero h)⟩

example : ([0, 3] : List Limb) ≠ [] ∧ ([0, 3] : List Limb).getLast? ≠ some 0 ∧
    ([0, 3] : List Limb).length ≤ ([0, 0, 6] : List Limb).length ∧ val [0, 3] ∣ val [0, 0, 6] := by decide

/-! ### Signed integers -/

/-- C33. `mpz_quorem` truncates toward zero, for all signs and sizes; the remainder takes the sign of the
numerator. Division by zero aborts. -/
theorem mpz_quorem_exact (n d : Mpz) (i j : Int) (hn : Rep n i) (hd : Rep d j) :
    (j = 0 → ∀ q r, mpz_quorem q r n d = .abort) ∧
    (j ≠ 0 → ∃ q r, mpz_quorem (some .heap) (some .heap) n d = .ok (q, r) ∧ Rep q (i.tdiv j) ∧
      Rep r (i.tmod j)) := by
  refine ⟨fun h q r => Mpi.quorem_zero q r (h ▸ hd), fun h => ?_⟩
  exact Mpi.quorem_rep hn hd h (.inl rfl) (Mpi.roomO_some trivial) (Mpi.roomO_some trivial)

example : Rep ⟨true, [7, 1]⟩ (-(2 ^ 64 + 7)) := by
  refine ⟨⟨by decide, fun _ => by decide⟩, ?_⟩
  decide

/-- C33. `mpz_divmod` is Euclidean: the remainder lies in `[0, |d|)` for all signs. -/
theorem mpz_divmod_exact (n d : Mpz) (i j : Int) (hn : Rep n i) (hd : Rep d j) :
    (j = 0 → ∀ q r, mpz_divmod q r n d = .abort) ∧
    (j ≠ 0 → ∃ q r a b, mpz_divmod (some .heap) (some .heap) n d = .ok (q, r) ∧ Rep q a ∧ Rep r b ∧
      i = j * a + b ∧ 0 ≤ b ∧ b < |j|) := by
  refine ⟨fun h q r => Mpi.divmod_zero q r (h ▸ hd), fun h => ?_⟩
  obtain ⟨a, b, e, ra, rb⟩ := Mpi.divmod_rep hn hd h (q := some .heap) (r := some .heap) (.inl rfl)
    (Mpi.roomO_some trivial) (Mpi.roomO_some trivial)
  exact ⟨a, b, _, _, e, ra rfl, rb, (Int.mul_ediv_add_emod i j).symm, Int.emod_nonneg _ h,
    Int.emod_lt_abs _ h⟩

/-- C33. The single-result divisions agree with them, also into stack temporaries of the stated size. -/
theorem mpz_quo_rem_div_mod_exact (n d : Mpz) (i j : Int) (z : Dest) (hn : Rep n i) (hd : Rep d j) (hj : j ≠ 0) :
    (Room z (n.mag.length - d.mag.length + 1) → ∃ t, mpz_quo z n d = .ok t ∧ Rep t (i.tdiv j)) ∧
    (Room z d.mag.length → ∃ t, mpz_rem z n d = .ok t ∧ Rep t (i.tmod j)) ∧
    (Room z (n.mag.length - d.mag.length + 2) → ∃ t, mpz_div z n d = .ok t ∧ Rep t (i / j)) ∧
    (Room z (d.mag.length + 1) → ∃ t, mpz_mod z n d = .ok t ∧ Rep t (i % j)) :=
  ⟨Mpi.quo_rep hn hd hj, Mpi.rem_rep hn hd hj, Mpi.div_rep hn hd hj, Mpi.mod_rep hn hd hj⟩

/-- C33. Division by a word: truncating. `mpz_quo_ui` and `mpz_rem_ui` return the magnitude of the
remainder. -/
theorem mpz_quo_ui_exact (n : Mpz) (i : Int) (d : Limb) (hn : Rep n i) (hd : d ≠ 0) :
    ∃ q r, mpz_quo_ui (some .heap) n d = .ok (q, r) ∧ mpz_rem_ui n d = .ok r ∧
      Rep q (i.tdiv d.toNat) ∧ (r.toNat : Int) = |i.tmod d.toNat| := by
  obtain ⟨q, r, e, rq, vr⟩ := Mpi.quo_ui_rep (q := some .heap) d hd hn (Mpi.roomO_some trivial)
  obtain ⟨r', e', vr'⟩ := Mpi.rem_ui_rep d hd hn
  have : r' = r := BitVec.eq_of_toNat_eq (vr'.trans vr.symm)
  subst this
  refine ⟨q, r', e, e', rq, ?_⟩
  rw [vr, ← Int.natCast_natAbs, Int.natAbs_tmod, Int.natAbs_natCast]

/-- C33. Division by a word: Euclidean. -/
theorem mpz_div_ui_exact (n : Mpz) (i : Int) (d : Limb) (hn : Rep n i) (hd : d ≠ 0) :
    ∃ q r, mpz_div_ui (some .heap) n d = .ok (q, r) ∧ mpz_mod_ui n d = .ok r ∧
      Rep q (i / d.toNat) ∧ (r.toNat : Int) = i % d.toNat := by
  obtain ⟨q, r, e, rq, vr⟩ := Mpi.div_ui_rep (q := some .heap) d hd hn (Mpi.roomO_some trivial)
  obtain ⟨r', e', vr'⟩ := Mpi.mod_ui_rep d hd hn
  have : r' = r := BitVec.eq_of_toNat_eq (by exact_mod_cast vr'.trans vr.symm)
  subst this
  exact ⟨q, r', e, e', rq rfl, vr⟩

/-- C33. Division by a signed word, truncating and Euclidean, down to the smallest `mp_long_t`. -/
theorem mpz_quo_si_exact (n : Mpz) (i : Int) (d : BitVec 64) (hn : Rep n i) (hd : d ≠ 0) :
    (∃ q r, mpz_quo_si (some .heap) n d = .ok (q, r) ∧ mpz_rem_si n d = .ok r ∧
      Rep q (i.tdiv d.toInt) ∧ r.toInt = i.tmod d.toInt) ∧
    (∃ q r, mpz_div_si (some .heap) n d = .ok (q, r) ∧ mpz_mod_si n d = .ok r ∧
      Rep q (i / d.toInt) ∧ r.toInt = i % d.toInt) := by
  obtain ⟨q, r, e, rq, vr⟩ := Mpi.quo_si_rep (q := some .heap) d hd hn (Mpi.roomO_some trivial)
  obtain ⟨r', e', vr'⟩ := Mpi.rem_si_rep d hd hn
  obtain ⟨p, s, f, rp, vs⟩ := Mpi.div_si_rep (q := some .heap) d hd hn (Mpi.roomO_some trivial)
  obtain ⟨s', f', vs'⟩ := Mpi.mod_si_rep d hd hn
  have h1 : r' = r := BitVec.eq_of_toInt_eq (vr'.trans vr.symm)
  have h2 : s' = s := BitVec.eq_of_toInt_eq (vs'.trans vs.symm)
  subst h1 h2
  exact ⟨⟨q, r', e, e', rq rfl, vr⟩, ⟨p, s', f, f', rp rfl, vs⟩⟩

example : (0x8000000000000000 : BitVec 64) ≠ 0 ∧ (0x8000000000000000 : BitVec 64).toInt = -2 ^ 63 := by decide

/-- C33. Division by the zero word aborts. -/
theorem mpz_quo_word_zero (q : Option Dest) (n : Mpz) :
    mpz_quo_ui q n 0 = .abort ∧ mpz_quo_si q n 0 = .abort :=
  ⟨Mpi.quo_ui_zero q n, Mpi.quo_si_zero q n⟩

/-- C33. Exact division returns the quotient of every multiple. -/
theorem mpz_divexact_exact (n d : Mpz) (i j : Int) (hn : Rep n i) (hd : Rep d j) (hj : j ≠ 0) (h : j ∣ i) :
    ∃ t, mpz_divexact .heap n d = .ok t ∧ Rep t (i / j) :=
  Mpi.mpz_divexact_rep hn hd hj h trivial

/-- C33. Exact division by a word. -/
theorem mpz_divexact_word_exact (n : Mpz) (i : Int) (hn : Rep n i) (d : BitVec 64) (hd : d ≠ 0) :
    ((d.toNat : Int) ∣ i → ∃ t, mpz_divexact_ui .heap n d = .ok t ∧ Rep t (i / d.toNat)) ∧
    (d.toInt ∣ i → ∃ t, mpz_divexact_si .heap n d = .ok t ∧ Rep t (i / d.toInt)) :=
  ⟨fun h => Mpi.mpz_divexact_ui_rep d hn hd h trivial, fun h => Mpi.mpz_divexact_si_rep d hn hd h trivial⟩

/-- C33, a limit. On a numerator with fewer limbs than the divisor `mpz_divexact` does not notice that the
division is not exact: it returns 0, where every other inexact division aborts. -/
theorem mpz_divexact_short (n d : Mpz) (h : n.mag.length < d.mag.length) :
    mpz_divexact .heap n d = .ok ⟨false, []⟩ := by
  unfold mpz_divexact
  rw [if_pos h]

example : mpz_divexact .heap ⟨false, [5]⟩ ⟨false, [0, 1]⟩ = .ok ⟨false, []⟩ := by decide
example : mpz_divexact .heap ⟨false, [5]⟩ ⟨false, [2]⟩ = .abort := by decide +kernel

/-- C33. `mpz_divround_ui` and `mpz_divround_si` round to the nearest integer, halves away from zero. -/
theorem mpz_divround_word_exact (n : Mpz) (i : Int) (hn : Rep n i) (d : BitVec 64) (hd : d ≠ 0) :
    (∃ t, mpz_divround_ui .heap n d = .ok t ∧ Rep t (Spec.divRound i d.toNat)) ∧
    (∃ t, mpz_divround_si .heap n d = .ok t ∧ Rep t (Spec.divRound i d.toInt)) :=
  ⟨Mpi.divround_ui_rep d hd hn trivial, Mpi.divround_si_rep d hd hn trivial⟩

example : Spec.divRound 5 2 = 3 ∧ Spec.divRound (-5) 2 = -3 ∧ Spec.divRound 4 3 = 1 ∧
    Spec.divRound 5 (-3) = -2 := by decide

/-- The rounded quotient is within half a divisor of the numerator (so the definition says what it means). -/
theorem divRound_nearest (i j : Int) (hj : j ≠ 0) : 2 * |i - j * Spec.divRound i j| ≤ |j| := by
  have key : ∀ d : Nat, 0 < d → 2 * |i - d * Spec.divRound i d| ≤ d := by
    intro d hd
    rw [Mpi.divRound_nat i d hd, mul_add]
    have h1 := Int.mul_tdiv_add_tmod i d
    have h2 := Mpi.tmod_eq i d
    rw [Int.natAbs_natCast] at h2
    have h3 := Nat.mod_lt i.natAbs hd
    generalize i.natAbs % d = r at *
    generalize (d : Int) * i.tdiv d = p at *
    generalize i.tmod d = s at *
    by_cases hi : i < 0
    · rw [if_pos (by simpa using hi)] at h2
      simp only [if_pos hi]
      split
      · rw [mul_neg, mul_one, show i - (p + -(d : Int)) = d - r by omega, abs_of_nonneg (by omega)]; omega
      · rw [mul_zero, show i - (p + 0) = -r by omega, abs_neg, abs_of_nonneg (by omega)]; omega
    · rw [if_neg (by simpa using hi)] at h2
      simp only [if_neg hi]
      split
      · rw [mul_one, show i - (p + (d : Int)) = -(d - r) by omega, abs_neg, abs_of_nonneg (by omega)]; omega
      · rw [mul_zero, show i - (p + 0) = r by omega, abs_of_nonneg (by omega)]; omega
  obtain ⟨b, rfl | rfl⟩ := j.eq_nat_or_neg
  · rw [abs_of_nonneg (a := (b : Int)) (by omega)]; exact key b (by omega)
  · rw [Mpi.divRound_neg, neg_mul_neg, abs_neg, abs_of_nonneg (a := (b : Int)) (by omega)]; exact key b (by omega)

/-- C33. The divisibility and congruence tests decide divisibility and congruence, with zero moduli
included: 0 divides 0 alone. -/
theorem mpz_divisible_exact (x y d : Mpz) (i k j : Int) (w : Limb) (hx : Rep x i) (hy : Rep y k) (hd : Rep d j) :
    mpz_divisible_p x d = .ok (decide (j ∣ i)) ∧
    mpz_divisible_ui_p x w = .ok (decide ((w.toNat : Int) ∣ i)) ∧
    mpz_congruent_p x y d = .ok (decide (j ∣ i - k)) ∧
    mpz_congruent_ui_p x y w = .ok (decide ((w.toNat : Int) ∣ i - k)) :=
  ⟨Mpi.divisible_rep hx hd, Mpi.divisible_ui_rep w hx, Mpi.congruent_rep hx hy hd, Mpi.congruent_ui_rep w hx hy⟩

end Torsion
