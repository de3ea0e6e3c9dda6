import Verif.Mpi.SecPowm

/-!
# Modular reduction and modular exponentiation (C38)

`Spec.val` is the number a limb vector stands for, lowest limb first; `Spec.Rep x i`: the `mpz_t` `x` is in
normal form and stands for `i`. The loops of the model run out of steps into undefined behaviour, so every
result below includes that the code terminates.
-/
namespace Torsion

open Spec (Rep Room val)

/-- C38. Barrett reduction: for a normalised modulus which is not the power `B^(n-1)` of the limb base
`B = 2^64` and any `shift` of at least `2 n` limbs, `mpn_barrett` computes a constant with which `mpn_reduce`
reduces every number of `shift` limbs exactly. -/
theorem mpn_barrett_reduce_exact (n : List Limb) (shift : Nat) (hn : n.getLast? ≠ some 0) (hne : n ≠ [])
    (hs : n.length * 2 ≤ shift) (hp : val n ≠ 2 ^ (64 * (n.length - 1))) :
    ∃ m, mpn_barrett n shift = .ok m ∧ ∀ x : List Limb, x.length = shift →
      ∃ z, mpn_reduce x m n = .ok z ∧ z.length = n.length ∧ val z = val x % val n := by
  obtain ⟨m, e, lm, vm⟩ := Mpi.barrett_val hn hne hs hp
  refine ⟨m, e, fun x hx => ?_⟩
  have h0 : 0 < val n := lt_of_lt_of_le (by positivity) (Mpi.norm_val_pos hn hne)
  exact Mpi.reduce_val hne h0 (by omega) (by omega) (by rw [hx]; exact vm)

example : mpn_barrett [5, 7] 4 = .ok [8120869840029569370, 3388177482926244174, 2635249153387078802] := by decide +kernel
example : mpn_reduce [1, 2, 3, 4] [8120869840029569370, 3388177482926244174, 2635249153387078802] [5, 7] = .ok [3388177482926244177, 4] := by
  decide +kernel

/-- C38. The powers `B^(n-1)` are refused: the constant would need one more limb, and `mpn_barrett` aborts. -/
theorem mpn_barrett_power_abort : mpn_barrett [0, 1] 4 = .abort ∧ mpn_barrett [1] 2 = .abort := by
  decide +kernel

/-- C38. Montgomery multiplication modulo an odd number: with the constants of `mpn_mont`, `mpn_montmul`
returns some `n`-limb number and `mpn_sec_montmul` the one below the modulus which is congruent to
`x y R^-1`, where `R = B^n`. -/
theorem mpn_montmul_exact (m : List Limb) (hm : m.getLast? ≠ some 0) (ho : val m % 2 = 1) :
    ∃ k r, mpn_mont m = .ok (k, r) ∧ val r = 2 ^ (128 * m.length) % val m ∧
      ∀ x y : List Limb, x.length = m.length → y.length = m.length →
        (∃ z, mpn_montmul x y m k = .ok z ∧ z.length = m.length ∧
          2 ^ (64 * m.length) * val z ≡ val x * val y [MOD val m]) ∧
        (val y < val m → ∃ z, mpn_sec_montmul x y m k = .ok z ∧ z.length = m.length ∧ val z < val m ∧
          2 ^ (64 * m.length) * val z ≡ val x * val y [MOD val m]) := by
  obtain ⟨k, r, e, hk, _, vr⟩ := Mpi.mont_val hm ho
  refine ⟨k, r, e, vr, fun x y hx hy => ⟨Mpi.montmul_val hk hx hy, fun hlt => ?_⟩⟩
  have hxl := Mpi.val_lt x
  rw [hx] at hxl
  exact Mpi.sec_montmul_val hk hx hy (Mpi.lt_RR hxl hlt)

example : mpn_mont [7] = .ok (10540996613548315209, [4]) := by decide +kernel
example : mpn_sec_montmul [3] [4] [7] 10540996613548315209 = .ok [6] := by decide +kernel

/-- C38. `mpn_powm` on any exponent aborts iff the modulus is empty or not normalised or the base has more
limbs than the modulus; otherwise it returns the power below the modulus, whichever of its paths it takes. -/
theorem mpn_powm_exact (x y m : List Limb) :
    (m = [] ∨ m.getLast? = some 0 ∨ m.length < x.length → mpn_powm x y m = .abort) ∧
    (m ≠ [] → m.getLast? ≠ some 0 → x.length ≤ m.length →
      ∃ r, mpn_powm x y m = .ok r ∧ r.length = m.length ∧ val r = val x ^ val y % val m) := by
  refine ⟨fun h => Mpi.powm_abort ?_, fun h1 h2 h3 => Mpi.powm_val h2 h1 h3⟩
  rcases h with h | h | h
  · exact Or.inl h
  · exact Or.inr (Or.inl (fun hc => hc h))
  · exact Or.inr (Or.inr h)

example : mpn_powm [3] [0, 0, 1] [7] = .ok [4] := by decide +kernel
example : mpn_powm [3] [5] [10] = .ok [3] := by decide +kernel

/-- C38. `mpn_sec_powm` also aborts for an even modulus, and otherwise returns the same power; the exponent
may have leading zero limbs. -/
theorem mpn_sec_powm_exact (x y m : List Limb) :
    (m = [] ∨ m.getLast? = some 0 ∨ val m % 2 = 0 ∨ m.length < x.length → mpn_sec_powm x y m = .abort) ∧
    (m.getLast? ≠ some 0 → val m % 2 = 1 → x.length ≤ m.length →
      ∃ r, mpn_sec_powm x y m = .ok r ∧ r.length = m.length ∧ val r = val x ^ val y % val m) := by
  refine ⟨fun h => Mpi.sec_powm_abort ?_, fun h1 h2 h3 => Mpi.sec_powm_val h1 h2 h3⟩
  rcases h with h | h | h | h
  · exact Or.inl h
  · exact Or.inr (Or.inl (fun hc => hc h))
  · exact Or.inr (Or.inr (Or.inl h))
  · exact Or.inr (Or.inr (Or.inr h))

example : mpn_sec_powm [3] [5, 0] [7] = .ok [5] := by decide +kernel

/-- C38. `mpn_sec_invert` modulo an odd prime: it returns one and the inverse below the prime, or zero and
zero if the number is a multiple of the prime. -/
theorem mpn_sec_invert_exact (x m : List Limb) (hm : m.getLast? ≠ some 0) (hp : (val m).Prime) (h2 : val m ≠ 2)
    (hx : x.length ≤ m.length) :
    ∃ r b, mpn_sec_invert x m = .ok (r, b) ∧ r.length = m.length ∧ val r < val m ∧
      (val m ∣ val x → b = 0 ∧ val r = 0) ∧
      (¬ val m ∣ val x → b = 1 ∧ val r * val x ≡ 1 [MOD val m]) := by
  have ho : val m % 2 = 1 := hp.eq_two_or_odd.resolve_left h2
  have hgt := hp.two_le
  obtain ⟨r, e, lr, vr⟩ := Mpi.sec_invert_val hm ho hp.one_lt.ne' hx
  refine ⟨r, _, e, lr, by rw [vr]; exact Nat.mod_lt _ (by omega), fun hd => ?_, fun hd => ?_⟩
  · have hz : val r = 0 := by
      rw [vr]
      exact Nat.mod_eq_zero_of_dvd (dvd_pow hd (by omega))
    exact ⟨Mpi.flag_neg (by simpa using hz), hz⟩
  · have hi := Mpi.fermat_inv hp hd
    rw [← vr] at hi
    refine ⟨Mpi.flag_pos ?_, hi⟩
    intro hz
    rw [hz, Nat.zero_mul] at hi
    have := Nat.ModEq.eq_of_lt_of_lt hi (by omega) (by omega)
    omega

example : mpn_sec_invert [3] [7] = .ok ([5], 1) := by decide +kernel
example : mpn_sec_invert [14] [7] = .ok ([0], 0) := by decide +kernel

/-- C38. `mpz_powm` for an exponent which is not negative: it aborts iff the modulus is zero and otherwise
returns the power reduced into `[0, |m|)`, for a base and a modulus of either sign. -/
theorem mpz_powm_exact (z : Dest) (x y m : Mpz) (i e j : Int) (hx : Rep x i) (hy : Rep y e) (hm : Rep m j) (he : 0 ≤ e)
    (hr : Room z m.mag.length) :
    (j = 0 → mpz_powm z x y m = .abort) ∧
    (j ≠ 0 → ∃ t, mpz_powm z x y m = .ok t ∧ Rep t (i ^ e.toNat % j)) := by
  refine ⟨fun h => ?_, fun hj => Mpi.powm_rep_nonneg hx hy hm hj he hr⟩
  unfold mpz_powm
  rw [if_pos ((Mpi.rep_size0 hm).2 h)]

example : mpz_powm .heap ⟨true, [2]⟩ ⟨false, [3]⟩ ⟨true, [7]⟩ = .ok ⟨false, [6]⟩ := by decide +kernel

/-- C38. `mpz_powm` for a negative exponent returns the power of the inverse; it aborts iff there is none or
the modulus is `0`, `1` or `-1`. -/
theorem mpz_powm_negative (z : Dest) (x y m : Mpz) (i e j : Int) (hx : Rep x i) (hy : Rep y e) (hm : Rep m j)
    (he : e < 0) (hr : Room z m.mag.length) :
    (Int.gcd i j = 1 ∧ 1 < j.natAbs → ∃ t k, mpz_powm z x y m = .ok t ∧ Rep t k ∧ 0 ≤ k ∧ k < j.natAbs ∧
      j ∣ k * i ^ e.natAbs - 1) ∧
    (¬ (Int.gcd i j = 1 ∧ 1 < j.natAbs) → mpz_powm z x y m = .abort) := by
  by_cases hj : j = 0
  · refine ⟨fun h => ?_, fun _ => ?_⟩
    · rw [hj] at h; simp at h
    · unfold mpz_powm
      rw [if_pos ((Mpi.rep_size0 hm).2 hj)]
  · exact Mpi.powm_rep_neg hx hy hm hj he hr

example : mpz_powm .heap ⟨false, [3]⟩ ⟨true, [2]⟩ ⟨false, [10]⟩ = .ok ⟨false, [9]⟩ := by decide +kernel

/-- C38. `mpz_powm_ui`: the same with a word for the exponent. -/
theorem mpz_powm_ui_exact (z : Dest) (x m : Mpz) (i j : Int) (y : Limb) (hx : Rep x i) (hm : Rep m j)
    (hr : Room z m.mag.length) :
    (j = 0 → mpz_powm_ui z x y m = .abort) ∧
    (j ≠ 0 → ∃ t, mpz_powm_ui z x y m = .ok t ∧ Rep t (i ^ y.toNat % j)) := by
  have := mpz_powm_exact z x (mpz_set_ui y) m i y.toNat j hx (Mpi.set_ui_rep y) hm (by omega) hr
  rwa [Int.toNat_natCast] at this

example : mpz_powm_ui .heap ⟨false, [2]⟩ 10 ⟨false, [1000]⟩ = .ok ⟨false, [24]⟩ := by decide +kernel

/-- C38. `mpz_powm_sec` aborts iff the exponent is negative or the modulus even (zero included), and
otherwise returns what `mpz_powm` returns. -/
theorem mpz_powm_sec_exact (z : Dest) (x y m : Mpz) (i e j : Int) (hx : Rep x i) (hy : Rep y e) (hm : Rep m j)
    (hr : Room z m.mag.length) :
    (0 ≤ e ∧ j % 2 = 1 → ∃ t, mpz_powm_sec z x y m = .ok t ∧ mpz_powm z x y m = .ok t ∧ Rep t (i ^ e.toNat % j)) ∧
    (¬ (0 ≤ e ∧ j % 2 = 1) → mpz_powm_sec z x y m = .abort) := by
  obtain ⟨h1, h2⟩ := Mpi.powm_sec_rep hx hy hm hr
  refine ⟨fun h => ?_, h2⟩
  obtain ⟨t, et, rt⟩ := h1 h
  obtain ⟨u, eu, ru⟩ := Mpi.powm_rep_nonneg hx hy hm (by omega) h.1 hr
  refine ⟨t, et, ?_, rt⟩
  rw [eu, Mpi.rep_unique rt ru]

example : mpz_powm_sec .heap ⟨true, [2]⟩ ⟨false, [3]⟩ ⟨false, [7]⟩ = .ok ⟨false, [6]⟩ := by decide +kernel

end Torsion
