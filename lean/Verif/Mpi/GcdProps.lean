import Verif.Mpi.JacobiLemmas

/-!
# Greatest common divisors, inverses and quadratic symbols (C37, C39)

`Spec.Rep x i`: the `mpz_t` `x` is in normal form and stands for `i`; `Spec.val` is the number a limb
vector stands for, lowest limb first. The loops of the model run out of steps into undefined behaviour, so
every result below includes that the code terminates.
-/
namespace Torsion

open Spec (Rep Room val)

/-- C37. `mpn_gcd` on normalised non-zero vectors, the longer one first, returns the greatest common
divisor, in as many limbs as `y` has, and the number of limbs that are in use. -/
theorem mpn_gcd_exact (x y : List Limb) (hx : x.getLast? ≠ some 0) (hy : y.getLast? ≠ some 0) (hx0 : x ≠ [])
    (hy0 : y ≠ []) (hl : y.length ≤ x.length) :
    ∃ z n, mpn_gcd x y = .ok (z, n) ∧ z.length = y.length ∧ n ≤ y.length ∧ (z.take n).getLast? ≠ some 0 ∧
      val z = Nat.gcd (val x) (val y) ∧ val (z.take n) = val z := by
  obtain ⟨z, n, e, lz, hn, nz, _, hz, vz⟩ := Mpi.gcd_val hx hy hx0 hy0 hl
  have hv : val z = val (z.take n) := by
    conv_lhs => rw [hz, Mpi.val_append, Mpi.val_zeros]
    omega
  exact ⟨z, n, e, lz, hn, nz, by rw [hv, vz], hv.symm⟩

example : mpn_gcd [0, 0, 12] [0, 18] = .ok ([0, 6], 2) := by decide +kernel

/-- C37. `mpn_gcd_1`: the same with a word. -/
theorem mpn_gcd_1_exact (x : List Limb) (y : Limb) (hx : x.getLast? ≠ some 0) (hx0 : x ≠ []) (hy : y ≠ 0) :
    ∃ g, mpn_gcd_1 x y = .ok g ∧ g.toNat = Nat.gcd (val x) y.toNat :=
  Mpi.gcd_1_val hx hx0 hy

example : mpn_gcd_1 [0, 3] 96 = .ok 96 := by decide +kernel

/-- C37. `mpz_gcd` returns the greatest common divisor of any two integers, `mpz_lcm` the least common
multiple. -/
theorem mpz_gcd_lcm_exact (z : Dest) (x y : Mpz) (i j : Int) (hx : Rep x i) (hy : Rep y j) :
    (Room z (max x.mag.length y.mag.length) → ∃ t, mpz_gcd z x y = .ok t ∧ Rep t (Int.gcd i j)) ∧
    (Room z (x.mag.length + y.mag.length) → ∃ t, mpz_lcm z x y = .ok t ∧ Rep t (Int.lcm i j)) :=
  ⟨Mpi.gcd_rep hx hy, Mpi.lcm_rep hx hy⟩

example : mpz_gcd .heap ⟨true, [0, 12]⟩ ⟨false, [0, 18]⟩ = .ok ⟨false, [0, 6]⟩ := by decide +kernel
example : mpz_lcm .heap ⟨true, [12]⟩ ⟨false, [18]⟩ = .ok ⟨false, [36]⟩ := by decide +kernel

/-- C37. The same with a word. `mpz_gcd_ui` also returns the divisor as a word, and zero if it does not fit
one (which needs the word to be zero). -/
theorem mpz_gcd_lcm_ui_exact (z : Dest) (x : Mpz) (i : Int) (y : Limb) (hx : Rep x i) :
    (Room z x.mag.length → ∃ t g, mpz_gcd_ui (some z) x y = .ok (t, g) ∧ Rep t (Int.gcd i y.toNat) ∧
      g.toNat = if Int.gcd i y.toNat < 2 ^ 64 then Int.gcd i y.toNat else 0) ∧
    (Room z (x.mag.length + 1) → ∃ t, mpz_lcm_ui z x y = .ok t ∧ Rep t (Int.lcm i y.toNat)) := by
  refine ⟨fun h => ?_, Mpi.lcm_ui_rep y hx⟩
  obtain ⟨t, g, e, h1, h2⟩ := Mpi.gcd_ui_rep (z := some z) y hx (Mpi.roomO_some h)
  exact ⟨t, g, e, h1 rfl, h2⟩

example : mpz_gcd_ui (some .heap) ⟨true, [0, 1]⟩ 6 = .ok (⟨false, [2]⟩, 2) := by decide +kernel

/-- C37. `mpz_gcdext` returns the greatest common divisor and Bezout coefficients of any two integers. -/
theorem mpz_gcdext_exact (x y : Mpz) (i j : Int) (hx : Rep x i) (hy : Rep y j) :
    ∃ g s t c d, mpz_gcdext x y = .ok (g, s, t) ∧ Rep g (Int.gcd i j) ∧ Rep s c ∧ Rep t d ∧
      c * i + d * j = Int.gcd i j :=
  Mpi.gcdext_rep hx hy

example : mpz_gcdext ⟨true, [12]⟩ ⟨false, [18]⟩ = .ok (⟨false, [6]⟩, ⟨true, [2]⟩, ⟨true, [1]⟩) := by
  decide +kernel

/-- C37. `mpn_invert` modulo an odd number: it succeeds iff the operands are coprime and the modulus is not
one, the result is the inverse below the modulus, and zero on failure. -/
theorem mpn_invert_exact (x y : List Limb) (hx : x.getLast? ≠ some 0) (hy : y.getLast? ≠ some 0)
    (ho : val y % 2 = 1) (hl : x.length ≤ y.length) :
    ∃ z b, mpn_invert x y = .ok (z, b) ∧ z.length = y.length ∧
      (b = true ↔ Nat.gcd (val x) (val y) = 1 ∧ val y ≠ 1) ∧ (b = false → val z = 0) ∧
      (b = true → val z < val y ∧ val z * val x ≡ 1 [MOD val y]) :=
  Mpi.invert_val hx hy ho hl

example : mpn_invert [3] [7] = .ok ([5], true) := by decide +kernel

/-- C37. `mpz_invert` into an allocated integer, for any integer and any modulus, odd or even, of either
sign: it succeeds iff the operands are coprime and the modulus is not zero, one or minus one; the result is
the one inverse in `[0, |m|)`, and zero on failure. -/
theorem mpz_invert_exact (x m : Mpz) (i j : Int) (hx : Rep x i) (hm : Rep m j) :
    ∃ t b k, mpz_invert .heap x m = .ok (t, b) ∧ Rep t k ∧ (b = true ↔ Int.gcd i j = 1 ∧ 1 < j.natAbs) ∧
      (b = false → k = 0) ∧ (b = true → 0 ≤ k ∧ k < j.natAbs ∧ j ∣ k * i - 1) :=
  Mpi.invert_rep hx hm

example : mpz_invert .heap ⟨true, [3]⟩ ⟨false, [10]⟩ = .ok (⟨false, [3]⟩, true) := by decide +kernel

/-- C37. Modulo one every integer has the inverse zero, yet `mpz_invert` reports failure. -/
theorem mpz_invert_mod_one : ∃ x m t, Rep x 5 ∧ Rep m 1 ∧ Int.gcd 5 1 = 1 ∧ mpz_invert .heap x m = .ok (t, false) :=
  ⟨⟨false, [5]⟩, ⟨false, [1]⟩, ⟨false, []⟩, ⟨⟨by decide, by decide⟩, by decide⟩, ⟨⟨by decide, by decide⟩, by decide⟩,
    by decide, by decide⟩

/-! ### Quadratic symbols -/

/-- C39. `mpz_jacobi` aborts for an even lower argument and otherwise returns the Jacobi symbol, for
integers of either sign. -/
theorem mpz_jacobi_exact (x y : Mpz) (i j : Int) (hx : Rep x i) (hy : Rep y j) :
    (j % 2 = 0 → mpz_jacobi x y = .abort) ∧
    (j % 2 = 1 → 0 < j → mpz_jacobi x y = .ok (jacobiSym i j.toNat)) ∧
    (j % 2 = 1 → mpz_jacobi x y = .ok (Spec.kronecker i j)) := by
  have hk : j % 2 = 1 → mpz_jacobi x y = .ok ((if i < 0 ∧ j < 0 then -1 else 1) * jacobiSym i j.natAbs) :=
    Mpi.jacobi_rep hx hy
  refine ⟨Mpi.jacobi_even hy, fun ho hp => ?_, fun ho => ?_⟩
  · rw [hk ho, if_neg (by omega), one_mul]
    congr 2
    omega
  · rw [hk ho]
    unfold Spec.kronecker
    rw [if_neg (show ¬ j = 0 by omega), Mpi.kronecker_odd (by omega)]

example : mpz_jacobi ⟨true, [2]⟩ ⟨false, [15]⟩ = .ok (-1) := by decide +kernel

/-- C39. `mpz_legendre` for an odd prime says whether the number is a square modulo it. -/
theorem mpz_legendre_exact (x y : Mpz) (i : Int) (p : Nat) (hx : Rep x i) (hy : Rep y p) (hp : p.Prime) (h2 : p ≠ 2) :
    ((p : Int) ∣ i → mpz_legendre x y = .ok 0) ∧
    (¬ (p : Int) ∣ i → (∃ r : Int, (p : Int) ∣ r * r - i) → mpz_legendre x y = .ok 1) ∧
    (¬ (p : Int) ∣ i → (¬ ∃ r : Int, (p : Int) ∣ r * r - i) → mpz_legendre x y = .ok (-1)) := by
  have ho : p % 2 = 1 := hp.eq_two_or_odd.resolve_left h2
  have hl : mpz_legendre x y = .ok (Spec.kroneckerPrime i p) := by
    unfold mpz_legendre
    rw [if_neg (fun h => by have := (Mpi.rep_sizen hy).1 h; omega), Mpi.jacobi_rep hx hy (by omega),
      if_neg (by omega), one_mul, Mpi.kronecker_prime hp h2, Int.natAbs_natCast]
  rw [hl]
  unfold Spec.kroneckerPrime
  rw [if_neg h2]
  refine ⟨fun h => by rw [if_pos h], fun h hs => by rw [if_neg h, if_pos hs], fun h hs => by rw [if_neg h, if_neg hs]⟩

example : mpz_legendre ⟨false, [2]⟩ ⟨false, [7]⟩ = .ok 1 := by decide +kernel

/-- C39. `mpz_kronecker` and its word variants return the Kronecker symbol of any two integers. -/
theorem mpz_kronecker_exact (x y : Mpz) (i j : Int) (w : BitVec 64) (hx : Rep x i) (hy : Rep y j) :
    mpz_kronecker x y = .ok (Spec.kronecker i j) ∧
    mpz_kronecker_ui x w = .ok (Spec.kronecker i w.toNat) ∧ mpz_kronecker_si x w = .ok (Spec.kronecker i w.toInt) ∧
    mpz_ui_kronecker w y = .ok (Spec.kronecker w.toNat j) ∧ mpz_si_kronecker w y = .ok (Spec.kronecker w.toInt j) :=
  ⟨Mpi.kronecker_rep hx hy, Mpi.kronecker_rep hx (Mpi.set_ui_rep w), Mpi.kronecker_rep hx (Mpi.set_si_rep w),
    Mpi.kronecker_rep (Mpi.set_ui_rep w) hy, Mpi.kronecker_rep (Mpi.set_si_rep w) hy⟩

example : mpz_kronecker ⟨true, [3]⟩ ⟨true, [8]⟩ = .ok 1 := by decide +kernel

end Torsion
