import Verif.Mpi.SieveLemmas

/-!
# Integer roots, perfect powers and the sieve (C40)

`Spec.Rep x i`: the `mpz_t` `x` is in normal form and stands for `i`; `Spec.val` is the number a limb
vector stands for. The loops of the model run out of steps into undefined behaviour, so every result below
includes that the code terminates.
-/
namespace Torsion

open Spec (Rep val)

/-- C40. `mpz_sqrtrem` of a non-negative integer returns the integer square root and the remainder; a
negative integer aborts. -/
theorem mpz_sqrtrem_exact (x : Mpz) (i : Int) (hx : Rep x i) :
    (0 ≤ i → ∃ s r a b, mpz_sqrtrem x = .ok (s, r) ∧ mpz_sqrt x = .ok s ∧ Rep s a ∧ Rep r b ∧
      0 ≤ a ∧ i = a ^ 2 + b ∧ 0 ≤ b ∧ i < (a + 1) ^ 2) ∧
    (i < 0 → mpz_sqrtrem x = .abort ∧ mpz_sqrt x = .abort) := by
  constructor
  · intro hi
    obtain ⟨X, rfl⟩ := Int.eq_ofNat_of_zero_le hi
    obtain ⟨s, r, e, rs, rr⟩ := Mpi.sqrtrem_val hx
    have hle := Nat.sqrt_le' X
    have hlt := Nat.lt_succ_sqrt' X
    refine ⟨s, r, _, _, e, by unfold mpz_sqrt; rw [e]; rfl, rs, rr, by omega, ?_, by omega, by exact_mod_cast hlt⟩
    rw [Nat.cast_sub hle]; push_cast; ring
  · intro hi
    have : mpz_sqrtrem x = .abort := by
      unfold mpz_sqrtrem; rw [if_pos ((Mpi.rep_sizen hx).2 hi)]
    exact ⟨this, by unfold mpz_sqrt; rw [this]; rfl⟩

example : mpz_sqrtrem ⟨false, [7, 0, 1]⟩ = .ok (⟨false, [0, 1]⟩, ⟨false, [7]⟩) := by decide +kernel

/-- C40. The vector form: the root in half the limbs, the remainder in as many limbs as the operand has, and
its length. -/
theorem mpn_sqrtrem_exact (x : List Limb) (hx : x.getLast? ≠ some 0) (hx0 : x ≠ []) :
    ∃ s r n, mpn_sqrtrem x = .ok (s, r, n) ∧ s.length = (x.length + 1) / 2 ∧ r.length = x.length ∧
      val x = val s ^ 2 + val r ∧ val x < (val s + 1) ^ 2 ∧ n ≤ r.length ∧ val (r.take n) = val r ∧
      (r.take n).getLast? ≠ some 0 := by
  obtain ⟨s, r, e, rs, rr⟩ := Mpi.sqrtrem_val (Mpi.pos_rep hx)
  have hle := Nat.sqrt_le' (val x)
  have hlt := Nat.lt_succ_sqrt' (val x)
  have hxl := Mpi.val_lt x
  have hl1 : s.mag.length ≤ (x.length + 1) / 2 := by
    apply Mpi.rep_len_le rs
    rw [Int.natAbs_natCast, Nat.sqrt_lt']
    refine lt_of_lt_of_le hxl ?_
    rw [← pow_mul]
    exact Nat.pow_le_pow_right (by omega) (by omega)
  have hl2 : r.mag.length ≤ x.length := by
    apply Mpi.rep_len_le rr
    rw [Int.natAbs_natCast]
    omega
  unfold mpn_sqrtrem
  rw [if_neg (by rintro (h | h); exacts [hx0 (List.getLast?_eq_none_iff.1 h), hx h]), e, C.ok_bind]
  dsimp only
  rw [C.check, decide_eq_true hl1]; simp only [if_true, C.ok_bind]
  rw [C.check, decide_eq_true hl2]; simp only [if_true, C.ok_bind]
  have vs := Mpi.rep_abs rs
  have vr := Mpi.rep_abs rr
  rw [Int.natAbs_natCast] at vs vr
  have v1 : val (s.mag ++ mpn_zero ((x.length + 1) / 2 - s.mag.length)) = Nat.sqrt (val x) := by
    rw [Mpi.val_append, Mpi.val_zeros, vs]; omega
  have v2 : val (r.mag ++ mpn_zero (x.length - r.mag.length)) = val x - Nat.sqrt (val x) ^ 2 := by
    rw [Mpi.val_append, Mpi.val_zeros, vr]; omega
  have ht : (r.mag ++ mpn_zero (x.length - r.mag.length)).take r.mag.length = r.mag := by simp
  refine ⟨_, _, _, rfl, ?_, ?_, ?_, ?_, ?_, ?_, ?_⟩
  · rw [List.length_append, Mpi.len_zeros]; omega
  · rw [List.length_append, Mpi.len_zeros]; omega
  · rw [v1, v2]; omega
  · rw [v1]; exact hlt
  · rw [List.length_append]; omega
  · rw [ht, v2, vr]
  · rw [ht]; exact Mpi.rep_norm rr

example : mpn_sqrtrem [7, 0, 1] = .ok ([0, 1], [7, 0, 0], 1) := by decide +kernel

/-- C40. `mpz_perfect_square_p` is exact, for negative integers too; the vector form agrees. -/
theorem mpz_perfect_square_exact (x : Mpz) (i : Int) (hx : Rep x i) :
    (∃ b, mpz_perfect_square_p x = .ok b ∧ (b = true ↔ ∃ a : Int, a * a = i)) ∧
    (0 < i → mpn_perfect_square_p x.mag = mpz_perfect_square_p x) := by
  refine ⟨Mpi.perfect_square_val hx, fun hi => ?_⟩
  have hne : x.mag ≠ [] := fun h => by have := (Mpi.rep_nil hx).1 h; omega
  have hneg : x.neg = false := by rw [Mpi.rep_neg' hx]; exact decide_eq_false (by omega)
  have hxe : x = ⟨false, x.mag⟩ := by cases x; simp_all
  unfold mpn_perfect_square_p
  rw [if_neg (by rintro (h | h); exacts [hne (List.getLast?_eq_none_iff.1 h), Mpi.rep_norm hx h])]
  rw [← hxe]

example : mpz_perfect_square_p ⟨false, [1, 2, 1]⟩ = .ok true := by decide +kernel
example : mpz_perfect_square_p ⟨false, [2, 2, 1]⟩ = .ok false := by decide +kernel

/-- C40. `mpz_rootrem` returns the `k`-th root rounded towards zero and the remainder, for every `k ≥ 1` and
every integer that has such a root; degree zero and even roots of negative integers abort. (The bound on the
size is that of memory: `2^57` limbs are `2^60` bytes.) -/
theorem mpz_rootrem_exact (x : Mpz) (i : Int) (k : Limb) (hx : Rep x i) (hsz : x.mag.length < 2 ^ 57) :
    (k ≠ 0 → 0 ≤ i ∨ k.toNat % 2 = 1 → ∃ s r a b, mpz_rootrem x k = .ok (s, r) ∧ Rep s a ∧ Rep r b ∧
      i = a ^ k.toNat + b ∧ (0 ≤ i → 0 ≤ a) ∧ (i ≤ 0 → a ≤ 0) ∧
      a.natAbs ^ k.toNat ≤ i.natAbs ∧ i.natAbs < (a.natAbs + 1) ^ k.toNat) ∧
    (k = 0 ∨ (i < 0 ∧ k.toNat % 2 = 0) → mpz_rootrem x k = .abort) := by
  constructor
  · intro hk hs
    obtain ⟨s, r, R, e, rs, h1, h2, rr⟩ := Mpi.rootrem_val hx hk hs hsz
    have hR0 : i = 0 → R = 0 := by
      rintro rfl
      have hk0 : k.toNat ≠ 0 := fun e => hk (BitVec.eq_of_toNat_eq e)
      by_contra hc
      have := Nat.pow_le_pow_left (show 1 ≤ R by omega) k.toNat
      rw [one_pow] at this
      simp at h1; omega
    have habs : (i.sign * (R : Int)).natAbs = R := by
      rcases lt_trichotomy i 0 with h | h | h
      · rw [Int.sign_eq_neg_one_of_neg h]; simp
      · rw [hR0 h]; simp
      · rw [Int.sign_eq_one_of_pos h]; simp
    refine ⟨s, r, _, _, e, rs, rr, by ring, ?_, ?_, by rw [habs]; exact h1, by rw [habs]; exact h2⟩
    · intro h; exact mul_nonneg (Int.sign_nonneg_iff.2 h) (by omega)
    · intro h; exact mul_nonpos_of_nonpos_of_nonneg (Int.sign_nonpos_iff.2 h) (by omega)
  · intro h
    unfold mpz_rootrem
    by_cases hk : k = 0
    · rw [if_pos hk]
    · rw [if_neg hk, if_pos (by rw [Mpi.rep_sizen hx, Mpi.even_test]; tauto)]

example : mpz_rootrem ⟨true, [3, 0, 0, 1]⟩ 3 = .ok (⟨true, [0, 1]⟩, ⟨true, [3]⟩) := by decide +kernel

/-- C40. `mpz_root` reports exactly whether the integer is a `k`-th power. -/
theorem mpz_root_exact (z : Bool) (x : Mpz) (i : Int) (k : Limb) (hx : Rep x i) (hsz : x.mag.length < 2 ^ 57)
    (hk : k ≠ 0) (hs : 0 ≤ i ∨ k.toNat % 2 = 1) :
    ∃ s b, mpz_root z x k = .ok (s, b) ∧ (b = true ↔ ∃ a : Int, a ^ k.toNat = i) ∧
      (b = true → ∃ a, Rep s a ∧ a ^ k.toNat = i) := by
  obtain ⟨s, r, R, e, rs, -, -, rr⟩ := Mpi.rootrem_val hx hk hs hsz
  obtain ⟨s', R', b, e2, -, -, -, hb⟩ := Mpi.root_val z hx hk hs hsz
  refine ⟨s', b, e2, hb, ?_⟩
  unfold mpz_root at e2
  rw [if_neg (by rw [Mpi.rep_sizen hx, Mpi.even_test]; rintro ⟨-, h | h⟩ <;> [exact hk h; omega]), e, C.ok_bind] at e2
  injection e2 with e2
  injection e2 with e3 e4
  subst e3; subst e4
  intro h
  rw [decide_eq_true_iff, Mpi.rep_size0 rr] at h
  exact ⟨_, rs, by omega⟩

example : mpz_root true ⟨true, [0, 0, 0, 27]⟩ 3 = .ok (⟨true, [0, 3]⟩, true) := by decide +kernel

/-- C40. `mpz_perfect_power_p` is exact. -/
theorem mpz_perfect_power_exact (x : Mpz) (i : Int) (hx : Rep x i) (hsz : x.mag.length < 2 ^ 57) :
    ∃ b, mpz_perfect_power_p x = .ok b ∧ (b = true ↔ ∃ (a : Int) (k : Nat), 2 ≤ k ∧ a ^ k = i) :=
  Mpi.perfect_power_val hx hsz

example : mpz_perfect_power_p ⟨true, [3125]⟩ = .ok true := by decide +kernel
example : mpz_perfect_power_p ⟨false, [3126]⟩ = .ok false := by decide +kernel

/-- C40. The sieve marks exactly the primes up to `n`. -/
theorem mpn_sieve_exact (n : Nat) :
    ∃ z, mpn_sieve n = .ok z ∧ z.length = (n + 64) / 64 ∧ ∀ j ≤ n, ((val z).testBit j = true ↔ Nat.Prime j) :=
  Mpi.sieve_val n

example : ∃ z, mpn_sieve 100 = .ok z ∧ (val z).testBit 97 = true :=
  ⟨[0x28208a20a08a28ac, 0x800228a202088288], by decide +kernel, by decide +kernel⟩

/-- C40. `mpz_primorial_ui` returns the product of the primes up to `n`. -/
theorem mpz_primorial_exact (n : Limb) (hn : n.toNat < 2 ^ 63) :
    ∃ t, mpz_primorial_ui n = .ok t ∧ Rep t ((∏ p ∈ (Finset.range (n.toNat + 1)).filter Nat.Prime, p : Nat) : Int) :=
  Mpi.primorial_val n hn

example : mpz_primorial_ui 10 = .ok ⟨false, [210]⟩ := by decide +kernel

end Torsion
