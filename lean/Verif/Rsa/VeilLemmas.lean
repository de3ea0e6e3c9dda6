import Verif.Rsa.PadLemmas

/-!
# Lemmas: veiling
-/
namespace Torsion.Rsa
open Torsion.Spec Mpi

theorem veil_loop {S : Type} (rng : Source S) (fuel : Nat) {n c V M : Nat} (hM : 0 < M) :
    ∀ (f : Nat) (v : Nat) (st : S), (v < V → ∃ r : Nat, v = c + r * n) →
      rsa_veil_loop rng fuel (mpz_of n) (mpz_of c) (mpz_of V) (mpz_of M) f (mpz_of v) st = .spin ∨
      ∃ r : Nat, c + r * n < V ∧
        rsa_veil_loop rng fuel (mpz_of n) (mpz_of c) (mpz_of V) (mpz_of M) f (mpz_of v) st =
          .ok (mpz_of ((c + r * n : Nat) : Int))
  | 0, v, st, _ => Or.inl rfl
  | f + 1, v, st, hv => by
    unfold rsa_veil_loop
    simp only [cmp_ge0]
    by_cases h : (V : Int) ≤ v
    · rw [if_pos h]
      rcases urandomm_of rng.toByteGen fuel st hM with h1 | ⟨r, s', h1, -⟩
      · rw [h1]; exact Or.inl rfl
      · rw [h1, R.ok_bind]
        dsimp only
        rw [R.liftM_eq, mul_of, R.lift_ok, R.ok_bind, R.liftM_eq, add_of, R.lift_ok, R.ok_bind,
          show (c : Int) + (r : Int) * (n : Int) = ((c + r * n : Nat) : Int) by push_cast; rfl]
        exact veil_loop rng fuel hM f (c + r * n) s' (fun _ => ⟨r, rfl⟩)
    · rw [if_neg h]
      obtain ⟨r, hr⟩ := hv (by omega)
      right
      exact ⟨r, by omega, by rw [hr]⟩

theorem size_le (v b : Nat) : v.size ≤ b ↔ v < 2 ^ b := by
  have := size_ge (b := b) (n := v)
  omega

theorem veil_cases {S : Type} (rng : Source S) (fuel : Nat) {n e : Nat} (hk : RsaPubOk n e) (msg : List Byte) (bits : Nat)
    (entropy : List Byte) :
    (¬ (n.size ≤ bits ∧ beVal msg < n) → rsa_pub_veil rng fuel ⟨mpz_of n, mpz_of e⟩ msg bits entropy = .fail) ∧
    (n.size ≤ bits → beVal msg < n →
      rsa_pub_veil rng fuel ⟨mpz_of n, mpz_of e⟩ msg bits entropy = .spin ∨
      ∃ v, rsa_pub_veil rng fuel ⟨mpz_of n, mpz_of e⟩ msg bits entropy = .ok v ∧ v.length = (bits + 7) / 8 ∧
        beVal v < 2 ^ bits ∧ beVal v % n = beVal msg) := by
  have hn0 : 0 < n := by have := hk.odd; omega
  unfold rsa_pub_veil
  dsimp only
  rw [R.liftM_eq, bitlen_of, R.lift_ok, R.ok_bind, Int.natAbs_natCast, R.liftM_eq, import_of]
  by_cases hb : bits < n.size
  · exact ⟨fun _ => by rw [decide_eq_false (not_not.2 hb)]; rfl, fun h => absurd h (by omega)⟩
  rw [decide_eq_true hb, R.need_true, R.ok_bind, R.lift_ok, R.ok_bind]
  simp only [cmp_ge0]
  by_cases hc : (n : Int) ≤ (beVal msg : Nat)
  · exact ⟨fun _ => by rw [decide_eq_false (not_not.2 hc)]; rfl, fun _ h => absurd h (by omega)⟩
  rw [decide_eq_true hc, R.need_true, R.ok_bind]
  have hcn : beVal msg < n := by omega
  refine ⟨fun h => absurd ⟨by omega, hcn⟩ h, fun _ _ => ?_⟩
  have hnV : n < 2 ^ bits := (size_le n bits).1 (by omega)
  generalize beVal msg = c at hcn hc ⊢
  have hset : mpz_setbit (mpz_set_ui 0) bits = .ok (mpz_of ((2 ^ bits : Nat) : Int)) := setbit_zero_of bits
  have hR : ((2 ^ bits : Nat) : Int) - (c : Int) + n - 1 = ((2 ^ bits - c + n - 1 : Nat) : Int) := by
    have : c ≤ 2 ^ bits := by omega
    omega
  have hq : (((2 ^ bits - c + n - 1 : Nat) : Int)).tdiv n = (((2 ^ bits - c + n - 1) / n : Nat) : Int) := by
    rw [Int.tdiv_eq_ediv_of_nonneg (by omega)]; rfl
  have hpos : 0 < (2 ^ bits - c + n - 1) / n := Nat.div_pos (by omega) hn0
  simp only [R.liftM_eq, hset, R.lift_ok, R.ok_bind, sub_of, add_of, sub_1_of, hR, quo_of _ (show (n : Int) ≠ 0 by omega), hq,
    sgn_pos, set_of]
  rw [decide_eq_true (by omega), show R.lift (C.check true) = .ok () from rfl, R.ok_bind]
  rcases veil_loop rng fuel (n := n) (c := c) (V := 2 ^ bits) hpos fuel (2 ^ bits) (rng.init entropy)
    (fun h => absurd h (lt_irrefl _)) with h | ⟨r, hr, h⟩
  · left
    rw [h]; rfl
  · right
    rw [h, R.ok_bind]
    have hm : (c + r * n) % n = c := by rw [Nat.add_mul_mod_self_right, Nat.mod_eq_of_lt hcn]
    have hmi : ((c + r * n : Nat) : Int) % (n : Int) = c := by
      rw [← Int.natCast_mod, hm]
    simp only [mod_of _ (show (n : Int) ≠ 0 by omega), hmi, R.lift_ok, R.ok_bind, cmp_eq0, bitlen_of, Int.natAbs_natCast]
    rw [decide_eq_true trivial, show R.lift (C.check true) = .ok () from rfl, R.ok_bind,
      decide_eq_true ((size_le _ _).2 hr), show R.lift (C.check true) = .ok () from rfl, R.ok_bind]
    obtain ⟨z, h1, h2, h3⟩ := export_of (v := c + r * n) (n := (bits + 7) / 8) (by
      refine lt_of_lt_of_le hr ?_
      rw [show (256 : Nat) = 2 ^ 8 by norm_num, ← Nat.pow_mul]
      exact Nat.pow_le_pow_right (by omega) (by omega))
    rw [h1]
    exact ⟨z, rfl, h2, by rw [h3]; exact hr, by rw [h3]; exact hm⟩

theorem unveil_det {n e : Nat} (hk : RsaPubOk n e) (msg : List Byte) (bits : Nat) :
    ((bits ≠ 0 ∧ 2 ^ bits ≤ beVal msg) → rsa_pub_unveil ⟨mpz_of n, mpz_of e⟩ msg bits = .fail) ∧
    (¬ (bits ≠ 0 ∧ 2 ^ bits ≤ beVal msg) → ∃ z, rsa_pub_unveil ⟨mpz_of n, mpz_of e⟩ msg bits = .ok z ∧
      z.length = rsaLen n ∧ beVal z = beVal msg % n) := by
  have hn0 : 0 < n := by have := hk.odd; omega
  unfold rsa_pub_unveil
  dsimp only
  simp only [R.liftM_eq, import_of, R.lift_ok, R.ok_bind, bitlen_of, Int.natAbs_natCast,
    mod_of _ (show (n : Int) ≠ 0 by omega), bytelen_of]
  have hs := size_le (beVal msg) bits
  by_cases h : bits ≠ 0 ∧ (beVal msg).size > bits
  · refine ⟨fun _ => by rw [decide_eq_false (not_not.2 h)]; rfl, fun h' => absurd ⟨h.1, ?_⟩ h'⟩
    by_contra hc
    have := h.2
    have := hs.2 (by omega)
    omega
  · rw [decide_eq_true h, R.need_true, R.ok_bind]
    have hiff : (bits ≠ 0 ∧ 2 ^ bits ≤ beVal msg) → False := by
      rintro ⟨h1, h2⟩
      refine h ⟨h1, ?_⟩
      by_contra hc
      have := hs.1 (by omega)
      omega
    refine ⟨fun h' => absurd h' hiff, fun _ => ?_⟩
    obtain ⟨z, h1, h2, h3⟩ := export_of (v := beVal msg % n) (n := rsaLen n) (lt_trans (Nat.mod_lt _ hn0) (rsaLen_lt n))
    rw [← Int.natCast_mod, show (n.size + 7) / 8 = rsaLen n from rfl, h1]
    exact ⟨z, rfl, h2, h3⟩

end Torsion.Rsa
