import Verif.Dsa.GenerateLemmas
import Verif.Rsa.GenerateProps

/-!
# Properties: generation of DSA groups and keys (C93)

`fuel` bounds the rounds of every search, so `spin` stands for a search that has not ended within it; the theorems hold for
every bound.
-/
namespace Torsion
open Torsion.Spec Torsion.Dsa

/-- FIPS 186-4 A.1, A.2: what is generated for a size: `p` and `q` of exactly the sizes (1024, 160), (2048, 256), (3072, 256),
odd, both passing the test for primes, `q` a divisor of `p - 1`, and for generator the first of the powers of 2, 3, ... with the
exponent `(p - 1) / q` that is not 1. -/
structure DsaGenerated (bits p q g : Nat) : Prop where
  sizes : (p.size = bits) ∧ ((bits = 1024 ∧ q.size = 160) ∨ (bits = 2048 ∧ q.size = 256) ∨ (bits = 3072 ∧ q.size = 256))
  podd : p % 2 = 1
  qodd : q % 2 = 1
  dvd : q ∣ p - 1
  pprime : BailliePSW p
  qprime : BailliePSW q
  gen : ∃ h, 2 ≤ h ∧ g = h ^ ((p - 1) / q) % p ∧ g ≠ 1 ∧ ∀ j, 2 ≤ j → j < h → j ^ ((p - 1) / q) % p = 1

theorem size_pow {n b : Nat} (h : n.size = b) (hb : 0 < b) : 2 ^ (b - 1) ≤ n ∧ n < 2 ^ b :=
  ⟨Nat.lt_size.1 (by omega), Nat.size_le.1 (by omega)⟩

theorem generated_of {bits p q g : Nat} (hb : bits = 1024 ∨ bits = 2048 ∨ bits = 3072) (h : GroupGen bits p q g) :
    DsaGenerated bits p q g := by
  have hq := h.qsize
  have hq1 : 1 < q := by
    by_contra hc
    have h1 := Nat.size_le_size (show q ≤ 1 by omega)
    rw [Nat.size_one] at h1
    split at hq <;> omega
  have hp1 : 1 ≤ p := by have := h.podd; omega
  refine ⟨⟨h.psize, by split at hq <;> omega⟩, h.podd, h.qodd, (Nat.modEq_iff_dvd' hp1).1 ?_, h.pprime, h.qprime, h.gen⟩
  show 1 % q = p % q
  rw [h.mod, Nat.mod_eq_of_lt hq1]

set_option exponentiation.threshold 20000 in
/-- Such numbers can be written. -/
theorem generated_small {bits p q g : Nat} (h : DsaGenerated bits p q g) : p < 256 ^ 2048 ∧ q < 256 ^ 2048 ∧ g < 256 ^ 2048 ∧ 0 < q := by
  obtain ⟨s1, s2⟩ := h.sizes
  have hp : p < 2 ^ 16384 := Nat.size_le.1 (by omega)
  have hq : q < 2 ^ 16384 := Nat.size_le.1 (by omega)
  have hpow : (256 : Nat) ^ 2048 = 2 ^ 16384 := by rw [show (256 : Nat) = 2 ^ 8 from rfl, ← pow_mul]
  obtain ⟨k, -, hg, -, -⟩ := h.gen
  have hp0 : 0 < p := by have := h.podd; omega
  have hgp : g < p := by rw [hg]; exact Nat.mod_lt _ hp0
  rw [hpow]
  exact ⟨hp, hq, lt_trans hgp hp, by have := h.qodd; omega⟩

/-- C93: when the `p` of a generated group is a prime, the group is valid: `g` lies in 2, ..., p - 2 and its order divides `q`. When `q` is
a prime too the order is `q`. -/
theorem dsa_generated_ok {bits p q g : Nat} (h : DsaGenerated bits p q g) (hp : p.Prime) :
    DsaGroupOk p q g ∧ (q.Prime → orderOf (g : ZMod p) = q) := by
  obtain ⟨s1, s2⟩ := h.sizes
  obtain ⟨k, h2, rfl, hne, hk⟩ := h.gen
  have b1 : 2 ^ 511 ≤ p := le_trans (Nat.pow_le_pow_right (by omega) (by omega : 511 ≤ bits - 1)) (size_pow s1 (by omega)).1
  have b2 : p < 2 ^ 10000 := lt_of_lt_of_le (size_pow s1 (by omega)).2 (Nat.pow_le_pow_right (by omega) (by omega))
  have hq1 : 1 < q := by
    by_contra hc
    have h1 := Nat.size_le_size (show q ≤ 1 by omega)
    rw [Nat.size_one] at h1
    omega
  have hmod : p % q = 1 := by
    obtain ⟨c, hc⟩ := h.dvd
    have := hp.one_lt
    rw [show p = q * c + 1 by omega, Nat.mul_add_mod, Nat.mod_eq_of_lt hq1]
  have ho := group_of_prime hp b1 b2 (by omega) h.podd h.qodd hmod h2 hne hk
  refine ⟨ho, fun hq => ?_⟩
  have : Fact q.Prime := ⟨hq⟩
  have hg := ho.order
  have hglt : k ^ ((p - 1) / q) % p < p := Nat.mod_lt _ hp.pos
  generalize k ^ ((p - 1) / q) % p = g at *
  refine orderOf_eq_prime ?_ ?_
  · have := (ZMod.natCast_eq_natCast_iff (g ^ q) 1 p).2 (by unfold Nat.ModEq; rw [hg, Nat.mod_eq_of_lt hp.one_lt])
    push_cast at this
    exact this
  · intro h1
    have := (ZMod.natCast_eq_natCast_iff g 1 p).1 (by push_cast; exact h1)
    unfold Nat.ModEq at this
    rw [Nat.mod_eq_of_lt hglt, Nat.mod_eq_of_lt hp.one_lt] at this
    exact hne this

/-- C93: sizes other than 1024, 2048 and 3072 are refused, by both functions. -/
theorem dsa_generate_fail {S : Type} (rng : Source S) (fuel bits : Nat) (entropy : List Byte)
    (h : ¬ (bits = 1024 ∨ bits = 2048 ∨ bits = 3072)) :
    dsa_params_generate rng fuel bits entropy = .fail ∧ dsa_privkey_generate rng fuel bits entropy = .fail := by
  have hf : ∀ e, dsa_group_generate rng fuel bits e = .fail := by
    intro e
    unfold dsa_group_generate
    dsimp only
    rw [if_pos (by refine ⟨?_, ?_, ?_, ?_⟩ <;> omega)]
  unfold dsa_params_generate dsa_privkey_generate dsa_priv_generate
  by_cases hb : bits > DSA_MAX_BITS
  · simp only [hb, not_true_eq_false, R.need]
    exact ⟨rfl, rfl⟩
  · simp only [hb, not_false_eq_true, R.need, hf]
    exact ⟨rfl, rfl⟩

/-- C93: otherwise a group of exactly that size comes out, or the search does not end. If its `p` is a prime it passes
verification. -/
theorem dsa_params_generate_exact {S : Type} (rng : Source S) (fuel bits : Nat) (entropy : List Byte)
    (h : bits = 1024 ∨ bits = 2048 ∨ bits = 3072) :
    dsa_params_generate rng fuel bits entropy = .spin ∨
    ∃ p q g, dsa_params_generate rng fuel bits entropy = .ok (dsaParamsDer p q g) ∧ DsaGenerated bits p q g ∧
      (p.Prime → dsa_params_verify (dsaParamsDer p q g) = .ok ()) := by
  have hb : ¬ bits > DSA_MAX_BITS := by unfold DSA_MAX_BITS; omega
  unfold dsa_params_generate
  simp only [hb, not_false_eq_true, R.need]
  rcases group_of rng fuel h entropy with e | ⟨p, q, g, e, hg⟩
  · rw [e]; exact Or.inl rfl
  · have hd := generated_of h hg
    obtain ⟨b1, b2, b3, -⟩ := generated_small hd
    refine Or.inr ⟨p, q, g, ?_, hd, fun hp => (dsa_params_verify_iff _).1 ⟨p, q, g, rfl, (dsa_generated_ok hd hp).1⟩⟩
    rw [e]
    show (do let out ← R.lift (dsa_group_export (ofGroup p q g)); R.ok out : R (List Byte)) = _
    rw [group_export_small b1 b2 b3]
    rfl

/-- C93: a generated key has such a group, a secret in `1, ..., q - 1` and its public number. If `p` and `q` are primes it passes
verification. -/
theorem dsa_privkey_generate_exact {S : Type} (rng : Source S) (fuel bits : Nat) (entropy : List Byte)
    (h : bits = 1024 ∨ bits = 2048 ∨ bits = 3072) :
    dsa_privkey_generate rng fuel bits entropy = .spin ∨
    ∃ p q g x, dsa_privkey_generate rng fuel bits entropy = .ok (dsaPrivDer ⟨p, q, g, g ^ x % p, x⟩) ∧ DsaGenerated bits p q g ∧
      0 < x ∧ x < q ∧ (p.Prime → q.Prime → DsaKeyOk ⟨p, q, g, g ^ x % p, x⟩ ∧
        dsa_privkey_verify (dsaPrivDer ⟨p, q, g, g ^ x % p, x⟩) = .ok ()) := by
  have hb : ¬ bits > DSA_MAX_BITS := by unfold DSA_MAX_BITS; omega
  unfold dsa_privkey_generate dsa_priv_generate
  simp only [hb, not_false_eq_true, R.need]
  rcases group_of rng fuel h (rng.gen (rng.init entropy) 32).1 with e | ⟨p, q, g, e, hg⟩
  · rw [e]; exact Or.inl rfl
  have hd := generated_of h hg
  obtain ⟨b1, b2, b3, hq0⟩ := generated_small hd
  rw [e]
  rcases create_of rng fuel (g := g) hd.podd hq0 (rng.gen (rng.gen (rng.init entropy) 32).2 32).1 with e | ⟨x, x0, x1, e⟩
  · left
    show ((dsa_priv_create rng fuel (ofGroup p q g) (rng.gen (rng.gen (rng.init entropy) 32).2 32).1 >>= fun k => _) : R (List Byte)) = _
    rw [e]
    rfl
  · right
    refine ⟨p, q, g, x, ?_, hd, x0, x1, fun hp hq => ?_⟩
    · show ((dsa_priv_create rng fuel (ofGroup p q g) (rng.gen (rng.gen (rng.init entropy) 32).2 32).1 >>= fun k => _) : R (List Byte)) = _
      rw [e]
      show (do let out ← R.lift (dsa_priv_export (ofKey ⟨p, q, g, g ^ x % p, x⟩)); R.ok out : R (List Byte)) = _
      rw [priv_export_ok ⟨b1, b2, b3, lt_of_le_of_lt (Nat.mod_lt _ (by have := hd.podd; omega)).le b1, lt_trans x1 b2⟩]
      rfl
    · have hk := dsa_key_of_secret (dsa_generated_ok hd hp).1 hq x0 x1
      exact ⟨hk, (dsa_privkey_verify_iff _).1 ⟨_, rfl, hk⟩⟩

/-- The last loop: over 7 with `q = 3`, the square of 2. -/
example : dsa_generate_g (mpz_of 7) (mpz_of 2) 9 (mpz_of 2) = .ok (mpz_of 4) := by decide +kernel
/-- Over 31 with `q = 3` the tenth power of 2 is 1, so the base is 3. -/
example : dsa_generate_g (mpz_of 31) (mpz_of 10) 9 (mpz_of 2) = .ok (mpz_of 25) := by decide +kernel
/-- The first loop, for sizes the kernel can run: 17 divides 3910. -/
example : dsa_generate_pq countSource 200 12 5 1 0 = .ok (mpz_of 3911, mpz_of 17) := by decide +kernel
example : dsa_params_generate countSource 9 1025 [] = .fail := (dsa_generate_fail _ _ _ _ (by decide)).1

end Torsion
