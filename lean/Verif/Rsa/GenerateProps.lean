import Verif.Rsa.GenerateLemmas
import Verif.Rsa.Props

/-!
# Properties: generation of RSA keys (C92)

`fuel` bounds the rounds of every search, so `spin` stands for a search that has not ended within it; the theorems hold for
every bound.
-/
namespace Torsion
open Torsion.Spec Torsion.Rsa

/-- What a generated key is besides valid: two numbers of half the length each that pass the test for primes, at least
2^(bits/2 - 99) apart, whose product has exactly the length asked for, the exponent asked for, and a private exponent of more than half
the length. -/
structure RsaGenerated (bits e : Nat) (k : RsaKey) : Prop where
  size : k.n.size = bits
  exp : k.e = e
  order : k.q < k.p
  psize : k.p.size = (bits + 1) / 2 ∨ k.p.size = bits / 2
  qsize : k.q.size = (bits + 1) / 2 ∨ k.q.size = bits / 2
  pprime : BailliePSW k.p
  qprime : BailliePSW k.q
  far : 2 ^ (bits / 2 - 99) ≤ k.p - k.q
  big : 2 ^ ((bits + 1) / 2) ≤ k.d

theorem gen_size {x bits : Nat} (h : x.size = bits / 2 + bits % 2 ∨ x.size = bits / 2) : x.size = (bits + 1) / 2 ∨ x.size = bits / 2 := by
  omega

theorem exp_bits (exp : Limb) : (exp &&& 1 = 0) ↔ exp.toNat % 2 = 0 := by
  rw [← BitVec.toNat_inj, BitVec.toNat_and]
  have : (1 : Limb).toNat = 1 := rfl
  rw [this, Nat.and_one_is_mod]
  rfl

/-- C92: sizes outside 512..16384 bits and exponents that are even or outside 3..2^33 - 1 are refused before anything is drawn. -/
theorem rsa_privkey_generate_fail {S : Type} (rng : Source S) (fuel bits : Nat) (exp : Limb) (entropy : List Byte)
    (h : ¬ (512 ≤ bits ∧ bits ≤ 16384 ∧ 3 ≤ exp.toNat ∧ exp.toNat < 2 ^ 33 ∧ exp.toNat % 2 = 1)) :
    rsa_privkey_generate rng fuel bits exp entropy = .fail := by
  unfold rsa_privkey_generate
  by_cases hb : bits > RSA_MAX_MOD_BITS
  · simp only [hb, not_true_eq_false, R.need]
    rfl
  · have : rsa_priv_generate rng fuel bits exp entropy = .fail := by
      unfold rsa_priv_generate
      rw [if_pos]
      rw [exp_bits]
      simp only [BitVec.lt_def, gt_iff_lt, RSA_MIN_EXP, RSA_MAX_EXP, RSA_MIN_MOD_BITS, RSA_MAX_MOD_BITS] at *
      have h1 : (3 : Limb).toNat = 3 := rfl
      have h2 : (0x1ffffffff : Limb).toNat = 2 ^ 33 - 1 := rfl
      rw [h1, h2]
      omega
    rw [this]
    simp only [hb, not_false_eq_true, R.need]
    rfl

/-- C92: otherwise the search ends in the DER of a valid key of exactly that size and exponent, made of two numbers that pass the
test for primes and with all the further properties; or it does not end; or it aborts in the assertion on the inverse of
`q`, which takes two such numbers with a common factor, so that the larger is not a prime. -/
theorem rsa_privkey_generate_exact {S : Type} (rng : Source S) (fuel bits : Nat) (exp : Limb) (entropy : List Byte)
    (h1 : 512 ≤ bits) (h2 : bits ≤ 16384) (h3 : 3 ≤ exp.toNat) (h4 : exp.toNat < 2 ^ 33) (h5 : exp.toNat % 2 = 1) :
    rsa_privkey_generate rng fuel bits exp entropy = .spin ∨
    (∃ k, rsa_privkey_generate rng fuel bits exp entropy = .ok (rsaPrivDer k) ∧ RsaKeyOk k ∧ RsaGenerated bits exp.toNat k ∧
      rsa_privkey_verify (rsaPrivDer k) = .ok ()) ∨
    (rsa_privkey_generate rng fuel bits exp entropy = .abort ∧
      ∃ p q, q < p ∧ BailliePSW p ∧ BailliePSW q ∧ 3 ≤ q ∧ ¬ Nat.Coprime p q ∧ ¬ p.Prime) := by
  unfold rsa_privkey_generate
  have hb : ¬ bits > RSA_MAX_MOD_BITS := by
    unfold RSA_MAX_MOD_BITS
    omega
  have hu : rsa_priv_generate rng fuel bits exp entropy =
      rsa_generate_loop rng fuel bits (mpz_of exp.toNat) fuel (rng.init entropy) := by
    unfold rsa_priv_generate
    rw [if_neg, Mpi.set_ui_of]
    rw [exp_bits]
    simp only [BitVec.lt_def, gt_iff_lt, RSA_MIN_EXP, RSA_MAX_EXP, RSA_MIN_MOD_BITS, RSA_MAX_MOD_BITS] at *
    have g1 : (3 : Limb).toNat = 3 := rfl
    have g2 : (0x1ffffffff : Limb).toNat = 2 ^ 33 - 1 := rfl
    rw [g1, g2]
    omega
  rw [hu]
  simp only [hb, not_false_eq_true, R.need]
  rcases gen_loop_of rng fuel h1 fuel (rng.init entropy) with h | ⟨p, q, g, hc, h⟩ | ⟨p, q, g, hc, h⟩
  · rw [h]; exact Or.inl rfl
  · have ho := pqe_key_ok (gen_pqe h1 h2 h3 h4 h5 g hc) g.lt
    refine Or.inr (Or.inl ⟨pqeKey p q exp.toNat, ?_, ho, ?_, ((rsa_privkey_verify_iff _).1 ⟨_, rfl, ho⟩)⟩)
    · rw [h]
      show (do let out ← R.lift (rsa_priv_export (ofKey (pqeKey p q exp.toNat))); R.ok out : R (List Byte)) = _
      rw [export_ok (priv_small ho)]
      rfl
    · exact ⟨g.size, rfl, g.lt, gen_size g.psize, gen_size g.qsize, g.pprime, g.qprime, g.far, g.big⟩
  · rw [h]
    have hq3 : 3 ≤ q := by rcases g.qsize with h | h <;> exact three_le h (by omega)
    refine Or.inr (Or.inr ⟨rfl, p, q, g.lt, g.pprime, g.qprime, hq3, hc, ?_⟩)
    intro hp
    exact hc ((Nat.Prime.coprime_iff_not_dvd hp).2 fun hd => absurd (Nat.le_of_dvd (by omega) hd) (by have := g.lt; omega))

/-- A source to run the generation on: bytes in arithmetic progression, from a state which counts the calls. -/
def countSource : Source Nat :=
  ⟨⟨fun s n => ((List.range n).map fun i => BitVec.ofNat 8 (s * 37 + i * 101), s + 1), fun _ _ => by simp⟩, fun l => l.length⟩

example : rsa_privkey_generate countSource 9 511 65537 [] = .fail := rsa_privkey_generate_fail _ _ _ _ _ (by decide)
example : rsa_privkey_generate countSource 9 2048 65536 [] = .fail := rsa_privkey_generate_fail _ _ _ _ _ (by decide)
example : 512 ≤ 2048 ∧ 2048 ≤ 16384 ∧ 3 ≤ (65537 : Limb).toNat ∧ (65537 : Limb).toNat < 2 ^ 33 ∧ (65537 : Limb).toNat % 2 = 1 := by
  decide
/-- The loop, for a size the kernel can run: the primes 809 and 769. -/
example : (rsa_generate_loop countSource 200 20 (mpz_of 17) 1 0 >>= fun k => .ok (k.p, k.q, k.d)) =
    .ok (mpz_of 809, mpz_of 769, mpz_of 0x6af1) := by decide +kernel
/-- A round that is not accepted. -/
example : rsa_generate_loop countSource 200 20 (mpz_of 17) 1 3 = .spin := by decide +kernel

end Torsion
