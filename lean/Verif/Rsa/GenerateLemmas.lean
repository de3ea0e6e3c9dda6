import Verif.Rsa.Generate
import Verif.Rsa.ImportLemmas
import Verif.Rsa.PadLemmas
import Verif.Mpi.PrimeSearchProps

/-!
# Lemmas: generation of RSA keys
-/
namespace Torsion.Rsa
open Torsion.Spec Torsion.Mpi

/-- What the loop asks of two primes. -/
structure GenOk (bits e p q : Nat) : Prop where
  lt : q < p
  psize : p.size = bits / 2 + bits % 2 ∨ p.size = bits / 2
  qsize : q.size = bits / 2 + bits % 2 ∨ q.size = bits / 2
  podd : p % 2 = 1
  qodd : q % 2 = 1
  pprime : BailliePSW p
  qprime : BailliePSW q
  far : 2 ^ (bits / 2 - 99) ≤ p - q
  size : (p * q).size = bits
  cop : Nat.Coprime e ((p - 1) * (q - 1))
  big : 2 ^ ((bits + 1) / 2) ≤ (pqeKey p q e).d

theorem randprime_of {S : Type} (rng : ByteGen S) (fuel : Nat) (s : S) {bits : Nat} (hb : 1 < bits) :
    mpz_randprime rng fuel s bits = .spin ∨
      ∃ (n : Nat) (s' : S), mpz_randprime rng fuel s bits = .ok (mpz_of n, s') ∧ n.size = bits ∧ n % 2 = 1 ∧ BailliePSW n := by
  rcases (mpz_randprime_exact rng fuel s bits).2 hb with h | ⟨z, n, s', h, hz, h1, h2, h3, h4⟩
  · exact Or.inl h
  · refine Or.inr ⟨n, s', by rw [h, rep_of hz], ?_, h3, h4⟩
    refine le_antisymm (Nat.size_le.2 h2) ?_
    by_contra hc
    have hlt : n < 2 ^ (bits - 1) := lt_of_lt_of_le (Nat.lt_size_self n) (Nat.pow_le_pow_right (by omega) (by omega))
    have e : 2 ^ (bits - 1) = 2 * 2 ^ (bits - 2) := by rw [← pow_succ']; congr 1; omega
    omega

theorem three_le {n b : Nat} (h : n.size = b) (hb : 2 < b) : 3 ≤ n := by
  by_contra hc
  have := Nat.size_le_size (show n ≤ 2 by omega)
  have h2 : Nat.size 2 = 2 := by decide
  omega

/-- The key made in a round. -/
theorem round_of {S : Type} (rng : Source S) (fuel : Nat) {bits e : Nat} (hb : 512 ≤ bits) (st : S) :
    rsa_generate_round rng fuel bits (mpz_of e) st = .spin ∨
    (∃ st', rsa_generate_round rng fuel bits (mpz_of e) st = .ok (none, st')) ∨
    (∃ p q st', GenOk bits e p q ∧ Nat.Coprime p q ∧
      rsa_generate_round rng fuel bits (mpz_of e) st = .ok (some (ofKey (pqeKey p q e)), st')) ∨
    (∃ p q, GenOk bits e p q ∧ ¬ Nat.Coprime p q ∧ rsa_generate_round rng fuel bits (mpz_of e) st = .abort) := by
  unfold rsa_generate_round
  rcases randprime_of rng.toByteGen fuel st (bits := bits / 2 + bits % 2) (by omega) with h | ⟨a, s1, h, a1, a2, a3⟩
  · rw [h]; exact Or.inl rfl
  rw [h, R.ok_bind]
  rcases randprime_of rng.toByteGen fuel s1 (bits := bits / 2) (by omega) with h | ⟨b, s2, h, b1, b2, b3⟩
  · dsimp only
    rw [h]; exact Or.inl rfl
  dsimp only
  rw [h, R.ok_bind]
  dsimp only
  by_cases hab : a = b
  · rw [if_pos (by rw [cmp_eq0, hab])]
    exact Or.inr (Or.inl ⟨_, rfl⟩)
  rw [if_neg (by rw [cmp_eq0]; exact_mod_cast hab)]
  obtain ⟨p, q, hp, hq, hlt, p1, p2, p3, q1, q2, q3⟩ : ∃ p q : Nat, (if mpz_cmp (mpz_of a) (mpz_of b) < 0 then mpz_of b else mpz_of a) = mpz_of p ∧
      (if mpz_cmp (mpz_of a) (mpz_of b) < 0 then mpz_of a else mpz_of b) = mpz_of q ∧ q < p ∧
      (p.size = bits / 2 + bits % 2 ∨ p.size = bits / 2) ∧ p % 2 = 1 ∧ BailliePSW p ∧
      (q.size = bits / 2 + bits % 2 ∨ q.size = bits / 2) ∧ q % 2 = 1 ∧ BailliePSW q := by
    by_cases hl : a < b
    · refine ⟨b, a, ?_, ?_, hl, Or.inr b1, b2, b3, Or.inl a1, a2, a3⟩
      · rw [if_pos (by rw [cmp_lt0]; exact_mod_cast hl)]
      · rw [if_pos (by rw [cmp_lt0]; exact_mod_cast hl)]
    · refine ⟨a, b, ?_, ?_, by omega, Or.inl a1, a2, a3, Or.inr b1, b2, b3⟩
      · rw [if_neg (by rw [cmp_lt0]; exact_mod_cast hl)]
      · rw [if_neg (by rw [cmp_lt0]; exact_mod_cast hl)]
  rw [hp, hq]
  have hp3 : 3 ≤ p := by rcases p1 with h | h <;> exact three_le h (by omega)
  have hq3 : 3 ≤ q := by rcases q1 with h | h <;> exact three_le h (by omega)
  simp only [R.liftM_eq, sub_of, bitlen_of, mul_of, sub_1_of, gcd_of, R.lift_ok, R.ok_bind]
  rw [pred_cast hp3, pred_cast hq3]
  have e1 : ((p : Int) - q).natAbs = p - q := by omega
  have e2 : ((p : Int) * q).natAbs = p * q := by rw [← Nat.cast_mul, Int.natAbs_natCast]
  rw [e1, e2]
  by_cases c1 : (p - q).size ≤ bits / 2 - 99
  · rw [if_pos c1]; exact Or.inr (Or.inl ⟨_, rfl⟩)
  rw [if_neg c1]
  by_cases c2 : (p * q).size = bits
  swap
  · rw [if_pos c2]; exact Or.inr (Or.inl ⟨_, rfl⟩)
  rw [if_neg (not_not.2 c2)]
  have e3 : Int.gcd (e : Int) (((p - 1 : Nat) : Int) * ((q - 1 : Nat) : Int)) = Nat.gcd e ((p - 1) * (q - 1)) := by
    rw [← Nat.cast_mul, Int.gcd_natCast_natCast]
  have e4 : Int.gcd ((p - 1 : Nat) : Int) ((q - 1 : Nat) : Int) = Nat.gcd (p - 1) (q - 1) := Int.gcd_natCast_natCast _ _
  rw [e3, e4]
  by_cases c3 : Nat.Coprime e ((p - 1) * (q - 1))
  swap
  · rw [if_pos (by rw [ne_eq, cmp_ui_eq0]; exact_mod_cast c3)]; exact Or.inr (Or.inl ⟨_, rfl⟩)
  rw [if_neg (by rw [ne_eq, not_not, cmp_ui_eq0]; exact_mod_cast c3)]
  have hg0 : 0 < Nat.gcd (p - 1) (q - 1) := Nat.gcd_pos_of_pos_left _ (by omega)
  rw [← Nat.cast_mul, divexact_of (by exact_mod_cast hg0.ne') (by exact_mod_cast (Nat.gcd_dvd_left _ _).mul_right _), R.lift_ok, R.ok_bind,
    show (((p - 1) * (q - 1) : Nat) : Int) / ((Nat.gcd (p - 1) (q - 1) : Nat) : Int) = ((Nat.lcm (p - 1) (q - 1) : Nat) : Int) from
      (Int.natCast_div _ _).symm]
  have hlp : 0 < Nat.lcm (p - 1) (q - 1) := Nat.lcm_pos (by omega) (by omega)
  have hple : p - 1 ≤ Nat.lcm (p - 1) (q - 1) := Nat.le_of_dvd hlp (Nat.dvd_lcm_left _ _)
  have hcl : Nat.Coprime e (Nat.lcm (p - 1) (q - 1)) := Nat.Coprime.coprime_dvd_right (Nat.lcm_dvd_mul _ _) c3
  have hp1 : ((p - 1 : Nat) : Int) ≠ 0 := by omega
  have hq1 : ((q - 1 : Nat) : Int) ≠ 0 := by omega
  simp only [invert_of, R.lift_ok, R.ok_bind, Int.gcd_natCast_natCast, Int.natAbs_natCast, bitlen_of, mod_of _ hp1, mod_of _ hq1]
  rw [if_neg (by rw [decide_eq_false_iff_not, not_not]; exact ⟨hcl, by omega⟩)]
  have d1 := (invMod_nat hcl (by omega)).1
  have d2 : (invMod e (Nat.lcm (p - 1) (q - 1) : Nat)).natAbs = (pqeKey p q e).d := by
    have : (pqeKey p q e).d = (invMod e (Nat.lcm (p - 1) (q - 1) : Nat)).toNat := rfl
    rw [this]; omega
  rw [d2]
  by_cases c4 : (pqeKey p q e).d.size ≤ (bits + 1) / 2
  · rw [if_pos c4]; exact Or.inr (Or.inl ⟨_, rfl⟩)
  rw [if_neg c4]
  have hg : GenOk bits e p q := ⟨hlt, p1, q1, p2, q2, p3, q3, Nat.lt_size.1 (not_le.1 c1), c2, c3, Nat.lt_size.1 (not_le.1 c4)⟩
  by_cases c5 : Nat.Coprime p q
  · rw [decide_eq_true ⟨c5.symm, by omega⟩]
    refine Or.inr (Or.inr (Or.inl ⟨p, q, s2, hg, c5, ?_⟩))
    have i1 := (invMod_nat c5.symm (by omega)).1
    have : (⟨mpz_of ((p : Int) * q), mpz_of e, mpz_of (invMod e ((p - 1).lcm (q - 1) : Nat)), mpz_of p, mpz_of q,
        mpz_of (invMod e ((p - 1).lcm (q - 1) : Nat) % ((p - 1 : Nat) : Int)),
        mpz_of (invMod e ((p - 1).lcm (q - 1) : Nat) % ((q - 1 : Nat) : Int)), mpz_of (invMod q p)⟩ : RsaPriv) =
        ofKey (pqeKey p q e) := by
      unfold ofKey pqeKey
      dsimp only
      rw [Int.natCast_mod, Int.natCast_mod, Nat.cast_mul, d1, i1]
    rw [this]
    rfl
  · rw [decide_eq_false (fun h => c5 (Nat.Coprime.symm h.1))]
    exact Or.inr (Or.inr (Or.inr ⟨p, q, hg, c5, rfl⟩))

theorem gen_loop_of {S : Type} (rng : Source S) (fuel : Nat) {bits e : Nat} (hb : 512 ≤ bits) : ∀ (f : Nat) (st : S),
    rsa_generate_loop rng fuel bits (mpz_of e) f st = .spin ∨
    (∃ p q, GenOk bits e p q ∧ Nat.Coprime p q ∧
      rsa_generate_loop rng fuel bits (mpz_of e) f st = .ok (ofKey (pqeKey p q e))) ∨
    (∃ p q, GenOk bits e p q ∧ ¬ Nat.Coprime p q ∧ rsa_generate_loop rng fuel bits (mpz_of e) f st = .abort)
  | 0, _ => Or.inl rfl
  | f + 1, st => by
    rw [rsa_generate_loop]
    rcases round_of rng fuel hb st with h | ⟨st', h⟩ | ⟨p, q, st', h1, h2, h⟩ | ⟨p, q, h1, h2, h⟩
    · rw [h]; exact Or.inl rfl
    · rw [h]; exact gen_loop_of rng fuel hb f st'
    · rw [h]; exact Or.inr (Or.inl ⟨p, q, h1, h2, rfl⟩)
    · rw [h]; exact Or.inr (Or.inr ⟨p, q, h1, h2, rfl⟩)

set_option exponentiation.threshold 600 in
/-- Such factors make a valid key. -/
theorem gen_pqe {bits e p q : Nat} (hb : 512 ≤ bits) (hb' : bits ≤ 16384) (he : 3 ≤ e) (he' : e < 2 ^ 33) (heo : e % 2 = 1)
    (h : GenOk bits e p q) (hc : Nat.Coprime p q) : PqeOk p q e := by
  have hp3 : 3 ≤ p := by rcases h.psize with h | h <;> exact three_le h (by omega)
  have hq3 : 3 ≤ q := by rcases h.qsize with h | h <;> exact three_le h (by omega)
  have hs := h.size
  refine ⟨h.podd, h.qodd, by omega, by omega, by have := h.lt; omega, hc, ⟨?_, ?_, ?_, ?_, ?_, ?_⟩, ?_⟩
  · exact Nat.lt_size.1 (by omega)
  · exact Nat.size_le.1 (by omega)
  · rw [Nat.mul_mod, h.podd, h.qodd]
  · exact he
  · exact he'
  · exact heo
  · exact Nat.Coprime.coprime_dvd_right (Nat.lcm_dvd_mul _ _) h.cop

end Torsion.Rsa
