import Verif.Dsa.Generate
import Verif.Dsa.Props
import Verif.Mpi.PrimeSearchProps

/-!
# Lemmas: generation of DSA groups and keys
-/
namespace Torsion.Dsa
open Torsion.Spec Torsion.Mpi

theorem candidate_bits {S : Type} (rng : Source S) {n : Nat} (hn : 1 < n) (st : S) :
    ∃ (m : Nat) (st' : S), dsa_candidate rng n st = .ok (mpz_of m, st') ∧ 2 ^ (n - 1) ≤ m ∧ m < 2 ^ n ∧ m % 2 = 1 := by
  obtain ⟨k, rfl⟩ : ∃ k, n = k + 2 := ⟨n - 2, by omega⟩
  obtain ⟨z, e, rz⟩ := mpz_urandomb_exact rng.toByteGen st (k + 2)
  unfold dsa_candidate
  have hlt := Nat.mod_lt (leVal (rng.gen st ((k + 2 + 63) / 64 * 8)).1) (show 0 < 2 ^ (k + 2) by positivity)
  rw [e, C.ok_bind, rep_of rz]
  generalize leVal (rng.gen st ((k + 2 + 63) / 64 * 8)).1 % 2 ^ (k + 2) = w at *
  dsimp only
  rw [setbit_of, C.ok_bind, setbit_of, C.ok_bind]
  refine ⟨_, _, rfl, ?_⟩
  simp only [Nat.testBit_eq_decide_div_mod_eq, decide_eq_true_eq, pow_zero, Nat.div_one]
  have h0 : k + 2 - 1 = k + 1 := rfl
  have h1 : (2 : Nat) ^ (k + 1) = 2 * 2 ^ k := by ring
  have h2 : (2 : Nat) ^ (k + 2) = 4 * 2 ^ k := by ring
  have hq : 0 < 2 ^ k := by positivity
  rw [h2] at hlt
  rw [h0, h1, h2]
  generalize (2 : Nat) ^ k = Q at *
  obtain ⟨v, hv, hv1, hv2⟩ : ∃ v, (if w % 2 = 1 then w else w + 1) = v ∧ v < 4 * Q ∧ v % 2 = 1 := ⟨_, rfl, by split <;> omega, by split <;> omega⟩
  rw [hv]
  by_cases hb : 2 * Q ≤ v
  · rw [if_pos (by rw [Nat.div_eq_of_lt_le (k := 1) (by omega) (by omega)])]
    omega
  · rw [if_neg (by rw [Nat.div_eq_of_lt (by omega)]; decide)]
    omega

theorem psw_odd {n : Nat} (h : BailliePSW n) (h2 : 2 < n) : n % 2 = 1 := by
  rcases h with ⟨-, h⟩ | ⟨-, h, -, -⟩
  · rcases h.eq_two_or_odd with h | h
    · omega
    · exact h
  · by_contra hc
    exact h 2 Nat.prime_two (by omega) (by omega)

theorem p_of {S : Type} (rng : Source S) (fuel : Nat) {q L : Nat} (hq : 1 < q) (hL : 2 < L) : ∀ (i : Nat) (st : S),
    dsa_generate_p rng fuel (mpz_of q) L i st = .spin ∨
    (∃ st', dsa_generate_p rng fuel (mpz_of q) L i st = .ok (none, st')) ∨
    ∃ (p : Nat) (st' : S), dsa_generate_p rng fuel (mpz_of q) L i st = .ok (some (mpz_of p), st') ∧ p.size = L ∧ p % 2 = 1 ∧
      p % q = 1 ∧ BailliePSW p
  | 0, st => Or.inr (Or.inl ⟨st, rfl⟩)
  | i + 1, st => by
    rw [dsa_generate_p]
    obtain ⟨m, st', e, m1, m2, m3⟩ := candidate_bits rng (show 1 < L by omega) st
    have hmq : (m : Int) - (m % q - 1) = ((m - m % q + 1 : Nat) : Int) := by
      have := Nat.mod_le m q
      omega
    simp only [R.liftM_eq, e, R.lift_ok, R.ok_bind, mod_of _ (show (q : Int) ≠ 0 by omega), sub_1_of, sub_of, bitlen_of]
    rw [hmq, Int.natAbs_natCast]
    have hle : m - m % q + 1 ≤ 2 ^ L := by omega
    have hmod : (m - m % q + 1) % q = 1 := by
      have h1 : m - m % q = q * (m / q) := by have := Nat.div_add_mod m q; omega
      rw [h1, Nat.mul_add_mod, Nat.mod_eq_of_lt hq]
    generalize m - m % q + 1 = p at *
    by_cases c : p.size < L ∨ p.size > DSA_MAX_BITS
    · rw [if_pos c]; exact p_of rng fuel hq hL i st'
    rw [if_neg c]
    rcases probab_total rng.toByteGen fuel st' (p : Int) 64 (by norm_num) with h | ⟨b, s2, h⟩
    · rw [h]; exact Or.inl rfl
    rw [h, R.ok_bind]
    dsimp only
    cases b with
    | false => rw [if_pos rfl]; exact p_of rng fuel hq hL i s2
    | true =>
      rw [if_neg (by decide)]
      have hb := (mpz_probab_prime_p_passed _ _ _ _ _ _ (of_rep _) 64 (by norm_num) h).2
      rw [Int.natAbs_natCast] at hb
      have h2 : 2 < p := by
        by_contra hc
        have h1 := Nat.size_le_size (show p ≤ 2 by omega)
        have h2 : Nat.size 2 = 2 := by decide
        omega
      have ho := psw_odd hb h2
      refine Or.inr (Or.inr ⟨p, s2, rfl, ?_, ho, hmod, hb⟩)
      refine le_antisymm (Nat.size_le.2 (lt_of_le_of_ne hle ?_)) (by omega)
      rintro rfl
      obtain ⟨k, rfl⟩ : ∃ k, L = k + 1 := ⟨L - 1, by omega⟩
      rw [pow_succ] at ho
      omega

theorem pq_of {S : Type} (rng : Source S) (fuel : Nat) {L N : Nat} (hN : 2 < N) (hL : 2 < L) : ∀ (f : Nat) (st : S),
    dsa_generate_pq rng fuel L N f st = .spin ∨
    ∃ (p q : Nat), dsa_generate_pq rng fuel L N f st = .ok (mpz_of p, mpz_of q) ∧ p.size = L ∧ q.size = N ∧ p % 2 = 1 ∧
      q % 2 = 1 ∧ p % q = 1 ∧ BailliePSW p ∧ BailliePSW q
  | 0, _ => Or.inl rfl
  | f + 1, st => by
    rw [dsa_generate_pq]
    obtain ⟨q, st', e, m1, m2, m3⟩ := candidate_bits rng (show 1 < N by omega) st
    rw [R.liftM_eq, e, R.lift_ok, R.ok_bind]
    dsimp only
    rcases probab_total rng.toByteGen fuel st' (q : Int) 64 (by norm_num) with h | ⟨b, s2, h⟩
    · rw [h]; exact Or.inl rfl
    rw [h, R.ok_bind]
    dsimp only
    cases b with
    | false => rw [if_pos rfl]; exact pq_of rng fuel hN hL f s2
    | true =>
      rw [if_neg (by decide)]
      have hb := (mpz_probab_prime_p_passed _ _ _ _ _ _ (of_rep _) 64 (by norm_num) h).2
      rw [Int.natAbs_natCast] at hb
      have hs : q.size = N := le_antisymm (Nat.size_le.2 m2) (by have := Nat.lt_size.2 m1; omega)
      have hq1 : 1 < q := by
        have : 2 ^ 1 < 2 ^ (N - 1) := Nat.pow_lt_pow_right (by omega) (by omega)
        omega
      rcases p_of rng fuel hq1 hL (4 * L) s2 with h | ⟨s3, h⟩ | ⟨p, s3, h, g1, g2, g3, g4⟩
      · rw [h]; exact Or.inl rfl
      · rw [h]; exact pq_of rng fuel hN hL f s3
      · rw [h]; exact Or.inr ⟨p, q, rfl, g1, hs, g2, m3, g3, g4, hb⟩

/-- The generator is the power of the least base for which it is not 1. -/
theorem g_of {p e : Nat} (hp : 0 < p) : ∀ (f h : Nat),
    dsa_generate_g (mpz_of p) (mpz_of e) f (mpz_of h) = .spin ∨
    ∃ k, h ≤ k ∧ dsa_generate_g (mpz_of p) (mpz_of e) f (mpz_of h) = .ok (mpz_of ((k ^ e % p : Nat) : Int)) ∧ k ^ e % p ≠ 1 ∧
      ∀ j, h ≤ j → j < k → j ^ e % p = 1
  | 0, _ => Or.inl rfl
  | f + 1, h => by
    rw [dsa_generate_g]
    simp only [R.liftM_eq, powm_nat hp, R.lift_ok, R.ok_bind]
    by_cases c : h ^ e % p = 1
    · rw [if_pos (by rw [Rsa.cmp_ui_eq0, c]; rfl), add_1_of, R.lift_ok, R.ok_bind]
      rcases g_of hp f (h + 1) (e := e) with g | ⟨k, h1, h2, h3, h4⟩
      · left; exact_mod_cast g
      · refine Or.inr ⟨k, by omega, by exact_mod_cast h2, h3, fun j a b => ?_⟩
        rcases Nat.eq_or_lt_of_le a with rfl | a
        · exact c
        · exact h4 j a b
    · rw [if_neg (by rw [Rsa.cmp_ui_eq0]; exact_mod_cast c)]
      exact Or.inr ⟨h, le_refl _, rfl, c, fun j a b => by omega⟩

/-- Over a prime the search for the generator ends below it. -/
theorem base_lt {p q k : Nat} (hp : p.Prime) (hq : 1 < q) (hpq : p % q = 1) (hk : ∀ j, 2 ≤ j → j < k → j ^ ((p - 1) / q) % p = 1) :
    k < p := by
  by_contra hc
  have : Fact p.Prime := ⟨hp⟩
  have hqp : q * ((p - 1) / q) = p - 1 := Nat.mul_div_cancel' ((Nat.modEq_iff_dvd' hp.one_le).1 (by
    show 1 % q = p % q
    rw [hpq, Nat.mod_eq_of_lt hq]))
  have hp2 := hp.two_le
  have he0 : 0 < (p - 1) / q := by
    rcases Nat.eq_zero_or_pos ((p - 1) / q) with h | h
    · rw [h] at hqp; omega
    · exact h
  obtain ⟨u, hu⟩ := IsCyclic.exists_generator (α := (ZMod p)ˣ)
  have ho : orderOf u = p - 1 := by rw [orderOf_eq_card_of_forall_mem_zpowers hu, Nat.card_eq_fintype_card, ZMod.card_units_eq_totient, Nat.totient_prime hp]
  have h1 : u ^ ((p - 1) / q) = 1 := by
    have hv0 : (u : ZMod p).val ≠ 0 := by
      rw [Ne, ZMod.val_eq_zero]
      exact u.ne_zero
    have hv : (u : ZMod p).val < p := ZMod.val_lt _
    have h2 : (u : ZMod p).val ^ ((p - 1) / q) % p = 1 := by
      by_cases h1 : (u : ZMod p).val = 1
      · rw [h1, one_pow, Nat.mod_eq_of_lt (by omega)]
      · exact hk _ (by omega) (by omega)
    have h3 := (ZMod.natCast_eq_natCast_iff ((u : ZMod p).val ^ ((p - 1) / q)) 1 p).2 (by
      unfold Nat.ModEq; rw [h2, Nat.mod_eq_of_lt (by omega)])
    push_cast at h3
    rw [ZMod.natCast_zmod_val] at h3
    exact Units.ext (by push_cast; exact h3)
  have h2 := Nat.le_of_dvd he0 (orderOf_dvd_of_pow_eq_one h1)
  rw [ho] at h2
  have : 2 * ((p - 1) / q) ≤ q * ((p - 1) / q) := Nat.mul_le_mul_right _ hq
  omega

/-- Over a prime the group is valid. -/
theorem group_of_prime {p q k : Nat} (hp : p.Prime) (hs : 2 ^ 511 ≤ p) (hs' : p < 2 ^ 10000)
    (hqs : q.size = 160 ∨ q.size = 224 ∨ q.size = 256) (hpo : p % 2 = 1) (hqo : q % 2 = 1) (hpq : p % q = 1) (h2 : 2 ≤ k)
    (hne : k ^ ((p - 1) / q) % p ≠ 1) (hk : ∀ j, 2 ≤ j → j < k → j ^ ((p - 1) / q) % p = 1) :
    DsaGroupOk p q (k ^ ((p - 1) / q) % p) := by
  have : Fact p.Prime := ⟨hp⟩
  have hq : 1 < q := by
    by_contra hc
    have := Nat.size_le_size (show q ≤ 1 by omega)
    rw [Nat.size_one] at this
    omega
  have hkp := base_lt hp hq hpq hk
  have hqp : q * ((p - 1) / q) = p - 1 := Nat.mul_div_cancel' ((Nat.modEq_iff_dvd' hp.one_le).1 (by
    show 1 % q = p % q
    rw [hpq, Nat.mod_eq_of_lt hq]))
  have hk0 : (k : ZMod p) ≠ 0 := by
    rw [Ne, ZMod.natCast_eq_zero_iff]
    exact fun h => absurd (Nat.le_of_dvd (by omega) h) (by omega)
  have hord : (k ^ ((p - 1) / q) % p) ^ q % p = 1 := by
    rw [← Nat.pow_mod, ← pow_mul, mul_comm ((p - 1) / q) q, hqp]
    have := ZMod.pow_card_sub_one_eq_one hk0
    have h3 := (ZMod.natCast_eq_natCast_iff (k ^ (p - 1)) 1 p).1 (by push_cast; exact this)
    unfold Nat.ModEq at h3
    rw [h3, Nat.mod_eq_of_lt hp.one_lt]
  have hp3 : 3 < p := lt_of_lt_of_le (lt_of_lt_of_le (by decide : 3 < 2 ^ 2) (Nat.pow_le_pow_right (by omega) (by omega))) hs
  have hg : k ^ ((p - 1) / q) % p < p := Nat.mod_lt _ hp.pos
  generalize k ^ ((p - 1) / q) % p = g at *
  have hg0 : g ≠ 0 := by
    rintro rfl
    rw [zero_pow (by omega), Nat.zero_mod] at hord
    omega
  have hgm : g ≠ p - 1 := by
    rintro rfl
    have e1 : ((p - 1 : Nat) : ZMod p) ^ q = 1 := by
      have := (ZMod.natCast_eq_natCast_iff ((p - 1) ^ q) 1 p).2 (by unfold Nat.ModEq; rw [hord, Nat.mod_eq_of_lt (by omega)])
      push_cast at this
      exact this
    rw [Nat.cast_sub (by omega), ZMod.natCast_self, Nat.cast_one, zero_sub, (Nat.odd_iff.2 hqo).neg_one_pow] at e1
    have e2 : ((2 : Nat) : ZMod p) = 0 := by
      push_cast
      linear_combination -e1
    rw [ZMod.natCast_eq_zero_iff] at e2
    have := Nat.le_of_dvd (by norm_num) e2
    omega
  exact ⟨⟨hs, hs', hqs, hpo, hqo, by omega, by omega⟩, hord⟩

/-- What is drawn. -/
structure GroupGen (bits p q g : Nat) : Prop where
  psize : p.size = bits
  qsize : q.size = if bits < 2048 then 160 else 256
  podd : p % 2 = 1
  qodd : q % 2 = 1
  mod : p % q = 1
  pprime : BailliePSW p
  qprime : BailliePSW q
  gen : ∃ h, 2 ≤ h ∧ g = h ^ ((p - 1) / q) % p ∧ g ≠ 1 ∧ ∀ j, 2 ≤ j → j < h → j ^ ((p - 1) / q) % p = 1

theorem group_of {S : Type} (rng : Source S) (fuel : Nat) {bits : Nat} (hb : bits = 1024 ∨ bits = 2048 ∨ bits = 3072)
    (entropy : List Byte) :
    dsa_group_generate rng fuel bits entropy = .spin ∨
    ∃ p q g, dsa_group_generate rng fuel bits entropy = .ok (ofGroup p q g) ∧ GroupGen bits p q g := by
  unfold dsa_group_generate
  dsimp only
  rw [if_neg (by rcases hb with rfl | rfl | rfl <;> decide)]
  rcases pq_of rng fuel (L := bits) (N := if bits < 2048 then 160 else 256) (by split <;> omega) (by omega) fuel (rng.init entropy)
    with h | ⟨p, q, h, g1, g2, g3, g4, g5, g6, g7⟩
  · rw [h]; exact Or.inl rfl
  rw [h]
  have hp0 : 3 < p := by
    by_contra hc
    have h1 := Nat.size_le_size (show p ≤ 3 by omega)
    have h2 : Nat.size 3 = 2 := by decide
    omega
  have hpp : ((p : Int) - 1).tdiv q = (((p - 1) / q : Nat) : Int) := by
    rw [show (p : Int) - 1 = ((p - 1 : Nat) : Int) by omega, Int.tdiv_eq_ediv_of_nonneg (by omega)]
    rfl
  have hq0 : (q : Int) ≠ 0 := by omega
  simp only [R.liftM_eq, R.ok_bind, sub_1_of, R.lift_ok, quo_of _ hq0, hpp, set_of]
  rw [set_ui_of]
  rcases g_of (p := p) (e := (p - 1) / q) (by omega) fuel 2 with h | ⟨k, k1, k2, k3, k4⟩
  · left
    rw [show ((BitVec.toNat (2 : Limb) : Nat) : Int) = ((2 : Nat) : Int) from rfl, h]; rfl
  · right
    rw [show ((BitVec.toNat (2 : Limb) : Nat) : Int) = ((2 : Nat) : Int) from rfl, k2]
    exact ⟨p, q, _, rfl, g1, g2, g3, g4, g5, g6, g7, k, k1, rfl, k3, k4⟩

theorem group_export_small {p q g : Nat} (b1 : p < 256 ^ 2048) (b2 : q < 256 ^ 2048) (b3 : g < 256 ^ 2048) :
    dsa_group_export (ofGroup p q g) = .ok (dsaParamsDer p q g) := by
  obtain ⟨w1, s1⟩ := Rsa.write_mpz_ok b1
  obtain ⟨w2, s2⟩ := Rsa.write_mpz_ok b2
  obtain ⟨w3, s3⟩ := Rsa.write_mpz_ok b3
  have l1 := Rsa.derInt_len b1
  have l2 := Rsa.derInt_len b2
  have l3 := Rsa.derInt_len b3
  unfold dsa_group_export ofGroup dsaParamsDer derSeq
  simp only [Rsa.nat_of, w1, w2, w3, s1, s2, s3, C.ok_bind]
  rw [asn1_write_seq_spec, if_pos (by omega), C.ok_bind, List.length_append, List.length_append, Nat.add_assoc]
  rfl

/-- The secret drawn. -/
theorem secret_of {S : Type} (rng : Source S) (fuel : Nat) {q : Nat} (hq : 0 < q) : ∀ n st,
    dsa_secret rng fuel (mpz_of q) n st = .spin ∨
      ∃ x : Nat, 0 < x ∧ x < q ∧ dsa_secret rng fuel (mpz_of q) n st = .ok (mpz_of x) := by
  intro n
  induction n with
  | zero => intro st; exact Or.inl rfl
  | succ n ih =>
    intro st
    rw [dsa_secret]
    rcases urandomm_of rng.toByteGen fuel st hq with h | ⟨x, st', h, hx⟩
    · rw [h]; exact Or.inl rfl
    · rw [h, R.ok_bind]
      dsimp only
      by_cases h0 : x = 0
      · rw [if_pos (by rw [Rsa.sgn_zero]; omega)]
        exact ih st'
      · rw [if_neg (by rw [Rsa.sgn_zero]; omega)]
        exact Or.inr ⟨x, by omega, hx, rfl⟩

theorem create_of {S : Type} (rng : Source S) (fuel : Nat) {p q g : Nat} (hp : p % 2 = 1) (hq : 0 < q) (entropy : List Byte) :
    dsa_priv_create rng fuel (ofGroup p q g) entropy = .spin ∨
    ∃ x, 0 < x ∧ x < q ∧ dsa_priv_create rng fuel (ofGroup p q g) entropy = .ok (ofKey ⟨p, q, g, g ^ x % p, x⟩) := by
  unfold dsa_priv_create
  rw [show (ofGroup p q g).p = mpz_of p from rfl, show (ofGroup p q g).q = mpz_of q from rfl,
    show (ofGroup p q g).g = mpz_of g from rfl]
  simp only [R.liftM_eq, set_of, R.lift_ok, R.ok_bind]
  rcases secret_of rng fuel hq fuel (rng.init entropy) with h | ⟨x, h0, hx, h⟩
  · rw [h]; exact Or.inl rfl
  · refine Or.inr ⟨x, h0, hx, ?_⟩
    rw [h, R.ok_bind, powm_sec_nat hp, R.lift_ok, R.ok_bind]
    rfl

end Torsion.Dsa
