import Verif.Rsa.PadLemmas
import Verif.Drbg.HashLemmas

/-!
# Lemmas: importing and exporting keys
-/
namespace Torsion.Rsa
open Torsion.Spec Mpi

/-! ### From the primes -/

theorem set_pqe_comm (a b : Nat) (e : Mpz) :
    rsa_priv_set_pqe (mpz_of a) (mpz_of b) e = rsa_priv_set_pqe (mpz_of b) (mpz_of a) e := by
  rcases lt_trichotomy a b with h | h | h
  · unfold rsa_priv_set_pqe
    simp only [R.liftM_eq, set_of, R.lift_ok, R.ok_bind, cmp_lt0]
    rw [if_pos (by omega), if_pos (by omega), if_neg (by omega), if_neg (by omega)]
  · rw [h]
  · unfold rsa_priv_set_pqe
    simp only [R.liftM_eq, set_of, R.lift_ok, R.ok_bind, cmp_lt0]
    rw [if_neg (by omega), if_neg (by omega), if_pos (by omega), if_pos (by omega)]

theorem _root_.Torsion.Spec.PqeOk.symm {p q e : Nat} (h : PqeOk p q e) : PqeOk q p e :=
  ⟨h.qodd, h.podd, h.qlo, h.plo, h.ne.symm, h.cop.symm, by rw [mul_comm]; exact h.pub, by rw [Nat.lcm_comm]; exact h.inv⟩

/-- The key made of the factors `p > q`. -/
def pqeKey (p q e : Nat) : RsaKey :=
  let d := (invMod e (Nat.lcm (p - 1) (q - 1) : Nat)).toNat
  ⟨p * q, e, d, p, q, d % (p - 1), d % (q - 1), (invMod q p).toNat⟩

theorem invMod_nat {i j : Nat} (h : Nat.Coprime i j) (hj : 1 < j) :
    ((invMod i j).toNat : Int) = invMod i j ∧ (invMod i j).toNat < j ∧ i * (invMod i j).toNat % j = 1 := by
  obtain ⟨h1, h2, h3⟩ := invMod_spec (i := i) (j := j) ⟨by rw [Int.gcd_natCast_natCast]; exact h, by simpa using hj⟩
  have e1 : ((invMod i j).toNat : Int) = invMod i j := Int.toNat_of_nonneg h1
  refine ⟨e1, by rw [Int.natAbs_natCast] at h2; omega, ?_⟩
  rw [← e1] at h3
  have h4 : ((invMod i j).toNat * i) ≡ 1 [MOD j] := by
    have := (Nat.modEq_iff_dvd (n := j) (a := 1) (b := (invMod i j).toNat * i)).2 (by push_cast; rw [e1] at h3 ⊢; exact h3)
    exact this.symm
  have h5 : (invMod i j).toNat * i % j = 1 % j := h4
  rw [mul_comm, h5, Nat.mod_eq_of_lt hj]

theorem not_zero_of_inv {a b m : Nat} (hm : 1 < m) (h : a * b % m = 1) : b % m ≠ 0 := by
  intro h0
  rw [Nat.mul_mod, h0, Nat.mul_zero, Nat.zero_mod] at h
  omega

/-- Such a key is a valid one. -/
theorem pqe_key_ok {p q e : Nat} (h : PqeOk p q e) (hlt : q < p) : RsaKeyOk (pqeKey p q e) := by
  have hpl := h.plo
  have hql := h.qlo
  have hpo := h.podd
  have hqo := h.qodd
  have hlp : 0 < Nat.lcm (p - 1) (q - 1) := Nat.lcm_pos (by omega) (by omega)
  have hple : p - 1 ≤ Nat.lcm (p - 1) (q - 1) := Nat.le_of_dvd hlp (Nat.dvd_lcm_left _ _)
  obtain ⟨-, d2, d3⟩ := invMod_nat h.inv (by omega)
  obtain ⟨-, i2, i3⟩ := invMod_nat h.cop.symm (by omega)
  unfold pqeKey
  generalize hd : (invMod e (Nat.lcm (p - 1) (q - 1) : Nat)).toNat = d at d2 d3
  generalize (invMod q p).toNat = qi at i2 i3
  -- the exponent is below the order
  have hbig : 2 ^ 255 ≤ p := by
    by_contra hc
    have h1 := h.pub.lo
    have h2 : p * q < 2 ^ 255 * 2 ^ 255 := Nat.mul_lt_mul'' (by omega) (by omega)
    rw [← pow_add] at h2
    exact absurd (lt_of_le_of_lt h1 h2) (by
      rw [not_lt]
      exact Nat.pow_le_pow_right (by omega) (by omega))
  have hel : e < Nat.lcm (p - 1) (q - 1) := by
    have := h.pub.ehi
    have h33 : (2 : Nat) ^ 33 ≤ 2 ^ 255 - 1 := by norm_num
    omega
  have hphi : Nat.lcm (p - 1) (q - 1) ≤ (p - 1) * (q - 1) :=
    Nat.le_of_dvd (Nat.mul_pos (by omega) (by omega)) (Nat.lcm_dvd_mul _ _)
  have hinv_p : e * d % (p - 1) = 1 := by
    have := congrArg (fun x => x % (p - 1)) d3
    beta_reduce at this
    rw [Nat.mod_mod_of_dvd _ (Nat.dvd_lcm_left _ _), Nat.mod_eq_of_lt (by omega : 1 < p - 1)] at this
    exact this
  have hinv_q : e * d % (q - 1) = 1 := by
    have := congrArg (fun x => x % (q - 1)) d3
    beta_reduce at this
    rw [Nat.mod_mod_of_dvd _ (Nat.dvd_lcm_right _ _), Nat.mod_eq_of_lt (by omega : 1 < q - 1)] at this
    exact this
  exact {
    pub := h.pub, podd := hpo, qodd := hqo, pgt := hpl, qgt := hql, ne := h.ne, prod := rfl
    dgt := by
      dsimp only
      have h3 := h.pub.elo
      rcases d with _ | _ | d
      · simp at d3
      · rw [Nat.zero_add, Nat.mul_one, Nat.mod_eq_of_lt hel] at d3; omega
      · omega
    dlt := lt_of_lt_of_le d2 hphi
    inv := d3
    hdp := rfl
    hdq := rfl
    dp0 := not_zero_of_inv (by omega) hinv_p
    dq0 := not_zero_of_inv (by omega) hinv_q
    qigt := by
      dsimp only
      rcases qi with _ | _ | qi
      · simp at i3
      · rw [Nat.zero_add, Nat.mul_one, Nat.mod_eq_of_lt hlt] at i3; omega
      · omega
    qilt := i2
    qinv := i3 }

theorem set_pqe_lt (p q e : Nat) (hlt : q < p) :
    Det (rsa_priv_set_pqe (mpz_of p) (mpz_of q) (mpz_of e)) (PqeOk p q e) (ofKey (pqeKey p q e)) := by
  unfold rsa_priv_set_pqe
  simp only [R.liftM_eq, set_of, R.lift_ok, R.ok_bind, cmp_lt0]
  rw [if_neg (by omega), if_neg (by omega)]
  simp only [bitlen_of, odd_of, R.lift_ok, R.ok_bind, Int.natAbs_natCast]
  apply Det.congr
  case h =>
    apply Det.need
    intro _
    apply Det.need
    intro hp
    apply Det.need
    intro _
    apply Det.need
    intro hq
    apply Det.need
    intro _
    apply Det.need
    intro _
    apply Det.need
    intro _
    apply Det.need
    intro hpo
    apply Det.need
    intro hqo
    apply Det.need
    intro _
    have hp' : 3 ≤ p := by
      rw [decide_eq_true_eq, cmp_ui_lt0, not_lt] at hp
      exact_mod_cast hp
    have hq' : 3 ≤ q := by
      rw [decide_eq_true_eq, cmp_ui_lt0, not_lt] at hq
      exact_mod_cast hq
    have hpo' : p % 2 = 1 := by rw [decide_eq_true_eq] at hpo; omega
    have hqo' : q % 2 = 1 := by rw [decide_eq_true_eq] at hqo; omega
    have hno : (p * q) % 2 = 1 := by rw [Nat.mul_mod, hpo', hqo']
    have hp1 : ((p - 1 : Nat) : Int) ≠ 0 := by omega
    have hq1 : ((q - 1 : Nat) : Int) ≠ 0 := by omega
    simp only [mul_of, R.lift_ok, R.ok_bind, ← Nat.cast_mul, odd_of, bitlen_of, Int.natAbs_natCast]
    rw [decide_eq_true (by omega : ((p * q : Nat) : Int) % 2 = 1), show R.lift (C.check true) = .ok () from rfl, R.ok_bind]
    simp only [sub_1_of, pred_cast hp', pred_cast hq', lcm_of, R.lift_ok, R.ok_bind, invert_of, mod_of _ hp1,
      mod_of _ hq1, Int.lcm_natCast_natCast, Int.gcd_natCast_natCast, Int.natAbs_natCast]
    apply Det.need
    intro _
    apply Det.need
    intro _
    apply Det.need
    intro hi1
    apply Det.need
    intro hi2
    rw [decide_eq_true_eq] at hi1 hi2
    have e1 := (invMod_nat (i := e) (j := (p - 1).lcm (q - 1)) hi1.1 hi1.2).1
    have e2 := (invMod_nat (i := q) (j := p) hi2.1 hi2.2).1
    have : (⟨mpz_of ((p * q : Nat) : Int), mpz_of e, mpz_of (invMod e ((p - 1).lcm (q - 1) : Nat)), mpz_of p, mpz_of q,
        mpz_of (invMod e ((p - 1).lcm (q - 1) : Nat) % ((p - 1 : Nat) : Int)),
        mpz_of (invMod e ((p - 1).lcm (q - 1) : Nat) % ((q - 1 : Nat) : Int)), mpz_of (invMod q p)⟩ : RsaPriv) =
        ofKey (pqeKey p q e) := by
      unfold ofKey pqeKey
      dsimp only
      rw [Int.natCast_mod, Int.natCast_mod, e1, e2]
    rw [this]
    exact Det.ok _
  case hpq =>
    simp only [decide_eq_true_eq, cmp_ui_lt0, cmp_eq0, not_lt, gt_iff_lt, RSA_MIN_MOD_BITS, RSA_MIN_EXP, RSA_MAX_MOD_BITS,
      RSA_MAX_EXP_BITS, Nat.size_le, and_true]
    have h512 : 512 ≤ Nat.size (p * q) ↔ 2 ^ 511 ≤ p * q := size_ge
    have h3 : ∀ x : Nat, ((BitVec.toNat (3 : Limb) : Nat) : Int) ≤ (x : Int) ↔ 3 ≤ x := by
      intro x
      rw [show BitVec.toNat (3 : Limb) = 3 from rfl, Nat.cast_le]
    rw [h512, h3, h3, h3]
    constructor
    · rintro ⟨a1, a2, a3, a4, a5, a6, a7, a8, a9, a10, a11, a12, a13, a14⟩
      have a13' := a13.1
      have a14' := a14.1
      refine ⟨by clear * - a8; omega, by clear * - a9; omega, a2, a4, by clear * - a1; omega, Nat.Coprime.symm a14', ⟨a11, a12, ?_, a6, a7, by clear * - a10; omega⟩, a13'⟩
      rw [Nat.mul_mod, show p % 2 = 1 by omega, show q % 2 = 1 by omega]
    · intro h
      have hpl := h.plo
      have hql := h.qlo
      have hpo := h.podd
      have hqo := h.qodd
      have heo := h.pub.eodd
      have hn := h.pub.hi
      have hpn : p ≤ p * q := Nat.le_mul_of_pos_right _ (by omega)
      have hqn : q ≤ p * q := Nat.le_mul_of_pos_left _ (by omega)
      have hlp : 0 < Nat.lcm (p - 1) (q - 1) := Nat.lcm_pos (by omega) (by omega)
      have hple : p - 1 ≤ Nat.lcm (p - 1) (q - 1) := Nat.le_of_dvd hlp (Nat.dvd_lcm_left _ _)
      exact ⟨by omega, hpl, lt_of_le_of_lt hpn hn, hql, lt_of_le_of_lt hqn hn, h.pub.elo, h.pub.ehi, by omega, by omega,
        by omega, h.pub.lo, hn, ⟨h.inv, by omega⟩, ⟨h.cop.symm, by omega⟩⟩

/-- The key of the factors in any order. -/
def pqKey (p q e : Nat) : RsaKey := pqeKey (max p q) (min p q) e

theorem set_pqe_det (p q e : Nat) :
    Det (rsa_priv_set_pqe (mpz_of p) (mpz_of q) (mpz_of e)) (PqeOk p q e) (ofKey (pqKey p q e)) := by
  unfold pqKey
  rcases lt_trichotomy p q with h | h | h
  · rw [max_eq_right h.le, min_eq_left h.le, set_pqe_comm]
    exact (set_pqe_lt q p e h).congr ⟨PqeOk.symm, PqeOk.symm⟩
  · subst h
    refine ⟨fun h => absurd rfl h.ne, fun _ => ?_⟩
    unfold rsa_priv_set_pqe
    simp only [R.liftM_eq, set_of, R.lift_ok, R.ok_bind, cmp_lt0, cmp_eq0, if_neg (lt_irrefl _)]
    rw [decide_eq_false (by simp)]; rfl
  · rw [max_eq_left h.le, min_eq_right h.le]
    exact set_pqe_lt p q e h

theorem pq_key_ok {p q e : Nat} (h : PqeOk p q e) : RsaKeyOk (pqKey p q e) := by
  unfold pqKey
  rcases lt_trichotomy p q with h1 | h1 | h1
  · rw [max_eq_right h1.le, min_eq_left h1.le]; exact pqe_key_ok h.symm h1
  · exact absurd h1 h.ne
  · rw [max_eq_left h1.le, min_eq_right h1.le]; exact pqe_key_ok h h1

theorem pq_key_n (p q e : Nat) : (pqKey p q e).n = p * q := max_mul_min p q

/-- Whenever a key is made it is valid. -/
theorem set_pqe_sound {p q e : Nat} {r : RsaPriv} (h : rsa_priv_set_pqe (mpz_of p) (mpz_of q) (mpz_of e) = .ok r) :
    ∃ k, r = ofKey k ∧ RsaKeyOk k ∧ k.n = p * q ∧ k.e = e := by
  have hd := set_pqe_det p q e
  by_cases ho : PqeOk p q e
  · rw [hd.1 ho] at h
    exact ⟨_, (R.ok.inj h).symm, pq_key_ok ho, pq_key_n p q e, rfl⟩
  · rw [hd.2 ho] at h; simp at h

/-- A call which fails, draws on, or makes a valid key with modulus and exponent as said. -/
def Makes (x : R RsaPriv) (P : RsaKey → Prop) : Prop :=
  x = .fail ∨ x = .spin ∨ ∃ k, x = .ok (ofKey k) ∧ RsaKeyOk k ∧ P k

theorem Makes.mono {x : R RsaPriv} {P Q : RsaKey → Prop} (h : Makes x P) (hpq : ∀ k, RsaKeyOk k → P k → Q k) : Makes x Q := by
  rcases h with h | h | ⟨k, h1, h2, h3⟩
  · exact Or.inl h
  · exact Or.inr (Or.inl h)
  · exact Or.inr (Or.inr ⟨k, h1, h2, hpq k h2 h3⟩)

theorem Makes.need {b : Bool} {f : Unit → R RsaPriv} {P : RsaKey → Prop} (h : b = true → Makes (f ()) P) :
    Makes (R.need b >>= f) P := by
  cases b
  · exact Or.inl rfl
  · exact h rfl

theorem set_pqe_makes (p q e : Nat) :
    Makes (rsa_priv_set_pqe (mpz_of p) (mpz_of q) (mpz_of e)) (fun k => k = pqKey p q e) := by
  have hd := set_pqe_det p q e
  by_cases ho : PqeOk p q e
  · exact Or.inr (Or.inr ⟨_, hd.1 ho, pq_key_ok ho, rfl⟩)
  · exact Or.inl (hd.2 ho)

theorem set_pqd_makes (p q d : Nat) :
    Makes (rsa_priv_set_pqd (mpz_of p) (mpz_of q) (mpz_of d))
      (fun k => ∃ e, k = pqKey p q e ∧ e * d % Nat.lcm (p - 1) (q - 1) = 1) := by
  unfold rsa_priv_set_pqd
  simp only [R.liftM_eq, bitlen_of, odd_of, R.lift_ok, R.ok_bind, Int.natAbs_natCast]
  apply Makes.need
  intro hp
  apply Makes.need
  intro _
  apply Makes.need
  intro hq
  apply Makes.need
  intro _
  apply Makes.need
  intro hpo
  apply Makes.need
  intro hqo
  have hp' : 3 ≤ p := by
    rw [decide_eq_true_eq, cmp_ui_lt0, not_lt] at hp
    exact_mod_cast hp
  have hq' : 3 ≤ q := by
    rw [decide_eq_true_eq, cmp_ui_lt0, not_lt] at hq
    exact_mod_cast hq
  have hg : (((p - 1).gcd (q - 1) : Nat) : Int) ≠ 0 := by
    have : (p - 1).gcd (q - 1) ≠ 0 := by
      intro h
      have := (Nat.gcd_eq_zero_iff.1 h).1
      omega
    exact_mod_cast this
  simp only [sub_1_of, mul_of, gcd_of, R.lift_ok, R.ok_bind, pred_cast hp', pred_cast hq', ← Nat.cast_mul,
    Int.gcd_natCast_natCast]
  rw [divexact_of hg (by exact_mod_cast (Nat.gcd_dvd_left _ _).mul_right _)]
  rw [← Int.natCast_div, show (p - 1) * (q - 1) / (p - 1).gcd (q - 1) = (p - 1).lcm (q - 1) from rfl]
  simp only [R.lift_ok, R.ok_bind, invert_of, Int.gcd_natCast_natCast, Int.natAbs_natCast]
  apply Makes.need
  intro _
  apply Makes.need
  intro _
  apply Makes.need
  intro hi
  rw [decide_eq_true_eq] at hi
  obtain ⟨e1, -, e3⟩ := invMod_nat (i := d) (j := (p - 1).lcm (q - 1)) hi.1 hi.2
  rw [← e1]
  refine (set_pqe_makes _ _ _).mono fun k _ h => ⟨_, h, by rw [mul_comm]; exact e3⟩

/-! ### From the exponents -/

theorem factors_of_root {n b : Nat} (hn : n % 2 = 1) (hb : 0 < b) (h : b * b % n = 1) :
    Nat.gcd n (b - 1) * Nat.gcd n (b + 1) = n := by
  have hdvd : n ∣ (b - 1) * (b + 1) := by
    have h1 : (b - 1) * (b + 1) = b * b - 1 := by
      obtain ⟨c, rfl⟩ : ∃ c, b = c + 1 := ⟨b - 1, by omega⟩
      rw [Nat.add_sub_cancel, show (c + 1) * (c + 1) = c * (c + 1 + 1) + 1 by ring, Nat.add_sub_cancel]
    rw [h1, ← h]
    exact Nat.dvd_sub_mod _
  have hcop : Nat.Coprime (Nat.gcd n (b - 1)) (Nat.gcd n (b + 1)) := by
    rw [Nat.coprime_iff_gcd_eq_one]
    generalize hg : Nat.gcd (Nat.gcd n (b - 1)) (Nat.gcd n (b + 1)) = g
    have h1 : g ∣ n := hg ▸ (Nat.gcd_dvd_left _ _).trans (Nat.gcd_dvd_left _ _)
    have h2 : g ∣ b - 1 := hg ▸ (Nat.gcd_dvd_left _ _).trans (Nat.gcd_dvd_right _ _)
    have h3 : g ∣ b + 1 := hg ▸ (Nat.gcd_dvd_right _ _).trans (Nat.gcd_dvd_right _ _)
    have h4 : g ∣ 2 := by
      have := Nat.dvd_sub h3 h2
      rwa [show b + 1 - (b - 1) = 2 by omega] at this
    rcases (Nat.dvd_prime Nat.prime_two).1 h4 with h5 | h5
    · exact h5
    · rw [h5] at h1; omega
  apply Nat.dvd_antisymm
  · exact hcop.mul_dvd_of_dvd_of_dvd (Nat.gcd_dvd_left _ _) (Nat.gcd_dvd_left _ _)
  · have h1 : Nat.gcd n ((b - 1) * (b + 1)) = n := Nat.gcd_eq_left hdvd
    have h2 := Nat.gcd_mul_right_dvd_mul_gcd n (b - 1) (b + 1)
    rw [h1] at h2
    exact h2

theorem ned_inner {n : Nat} (hn : n % 2 = 1) (h3 : 3 ≤ n) (m : Mpz) : ∀ (k b : Nat),
    (∃ x, rsa_ned_inner (mpz_of n) m k (mpz_of b) = .ok (false, x, x)) ∨
    ∃ p q : Nat, rsa_ned_inner (mpz_of n) m k (mpz_of b) = .ok (true, mpz_of p, mpz_of q) ∧ p * q = n
  | 0, b => Or.inl ⟨_, rfl⟩
  | k + 1, b => by
    unfold rsa_ned_inner
    rw [sqr_of, C.ok_bind, mod_of _ (by omega), C.ok_bind,
      show (b : Int) * (b : Int) % (n : Int) = ((b * b % n : Nat) : Int) by push_cast; rfl]
    by_cases h1 : mpz_cmp_ui (mpz_of ((b * b % n : Nat) : Int)) 1 = 0
    · rw [if_pos h1]
      right
      rw [cmp_ui_eq0] at h1
      have h1' : b * b % n = 1 := by exact_mod_cast h1
      have hb : 0 < b := by
        rcases Nat.eq_zero_or_pos b with rfl | h
        · simp at h1'
        · exact h
      rw [sub_1_of, C.ok_bind, gcd_of, C.ok_bind, add_1_of, C.ok_bind, gcd_of, C.ok_bind,
        show (b : Int) - 1 = ((b - 1 : Nat) : Int) by omega, show (b : Int) + 1 = ((b + 1 : Nat) : Int) by omega,
        Int.gcd_natCast_natCast, Int.gcd_natCast_natCast]
      exact ⟨_, _, rfl, factors_of_root hn hb h1'⟩
    · rw [if_neg h1]
      by_cases h2 : mpz_cmp (mpz_of ((b * b % n : Nat) : Int)) m = 0
      · rw [if_pos h2]; exact Or.inl ⟨_, rfl⟩
      · rw [if_neg h2]
        exact ned_inner hn h3 m k _

theorem ned_loop {S : Type} (rng : Source S) (fuel : Nat) {n g e : Nat} (hn : n % 2 = 1) (h4 : 4 ≤ n) (nm1 : Mpz) (s : Nat) :
    ∀ (i : Nat) (st : S), Makes (rsa_ned_loop rng fuel (mpz_of n) nm1 (mpz_of ((n - 3 : Nat) : Int)) (mpz_of g) (mpz_of e) s i st)
      (fun k => k.n = n ∧ k.e = e)
  | 0, st => Or.inl rfl
  | i + 1, st => by
    unfold rsa_ned_loop
    rcases urandomm_of rng.toByteGen fuel st (show 0 < n - 3 by omega) with h | ⟨a, s', h, -⟩
    · rw [h]; exact Or.inr (Or.inl rfl)
    rw [h, R.ok_bind]
    dsimp only
    rw [R.liftM_eq, add_ui_of, R.lift_ok, R.ok_bind, R.liftM_eq, powm_of _ (by omega) (by omega), R.lift_ok, R.ok_bind,
      Int.toNat_natCast, show BitVec.toNat (2 : Limb) = 2 from rfl,
      show ((a : Int) + ((2 : Nat) : Int)) ^ g % (n : Int) = (((a + 2) ^ g % n : Nat) : Int) by push_cast; rfl]
    split
    · exact ned_loop rng fuel hn h4 nm1 s i s'
    · rw [R.liftM_eq]
      rcases ned_inner hn (by omega) nm1 (s - 1) ((a + 2) ^ g % n) with ⟨x, hx⟩ | ⟨p, q, hx, hpq⟩
      · rw [hx, R.lift_ok, R.ok_bind, if_neg (by simp)]
        exact ned_loop rng fuel hn h4 nm1 s i s'
      · rw [hx, R.lift_ok, R.ok_bind, if_pos rfl]
        refine (set_pqe_makes p q e).mono fun k _ h => ?_
        rw [h]
        exact ⟨(pq_key_n p q e).trans hpq, rfl⟩

theorem set_ned_makes {S : Type} (rng : Source S) (fuel : Nat) (n e d : Nat) (entropy : Option (List Byte)) :
    Makes (rsa_priv_set_ned rng fuel (mpz_of n) (mpz_of e) (mpz_of d) entropy) (fun k => k.n = n ∧ k.e = e) := by
  unfold rsa_priv_set_ned
  simp only [R.liftM_eq, bitlen_of, odd_of, R.lift_ok, R.ok_bind, Int.natAbs_natCast]
  apply Makes.need
  intro _
  apply Makes.need
  intro hb
  apply Makes.need
  intro _
  apply Makes.need
  intro he
  apply Makes.need
  intro _
  apply Makes.need
  intro hd
  apply Makes.need
  intro _
  apply Makes.need
  intro ho
  apply Makes.need
  intro _
  have hn : 2 ^ 511 ≤ n := by
    rw [decide_eq_true_eq, not_lt] at hb
    exact size_ge.1 hb
  have hn8 : 8 ≤ n := le_trans (show 2 ^ 3 ≤ 2 ^ 511 from Nat.pow_le_pow_right (by omega) (by omega)) hn
  have hno : n % 2 = 1 := by rw [decide_eq_true_eq] at ho; omega
  have he3 : 3 ≤ e := by
    rw [decide_eq_true_eq, cmp_ui_lt0, not_lt] at he
    exact_mod_cast he
  have hd2 : 2 ≤ d := by
    rw [decide_eq_true_eq, cmp_ui_lt0, not_lt] at hd
    exact_mod_cast hd
  have hed : 1 ≤ e * d := Nat.mul_pos (by omega) (by omega)
  simp only [mul_of, sub_ui_of, quo_2exp_of, R.lift_ok, R.ok_bind]
  rw [show (n : Int) - ((BitVec.toNat (1 : Limb) : Nat) : Int) - ((BitVec.toNat (2 : Limb) : Nat) : Int) = ((n - 3 : Nat) : Int) by
    rw [show BitVec.toNat (2 : Limb) = 2 from rfl, show BitVec.toNat (1 : Limb) = 1 from rfl]; omega]
  generalize mpz_ctz _ = s
  rw [show ((e : Int) * (d : Int) - ((BitVec.toNat (1 : Limb) : Nat) : Int)).tdiv (2 ^ s) = (((e * d - 1) / 2 ^ s : Nat) : Int) by
    rw [show BitVec.toNat (1 : Limb) = 1 from rfl, Int.tdiv_eq_ediv_of_nonneg (by
      have : ((1 : Nat) : Int) ≤ (e : Int) * d := by exact_mod_cast hed
      omega)]
    push_cast [hed]
    rfl]
  exact ned_loop rng fuel hno (by omega) _ s 128 _

/-! ### The two formats -/

theorem two_bytes {l : Nat} (h : l < 65536) {h0 h1 : Byte} (hv : beVal [h0, h1] = l) : bigBytes 2 l = [h0, h1] := by
  rw [← hv]; exact Drb.bigBytes_beVal rfl

theorem write_dumb_ok {n : Nat} (h : n < 256 ^ 2048) : asn1_write_dumb n = .ok (dumbInt n) := by
  have hl := (Asn1.beBytes_len_le n 2048).2 h
  obtain ⟨h0, h1, e, hv⟩ := (asn1_write_dumb_spec n).2 (by omega)
  rw [e]
  unfold dumbInt
  rw [two_bytes (by omega) hv]
  rfl

theorem read_dumb_ok (n : Nat) (r : List Byte) (h : n < 256 ^ 2048) :
    need_dumb (Asn1.exact (dumbInt n ++ r)) = .ok (mpz_of n, Asn1.exact r) := by
  unfold need_dumb
  rw [R.liftM_eq, asn1_dumb_roundtrip r (write_dumb_ok h)]
  rfl

theorem read_dumb_cases (d : List Byte) : need_dumb (Asn1.exact d) = .fail ∨
    ∃ (n : Nat) (r : List Byte), need_dumb (Asn1.exact d) = .ok (mpz_of n, Asn1.exact r) := by
  obtain ⟨out, h1, ⟨d', h2, -⟩, -, -⟩ := Torsion.read_dumb_all d
  unfold need_dumb
  rw [R.liftM_eq, h1, R.lift_ok, R.ok_bind]
  cases hr : out.ret
  · exact Or.inl rfl
  · exact Or.inr ⟨out.n, d', by rw [h2]; rfl⟩

theorem import_dumb_ok {k : RsaKey} (h : Small k) (rest : List Byte) :
    rsa_priv_import_dumb (rsaDumb k ++ rest) = .ok (ofKey k) := by
  unfold rsa_priv_import_dumb rsaDumb
  rw [show ∀ d : List Byte, (⟨d, d.length⟩ : Asn1St) = Asn1.exact d from fun _ => rfl]
  simp only [List.append_assoc]
  rw [read_dumb_ok _ _ h.n, R.ok_bind, read_dumb_ok _ _ h.e, R.ok_bind, read_dumb_ok _ _ h.d, R.ok_bind,
    read_dumb_ok _ _ h.p, R.ok_bind, read_dumb_ok _ _ h.q, R.ok_bind, read_dumb_ok _ _ h.dp, R.ok_bind,
    read_dumb_ok _ _ h.dq, R.ok_bind, read_dumb_ok _ _ h.qi, R.ok_bind]
  rfl

theorem import_dumb_cases (d : List Byte) : rsa_priv_import_dumb d = .fail ∨
    ∃ k, rsa_priv_import_dumb d = .ok (ofKey k) := by
  unfold rsa_priv_import_dumb
  rw [show (⟨d, d.length⟩ : Asn1St) = Asn1.exact d from rfl]
  rcases read_dumb_cases d with h | ⟨n, r1, h⟩
  · rw [h]; exact Or.inl rfl
  rw [h, R.ok_bind]
  rcases read_dumb_cases r1 with h | ⟨e, r2, h⟩
  · rw [h]; exact Or.inl rfl
  rw [h, R.ok_bind]
  rcases read_dumb_cases r2 with h | ⟨dd, r3, h⟩
  · rw [h]; exact Or.inl rfl
  rw [h, R.ok_bind]
  rcases read_dumb_cases r3 with h | ⟨p, r4, h⟩
  · rw [h]; exact Or.inl rfl
  rw [h, R.ok_bind]
  rcases read_dumb_cases r4 with h | ⟨q, r5, h⟩
  · rw [h]; exact Or.inl rfl
  rw [h, R.ok_bind]
  rcases read_dumb_cases r5 with h | ⟨dp, r6, h⟩
  · rw [h]; exact Or.inl rfl
  rw [h, R.ok_bind]
  rcases read_dumb_cases r6 with h | ⟨dq, r7, h⟩
  · rw [h]; exact Or.inl rfl
  rw [h, R.ok_bind]
  rcases read_dumb_cases r7 with h | ⟨qi, r8, h⟩
  · rw [h]; exact Or.inl rfl
  rw [h, R.ok_bind]
  exact Or.inr ⟨⟨n, e, dd, p, q, dp, dq, qi⟩, rfl⟩

theorem export_dumb_ok {k : RsaKey} (h : Small k) : rsa_priv_export_dumb (ofKey k) = .ok (rsaDumb k) := by
  unfold rsa_priv_export_dumb ofKey
  simp only [nat_of, write_dumb_ok h.n, write_dumb_ok h.e, write_dumb_ok h.d, write_dumb_ok h.p, write_dumb_ok h.q,
    write_dumb_ok h.dp, write_dumb_ok h.dq, write_dumb_ok h.qi, C.ok_bind]
  rfl

theorem write_mpz_ok {n : Nat} (h : n < 256 ^ 2048) :
    asn1_write_mpz n = .ok (derInt n) ∧ asn1_size_mpz n = (derInt n).length := by
  have h1 : asn1_write_mpz n = .ok (derInt n) := by
    have := derContent_len h
    rw [asn1_write_mpz_spec, if_pos (by omega)]
  exact ⟨h1, asn1_sizes.2.2.1 n _ h1⟩

theorem export_ok {k : RsaKey} (h : Small k) : rsa_priv_export (ofKey k) = .ok (rsaPrivDer k) := by
  obtain ⟨w1, s1⟩ := write_mpz_ok h.n
  obtain ⟨w2, s2⟩ := write_mpz_ok h.e
  obtain ⟨w3, s3⟩ := write_mpz_ok h.d
  obtain ⟨w4, s4⟩ := write_mpz_ok h.p
  obtain ⟨w5, s5⟩ := write_mpz_ok h.q
  obtain ⟨w6, s6⟩ := write_mpz_ok h.dp
  obtain ⟨w7, s7⟩ := write_mpz_ok h.dq
  obtain ⟨w8, s8⟩ := write_mpz_ok h.qi
  have l1 := derInt_len h.n
  have l2 := derInt_len h.e
  have l3 := derInt_len h.d
  have l4 := derInt_len h.p
  have l5 := derInt_len h.q
  have l6 := derInt_len h.dp
  have l7 := derInt_len h.dq
  have l8 := derInt_len h.qi
  have hv : asn1_write_version 0 = .ok [2, 1, 0] := rfl
  have hsv : asn1_size_version 0 = 3 := asn1_sizes.2.2.2 0 _ hv
  unfold rsa_priv_export ofKey rsaPrivDer derSeq
  simp only [nat_of]
  rw [w1, w2, w3, w4, w5, w6, w7, w8, s1, s2, s3, s4, s5, s6, s7, s8, hv, hsv]
  clear w1 w2 w3 w4 w5 w6 w7 w8 s1 s2 s3 s4 s5 s6 s7 s8 h
  generalize derInt k.n = x1 at *
  generalize derInt k.e = x2 at *
  generalize derInt k.d = x3 at *
  generalize derInt k.p = x4 at *
  generalize derInt k.q = x5 at *
  generalize derInt k.dp = x6 at *
  generalize derInt k.dq = x7 at *
  generalize derInt k.qi = x8 at *
  have hl : 3 + x1.length + x2.length + x3.length + x4.length + x5.length + x6.length + x7.length + x8.length =
      ([2, 1, 0] ++ (x1 ++ (x2 ++ (x3 ++ (x4 ++ (x5 ++ (x6 ++ (x7 ++ x8)))))))).length := by
    simp only [List.length_append, List.length_cons, List.length_nil]
    omega
  have hle : 3 + x1.length + x2.length + x3.length + x4.length + x5.length + x6.length + x7.length + x8.length ≤ 0xffff := by
    omega
  rw [asn1_write_seq_spec, if_pos hle, hl]
  rfl

theorem pub_export_ok {n e : Nat} (hn : n < 256 ^ 2048) (he : e < 256 ^ 2048) :
    rsa_pub_export ⟨mpz_of n, mpz_of e⟩ = .ok (rsaPubDer n e) := by
  obtain ⟨w1, s1⟩ := write_mpz_ok hn
  obtain ⟨w2, s2⟩ := write_mpz_ok he
  have l1 := derInt_len hn
  have l2 := derInt_len he
  unfold rsa_pub_export
  simp only [nat_of, w1, w2, s1, s2, C.ok_bind]
  rw [asn1_write_seq_spec, if_pos (by omega), C.ok_bind]
  unfold rsaPubDer derSeq
  rw [List.length_append]
  rfl

/-- The number reader of the compact form. -/
theorem pub_dumb_cases (d : List Byte) : rsa_pub_import_dumb d = .fail ∨
    ∃ n e : Nat, rsa_pub_import_dumb d = .ok ⟨mpz_of n, mpz_of e⟩ := by
  unfold rsa_pub_import_dumb
  rw [show (⟨d, d.length⟩ : Asn1St) = Asn1.exact d from rfl]
  rcases read_dumb_cases d with h | ⟨n, r1, h⟩
  · rw [h]; exact Or.inl rfl
  rw [h, R.ok_bind]
  rcases read_dumb_cases r1 with h | ⟨e, r2, h⟩
  · rw [h]; exact Or.inl rfl
  rw [h, R.ok_bind]
  exact Or.inr ⟨n, e, rfl⟩

theorem pub_dumb_ok {n e : Nat} (hn : n < 256 ^ 2048) (he : e < 256 ^ 2048) (rest : List Byte) :
    rsa_pub_import_dumb (rsaPubDumb n e ++ rest) = .ok ⟨mpz_of n, mpz_of e⟩ := by
  unfold rsa_pub_import_dumb rsaPubDumb
  rw [show ∀ d : List Byte, (⟨d, d.length⟩ : Asn1St) = Asn1.exact d from fun _ => rfl]
  simp only [List.append_assoc]
  rw [read_dumb_ok _ _ hn, R.ok_bind, read_dumb_ok _ _ he, R.ok_bind]

theorem pub_export_dumb_ok {n e : Nat} (hn : n < 256 ^ 2048) (he : e < 256 ^ 2048) :
    rsa_pub_export_dumb ⟨mpz_of n, mpz_of e⟩ = .ok (rsaPubDumb n e) := by
  unfold rsa_pub_export_dumb
  simp only [nat_of, write_dumb_ok hn, write_dumb_ok he, C.ok_bind]
  rfl

theorem privkey_import_of {S : Type} (rng : Source S) (fuel : Nat) {d : List Byte} {k : RsaKey}
    (entropy : Option (List Byte)) (h : rsa_priv_import_dumb d = .ok (ofKey k)) :
    (RsaKeyOk k → rsa_privkey_import rng fuel d entropy = .ok (rsaPrivDer k)) ∧
    (¬ RsaKeyOk k → rsa_privkey_import rng fuel d entropy =
      ((if 0 < k.p ∧ 0 < k.q then
        (if 0 < k.e then rsa_priv_set_pqe (mpz_of k.p) (mpz_of k.q) (mpz_of k.e)
          else rsa_priv_set_pqd (mpz_of k.p) (mpz_of k.q) (mpz_of k.d))
        else rsa_priv_set_ned rng fuel (mpz_of k.n) (mpz_of k.e) (mpz_of k.d) entropy) >>= fun k =>
        R.lift (rsa_priv_export k))) := by
  unfold rsa_privkey_import
  rw [h, R.ok_bind]
  constructor
  · intro hk
    rw [(priv_verify_det k).1 hk, R.test_ok, R.ok_bind, if_pos rfl, R.ok_bind, R.liftM_eq, export_ok (priv_small hk)]
    rfl
  · intro hk
    rw [(priv_verify_det k).2 hk, R.test_fail, R.ok_bind, if_neg (by simp)]
    unfold ofKey
    dsimp only
    simp only [sgn_pos, Int.natCast_pos]
    congr 1
    funext x
    rw [R.liftM_eq]
    cases rsa_priv_export x <;> rfl

/-- Every way to import a key. -/
theorem privkey_import_makes {S : Type} (rng : Source S) (fuel : Nat) (d : List Byte) (entropy : Option (List Byte)) :
    rsa_privkey_import rng fuel d entropy = .fail ∨ rsa_privkey_import rng fuel d entropy = .spin ∨
      ∃ k, RsaKeyOk k ∧ rsa_privkey_import rng fuel d entropy = .ok (rsaPrivDer k) := by
  have fin : ∀ (x : R RsaPriv) (P : RsaKey → Prop), Makes x P →
      ((x >>= fun k => R.lift (rsa_priv_export k)) = .fail ∨ (x >>= fun k => R.lift (rsa_priv_export k)) = .spin ∨
      ∃ k, RsaKeyOk k ∧ (x >>= fun k => R.lift (rsa_priv_export k)) = .ok (rsaPrivDer k)) := by
    rintro x P (rfl | rfl | ⟨k, rfl, h, -⟩)
    · exact Or.inl rfl
    · exact Or.inr (Or.inl rfl)
    · refine Or.inr (Or.inr ⟨k, h, ?_⟩)
      rw [R.ok_bind, export_ok (priv_small h), R.lift_ok]
  rcases import_dumb_cases d with h | ⟨k, h⟩
  · left
    unfold rsa_privkey_import
    rw [h]; rfl
  · obtain ⟨h1, h2⟩ := privkey_import_of rng fuel entropy h
    by_cases hk : RsaKeyOk k
    · exact Or.inr (Or.inr ⟨k, hk, h1 hk⟩)
    · rw [h2 hk]
      split
      · split
        · exact fin _ _ (set_pqe_makes _ _ _)
        · exact fin _ _ (set_pqd_makes _ _ _)
      · exact fin _ _ (set_ned_makes _ _ _ _ _ _)

end Torsion.Rsa
