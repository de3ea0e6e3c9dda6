import Verif.Rsa.KeyLemmas
import Mathlib.FieldTheory.Finite.Basic

/-!
# Lemmas: the private key operation
-/
namespace Torsion.Rsa
open Torsion.Spec Mpi

/-! ### Arithmetic -/

theorem fermat_congr {p : Nat} (hp : p.Prime) (a : Int) {x y : Nat} (hx : 0 < x) (hy : 0 < y) (h : x ≡ y [MOD p - 1]) :
    a ^ x ≡ a ^ y [ZMOD p] := by
  haveI := Fact.mk hp
  rw [← ZMod.intCast_eq_intCast_iff]
  push_cast
  generalize (a : ZMod p) = b
  by_cases hb : b = 0
  · rw [hb, zero_pow (by omega), zero_pow (by omega)]
  · have key : ∀ z : Nat, b ^ z = b ^ (z % (p - 1)) := by
      intro z
      conv_lhs => rw [← Nat.div_add_mod z (p - 1), pow_add, pow_mul, ZMod.pow_card_sub_one_eq_one hb, one_pow, one_mul]
    rw [key x, key y, h]

theorem crt_congr {p q : Nat} (hpq : Nat.Coprime p q) {a b : Int} (h1 : a ≡ b [ZMOD p]) (h2 : a ≡ b [ZMOD q]) :
    a ≡ b [ZMOD ((p * q : Nat) : Int)] := by
  rw [Int.modEq_iff_dvd] at *
  push_cast
  exact IsCoprime.mul_dvd (Nat.isCoprime_iff_coprime.2 hpq) h1 h2

theorem prime_pair {p q : Nat} (hp : p.Prime) (hq : q.Prime) (h : p ≠ q) : Nat.Coprime p q :=
  (Nat.coprime_primes hp hq).2 h

/-! ### Lengths -/

theorem rsaLen_lt (n : Nat) : n < 256 ^ rsaLen n := by
  have h := Nat.lt_size_self n
  have : (256 : Nat) ^ rsaLen n = 2 ^ (8 * rsaLen n) := by
    rw [Nat.pow_mul]
  rw [this]
  exact lt_of_lt_of_le h (Nat.pow_le_pow_right (by norm_num) (by unfold rsaLen; omega))

theorem rsaLen_le {n : Nat} (h : 0 < rsaLen n) : 256 ^ (rsaLen n - 1) ≤ n := by
  have : (256 : Nat) ^ (rsaLen n - 1) = 2 ^ (8 * (rsaLen n - 1)) := by
    rw [Nat.pow_mul]
  rw [this, ← size_ge]
  unfold rsaLen at h ⊢
  omega

theorem rsaLen_min {n e : Nat} (h : RsaPubOk n e) : 64 ≤ rsaLen n := by
  have := size_ge.2 h.lo
  unfold rsaLen
  omega

theorem rsaLen_max {n e : Nat} (h : RsaPubOk n e) : rsaLen n ≤ 2048 := by
  have := Nat.size_le.2 h.hi
  unfold rsaLen
  omega

/-! ### The public operation -/

theorem pub_encrypt_det {n e : Nat} (h : RsaPubOk n e) (msg : List Byte) :
    (n ≤ beVal msg → rsa_pub_encrypt ⟨mpz_of n, mpz_of e⟩ msg = .fail) ∧
    (beVal msg < n → ∃ z, rsa_pub_encrypt ⟨mpz_of n, mpz_of e⟩ msg = .ok z ∧ z.length = rsaLen n ∧
      beVal z = beVal msg ^ e % n) := by
  have hn0 : 0 < n := by have := h.odd; omega
  have he0 : 0 < e := by have := h.eodd; omega
  have hs1 : mpz_sgn (mpz_of n) = 1 := by rw [sgn_of]; exact Int.sign_natCast_of_ne_zero (by omega)
  have hs2 : mpz_sgn (mpz_of e) = 1 := by rw [sgn_of]; exact Int.sign_natCast_of_ne_zero (by omega)
  have step : rsa_pub_encrypt ⟨mpz_of n, mpz_of e⟩ msg =
      (R.need (decide ¬ (n : Int) ≤ (beVal msg : Nat)) >>= fun _ => R.lift (mpz_export (mpz_of ((beVal msg ^ e % n : Nat) : Int)) (rsaLen n) 1)) := by
    unfold rsa_pub_encrypt
    simp only [R.liftM_eq, import_of, R.lift_ok, R.ok_bind, hs1, hs2, bytelen_of, Int.natAbs_natCast,
      powm_of _ (show (n : Int) ≠ 0 by omega) (show (0 : Int) ≤ e by omega), cmp_ge0, Int.toNat_natCast]
    rw [show (decide ¬ (1 : Int) ≤ 0) = true from rfl, R.need_true, R.ok_bind, R.ok_bind]
    push_cast
    congr 1
    funext _
    show _ = R.lift (mpz_export _ ((n.size + 7) / 8) 1)
    generalize mpz_export _ _ 1 = x
    cases x <;> rfl
  constructor
  · intro hm
    rw [step, show (decide ¬ (n : Int) ≤ (beVal msg : Nat)) = false by simpa using hm]
    rfl
  · intro hm
    obtain ⟨z, h1, h2, h3⟩ := export_of (v := beVal msg ^ e % n) (n := rsaLen n)
      (lt_trans (Nat.mod_lt _ hn0) (rsaLen_lt n))
    refine ⟨z, ?_, h2, h3⟩
    rw [step, show (decide ¬ (n : Int) ≤ (beVal msg : Nat)) = true by simpa using hm, R.need_true, R.ok_bind, h1]
    rfl

/-! ### Blinding -/

theorem blind_cases {S : Type} (rng : Source S) (fuel : Nat) {n : Nat} (hn : 1 < n) :
    ∀ k st, rsa_blind rng fuel (mpz_of n) k st = .spin ∨
      ∃ s : Nat, s < n ∧ Nat.Coprime s n ∧ rsa_blind rng fuel (mpz_of n) k st = .ok (mpz_of s, mpz_of (invMod s n))
  | 0, _ => Or.inl rfl
  | k + 1, st => by
    unfold rsa_blind
    rcases urandomm_of rng.toByteGen fuel st (m := n) (by omega) with h | ⟨v, s', h, hv⟩
    · rw [h]; exact Or.inl rfl
    · rw [h, R.ok_bind]
      simp only [R.liftM_eq, invert_of, R.lift_ok, R.ok_bind, decide_eq_true_eq]
      split
      · rename_i hg
        exact Or.inr ⟨v, hv, by simpa [Int.gcd_natCast_natCast] using hg.1, rfl⟩
      · exact blind_cases rng fuel hn k s'

/-! ### The private operation -/

/-- The blinded number. -/
def blinded (k : RsaKey) (c : Int) (s : Nat) : Int := c * ((s : Int) ^ k.e % (k.n : Int)) % (k.n : Int)

/-- The root by the Chinese remainder theorem. -/
def crtVal (k : RsaKey) (x : Int) : Int :=
  ((x ^ k.dp % (k.p : Int) - x ^ k.dq % (k.q : Int)) * k.qi % (k.p : Int) * k.q + x ^ k.dq % (k.q : Int)) % (k.n : Int)

theorem key_pos {k : RsaKey} (hk : RsaKeyOk k) : 0 < k.n ∧ 0 < k.d ∧ 0 < k.dp ∧ 0 < k.dq ∧ 0 < k.p ∧ 0 < k.q := by
  have := hk.pub.odd
  have := hk.dgt
  have := hk.dp0
  have := hk.dq0
  have := hk.pgt
  have := hk.qgt
  omega

theorem priv_head {S : Type} (rng : Source S) (fuel : Nat) {k : RsaKey} (hk : RsaKeyOk k) (msg : List Byte) (crt : Bool)
    (entropy : List Byte) : ∃ F : Mpz × Mpz → R (List Byte),
    rsa_priv_decrypt rng fuel (ofKey k) msg crt entropy =
      (R.need (decide ¬ (k.n : Int) ≤ (beVal msg : Nat)) >>= fun _ =>
        rsa_blind rng fuel (mpz_of k.n) fuel (rng.init entropy) >>= F) ∧
    ∀ s, F (mpz_of (s : Nat), mpz_of (invMod s k.n)) =
      ((if crt then R.need (decide (crtVal k (blinded k (beVal msg : Nat) s) ^ k.e % (k.n : Int) =
          blinded k (beVal msg : Nat) s)) else .ok ()) >>= fun _ =>
        R.lift (mpz_export (mpz_of ((if crt then crtVal k (blinded k (beVal msg : Nat) s)
          else blinded k (beVal msg : Nat) s ^ k.d % (k.n : Int)) * invMod s k.n % (k.n : Int))) (rsaLen k.n) 1)) := by
  obtain ⟨h1, h2, h3, h4, h5, h6⟩ := key_pos hk
  have o1 := hk.pub.odd
  have o2 := hk.podd
  have o3 := hk.qodd
  have s1 : ∀ {m : Nat}, 0 < m → mpz_sgn (mpz_of m) = 1 := by
    intro m hm
    rw [sgn_of]; exact Int.sign_natCast_of_ne_zero (by omega)
  unfold rsa_priv_decrypt ofKey
  simp only [s1 h1, s1 h2, s1 h3, s1 h4, R.liftM_eq, import_of, odd_of, R.lift_ok, R.ok_bind, bytelen_of, cmp_ge0,
    Int.natAbs_natCast]
  rw [show (decide ((k.n : Int) % 2 = 1)) = true by rw [decide_eq_true_eq]; omega,
    show (decide ((k.p : Int) % 2 = 1)) = true by rw [decide_eq_true_eq]; omega,
    show (decide ((k.q : Int) % 2 = 1)) = true by rw [decide_eq_true_eq]; omega,
    show (decide ¬ (1 : Int) ≤ 0) = true from rfl]
  simp only [R.need_true, R.ok_bind]
  refine ⟨_, rfl, ?_⟩
  intro s
  simp only [powm_of _ (show (k.n : Int) ≠ 0 by omega) (show (0 : Int) ≤ k.e by omega), R.lift_ok, R.ok_bind, mul_of,
    mod_of _ (show (k.n : Int) ≠ 0 by omega), mod_of _ (show (k.p : Int) ≠ 0 by omega),
    powm_sec_of _ (show (k.p : Int) % 2 = 1 by omega) (show (0 : Int) ≤ k.dp by omega),
    powm_sec_of _ (show (k.q : Int) % 2 = 1 by omega) (show (0 : Int) ≤ k.dq by omega),
    powm_sec_of _ (show (k.n : Int) % 2 = 1 by omega) (show (0 : Int) ≤ k.d by omega), sub_of, add_of, Int.toNat_natCast,
    cmp_eq0]
  change _ = (_ >>= fun _ => R.lift (mpz_export _ ((k.n.size + 7) / 8) 1))
  cases crt with
  | false =>
    simp only [Bool.false_eq_true, if_false, R.ok_bind, mul_of, R.lift_ok, mod_of _ (show (k.n : Int) ≠ 0 by omega)]
    unfold blinded
    generalize mpz_export _ _ 1 = x
    cases x <;> rfl
  | true =>
    simp only [if_true]
    unfold crtVal blinded
    generalize hb : (decide ((_ : Int) = _)) = b
    clear hb
    cases b with
    | false => rfl
    | true =>
      simp only [R.need_true, R.ok_bind, mul_of, R.lift_ok, mod_of _ (show (k.n : Int) ≠ 0 by omega)]
      generalize mpz_export _ _ 1 = x
      cases x <;> rfl

theorem crtVal_q {k : RsaKey} (hk : RsaKeyOk k) (x : Int) : crtVal k x ≡ x ^ k.dq [ZMOD k.q] := by
  have hq : ((k.q : Nat) : Int) ∣ (k.n : Int) := by rw [hk.prod]; push_cast; exact Dvd.intro_left _ rfl
  refine (Int.ModEq.of_dvd hq (Int.mod_modEq _ _)).trans ?_
  have h1 : x ^ k.dq % (k.q : Int) ≡ x ^ k.dq [ZMOD k.q] := Int.mod_modEq _ _
  have h2 : (x ^ k.dp % (k.p : Int) - x ^ k.dq % (k.q : Int)) * k.qi % (k.p : Int) * k.q ≡ 0 [ZMOD k.q] :=
    (Int.modEq_zero_iff_dvd).2 (Dvd.intro_left _ rfl)
  simpa using h2.add h1

theorem crtVal_p {k : RsaKey} (hk : RsaKeyOk k) (x : Int) : crtVal k x ≡ x ^ k.dp [ZMOD k.p] := by
  have hp : ((k.p : Nat) : Int) ∣ (k.n : Int) := by rw [hk.prod]; push_cast; exact Dvd.intro _ rfl
  refine (Int.ModEq.of_dvd hp (Int.mod_modEq _ _)).trans ?_
  have h1 : x ^ k.dp % (k.p : Int) ≡ x ^ k.dp [ZMOD k.p] := Int.mod_modEq _ _
  have hqi : (k.q : Int) * k.qi ≡ 1 [ZMOD k.p] := by
    have := hk.qinv
    have h3 : k.q * k.qi ≡ 1 [MOD k.p] := by
      unfold Nat.ModEq
      rw [this, Nat.mod_eq_of_lt (by have := hk.pgt; omega)]
    have := (Int.natCast_modEq_iff).2 h3
    push_cast at this
    exact this
  generalize x ^ k.dq % (k.q : Int) = mq
  generalize x ^ k.dp % (k.p : Int) = mp at h1 ⊢
  have h2 : (mp - mq) * k.qi % (k.p : Int) * k.q ≡ (mp - mq) * k.qi * k.q [ZMOD k.p] :=
    Int.ModEq.mul_right _ (Int.mod_modEq _ _)
  have h3 : (mp - mq) * k.qi * k.q ≡ (mp - mq) * 1 [ZMOD k.p] := by
    rw [mul_assoc, mul_comm (k.qi : Int)]
    exact Int.ModEq.mul_left _ hqi
  have h4 := (h2.trans h3).add_right mq
  rw [mul_one, sub_add_cancel] at h4
  exact h4.trans h1

/-- The exponent `x` undoes `k.e` for both primes. -/
theorem inv_left {k : RsaKey} (hk : RsaKeyOk k) {m : Nat} (hm : m ∣ Nat.lcm (k.p - 1) (k.q - 1)) :
    k.e * k.d ≡ 1 [MOD m] := by
  have : k.e * k.d ≡ 1 [MOD Nat.lcm (k.p - 1) (k.q - 1)] := by
    unfold Nat.ModEq
    have h1 := hk.inv
    rw [h1]
    have hl : 2 ≤ Nat.lcm (k.p - 1) (k.q - 1) :=
      le_trans (by have := hk.pgt; omega) (Nat.le_of_dvd (Nat.pos_of_ne_zero (Nat.lcm_ne_zero (by have := hk.pgt; omega)
        (by have := hk.qgt; omega))) (Nat.dvd_lcm_left (k.p - 1) (k.q - 1)))
    rw [Nat.mod_eq_of_lt hl]
  exact this.of_dvd hm

/-- With prime factors the private exponent is an inverse of the public one. -/
theorem pow_ed {k : RsaKey} (hk : RsaKeyOk k) (hp : k.p.Prime) (hq : k.q.Prime) (a : Int) :
    a ^ (k.e * k.d) ≡ a [ZMOD k.n] := by
  obtain ⟨h1, h2, h3, h4, h5, h6⟩ := key_pos hk
  have he : 0 < k.e := by have := hk.pub.elo; omega
  rw [hk.prod]
  conv_rhs => rw [← pow_one a]
  exact crt_congr (prime_pair hp hq hk.ne)
    (fermat_congr hp a (Nat.mul_pos he h2) one_pos (inv_left hk (Nat.dvd_lcm_left _ _)))
    (fermat_congr hq a (Nat.mul_pos he h2) one_pos (inv_left hk (Nat.dvd_lcm_right _ _)))

/-- With prime factors the root is the power with the private exponent. -/
theorem crtVal_d {k : RsaKey} (hk : RsaKeyOk k) (hp : k.p.Prime) (hq : k.q.Prime) (a : Int) :
    crtVal k a ≡ a ^ k.d [ZMOD k.n] := by
  obtain ⟨h1, h2, h3, h4, h5, h6⟩ := key_pos hk
  rw [hk.prod]
  refine crt_congr (prime_pair hp hq hk.ne) ((crtVal_p hk a).trans (fermat_congr hp a h3 h2 ?_))
    ((crtVal_q hk a).trans (fermat_congr hq a h4 h2 ?_))
  · rw [hk.hdp]; exact Nat.mod_modEq _ _
  · rw [hk.hdq]; exact Nat.mod_modEq _ _

theorem blinded_congr (k : RsaKey) (c : Int) (s : Nat) : blinded k c s ≡ c * (s : Int) ^ k.e [ZMOD k.n] :=
  (Int.mod_modEq _ _).trans (Int.ModEq.mul_left _ (Int.mod_modEq _ _))

theorem inv_congr {s n : Nat} (h : Nat.Coprime s n) (hn : 1 < n) : invMod s n * (s : Int) ≡ 1 [ZMOD n] := by
  have := (invMod_spec (i := s) (j := n) ⟨by simpa [Int.gcd_natCast_natCast] using h, by simpa using hn⟩).2.2
  exact (Int.modEq_iff_dvd.2 this).symm

/-- A number whose public power is the blinded number gives one whose public power is the number. -/
theorem unblind_pow {k : RsaKey} (hk : RsaKeyOk k) {m : Int} {c s : Nat} (hs : Nat.Coprime s k.n)
    (h : m ^ k.e % (k.n : Int) = blinded k c s) : (m * invMod s k.n % (k.n : Int)) ^ k.e ≡ c [ZMOD k.n] := by
  have hn : 1 < k.n := lt_of_lt_of_le (by norm_num) hk.pub.lo
  have h1 : m ^ k.e ≡ c * (s : Int) ^ k.e [ZMOD k.n] :=
    ((Int.mod_modEq _ _).symm.trans (by rw [h])).trans (blinded_congr k c s)
  refine ((Int.mod_modEq (m * invMod s k.n) (k.n : Int)).pow k.e).trans ?_
  rw [mul_pow]
  refine (h1.mul_right _).trans ?_
  rw [mul_assoc, ← mul_pow, mul_comm (s : Int)]
  have := (inv_congr hs hn).pow k.e
  rw [one_pow] at this
  simpa using this.mul_left (c : Int)

theorem priv_decrypt_cases {S : Type} (rng : Source S) (fuel : Nat) {k : RsaKey} (hk : RsaKeyOk k) (msg : List Byte)
    (crt : Bool) (entropy : List Byte) :
    (k.n ≤ beVal msg → rsa_priv_decrypt rng fuel (ofKey k) msg crt entropy = .fail) ∧
    (beVal msg < k.n →
      (rsa_priv_decrypt rng fuel (ofKey k) msg crt entropy = .spin ∧
        rsa_blind rng fuel (mpz_of k.n) fuel (rng.init entropy) = .spin) ∨
      (∃ b, rsa_blind rng fuel (mpz_of k.n) fuel (rng.init entropy) = .ok b) ∧
        ((rsa_priv_decrypt rng fuel (ofKey k) msg crt entropy = .fail ∧ crt = true ∧ ¬ (k.p.Prime ∧ k.q.Prime)) ∨
        ∃ out, rsa_priv_decrypt rng fuel (ofKey k) msg crt entropy = .ok out ∧ out.length = rsaLen k.n ∧
          beVal out < k.n ∧ (crt = true → beVal out ^ k.e % k.n = beVal msg) ∧
          (k.p.Prime → k.q.Prime → beVal out = beVal msg ^ k.d % k.n))) := by
  have hn : 1 < k.n := lt_of_lt_of_le (by norm_num) hk.pub.lo
  have hn0 : (k.n : Int) ≠ 0 := by omega
  obtain ⟨F, hF, hs⟩ := priv_head rng fuel hk msg crt entropy
  rw [hF]
  constructor
  · intro hc
    rw [show (decide ¬ (k.n : Int) ≤ (beVal msg : Nat)) = false by simpa using hc]
    rfl
  intro hc
  rw [show (decide ¬ (k.n : Int) ≤ (beVal msg : Nat)) = true by simpa using hc, R.need_true, R.ok_bind]
  rcases blind_cases rng fuel hn fuel (rng.init entropy) with hb | ⟨s, hs1, hs2, hb⟩
  · left; rw [hb]; exact ⟨rfl, rfl⟩
  right
  refine ⟨⟨_, hb⟩, ?_⟩
  rw [hb, R.ok_bind, hs]
  generalize hm : (if crt = true then crtVal k (blinded k (beVal msg : Nat) s)
          else blinded k (beVal msg : Nat) s ^ k.d % (k.n : Int)) = m
  have hpr : k.p.Prime → k.q.Prime → m ≡ blinded k (beVal msg : Nat) s ^ k.d [ZMOD k.n] := by
    intro hp hq
    rw [← hm]
    split
    · exact crtVal_d hk hp hq _
    · exact Int.mod_modEq _ _
  have hbl : blinded k (beVal msg : Nat) s % (k.n : Int) = blinded k (beVal msg : Nat) s := by
    unfold blinded; exact Int.emod_emod_of_dvd _ (dvd_refl _)
  have hpr2 : k.p.Prime → k.q.Prime → m ^ k.e % (k.n : Int) = blinded k (beVal msg : Nat) s := by
    intro hp hq
    have h1 := (hpr hp hq).pow k.e
    rw [← pow_mul, mul_comm k.d] at h1
    have h2 : m ^ k.e % (k.n : Int) = blinded k (beVal msg : Nat) s % (k.n : Int) := h1.trans (pow_ed hk hp hq _)
    rw [h2, hbl]
  have htail : (crt = true → m ^ k.e % (k.n : Int) = blinded k (beVal msg : Nat) s) →
      ∃ out, R.lift (mpz_export (mpz_of (m * invMod s k.n % (k.n : Int))) (rsaLen k.n) 1) = .ok out ∧
        out.length = rsaLen k.n ∧ beVal out < k.n ∧ (crt = true → beVal out ^ k.e % k.n = beVal msg) ∧
          (k.p.Prime → k.q.Prime → beVal out = beVal msg ^ k.d % k.n) := by
    intro hme
    have hlt : (m * invMod s k.n % (k.n : Int)).toNat < k.n := by
      have := Int.emod_lt_of_pos (m * invMod s k.n) (show (0 : Int) < k.n by omega)
      have := Int.emod_nonneg (m * invMod s k.n) hn0
      omega
    have hcast : (((m * invMod s k.n % (k.n : Int)).toNat : Nat) : Int) = m * invMod s k.n % (k.n : Int) :=
      Int.toNat_of_nonneg (Int.emod_nonneg _ hn0)
    obtain ⟨z, h1, h2, h3⟩ := export_of (lt_trans hlt (rsaLen_lt k.n))
    rw [hcast] at h1
    refine ⟨z, by rw [h1]; rfl, h2, by rw [h3]; exact hlt, ?_, ?_⟩
    · intro hcr
      have h4 := unblind_pow hk hs2 (hme hcr)
      rw [← hcast, ← Nat.cast_pow, Int.natCast_modEq_iff] at h4
      rw [h3]
      rw [← Nat.mod_eq_of_lt hc]
      exact h4
    · intro hp hq
      rw [h3]
      have h4 : ((m * invMod s k.n % (k.n : Int)).toNat : Int) ≡ ((beVal msg ^ k.d : Nat) : Int) [ZMOD k.n] := by
        rw [hcast]
        refine (Int.mod_modEq _ _).trans ?_
        refine ((hpr hp hq).mul_right _).trans ?_
        refine (((blinded_congr k (beVal msg : Nat) s).pow k.d).mul_right _).trans ?_
        rw [mul_pow, ← pow_mul]
        have h5 := (pow_ed hk hp hq s).mul_right (invMod s k.n)
        have h6 := inv_congr hs2 hn
        rw [mul_comm] at h6
        have h7 := (h5.trans h6).mul_left ((beVal msg : Int) ^ k.d)
        rw [mul_one, ← mul_assoc] at h7
        push_cast
        exact h7
      rw [Int.natCast_modEq_iff] at h4
      have h5 : _ % k.n = _ % k.n := h4
      rw [Nat.mod_eq_of_lt hlt] at h5
      exact h5
  cases crt with
  | false =>
    simp only [Bool.false_eq_true, if_false, R.ok_bind] at htail ⊢
    exact Or.inr (htail (fun h => absurd h (by simp)))
  | true =>
    simp only [if_true, true_implies] at hm htail ⊢
    rw [hm]
    by_cases hme : m ^ k.e % (k.n : Int) = blinded k (beVal msg : Nat) s
    · rw [show (decide (m ^ k.e % (k.n : Int) = blinded k (beVal msg : Nat) s)) = true by simpa using hme, R.need_true,
        R.ok_bind]
      exact Or.inr (htail hme)
    · left
      rw [show (decide (m ^ k.e % (k.n : Int) = blinded k (beVal msg : Nat) s)) = false by simpa using hme]
      exact ⟨rfl, trivial, fun h => hme (hpr2 h.1 h.2)⟩

/-- Encryption and decryption are inverse to each other on numbers below the modulus. -/
theorem pow_ed_lt {k : RsaKey} (hk : RsaKeyOk k) (hp : k.p.Prime) (hq : k.q.Prime) {c : Nat} (hc : c < k.n) :
    c ^ (k.e * k.d) % k.n = c := by
  have h := pow_ed hk hp hq (c : Int)
  have h2 : c ^ (k.e * k.d) ≡ c [MOD k.n] := by
    rw [← Int.natCast_modEq_iff]; push_cast; exact h
  rw [h2, Nat.mod_eq_of_lt hc]

end Torsion.Rsa
