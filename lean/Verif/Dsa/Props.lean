import Verif.Dsa.Example
import Verif.Mpi.RandomProps
import Verif.Rsa.Example
import Mathlib.GroupTheory.OrderOfElement

/-!
# DSA: keys, signatures, key agreement

The generators of random bytes are any `Source`; `fuel` is the number of rounds after which the model gives up on loops
which draw numbers (`R.spin`); the theorems hold for every `fuel`.
-/
namespace Torsion
open Torsion.Spec Torsion.Dsa Mpi
open Torsion.Rsa (Det)

/-! ## Keys -/

/-- Parameters: accepted exactly the DER encodings of groups within the limits whose generator has an order dividing `q`,
otherwise a failure. -/
theorem dsa_params_verify_iff (params : List Byte) :
    ((∃ p q g, params = dsaParamsDer p q g ∧ DsaGroupOk p q g) → dsa_params_verify params = .ok ()) ∧
    ((¬ ∃ p q g, params = dsaParamsDer p q g ∧ DsaGroupOk p q g) → dsa_params_verify params = .fail) := by
  have h := group_read group_ok_det (fun h => h.toDsaGroupSane) params (fun _ => R.ok ())
  have e : dsa_params_verify params = (dsa_group_import params >>= fun k => dsa_group_verify k >>= fun _ => R.ok ()) := by
    unfold dsa_params_verify
    congr 1
    funext k
    cases dsa_group_verify k <;> rfl
  rw [e]
  exact ⟨fun ⟨p, q, g, hk, ho⟩ => h.1 p q g hk ho, h.2⟩

/-- Public keys: accepted exactly the DER encodings of a group and an element of it, otherwise a failure. -/
theorem dsa_pubkey_verify_iff (key : List Byte) :
    ((∃ p q g y, key = dsaPubDer p q g y ∧ DsaPubOk p q g y) → dsa_pubkey_verify key = .ok ()) ∧
    ((¬ ∃ p q g y, key = dsaPubDer p q g y ∧ DsaPubOk p q g y) → dsa_pubkey_verify key = .fail) := by
  have h := pub_read pub_ok_det (fun h => h.toDsaPubSane) key (fun _ => R.ok ())
  have e : dsa_pubkey_verify key = (dsa_pub_import key >>= fun k => dsa_pub_verify k >>= fun _ => R.ok ()) := by
    unfold dsa_pubkey_verify
    congr 1
    funext k
    cases dsa_pub_verify k <;> rfl
  rw [e]
  exact ⟨fun ⟨p, q, g, y, hk, ho⟩ => h.1 p q g y hk ho, h.2⟩

/-- Private keys: accepted exactly the DER encodings of keys whose public number is `g ^ x`, otherwise a failure. -/
theorem dsa_privkey_verify_iff (key : List Byte) :
    ((∃ k, key = dsaPrivDer k ∧ DsaKeyOk k) → dsa_privkey_verify key = .ok ()) ∧
    ((¬ ∃ k, key = dsaPrivDer k ∧ DsaKeyOk k) → dsa_privkey_verify key = .fail) := by
  have h := priv_read priv_ok_det (fun h => h.toDsaKeySane) key (fun _ => R.ok ())
  have e : dsa_privkey_verify key = (dsa_priv_import key >>= fun k => dsa_priv_verify k >>= fun _ => R.ok ()) := by
    unfold dsa_privkey_verify
    congr 1
    funext k
    cases dsa_priv_verify k <;> rfl
  rw [e]
  exact ⟨fun ⟨k, hk, ho⟩ => h.1 k hk ho, h.2⟩

/-- The encodings determine the keys. -/
theorem dsa_keys_unique :
    (∀ p q g p' q' g', DsaGroupSane p q g → DsaGroupSane p' q' g' → dsaParamsDer p q g = dsaParamsDer p' q' g' →
      p = p' ∧ q = q' ∧ g = g') ∧
    (∀ p q g y p' q' g' y', DsaPubSane p q g y → DsaPubSane p' q' g' y' → dsaPubDer p q g y = dsaPubDer p' q' g' y' →
      p = p' ∧ q = q' ∧ g = g' ∧ y = y') ∧
    (∀ k k', DsaKeySane k → DsaKeySane k' → dsaPrivDer k = dsaPrivDer k' → k = k') :=
  ⟨fun _ _ _ _ _ _ h h' he => group_der_inj h h' he, fun _ _ _ _ _ _ _ _ h h' he => pub_der_inj h h' he,
    fun _ _ h h' he => priv_der_inj h h' he⟩

/-- The public key and the parameters of a private key; the sizes. -/
theorem dsa_key_parts {k : DsaKey} (hk : DsaKeySane k) :
    dsa_pubkey_create (dsaPrivDer k) = .ok (dsaPubDer k.p k.q k.g k.y) ∧
    dsa_params_create (dsaPrivDer k) = .ok (dsaParamsDer k.p k.q k.g) ∧
    dsa_privkey_bits (dsaPrivDer k) = .ok (Nat.size k.p) ∧ dsa_privkey_qbits (dsaPrivDer k) = .ok (Nat.size k.q) := by
  have hs := priv_small hk
  refine ⟨?_, ?_, ?_, ?_⟩
  · unfold dsa_pubkey_create
    rw [priv_import_ok hs, R.ok_bind, (priv_sane_det k).1 hk, R.ok_bind,
      show (ofKey k).toDsaPub = ofPub k.p k.q k.g k.y from rfl, R.liftM_eq, pub_export_ok hk.toDsaPubSane]
    rfl
  · unfold dsa_params_create
    rw [priv_import_ok hs, R.test_ok, R.ok_bind, if_pos rfl, R.ok_bind, R.ok_bind,
      show (ofKey k).toDsaGroup = ofGroup k.p k.q k.g from rfl, (group_sane_det _ _ _).1 hk.toDsaGroupSane, R.ok_bind,
      R.liftM_eq, group_export_ok hk.toDsaGroupSane]
    rfl
  · unfold dsa_privkey_bits
    rw [priv_import_ok hs, R.ok_bind, (priv_sane_det k).1 hk, R.ok_bind, show (ofKey k).p = mpz_of k.p from rfl, R.liftM_eq,
      bitlen_of]
    rfl
  · unfold dsa_privkey_qbits
    rw [priv_import_ok hs, R.ok_bind, (priv_sane_det k).1 hk, R.ok_bind, show (ofKey k).q = mpz_of k.q from rfl, R.liftM_eq,
      bitlen_of]
    rfl

/-- The parameters of a public key; the sizes. -/
theorem dsa_pub_parts {p q g y : Nat} (hk : DsaPubSane p q g y) :
    dsa_params_create (dsaPubDer p q g y) = .ok (dsaParamsDer p q g) ∧
    dsa_pubkey_bits (dsaPubDer p q g y) = .ok (Nat.size p) ∧ dsa_pubkey_qbits (dsaPubDer p q g y) = .ok (Nat.size q) ∧
    dsa_params_bits (dsaParamsDer p q g) = .ok (Nat.size p) ∧ dsa_params_qbits (dsaParamsDer p q g) = .ok (Nat.size q) := by
  obtain ⟨b1, b2, b3, b4⟩ := pub_small hk
  have hpos := group_pos hk.toDsaGroupSane
  refine ⟨?_, ?_, ?_, ?_, ?_⟩
  · have hno : dsa_priv_import (dsaPubDer p q g y) = .fail := by
      rcases priv_import_cases (dsaPubDer p q g y) with h | ⟨k, hk', hsm, -⟩
      · exact h
      · exfalso
        have hy := hk.ylo
        have l1 := Rsa.derInt_len b1
        have l2 := Rsa.derInt_len b2
        have l3 := Rsa.derInt_len b3
        have l4 := Rsa.derInt_len b4
        have h1 := (asn1_read_seq_strict_iff (dsaPubDer p q g y) (derInt y ++ (derInt p ++ (derInt q ++ derInt g)))).2
          ⟨rfl, by simp only [List.length_append]; omega⟩
        have m1 := Rsa.derInt_len hsm.p
        have m2 := Rsa.derInt_len hsm.q
        have m3 := Rsa.derInt_len hsm.g
        have m4 := Rsa.derInt_len hsm.y
        have m5 := Rsa.derInt_len hsm.x
        have h2 := (asn1_read_seq_strict_iff (dsaPubDer p q g y) (derInt 0 ++ (derInt k.p ++ (derInt k.q ++ (derInt k.g ++
          (derInt k.y ++ derInt k.x)))))).2 ⟨hk', by
            have : (derInt 0).length = 3 := by decide
            simp only [List.length_append]
            omega⟩
        rw [h1] at h2
        have h3 := Rsa.read_mpz_ok y (derInt p ++ (derInt q ++ derInt g)) b4
        have h4 := Rsa.read_mpz_ok 0 (derInt k.p ++ (derInt k.q ++ (derInt k.g ++ (derInt k.y ++ derInt k.x)))) (by positivity)
        rw [(Prod.mk.inj (C.ok.inj h2)).1, h4] at h3
        have h5 := of_inj.1 (Prod.mk.inj (R.ok.inj h3)).1
        omega
    unfold dsa_params_create
    rw [hno, R.test_fail, R.ok_bind, if_neg (by simp), pub_import_ok b1 b2 b3 b4, R.ok_bind, R.ok_bind,
      show (ofPub p q g y).toDsaGroup = ofGroup p q g from rfl, (group_sane_det _ _ _).1 hk.toDsaGroupSane, R.ok_bind,
      R.liftM_eq, group_export_ok hk.toDsaGroupSane]
    rfl
  · unfold dsa_pubkey_bits
    rw [pub_import_ok b1 b2 b3 b4, R.ok_bind, (pub_sane_det _ _ _ _).1 hk, R.ok_bind,
      show (ofPub p q g y).p = mpz_of p from rfl, R.liftM_eq, bitlen_of]
    rfl
  · unfold dsa_pubkey_qbits
    rw [pub_import_ok b1 b2 b3 b4, R.ok_bind, (pub_sane_det _ _ _ _).1 hk, R.ok_bind,
      show (ofPub p q g y).q = mpz_of q from rfl, R.liftM_eq, bitlen_of]
    rfl
  · unfold dsa_params_bits
    rw [group_import_ok b1 b2 b3, R.ok_bind, (group_sane_det _ _ _).1 hk.toDsaGroupSane, R.ok_bind,
      show (ofGroup p q g).p = mpz_of p from rfl, R.liftM_eq, bitlen_of]
    rfl
  · unfold dsa_params_qbits
    rw [group_import_ok b1 b2 b3, R.ok_bind, (group_sane_det _ _ _).1 hk.toDsaGroupSane, R.ok_bind,
      show (ofGroup p q g).q = mpz_of q from rfl, R.liftM_eq, bitlen_of]
    rfl

/-- The compact forms: what is exported comes back when imported, whatever bytes follow it. -/
theorem dsa_key_roundtrip {k : DsaKey} (hk : DsaKeySane k) (rest : List Byte) :
    dsa_privkey_export (dsaPrivDer k) = .ok (dsaDumb k) ∧
    dsa_privkey_import (dsaDumb k ++ rest) = .ok (dsaPrivDer k) ∧
    dsa_pubkey_export (dsaPubDer k.p k.q k.g k.y) = .ok (dsaPubDumb k.p k.q k.g k.y) ∧
    dsa_pubkey_import (dsaPubDumb k.p k.q k.g k.y ++ rest) = .ok (dsaPubDer k.p k.q k.g k.y) ∧
    dsa_params_export (dsaParamsDer k.p k.q k.g) = .ok (dsaParamsDumb k.p k.q k.g) ∧
    dsa_params_import (dsaParamsDumb k.p k.q k.g ++ rest) = .ok (dsaParamsDer k.p k.q k.g) := by
  have hs := priv_small hk
  have hy := hk.ylo
  refine ⟨?_, ?_, ?_, ?_, ?_, ?_⟩
  · unfold dsa_privkey_export
    rw [priv_import_ok hs, R.ok_bind, (priv_sane_det k).1 hk, R.ok_bind, R.liftM_eq, (priv_dumb_ok hs []).2]
    rfl
  · unfold dsa_privkey_import
    rw [(priv_dumb_ok hs rest).1, R.ok_bind, show (ofKey k).y = mpz_of k.y from rfl,
      if_neg (by rw [Rsa.sgn_zero]; omega), (priv_sane_det k).1 hk, R.ok_bind, R.ok_bind, R.liftM_eq, priv_export_ok hs]
    rfl
  · unfold dsa_pubkey_export
    rw [pub_import_ok hs.p hs.q hs.g hs.y, R.ok_bind, (pub_sane_det _ _ _ _).1 hk.toDsaPubSane, R.ok_bind, R.liftM_eq,
      (pub_dumb_ok hk.toDsaPubSane []).2]
    rfl
  · unfold dsa_pubkey_import
    rw [(pub_dumb_ok hk.toDsaPubSane rest).1, R.ok_bind, (pub_sane_det _ _ _ _).1 hk.toDsaPubSane, R.ok_bind, R.liftM_eq,
      pub_export_ok hk.toDsaPubSane]
    rfl
  · unfold dsa_params_export
    rw [group_import_ok hs.p hs.q hs.g, R.ok_bind, (group_sane_det _ _ _).1 hk.toDsaGroupSane, R.ok_bind, R.liftM_eq,
      (group_dumb_ok hk.toDsaGroupSane []).2]
    rfl
  · unfold dsa_params_import
    rw [(group_dumb_ok hk.toDsaGroupSane rest).1, R.ok_bind, (group_sane_det _ _ _).1 hk.toDsaGroupSane, R.ok_bind, R.liftM_eq,
      group_export_ok hk.toDsaGroupSane]
    rfl

/-- In a group of prime order every secret makes a key. -/
theorem dsa_key_of_secret {p q g x : Nat} (hg : DsaGroupOk p q g) (hq : q.Prime) (h0 : 0 < x) (hx : x < q) :
    DsaKeyOk ⟨p, q, g, g ^ x % p, x⟩ := by
  have hpos := group_pos hg.toDsaGroupSane
  have hglo := hg.glo
  have hghi := hg.ghi
  have hlt : g ^ x % p < p := Nat.mod_lt _ (by omega)
  have hord : (g ^ x % p) ^ q % p = 1 := pow_order hg.order
  have hy0 : g ^ x % p ≠ 0 := by
    intro h
    rw [h, Nat.zero_pow (by omega)] at hord
    simp at hord
  have hy1 : g ^ x % p ≠ 1 := by
    intro h
    have e1 : (g : ZMod p) ^ x = 1 := by
      have := (ZMod.natCast_eq_natCast_iff (g ^ x) 1 p).2 (by unfold Nat.ModEq; rw [h, Nat.mod_eq_of_lt (by omega)])
      push_cast at this
      exact this
    have e2 : (g : ZMod p) ^ q = 1 := by
      have := (ZMod.natCast_eq_natCast_iff (g ^ q) 1 p).2 (by unfold Nat.ModEq; rw [hg.order, Nat.mod_eq_of_lt (by omega)])
      push_cast at this
      exact this
    have e3 := pow_gcd_eq_one.2 ⟨e1, e2⟩
    rw [show x.gcd q = 1 from (Nat.coprime_of_lt_prime (by omega) hx hq).symm, pow_one] at e3
    have := (ZMod.natCast_eq_natCast_iff g 1 p).1 (by push_cast; exact e3)
    unfold Nat.ModEq at this
    rw [Nat.mod_eq_of_lt (by omega), Nat.mod_eq_of_lt (by omega)] at this
    omega
  have hy2 : g ^ x % p ≠ p - 1 := by
    intro h
    rw [h] at hord
    have e1 : ((p - 1 : Nat) : ZMod p) ^ q = 1 := by
      have := (ZMod.natCast_eq_natCast_iff ((p - 1) ^ q) 1 p).2 (by unfold Nat.ModEq; rw [hord, Nat.mod_eq_of_lt (by omega)])
      push_cast at this
      exact this
    rw [Nat.cast_sub (by omega), ZMod.natCast_self, Nat.cast_one, zero_sub, (Nat.odd_iff.2 hg.qodd).neg_one_pow] at e1
    have e2 : ((2 : Nat) : ZMod p) = 0 := by
      push_cast
      linear_combination -e1
    rw [ZMod.natCast_eq_zero_iff] at e2
    have := Nat.le_of_dvd (by norm_num) e2
    omega
  exact { toDsaGroupSane := hg.toDsaGroupSane, ylo := show 2 ≤ g ^ x % p by omega, yhi := show g ^ x % p < p - 1 by omega,
          xlo := h0, xhi := hx, gorder := hg.order, pub := rfl }

/-- A created key: a secret in `1, ..., q - 1` with its public number; a valid key when the group is valid and its order
prime. It can only hang in the loop which draws the secret. -/
theorem dsa_privkey_create_exact {S : Type} (rng : Source S) (fuel : Nat) {p q g : Nat} (hs : DsaGroupSane p q g)
    (entropy : List Byte) :
    dsa_privkey_create rng fuel (dsaParamsDer p q g) entropy = .spin ∨
    ∃ x, 0 < x ∧ x < q ∧
      dsa_privkey_create rng fuel (dsaParamsDer p q g) entropy = .ok (dsaPrivDer ⟨p, q, g, g ^ x % p, x⟩) ∧
      (DsaGroupOk p q g → q.Prime → DsaKeyOk ⟨p, q, g, g ^ x % p, x⟩) := by
  obtain ⟨b1, b2, b3⟩ := group_small hs
  have hpos := group_pos hs
  have hsec : ∀ n st, dsa_secret rng fuel (mpz_of q) n st = .spin ∨
      ∃ x : Nat, 0 < x ∧ x < q ∧ dsa_secret rng fuel (mpz_of q) n st = .ok (mpz_of x) := by
    intro n
    induction n with
    | zero => intro st; exact Or.inl rfl
    | succ n ih =>
      intro st
      rw [dsa_secret]
      rcases urandomm_of rng.toByteGen fuel st (show 0 < q by omega) with h | ⟨x, st', h, hx⟩
      · rw [h]; exact Or.inl rfl
      · rw [h, R.ok_bind]
        dsimp only
        by_cases h0 : x = 0
        · rw [if_pos (by rw [Rsa.sgn_zero]; omega)]
          exact ih st'
        · rw [if_neg (by rw [Rsa.sgn_zero]; omega)]
          exact Or.inr ⟨x, by omega, hx, rfl⟩
  unfold dsa_privkey_create dsa_priv_create
  rw [group_import_ok b1 b2 b3, R.ok_bind, (group_sane_det _ _ _).1 hs, R.ok_bind,
    show (ofGroup p q g).p = mpz_of p from rfl, show (ofGroup p q g).q = mpz_of q from rfl,
    show (ofGroup p q g).g = mpz_of g from rfl]
  simp only [R.liftM_eq, set_of, R.lift_ok, R.ok_bind]
  rcases hsec fuel (rng.init entropy) with h | ⟨x, h0, hx, h⟩
  · rw [h]; exact Or.inl rfl
  · right
    refine ⟨x, h0, hx, ?_, fun hg hq => dsa_key_of_secret hg hq h0 hx⟩
    have hsm : Small ⟨p, q, g, g ^ x % p, x⟩ :=
      ⟨b1, b2, b3, lt_trans (Nat.mod_lt _ (by omega)) b1, by show x < _; omega⟩
    rw [h, R.ok_bind, powm_sec_nat hs.podd, R.lift_ok, R.ok_bind, R.ok_bind]
    rw [show (⟨⟨⟨mpz_of p, mpz_of q, mpz_of g⟩, mpz_of ((g ^ x % p : Nat) : Int)⟩, mpz_of x⟩ : DsaPriv) =
      ofKey ⟨p, q, g, g ^ x % p, x⟩ from rfl, priv_export_ok hsm]
    rfl

/-- Import of a key without its public number: it is computed. -/
theorem dsa_privkey_import_recovers {p q g x : Nat} (hs : DsaGroupSane p q g) (rest : List Byte) (hx : x < 256 ^ 2048) :
    (0 < x → x < q → dsa_privkey_import (dsaDumb ⟨p, q, g, 0, x⟩ ++ rest) = .ok (dsaPrivDer ⟨p, q, g, g ^ x % p, x⟩)) ∧
    (¬ (0 < x ∧ x < q) → dsa_privkey_import (dsaDumb ⟨p, q, g, 0, x⟩ ++ rest) = .fail) := by
  obtain ⟨b1, b2, b3⟩ := group_small hs
  have hpos := group_pos hs
  have hsm : Small ⟨p, q, g, 0, x⟩ := ⟨b1, b2, b3, by show 0 < _; positivity, hx⟩
  have hsm' : Small ⟨p, q, g, g ^ x % p, x⟩ := ⟨b1, b2, b3, lt_trans (Nat.mod_lt _ (by omega)) b1, hx⟩
  unfold dsa_privkey_import dsa_priv_recover
  rw [(priv_dumb_ok hsm rest).1, R.ok_bind, show (ofKey ⟨p, q, g, 0, x⟩).y = mpz_of ((0 : Nat) : Int) from rfl,
    if_pos (by rw [Rsa.sgn_zero]; rfl), show (ofKey ⟨p, q, g, 0, x⟩).toDsaGroup = ofGroup p q g from rfl,
    (group_sane_det p q g).1 hs, R.ok_bind, show (ofKey ⟨p, q, g, 0, x⟩).x = mpz_of x from rfl,
    show (ofGroup p q g).q = mpz_of q from rfl, show (ofGroup p q g).g = mpz_of g from rfl,
    show (ofGroup p q g).p = mpz_of p from rfl]
  constructor
  · intro h0 hq
    rw [decide_eq_true (by rw [Rsa.sgn_zero]; omega), R.need_true, R.ok_bind,
      decide_eq_true (by rw [Rsa.cmp_ge0]; omega), R.need_true, R.ok_bind, R.liftM_eq, powm_sec_nat hs.podd, R.lift_ok,
      R.ok_bind, R.ok_bind]
    rw [show (⟨⟨ofGroup p q g, mpz_of ((g ^ x % p : Nat) : Int)⟩, mpz_of x⟩ : DsaPriv) =
      ofKey ⟨p, q, g, g ^ x % p, x⟩ from rfl, R.liftM_eq, priv_export_ok hsm']
    rfl
  · intro h
    by_cases h0 : 0 < x
    · rw [decide_eq_true (by rw [Rsa.sgn_zero]; omega), R.need_true, R.ok_bind,
        decide_eq_false (by rw [Rsa.cmp_ge0]; omega)]
      rfl
    · rw [decide_eq_false (by rw [Rsa.sgn_zero]; omega)]
      rfl

/-! ## C48: signatures -/

/-- Keys outside the ranges are refused. -/
theorem dsa_sign_refuses {S : Type} (rng : Source S) (fuel : Nat) (msg key entropy : List Byte)
    (h : ¬ ∃ k, key = dsaPrivDer k ∧ DsaKeySane k) : dsa_sign rng fuel msg key entropy = .fail :=
  (priv_read priv_sane_det (fun h => h) key _).2 h

theorem Dsa.sign_eq {S : Type} (rng : Source S) (fuel : Nat) {k : DsaKey} (hk : DsaKeySane k) (msg entropy : List Byte) :
    dsa_sign rng fuel msg (dsaPrivDer k) entropy =
      (dsa_sign_loop rng fuel (ofKey k) (mpz_of ((leftBits k.q msg % k.q : Nat) : Int)) (dsaLen k.q) fuel
        (rng.init (bigBytes (dsaLen k.q) k.x ++ bigBytes (dsaLen k.q) (leftBits k.q msg % k.q))) (rng.init entropy) >>=
        fun s => dsa_sig_export_rs s (dsaLen k.q)) := by
  have hpos := group_pos hk.toDsaGroupSane
  obtain ⟨h8, h0, h32⟩ := len8 hk.toDsaGroupSane
  unfold dsa_sign
  rw [priv_import_ok (priv_small hk), R.ok_bind, (priv_sane_det k).1 hk, R.ok_bind, show (ofKey k).q = mpz_of k.q from rfl,
    show (ofKey k).x = mpz_of k.x from rfl, R.liftM_eq, bytelen_of, R.lift_ok, R.ok_bind, Int.natAbs_natCast,
    show (k.q.size + 7) / 8 = dsaLen k.q from rfl, R.liftM_eq, reduce_eq _ (by omega), R.lift_ok, R.ok_bind]
  rw [show C.check (dsaLen k.q * 2 ≤ DSA_MAX_QSIZE * 2) = .ok () by
    rw [C.check, if_pos]; exact decide_eq_true (by unfold DSA_MAX_QSIZE; omega)]
  rw [R.liftM_eq, R.lift_ok, R.ok_bind, R.liftM_eq, export_nat (lt_len hk.toDsaGroupSane hk.xhi), R.lift_ok, R.ok_bind,
    R.liftM_eq, export_nat (lt_len hk.toDsaGroupSane (Nat.mod_lt _ (by omega))), R.lift_ok, R.ok_bind]

/-- Signing: the signature of the leftmost bits of the message with the first acceptable nonce of the generator seeded with
the secret and the message (RFC 6979), whatever the blinding. It fails only when the order is not prime, and can only hang
in the loops which draw numbers. -/
theorem dsa_sign_exact {S : Type} (rng : Source S) (fuel : Nat) {k : DsaKey} (hk : DsaKeySane k) (msg entropy : List Byte) :
    let m := leftBits k.q msg % k.q
    let nonce := dsaNonce rng.gen k.q (rng.init (bigBytes (dsaLen k.q) k.x ++ bigBytes (dsaLen k.q) m))
    dsa_sign rng fuel msg (dsaPrivDer k) entropy = .spin ∨
    (dsa_sign rng fuel msg (dsaPrivDer k) entropy = .fail ∧ ¬ k.q.Prime) ∨
    ∃ i r s, (∀ j < i, ¬ DsaNonceOk k m (nonce j)) ∧ DsaNonceOk k m (nonce i) ∧ DsaSigned k m (nonce i) r s ∧
      0 < r ∧ r < k.q ∧ 0 < s ∧ s < k.q ∧
      dsa_sign rng fuel msg (dsaPrivDer k) entropy = .ok (bigBytes (dsaLen k.q) r ++ bigBytes (dsaLen k.q) s) := by
  dsimp only
  rw [Dsa.sign_eq rng fuel hk]
  have hpos := group_pos hk.toDsaGroupSane
  rcases sign_loop rng fuel hk (m := leftBits k.q msg % k.q) fuel
    (rng.init (bigBytes (dsaLen k.q) k.x ++ bigBytes (dsaLen k.q) (leftBits k.q msg % k.q))) (rng.init entropy) with
    h | ⟨h, hp⟩ | ⟨i, r, s, h1, h2, h3, h4, h⟩
  · rw [h]; exact Or.inl rfl
  · rw [h]; exact Or.inr (Or.inl ⟨rfl, hp⟩)
  · have hr : r < k.q := by rw [h3.1]; exact Nat.mod_lt _ (by omega)
    have hr0 : 0 < r := by rw [h3.1]; exact Nat.pos_of_ne_zero h2.2.2.1
    refine Or.inr (Or.inr ⟨i, r, s, h1, h2, h3, hr0, hr, by omega, h3.2.1, ?_⟩)
    rw [h, R.ok_bind, sig_rs_ok (lt_len hk.toDsaGroupSane hr) (lt_len hk.toDsaGroupSane h3.2.1)]

/-- The signature is a function of the key and the message: the entropy only blinds. -/
theorem dsa_sign_deterministic {S : Type} (rng : Source S) (fuel fuel' : Nat) (msg key e e' : List Byte)
    {sig sig' : List Byte} (h : dsa_sign rng fuel msg key e = .ok sig) (h' : dsa_sign rng fuel' msg key e' = .ok sig') :
    sig = sig' := by
  by_cases hk : ∃ k, key = dsaPrivDer k ∧ DsaKeySane k
  swap
  · rw [dsa_sign_refuses rng fuel msg key e hk] at h; simp at h
  obtain ⟨k, rfl, hs⟩ := hk
  have hpos := group_pos hs.toDsaGroupSane
  have a := dsa_sign_exact rng fuel hs msg e
  have b := dsa_sign_exact rng fuel' hs msg e'
  dsimp only at a b
  rw [h] at a
  rw [h'] at b
  rcases a with a | ⟨a, -⟩ | ⟨i, r, s, a1, a2, a3, -, -, -, a4, a5⟩
  · simp at a
  · simp at a
  rcases b with b | ⟨b, -⟩ | ⟨i', r', s', b1, b2, b3, -, -, -, b4, b5⟩
  · simp at b
  · simp at b
  have hi : i = i' := by
    rcases lt_trichotomy i i' with hl | hl | hl
    · exact absurd a2 (b1 i hl)
    · exact hl
    · exact absurd b2 (a1 i' hl)
  subst hi
  have hr : r = r' := a3.1.trans b3.1.symm
  subst hr
  have hse : s = s' := by
    have : s ≡ s' [MOD k.q] := cancel_mod a3.2.2.1 (a3.2.2.2.trans b3.2.2.2.symm)
    unfold Nat.ModEq at this
    rwa [Nat.mod_eq_of_lt a4, Nat.mod_eq_of_lt b4] at this
  subst hse
  rw [R.ok.inj a5, R.ok.inj b5]

/-- Signing ends: when the blinding numbers are accepted at once and the `i`-th nonce is acceptable, `i + 1` rounds are
enough. -/
theorem dsa_sign_ends {S : Type} (rng : Source S) (fuel : Nat) {k : DsaKey} (hk : DsaKeySane k) (hq : k.q.Prime)
    (msg entropy : List Byte) (hb : ∀ st, nthCandidate rng.gen k.q st 0 < k.q ∧ nthCandidate rng.gen k.q st 0 ≠ 0) {i : Nat}
    (hi : i < fuel)
    (hn : DsaNonceOk k (leftBits k.q msg % k.q) (dsaNonce rng.gen k.q (rng.init (bigBytes (dsaLen k.q) k.x ++
      bigBytes (dsaLen k.q) (leftBits k.q msg % k.q))) i)) :
    ∃ sig, dsa_sign rng fuel msg (dsaPrivDer k) entropy = .ok sig := by
  have hpos := group_pos hk.toDsaGroupSane
  obtain ⟨sg, h⟩ := sign_loop_ends rng fuel hk hq (m := leftBits k.q msg % k.q) (fun st => by
    obtain ⟨z, h1, h2⟩ := (mpz_urandomm_exact rng.toByteGen fuel st (of_rep (k.q : Int)) (by omega)).1 0 (by omega)
      (fun j h => absurd h (by omega)) (hb st).1
    exact ⟨nthCandidate rng.gen k.q st 0, _, by rw [h1, rep_of h2], (hb st).2⟩) fuel
    (rng.init (bigBytes (dsaLen k.q) k.x ++ bigBytes (dsaLen k.q) (leftBits k.q msg % k.q))) (rng.init entropy) i hi hn
  rcases dsa_sign_exact rng fuel hk msg entropy with a | ⟨-, a⟩ | ⟨_, _, _, _, _, _, _, _, _, _, a⟩
  · exfalso
    rw [Dsa.sign_eq rng fuel hk, h, R.ok_bind] at a
    rcases sign_loop rng fuel hk (m := leftBits k.q msg % k.q) fuel
      (rng.init (bigBytes (dsaLen k.q) k.x ++ bigBytes (dsaLen k.q) (leftBits k.q msg % k.q))) (rng.init entropy) with
      h' | ⟨h', hp⟩ | ⟨i, r, s, h1, h2, h3, h4, h'⟩
    · rw [h] at h'; simp at h'
    · rw [h] at h'; simp at h'
    · rw [h] at h'
      rw [R.ok.inj h', sig_rs_ok (lt_len hk.toDsaGroupSane (by rw [h3.1]; exact Nat.mod_lt _ (by omega)))
        (lt_len hk.toDsaGroupSane h3.2.1)] at a
      simp at a
  · exact absurd hq a
  · exact ⟨_, a⟩

/-- Verification: accepted exactly the pairs of numbers in range, each in as many bytes as `q` has, which satisfy the
equation of FIPS 186-4 for the leftmost bits of the message; otherwise a failure. -/
theorem dsa_verify_iff (msg sig key : List Byte) :
    ((∃ p q g y r s, key = dsaPubDer p q g y ∧ DsaPubSane p q g y ∧
      sig = bigBytes (dsaLen q) r ++ bigBytes (dsaLen q) s ∧ DsaValid p q g y (leftBits q msg) r s) →
      dsa_verify msg sig key = .ok ()) ∧
    ((¬ ∃ p q g y r s, key = dsaPubDer p q g y ∧ DsaPubSane p q g y ∧
      sig = bigBytes (dsaLen q) r ++ bigBytes (dsaLen q) s ∧ DsaValid p q g y (leftBits q msg) r s) →
      dsa_verify msg sig key = .fail) := by
  constructor
  · rintro ⟨p, q, g, y, r, s, rfl, hs, hsig, hv⟩
    exact (verify_det p q g y hs msg sig).1 ⟨r, s, hsig, hv⟩
  · intro hno
    by_cases hk : ∃ p q g y, key = dsaPubDer p q g y ∧ DsaPubSane p q g y
    · obtain ⟨p, q, g, y, rfl, hs⟩ := hk
      exact (verify_det p q g y hs msg sig).2 fun ⟨r, s, h, hv⟩ => hno ⟨p, q, g, y, r, s, rfl, hs, h, hv⟩
    · exact (pub_read pub_sane_det (fun h => h) key _).2 hk

/-- Every signature made verifies. -/
theorem dsa_sign_verify {S : Type} (rng : Source S) (fuel : Nat) {k : DsaKey} (hk : DsaKeyOk k) (hq : k.q.Prime)
    (msg entropy : List Byte) {sig : List Byte} (h : dsa_sign rng fuel msg (dsaPrivDer k) entropy = .ok sig) :
    dsa_verify msg sig (dsaPubDer k.p k.q k.g k.y) = .ok () := by
  have hpos := group_pos hk.toDsaGroupSane
  have a := dsa_sign_exact rng fuel hk.toDsaKeySane msg entropy
  dsimp only at a
  rw [h] at a
  rcases a with a | ⟨a, -⟩ | ⟨i, r, s, -, -, a3, b1, b2, b3, b4, a5⟩
  · simp at a
  · simp at a
  · refine (dsa_verify_iff _ _ _).1 ⟨k.p, k.q, k.g, k.y, r, s, rfl, hk.toDsaPubSane, R.ok.inj a5, ?_⟩
    obtain ⟨w, -, -, hw⟩ := (invert_nat s (show 1 < k.q by omega)).1 (Nat.coprime_of_lt_prime (by omega) b4 hq).symm
    rw [valid_inv (by omega) hw b1 b2 b3 b4]
    exact signed_verifies hk a3 hw

/-- The secrets agree: each side raises the public number of the other to its own secret. -/
theorem dsa_derive_exact {k : DsaKey} (hk : DsaKeySane k) {y : Nat} (hy : DsaPubOk k.p k.q k.g y) :
    dsa_derive (dsaPubDer k.p k.q k.g y) (dsaPrivDer k) = .ok (bigBytes (rsaLen k.p) (y ^ k.x % k.p)) := by
  have hpos := group_pos hk.toDsaGroupSane
  obtain ⟨b1, b2, b3, b4⟩ := pub_small hy.toDsaPubSane
  unfold dsa_derive
  rw [pub_import_ok b1 b2 b3 b4, R.ok_bind, priv_import_ok (priv_small hk), R.ok_bind,
    show (ofKey k).p = mpz_of k.p from rfl, show (ofKey k).q = mpz_of k.q from rfl, show (ofKey k).g = mpz_of k.g from rfl,
    show (ofKey k).x = mpz_of k.x from rfl, show (ofPub k.p k.q k.g y).p = mpz_of k.p from rfl,
    show (ofPub k.p k.q k.g y).q = mpz_of k.q from rfl, show (ofPub k.p k.q k.g y).g = mpz_of k.g from rfl,
    show (ofPub k.p k.q k.g y).y = mpz_of y from rfl,
    decide_eq_true (by simp), R.need_true, R.ok_bind, (priv_sane_det k).1 hk, R.ok_bind,
    (pub_ok_det _ _ _ _).1 hy, R.ok_bind, R.liftM_eq, powm_sec_nat hk.podd, R.lift_ok, R.ok_bind, R.liftM_eq, bytelen_of,
    R.lift_ok, R.ok_bind, Int.natAbs_natCast, R.liftM_eq, export_nat]
  · rfl
  · exact lt_trans (Nat.mod_lt _ (by omega)) ((fits_iff k.p _).1 (le_refl _))

theorem dsa_derive_agree {a b : DsaKey} (ha : DsaKeyOk a) (hb : DsaKeyOk b) (hp : a.p = b.p) (hq : a.q = b.q)
    (hg : a.g = b.g) :
    dsa_derive (dsaPubDer b.p b.q b.g b.y) (dsaPrivDer a) = dsa_derive (dsaPubDer a.p a.q a.g a.y) (dsaPrivDer b) ∧
    ∃ z, dsa_derive (dsaPubDer b.p b.q b.g b.y) (dsaPrivDer a) = .ok z := by
  have h1 := dsa_derive_exact ha.toDsaKeySane (y := b.y) (by
    rw [hp, hq, hg]
    exact ⟨hb.toDsaPubSane, hb.gorder, by rw [← hb.pub]; exact pow_order hb.gorder⟩)
  have h2 := dsa_derive_exact hb.toDsaKeySane (y := a.y) (by
    rw [← hp, ← hq, ← hg]
    exact ⟨ha.toDsaPubSane, ha.gorder, by rw [← ha.pub]; exact pow_order ha.gorder⟩)
  rw [hp, hq, hg] at h1 ⊢
  rw [h1, h2]
  refine ⟨?_, _, rfl⟩
  rw [← ha.pub, ← hb.pub, hp, hg, ← Nat.pow_mod, ← Nat.pow_mod, ← pow_mul, ← pow_mul, Nat.mul_comm]

/-- Everything else is refused: public keys outside the group, other groups, secrets out of range. -/
theorem dsa_derive_refuses (pub priv : List Byte)
    (h : ¬ ∃ k y, pub = dsaPubDer k.p k.q k.g y ∧ priv = dsaPrivDer k ∧ DsaKeySane k ∧ DsaPubOk k.p k.q k.g y) :
    dsa_derive pub priv = .fail := by
  unfold dsa_derive
  rcases pub_import_cases pub with h1 | ⟨p, q, g, y, hk1, -, -, -, -, h1⟩
  · rw [h1]; rfl
  rw [h1, R.ok_bind]
  rcases priv_import_cases priv with h2 | ⟨k, hk2, -, h2⟩
  · rw [h2]; rfl
  rw [h2, R.ok_bind]
  by_cases he : k.p = p ∧ k.q = q ∧ k.g = g
  swap
  · rw [decide_eq_false]
    · rfl
    · rw [show (ofKey k).p = mpz_of k.p from rfl, show (ofKey k).q = mpz_of k.q from rfl, show (ofKey k).g = mpz_of k.g from rfl,
        show (ofPub p q g y).p = mpz_of p from rfl, show (ofPub p q g y).q = mpz_of q from rfl,
        show (ofPub p q g y).g = mpz_of g from rfl, Ne, Ne, Ne, Rsa.cmp_eq0, Rsa.cmp_eq0, Rsa.cmp_eq0]
      omega
  obtain ⟨rfl, rfl, rfl⟩ := he
  cases hb : R.need (decide ¬(mpz_cmp (ofPub k.p k.q k.g y).p (ofKey k).p ≠ 0 ∨ mpz_cmp (ofPub k.p k.q k.g y).q (ofKey k).q ≠ 0 ∨
    mpz_cmp (ofPub k.p k.q k.g y).g (ofKey k).g ≠ 0)) with
  | fail => rfl
  | ok a =>
    rw [R.ok_bind]
    by_cases hs : DsaKeySane k
    · rw [(priv_sane_det k).1 hs, R.ok_bind, (pub_ok_det _ _ _ _).2 fun hy => h ⟨k, y, hk1, hk2, hs, hy⟩]
      rfl
    · rw [(priv_sane_det k).2 hs]; rfl
  | spin => unfold R.need at hb; split at hb <;> simp at hb
  | abort => unfold R.need at hb; split at hb <;> simp at hb
  | ub => unfold R.need at hb; split at hb <;> simp at hb

/-! ## The formats of signatures -/

/-- To DER. -/
theorem dsa_sig_export_exact {n r s : Nat} (hn : n ≤ 32) (hr : r < 256 ^ n) (hs : s < 256 ^ n) :
    dsa_sig_export (bigBytes n r ++ bigBytes n s) n = .ok (dsaSigDer r s) ∧
    dsa_sig_export (bigBytes n r ++ bigBytes n s) 0 = .ok (dsaSigDer r s) ∧
    dsa_sig_import (dsaSigDer r s) n = .ok (bigBytes n r ++ bigBytes n s) := by
  have hle : (256 : Nat) ^ n ≤ 256 ^ 32 := Nat.pow_le_pow_right (by norm_num) hn
  have hle2 : (256 : Nat) ^ n ≤ 256 ^ 2048 := Nat.pow_le_pow_right (by norm_num) (by omega)
  have hr' := lt_of_lt_of_le hr hle2
  have hs' := lt_of_lt_of_le hs hle2
  have hd : dsa_sig_export_der (ofSig r s) = .ok (dsaSigDer r s) := by
    obtain ⟨w1, s1⟩ := Rsa.write_mpz_ok hr'
    obtain ⟨w2, s2⟩ := Rsa.write_mpz_ok hs'
    have l1 := Rsa.derInt_len hr'
    have l2 := Rsa.derInt_len hs'
    unfold dsa_sig_export_der ofSig dsaSigDer derSeq
    simp only [Rsa.nat_of, w1, w2, s1, s2, C.ok_bind]
    rw [asn1_write_seq_spec, if_pos (by omega), C.ok_bind, List.length_append]
    rfl
  have hi : dsa_sig_import_der (dsaSigDer r s) = .ok (ofSig r s) := by
    have l1 := Rsa.derInt_len hr'
    have l2 := Rsa.derInt_len hs'
    have hq := (asn1_read_seq_strict_iff (dsaSigDer r s) (derInt r ++ derInt s)).2
      ⟨rfl, by simp only [List.length_append]; omega⟩
    have hz := Rsa.read_mpz_ok s [] hs'
    rw [List.append_nil] at hz
    unfold dsa_sig_import_der
    rw [R.liftM_eq, hq, R.lift_ok, R.ok_bind, R.need_true, R.ok_bind, Rsa.read_mpz_ok r _ hr', R.ok_bind, hz]
    rfl
  have hlen : (bigBytes n r ++ bigBytes n s).length = n * 2 := by
    rw [List.length_append, Hsh.bigBytes_len, Hsh.bigBytes_len]; omega
  have himp : ∀ m, m = n ∨ m = 0 → dsa_sig_import_rs (bigBytes n r ++ bigBytes n s) m = .ok (ofSig r s) := by
    intro m hm
    by_cases hn0 : n = 0
    · subst hn0
      have h1 : r = 0 := by simpa using hr
      have h2 : s = 0 := by simpa using hs
      subst h1 h2
      rcases hm with rfl | rfl <;> rfl
    have e : dsa_sig_import_rs (bigBytes n r ++ bigBytes n s) m = dsa_sig_import_rs (bigBytes n r ++ bigBytes n s) n := by
      rcases hm with rfl | rfl
      · rfl
      · unfold dsa_sig_import_rs
        dsimp only
        rw [if_pos rfl, if_neg hn0, hlen, Nat.mul_div_cancel _ (by norm_num)]
    rw [e, import_rs_eq _ hn0, if_pos hlen, List.take_append_of_le_length (by rw [Hsh.bigBytes_len]),
      List.take_of_length_le (by rw [Hsh.bigBytes_len]), Drb.beVal_bigBytes, Nat.mod_eq_of_lt hr,
      List.drop_left' (Hsh.bigBytes_len _ _), Drb.beVal_bigBytes, Nat.mod_eq_of_lt hs]
  have hsane := (sig_sane_det r s).1 ⟨by omega, by omega⟩
  refine ⟨?_, ?_, ?_⟩
  · unfold dsa_sig_export
    rw [hlen, decide_eq_true (by unfold DSA_MAX_QSIZE; omega), R.need_true, R.ok_bind,
      decide_eq_true (by unfold DSA_MAX_QSIZE; omega), R.need_true, R.ok_bind, himp n (Or.inl rfl), R.ok_bind, hsane, R.ok_bind,
      R.liftM_eq, hd]
    rfl
  · unfold dsa_sig_export
    rw [hlen, decide_eq_true (by unfold DSA_MAX_QSIZE; omega), R.need_true, R.ok_bind,
      decide_eq_true (by unfold DSA_MAX_QSIZE; omega), R.need_true, R.ok_bind, himp 0 (Or.inr rfl), R.ok_bind, hsane, R.ok_bind,
      R.liftM_eq, hd]
    rfl
  · unfold dsa_sig_import
    rw [hi, R.ok_bind, hsane, R.ok_bind, sig_rs_ok hr hs]

/-- From DER nothing else is accepted. -/
theorem dsa_sig_import_sound (der : List Byte) (n : Nat) :
    dsa_sig_import der n = .fail ∨ ∃ r s, der = dsaSigDer r s ∧ r < 256 ^ n ∧ s < 256 ^ n ∧ r < 256 ^ 32 ∧ s < 256 ^ 32 ∧
      dsa_sig_import der n = .ok (bigBytes n r ++ bigBytes n s) := by
  unfold dsa_sig_import dsa_sig_import_der
  rw [R.liftM_eq]
  rcases Rsa.read_seq_cases der with ⟨s, h⟩ | ⟨r, h, hk⟩
  · rw [h]; exact Or.inl rfl
  rw [h, R.lift_ok, R.ok_bind, R.need_true, R.ok_bind]
  rcases Rsa.read_mpz_cases r with h | ⟨n1, r1, h, h1, b1⟩
  · rw [h]; exact Or.inl rfl
  rw [h, R.ok_bind]
  rcases Rsa.read_mpz_cases r1 with h | ⟨n2, r2, h, h2, b2⟩
  · rw [h]; exact Or.inl rfl
  rw [h, R.ok_bind]
  cases r2 with
  | cons a b => exact Or.inl rfl
  | nil =>
    dsimp only
    rw [decide_eq_true (show (Asn1.exact []).len = 0 from rfl), R.need_true, R.ok_bind, R.ok_bind,
      show (⟨mpz_of n1, mpz_of n2⟩ : DsaSig) = ofSig n1 n2 from rfl]
    by_cases hs : n1 < 256 ^ 32 ∧ n2 < 256 ^ 32
    swap
    · rw [(sig_sane_det n1 n2).2 hs]; exact Or.inl rfl
    rw [(sig_sane_det n1 n2).1 hs, R.ok_bind]
    by_cases hn : n1 < 256 ^ n ∧ n2 < 256 ^ n
    swap
    · exact Or.inl (sig_rs_fail hn)
    exact Or.inr ⟨n1, n2, by rw [hk, h1, h2, List.append_nil]; rfl, hn.1, hn.2, hs.1, hs.2, sig_rs_ok hn.1 hn.2⟩

/-! ## A key which meets the hypotheses -/

example : DsaKeyOk exDsa ∧ exDsa.q.Prime ∧ DsaGroupOk exDsa.p exDsa.q exDsa.g ∧
    DsaPubOk exDsa.p exDsa.q exDsa.g exDsa.y :=
  ⟨exDsa_ok, exDsa_q, ⟨exDsa_ok.toDsaGroupSane, exDsa_ok.gorder⟩,
    ⟨exDsa_ok.toDsaPubSane, exDsa_ok.gorder, by rw [← exDsa_ok.pub]; exact pow_order exDsa_ok.gorder⟩⟩

example : dsa_privkey_verify (dsaPrivDer exDsa) = .ok () := (dsa_privkey_verify_iff _).1 ⟨_, rfl, exDsa_ok⟩

/-- With a generator whose every draw is the number 3 (as a little-endian number) the message `[5]` is signed in the first
round. -/
theorem dsa_sign_example : ∃ sig, dsa_sign Rsa.exSource 1 [5] (dsaPrivDer exDsa) [] = .ok sig ∧
    dsa_verify [5] sig (dsaPubDer exDsa.p exDsa.q exDsa.g exDsa.y) = .ok () := by
  have hn : dsaNonce Rsa.exSource.gen exDsa.q (0 : Nat) 0 = 3 * 256 ^ 19 := by decide +kernel
  have hm : leftBits exDsa.q [5] % exDsa.q = 5 := by decide +kernel
  obtain ⟨sig, h⟩ := dsa_sign_ends Rsa.exSource 1 exDsa_ok.toDsaKeySane exDsa_q [5] []
    (fun st => ⟨by show nthCandidate threes.gen exDsa.q 0 0 < _; decide +kernel,
      by show nthCandidate threes.gen exDsa.q 0 0 ≠ _; decide +kernel⟩) (i := 0) (by norm_num) (by
    show DsaNonceOk _ _ (dsaNonce Rsa.exSource.gen exDsa.q (0 : Nat) 0)
    rw [hn, hm]
    refine ⟨by norm_num, by decide +kernel, ?_, ?_⟩
    · rw [← powMod_eq 160 _ _ _ (by decide +kernel)]; decide +kernel
    · rw [← powMod_eq 160 _ _ _ (by decide +kernel)]; decide +kernel)
  exact ⟨sig, h, dsa_sign_verify _ _ exDsa_ok exDsa_q _ _ h⟩

example : dsa_derive (dsaPubDer exDsa.p exDsa.q exDsa.g exDsa.y) (dsaPrivDer exDsa) =
    .ok (bigBytes (rsaLen exDsa.p) (exDsa.y ^ exDsa.x % exDsa.p)) :=
  dsa_derive_exact exDsa_ok.toDsaKeySane
    ⟨exDsa_ok.toDsaPubSane, exDsa_ok.gorder, by rw [← exDsa_ok.pub]; exact pow_order exDsa_ok.gorder⟩

example : dsa_sig_export (bigBytes 20 77 ++ bigBytes 20 99) 20 = .ok (dsaSigDer 77 99) :=
  (dsa_sig_export_exact (by norm_num) (by norm_num) (by norm_num)).1

end Torsion
