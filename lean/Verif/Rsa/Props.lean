import Verif.Rsa.OaepLemmas
import Verif.Rsa.VeilLemmas
import Verif.Rsa.ImportLemmas
import Verif.Rsa.Example

/-!
# RSA: keys, the private operation, signatures, encryption

The generator of random bytes is any `Source`; `fuel` is the number of rounds after which the model gives up on loops
which draw numbers (`R.spin`); the theorems hold for every `fuel`.
-/
namespace Torsion
open Torsion.Spec Torsion.Rsa Torsion.Drb

/-! ## Keys -/

/-- Public keys: accepted exactly the DER encodings of a modulus and exponent within the limits, otherwise a failure. -/
theorem rsa_pubkey_verify_iff (key : List Byte) :
    ((∃ n e, key = rsaPubDer n e ∧ RsaPubOk n e) → rsa_pubkey_verify key = .ok ()) ∧
    ((¬ ∃ n e, key = rsaPubDer n e ∧ RsaPubOk n e) → rsa_pubkey_verify key = .fail) := by
  unfold rsa_pubkey_verify
  rcases pub_read key with ⟨n, e, hk, ho, hi, hv⟩ | ⟨hno, hf⟩
  · refine ⟨fun _ => by rw [hi, R.ok_bind, hv], fun h => absurd ⟨n, e, hk, ho⟩ h⟩
  · refine ⟨fun h => absurd h hno, fun _ => ?_⟩
    have := hf (fun _ => R.ok ())
    rw [← this]
    congr 1
    funext k
    cases rsa_pub_verify k <;> rfl

/-- Private keys: accepted exactly the DER encodings of consistent keys (whose factors need not be prime), otherwise a
failure. -/
theorem rsa_privkey_verify_iff (key : List Byte) :
    ((∃ k, key = rsaPrivDer k ∧ RsaKeyOk k) → rsa_privkey_verify key = .ok ()) ∧
    ((¬ ∃ k, key = rsaPrivDer k ∧ RsaKeyOk k) → rsa_privkey_verify key = .fail) := by
  unfold rsa_privkey_verify
  rcases priv_read key with ⟨k, hk, ho, hi, hv⟩ | ⟨hno, hf⟩
  · refine ⟨fun _ => by rw [hi, R.ok_bind, hv], fun h => absurd ⟨k, hk, ho⟩ h⟩
  · refine ⟨fun h => absurd h hno, fun _ => ?_⟩
    have := hf (fun _ => R.ok ())
    rw [← this]
    congr 1
    funext k
    cases rsa_priv_verify k <;> rfl

/-- The encodings determine the keys. -/
theorem rsa_keys_unique :
    (∀ n e n' e', RsaPubOk n e → RsaPubOk n' e' → rsaPubDer n e = rsaPubDer n' e' → n = n' ∧ e = e') ∧
    (∀ k k', RsaKeyOk k → RsaKeyOk k' → rsaPrivDer k = rsaPrivDer k' → k = k') :=
  ⟨fun _ _ _ _ h h' he => pub_der_inj h h' he, fun _ _ h h' he => priv_der_inj h h' he⟩

/-- The public key of a private key; the sizes. -/
theorem rsa_pubkey_create_exact {k : RsaKey} (hk : RsaKeyOk k) :
    rsa_pubkey_create (rsaPrivDer k) = .ok (rsaPubDer k.n k.e) ∧
    rsa_pubkey_verify (rsaPubDer k.n k.e) = .ok () ∧
    rsa_privkey_bits (rsaPrivDer k) = .ok (Nat.size k.n) ∧ rsa_pubkey_bits (rsaPubDer k.n k.e) = .ok (Nat.size k.n) := by
  have hp := pub_small hk.pub
  refine ⟨?_, (rsa_pubkey_verify_iff _).1 ⟨_, _, rfl, hk.pub⟩, ?_, ?_⟩
  · unfold rsa_pubkey_create
    rw [priv_import_ok (priv_small hk), R.ok_bind, (priv_verify_det k).1 hk, R.ok_bind,
      show (⟨(ofKey k).n, (ofKey k).e⟩ : RsaPub) = ⟨mpz_of k.n, mpz_of k.e⟩ from rfl, R.liftM_eq, pub_export_ok hp.1 hp.2]
    rfl
  · unfold rsa_privkey_bits
    rw [priv_import_ok (priv_small hk), R.ok_bind, (priv_verify_det k).1 hk, R.ok_bind,
      show (ofKey k).n = mpz_of k.n from rfl, R.liftM_eq, Mpi.bitlen_of]
    rfl
  · unfold rsa_pubkey_bits
    rw [pub_import_ok hp.1 hp.2, R.ok_bind, (pub_verify_det k.n k.e).1 hk.pub, R.ok_bind, R.liftM_eq, Mpi.bitlen_of]
    rfl

/-- The compact form: a key which is exported comes back when imported, whatever bytes follow it. -/
theorem rsa_key_roundtrip {S : Type} (rng : Source S) (fuel : Nat) {k : RsaKey} (hk : RsaKeyOk k) (rest : List Byte)
    (entropy : Option (List Byte)) :
    rsa_privkey_export (rsaPrivDer k) = .ok (rsaDumb k) ∧
    rsa_privkey_import rng fuel (rsaDumb k ++ rest) entropy = .ok (rsaPrivDer k) ∧
    rsa_pubkey_export (rsaPubDer k.n k.e) = .ok (rsaPubDumb k.n k.e) ∧
    rsa_pubkey_import (rsaPubDumb k.n k.e ++ rest) = .ok (rsaPubDer k.n k.e) := by
  have hs := priv_small hk
  have hp := pub_small hk.pub
  refine ⟨?_, (privkey_import_of rng fuel entropy (import_dumb_ok hs rest)).1 hk, ?_, ?_⟩
  · unfold rsa_privkey_export
    rw [priv_import_ok hs, R.ok_bind, (priv_verify_det k).1 hk, R.ok_bind, R.liftM_eq, export_dumb_ok hs]
    rfl
  · unfold rsa_pubkey_export
    rw [pub_import_ok hp.1 hp.2, R.ok_bind, (pub_verify_det k.n k.e).1 hk.pub, R.ok_bind, R.liftM_eq,
      pub_export_dumb_ok hp.1 hp.2]
    rfl
  · unfold rsa_pubkey_import
    rw [pub_dumb_ok hp.1 hp.2, R.ok_bind, (pub_verify_det k.n k.e).1 hk.pub, R.ok_bind, R.liftM_eq, pub_export_ok hp.1 hp.2]
    rfl

/-- Whatever is imported, in the compact form and with whatever numbers left out, is a consistent key or is refused. -/
theorem rsa_privkey_import_sound {S : Type} (rng : Source S) (fuel : Nat) (key : List Byte) (entropy : Option (List Byte)) :
    rsa_privkey_import rng fuel key entropy = .fail ∨ rsa_privkey_import rng fuel key entropy = .spin ∨
      ∃ k, RsaKeyOk k ∧ rsa_privkey_import rng fuel key entropy = .ok (rsaPrivDer k) :=
  privkey_import_makes rng fuel key entropy

/-- From the factors and the public exponent alone the whole key is rebuilt exactly when it exists: the factors are
distinct, odd, coprime, the modulus and exponent are within the limits and the exponent is invertible. The result is the
key with the larger factor first and the smallest private exponent. -/
theorem rsa_privkey_import_factors {S : Type} (rng : Source S) (fuel : Nat) {n d dp dq qi p q e : Nat} (rest : List Byte)
    (entropy : Option (List Byte)) (hsmall : ∀ x ∈ [n, d, dp, dq, qi, p, q, e], x < 256 ^ 2048)
    (hp : 0 < p) (hq : 0 < q) (he : 0 < e) (hbad : ¬ RsaKeyOk ⟨n, e, d, p, q, dp, dq, qi⟩) :
    (¬ PqeOk p q e → rsa_privkey_import rng fuel (rsaDumb ⟨n, e, d, p, q, dp, dq, qi⟩ ++ rest) entropy = .fail) ∧
    (PqeOk p q e → ∃ k, rsa_privkey_import rng fuel (rsaDumb ⟨n, e, d, p, q, dp, dq, qi⟩ ++ rest) entropy =
        .ok (rsaPrivDer k) ∧ RsaKeyOk k ∧ k.n = p * q ∧ k.e = e ∧ k.p = max p q ∧ k.q = min p q ∧
        k.d < Nat.lcm (p - 1) (q - 1)) := by
  have hs : Small ⟨n, e, d, p, q, dp, dq, qi⟩ := by
    constructor <;> (apply hsmall; simp)
  have h := (privkey_import_of rng fuel entropy (import_dumb_ok hs rest)).2 hbad
  dsimp only at h
  rw [if_pos ⟨hp, hq⟩, if_pos he] at h
  have hd := set_pqe_det p q e
  rw [h]
  constructor
  · intro hn; rw [hd.2 hn]; rfl
  · intro ho
    refine ⟨pqKey p q e, ?_, pq_key_ok ho, pq_key_n p q e, rfl, rfl, rfl, ?_⟩
    · rw [hd.1 ho, R.ok_bind, export_ok (priv_small (pq_key_ok ho)), R.lift_ok]
    · have key : ∀ {p q : Nat}, PqeOk p q e → q < p → (pqeKey p q e).d < Nat.lcm (p - 1) (q - 1) := by
        intro p q ho hlt
        have hlp : 0 < Nat.lcm (p - 1) (q - 1) := Nat.lcm_pos (by have := ho.plo; omega) (by have := ho.qlo; omega)
        have hple : p - 1 ≤ Nat.lcm (p - 1) (q - 1) := Nat.le_of_dvd hlp (Nat.dvd_lcm_left _ _)
        exact (invMod_nat ho.inv (by have := ho.plo; omega)).2.1
      unfold pqKey
      rcases lt_trichotomy p q with h1 | h1 | h1
      · rw [max_eq_right h1.le, min_eq_left h1.le, Nat.lcm_comm]; exact key ho.symm h1
      · exact absurd h1 ho.ne
      · rw [max_eq_left h1.le, min_eq_right h1.le]; exact key ho h1

/-! ## C46: the private operation -/

/-- For a key with prime factors the private operation, blinded, with or without the Chinese remainders, yields exactly
`c ^ d mod n` (in as many bytes as the modulus), for every `c` below the modulus, whatever the blinding factor; other
inputs fail. It can only hang in the loop which draws an invertible blinding factor. -/
theorem rsa_private_op_exact {S : Type} (rng : Source S) (fuel : Nat) {k : RsaKey} (hk : RsaKeyOk k) (hp : k.p.Prime)
    (hq : k.q.Prime) (msg : List Byte) (crt : Bool) (entropy : List Byte) :
    (k.n ≤ beVal msg → rsa_priv_decrypt rng fuel (ofKey k) msg crt entropy = .fail) ∧
    (beVal msg < k.n →
      (rsa_priv_decrypt rng fuel (ofKey k) msg crt entropy = .spin ∧
        rsa_blind rng fuel (mpz_of k.n) fuel (rng.init entropy) = .spin) ∨
      ∃ out, rsa_priv_decrypt rng fuel (ofKey k) msg crt entropy = .ok out ∧ out.length = rsaLen k.n ∧
        beVal out = beVal msg ^ k.d % k.n ∧ beVal out ^ k.e % k.n = beVal msg) := by
  obtain ⟨h1, h2⟩ := priv_decrypt_cases rng fuel hk msg crt entropy
  refine ⟨h1, fun hc => ?_⟩
  rcases h2 hc with h | ⟨-, ⟨-, -, h⟩ | ⟨out, h3, h4, -, -, h6⟩⟩
  · exact Or.inl h
  · exact absurd ⟨hp, hq⟩ h
  · refine Or.inr ⟨out, h3, h4, h6 hp hq, ?_⟩
    rw [h6 hp hq, ← Nat.pow_mod, ← pow_mul, mul_comm]
    exact pow_ed_lt hk hp hq hc

/-- Any accepted key: the result of the operation with the Chinese remainders is checked against the public exponent
before it leaves (so a faulty or inconsistent computation is not released): what is returned is an `e`-th root. -/
theorem rsa_private_op_checked {S : Type} (rng : Source S) (fuel : Nat) {k : RsaKey} (hk : RsaKeyOk k)
    {msg entropy out : List Byte} (h : rsa_priv_decrypt rng fuel (ofKey k) msg true entropy = .ok out) :
    out.length = rsaLen k.n ∧ beVal out < k.n ∧ beVal out ^ k.e % k.n = beVal msg := by
  obtain ⟨h1, h2⟩ := priv_decrypt_cases rng fuel hk msg true entropy
  by_cases hc : beVal msg < k.n
  · rcases h2 hc with ⟨h3, -⟩ | ⟨-, ⟨h3, -⟩ | ⟨out', h3, h4, h5, h6, -⟩⟩
    · rw [h] at h3; simp at h3
    · rw [h] at h3; simp at h3
    · rw [h] at h3
      rw [R.ok.inj h3]
      exact ⟨h4, h5, h6 rfl⟩
  · rw [h1 (by omega)] at h; simp at h

example : RsaKeyOk exKey ∧ exKey.p.Prime ∧ exKey.q.Prime := ⟨exKey_ok, exKey_p, exKey_q⟩

/-- With a generator which yields an invertible number at once the operation does not hang. -/
example (crt : Bool) : ∃ out, rsa_priv_decrypt exSource 1 (ofKey exKey) [5] crt [] = .ok out ∧
    beVal out = beVal [5] ^ exKey.d % exKey.n := by
  rcases (rsa_private_op_exact exSource 1 exKey_ok exKey_p exKey_q [5] crt []).2 (by decide +kernel) with
    ⟨-, h⟩ | ⟨out, h1, -, h3, -⟩
  · obtain ⟨b, hb⟩ := exBlind
    rw [hb] at h
    simp at h
  · exact ⟨out, h1, h3⟩

/-! ## Signatures, PKCS#1 v1.5 -/

/-- A signature is accepted exactly when the digest has the right size, the key is valid, the signature is as long as the
modulus, its number is below the modulus and its `e`-th power is the padded DigestInfo. Everything else fails. -/
theorem rsa_verify_iff (t : HashId) (msg sig key : List Byte) :
    (rsa_verify t msg sig key = .ok () ↔
      ∃ n e, key = rsaPubDer n e ∧ RsaDigest t msg ∧ RsaPubOk n e ∧ sig.length = rsaLen n ∧
        (rsaT t msg).length + 11 ≤ rsaLen n ∧ beVal sig < n ∧
        beVal sig ^ e % n = beVal (emsaPkcs1 (rsaLen n) (rsaT t msg))) ∧
    (rsa_verify t msg sig key = .ok () ∨ rsa_verify t msg sig key = .fail) := by
  have h := verify_det t msg sig key
  refine ⟨h.iff, ?_⟩
  by_cases hc : ∃ n e, key = rsaPubDer n e ∧ SigOk t msg sig n e
  · exact Or.inl (h.1 hc)
  · exact Or.inr (h.2 hc)

/-- Signing: fails exactly when the digest has the wrong size or the modulus is too short, and for a key with prime
factors the signature is the `d`-th power of the padded DigestInfo. -/
theorem rsa_sign_exact {S : Type} (rng : Source S) (fuel : Nat) {out : List Byte} {t : HashId} {msg : List Byte}
    (entropy : List Byte) {k : RsaKey} (hk : RsaKeyOk k) (hp : k.p.Prime) (hq : k.q.Prime)
    (hd : RsaDigest t msg) (ho : rsaLen k.n ≤ out.length) :
    (rsaLen k.n < (rsaT t msg).length + 11 → rsa_sign rng fuel out t msg (rsaPrivDer k) entropy = .fail) ∧
    ((rsaT t msg).length + 11 ≤ rsaLen k.n →
      (rsa_sign rng fuel out t msg (rsaPrivDer k) entropy = .spin ∧
        rsa_blind rng fuel (mpz_of k.n) fuel (rng.init entropy) = .spin) ∨
      ∃ sig, rsa_sign rng fuel out t msg (rsaPrivDer k) entropy = .ok sig ∧ sig.length = rsaLen k.n ∧
        beVal sig = beVal (emsaPkcs1 (rsaLen k.n) (rsaT t msg)) ^ k.d % k.n) := by
  rw [sign_eq rng fuel entropy hd rfl (priv_small hk) hk ho]
  constructor
  · intro h
    rw [decide_eq_false (not_not.2 h)]; rfl
  · intro h
    rw [decide_eq_true (not_lt.2 h), R.need_true, R.ok_bind]
    have hl := emsa_len (T := rsaT t msg) h
    have hlt : beVal (emsaPkcs1 (rsaLen k.n) (rsaT t msg)) < k.n := by
      unfold emsaPkcs1 at hl ⊢
      exact lt_modulus (by omega) hl
    rcases (rsa_private_op_exact rng fuel hk hp hq (emsaPkcs1 (rsaLen k.n) (rsaT t msg)) true entropy).2 hlt with
      h' | ⟨sig, h1, h2, h3, -⟩
    · exact Or.inl h'
    · exact Or.inr ⟨sig, h1, h2, h3⟩

/-- Whatever is signed is accepted under the public key, for every accepted key (its factors need not be prime). -/
theorem rsa_sign_verify {S : Type} (rng : Source S) (fuel : Nat) {out : List Byte} {t : HashId} {msg key pub sig : List Byte}
    (entropy : List Byte) {k : RsaKey} (hk : RsaKeyOk k) (hd : RsaDigest t msg) (ho : rsaLen k.n ≤ out.length)
    (hkey : key = rsaPrivDer k) (hpub : rsa_pubkey_create key = .ok pub)
    (h : rsa_sign rng fuel out t msg key entropy = .ok sig) : rsa_verify t msg sig pub = .ok () := by
  rw [hkey, (rsa_pubkey_create_exact hk).1] at hpub
  rw [hkey, sign_eq rng fuel entropy hd rfl (priv_small hk) hk ho] at h
  obtain ⟨h1, h2⟩ := R.need_bind.1 h
  rw [decide_eq_true_eq, not_lt] at h1
  obtain ⟨h3, h4, h5⟩ := rsa_private_op_checked rng fuel hk h2
  rw [← R.ok.inj hpub]
  exact (rsa_verify_iff t msg sig _).1.2 ⟨k.n, k.e, rfl, hd, hk.pub, h3, h1, h4, h5⟩

example : RsaDigest .SHA1 (List.replicate 20 7) ∧ (rsaT .SHA1 (List.replicate 20 7)).length + 11 ≤ rsaLen exKey.n := by
  refine ⟨⟨by intro i; simp, Or.inr rfl⟩, ?_⟩
  decide +kernel

/-! ## C47: decryption, PKCS#1 v1.5 -/

/-- What decryption of a number with plaintext `em` returns: `m` if `em` is `00 02 ps 00 m` with at least eight
nonzero padding bytes `ps`, else a failure; `em` is the result of the private operation. -/
theorem rsa_decrypt_exact {S : Type} (rng : Source S) (fuel : Nat) {msg : List Byte} (entropy : List Byte) {k : RsaKey}
    (hk : RsaKeyOk k) :
    (msg.length ≠ rsaLen k.n → rsa_decrypt rng fuel msg (rsaPrivDer k) entropy = .fail) ∧
    (msg.length = rsaLen k.n →
      (∀ em, rsa_priv_decrypt rng fuel (ofKey k) msg true entropy = .ok em →
        (∀ ps m, em = emePkcs1 ps m → 8 ≤ ps.length → 0 ∉ ps →
          rsa_decrypt rng fuel msg (rsaPrivDer k) entropy = .ok m) ∧
        ((¬ ∃ ps m, em = emePkcs1 ps m ∧ 8 ≤ ps.length ∧ 0 ∉ ps) →
          rsa_decrypt rng fuel msg (rsaPrivDer k) entropy = .fail)) ∧
      (rsa_priv_decrypt rng fuel (ofKey k) msg true entropy = .fail →
        rsa_decrypt rng fuel msg (rsaPrivDer k) entropy = .fail) ∧
      (rsa_priv_decrypt rng fuel (ofKey k) msg true entropy = .spin →
        rsa_decrypt rng fuel msg (rsaPrivDer k) entropy = .spin)) := by
  obtain ⟨h1, h2⟩ := decrypt_eq rng fuel (msg := msg) entropy rfl hk
  refine ⟨h1, fun hl => ?_⟩
  obtain ⟨h3, h4, h5⟩ := h2 hl
  refine ⟨fun em hem => ?_, h4, h5⟩
  obtain ⟨h6, h7⟩ := h3 em hem
  exact ⟨fun ps m a b c => h6 ps m ⟨a, b, c⟩, fun h => h7 (fun ⟨ps, m, a, b, c⟩ => h ⟨ps, m, a, b, c⟩)⟩

/-- Encryption then decryption under a key with prime factors: the message, whatever the randomness; encryption
fails exactly for messages which are too long. -/
theorem rsa_encrypt_decrypt {S T : Type} (rng : Source S) (rng' : Source T) (fuel fuel' : Nat) {out msg : List Byte}
    (entropy entropy' : List Byte) {k : RsaKey} (hk : RsaKeyOk k) (hp : k.p.Prime) (hq : k.q.Prime)
    (ho : rsaLen k.n ≤ out.length) :
    (rsaLen k.n < msg.length + 11 → rsa_encrypt rng fuel out msg (rsaPubDer k.n k.e) entropy = .fail) ∧
    (msg.length + 11 ≤ rsaLen k.n →
      (rsa_encrypt rng fuel out msg (rsaPubDer k.n k.e) entropy = .spin ∧
        0 ∈ (rng.gen (rng.init entropy) (rsaLen k.n - msg.length - 3)).1) ∨
      ∃ c, rsa_encrypt rng fuel out msg (rsaPubDer k.n k.e) entropy = .ok c ∧ c.length = rsaLen k.n ∧
        (rsa_decrypt rng' fuel' c (rsaPrivDer k) entropy' = .ok msg ∨
          (rsa_decrypt rng' fuel' c (rsaPrivDer k) entropy' = .spin ∧
            rsa_blind rng' fuel' (mpz_of k.n) fuel' (rng'.init entropy') = .spin))) := by
  obtain ⟨h1, h2⟩ := encrypt_cases rng fuel (msg := msg) entropy rfl hk.pub ho
  refine ⟨h1, fun hm => ?_⟩
  rcases h2 hm with h | ⟨ps, c, h3, h4, h5, h6, h7, h8, h9⟩
  · exact Or.inl h
  · refine Or.inr ⟨c, h3, h7, ?_⟩
    have hc : beVal c < k.n := by rw [h9]; exact Nat.mod_lt _ (key_pos hk).1
    obtain ⟨d1, d2, d3⟩ := (rsa_decrypt_exact rng' fuel' (msg := c) entropy' hk).2 h7
    rcases (rsa_private_op_exact rng' fuel' hk hp hq c true entropy').2 hc with ⟨ha, hb⟩ | ⟨em, e1, e2, e3, -⟩
    · exact Or.inr ⟨d3 ha, hb⟩
    · left
      refine (d1 em e1).1 ps msg ?_ h4 h5
      apply Asn1.beVal_inj (by rw [e2, h6])
      rw [e3, h9, ← Nat.pow_mod, ← pow_mul]
      exact pow_ed_lt hk hp hq h8

/-- The decryption of session keys: for a ciphertext of the right size, the message if it is padded and has the asked
length, else the bytes drawn from the generator: it does not fail on bad padding. -/
theorem rsa_decrypt_key_exact {S : Type} (rng : Source S) (fuel out_len : Nat) {msg : List Byte} (entropy : List Byte)
    {k : RsaKey} (hk : RsaKeyOk k) :
    (¬ (out_len + 11 ≤ rsaLen k.n ∧ msg.length = rsaLen k.n) →
      rsa_decrypt_key rng fuel out_len msg (rsaPrivDer k) entropy = .fail) ∧
    (out_len + 11 ≤ rsaLen k.n → msg.length = rsaLen k.n →
      ∀ em, rsa_priv_decrypt rng fuel (ofKey k) msg true (rng.gen (rng.init entropy) 32).1 = .ok em →
        (∀ ps m, em = emePkcs1 ps m → 8 ≤ ps.length → 0 ∉ ps → m.length = out_len →
          rsa_decrypt_key rng fuel out_len msg (rsaPrivDer k) entropy = .ok m) ∧
        ((¬ ∃ ps m, em = emePkcs1 ps m ∧ 8 ≤ ps.length ∧ 0 ∉ ps ∧ m.length = out_len) →
          rsa_decrypt_key rng fuel out_len msg (rsaPrivDer k) entropy =
            .ok (rng.gen (rng.gen (rng.init entropy) 32).2 out_len).1)) := by
  obtain ⟨h1, h2⟩ := decrypt_key_eq rng fuel out_len (msg := msg) entropy rfl hk
  refine ⟨h1, fun hl hm em hem => ?_⟩
  obtain ⟨h6, h7⟩ := (h2 hl hm).1 em hem
  exact ⟨fun ps m a b c d => h6 ps m ⟨a, b, c⟩ d, fun h => h7 (fun ⟨ps, m, ⟨a, b, c⟩, d⟩ => h ⟨ps, m, a, b, c, d⟩)⟩

example : ([1, 2, 3] : List Byte).length + 11 ≤ rsaLen exKey.n := by decide +kernel

/-! ## OAEP -/

/-- Decryption with OAEP: `m` exactly when the result of the private operation is the OAEP encoding of `m` under the
label for some seed, otherwise a failure. -/
theorem rsa_decrypt_oaep_exact {S : Type} (rng : Source S) (fuel : Nat) (junk : Nat → Nat → Byte) {t : HashId}
    {msg label : List Byte} (entropy : List Byte) {k : RsaKey} (hk : RsaKeyOk k) (hl : label.length < 2 ^ 64) :
    (¬ (hash_has_backend t = true ∧ msg.length = rsaLen k.n ∧ 2 * hash_output_size t + 2 ≤ rsaLen k.n) →
      rsa_decrypt_oaep rng fuel junk t msg (rsaPrivDer k) label entropy = .fail) ∧
    (hash_has_backend t = true → msg.length = rsaLen k.n → 2 * hash_output_size t + 2 ≤ rsaLen k.n →
      (∀ em, rsa_priv_decrypt rng fuel (ofKey k) msg true entropy = .ok em →
        (∀ m seed, m.length + 2 * hash_output_size t + 2 ≤ rsaLen k.n → seed.length = hash_output_size t →
          em = emeOaep (hashOf t) (hash_output_size t) (rsaLen k.n) label seed m →
          rsa_decrypt_oaep rng fuel junk t msg (rsaPrivDer k) label entropy = .ok m) ∧
        ((¬ ∃ m seed, m.length + 2 * hash_output_size t + 2 ≤ rsaLen k.n ∧ seed.length = hash_output_size t ∧
          em = emeOaep (hashOf t) (hash_output_size t) (rsaLen k.n) label seed m) →
          rsa_decrypt_oaep rng fuel junk t msg (rsaPrivDer k) label entropy = .fail)) ∧
      (rsa_priv_decrypt rng fuel (ofKey k) msg true entropy = .fail →
        rsa_decrypt_oaep rng fuel junk t msg (rsaPrivDer k) label entropy = .fail) ∧
      (rsa_priv_decrypt rng fuel (ofKey k) msg true entropy = .spin →
        rsa_decrypt_oaep rng fuel junk t msg (rsaPrivDer k) label entropy = .spin)) := by
  obtain ⟨h1, h2⟩ := decrypt_oaep_eq rng fuel junk (t := t) (msg := msg) entropy hl rfl hk
  refine ⟨h1, fun ht hm hs => ?_⟩
  obtain ⟨h3, h4, h5⟩ := h2 ht hm hs
  refine ⟨fun em hem => ?_, h4, h5⟩
  have hel := priv_len rng fuel hk hem
  obtain ⟨h6, h7⟩ := h3 em hem
  constructor
  · intro m seed a b c
    refine h6 m ⟨by rw [hel]; exact a, seed, b, by rw [hel]; exact c⟩
  · intro hno
    apply h7
    rintro ⟨m, a, seed, b, c⟩
    rw [hel] at a c
    exact hno ⟨m, seed, a, b, c⟩

/-- Encryption then decryption with OAEP under a key with prime factors: the message, for every hash function, label and
randomness; encryption fails exactly for messages which are too long. -/
theorem rsa_oaep_roundtrip {S T : Type} (rng : Source S) (rng' : Source T) (fuel' : Nat) (junk junk' : Nat → Nat → Byte)
    {out msg label : List Byte} {t : HashId} (entropy entropy' : List Byte) {k : RsaKey} (hk : RsaKeyOk k) (hp : k.p.Prime)
    (hq : k.q.Prime) (ho : rsaLen k.n ≤ out.length) (hl : label.length < 2 ^ 64) :
    (¬ (hash_has_backend t = true ∧ msg.length + 2 * hash_output_size t + 2 ≤ rsaLen k.n) →
      rsa_encrypt_oaep rng junk out t msg (rsaPubDer k.n k.e) label entropy = .fail) ∧
    (hash_has_backend t = true → msg.length + 2 * hash_output_size t + 2 ≤ rsaLen k.n →
      ∃ c, rsa_encrypt_oaep rng junk out t msg (rsaPubDer k.n k.e) label entropy = .ok c ∧ c.length = rsaLen k.n ∧
        (rsa_decrypt_oaep rng' fuel' junk' t c (rsaPrivDer k) label entropy' = .ok msg ∨
          (rsa_decrypt_oaep rng' fuel' junk' t c (rsaPrivDer k) label entropy' = .spin ∧
            rsa_blind rng' fuel' (mpz_of k.n) fuel' (rng'.init entropy') = .spin))) := by
  obtain ⟨h1, h2⟩ := encrypt_oaep_cases rng junk (t := t) (msg := msg) entropy hl rfl hk.pub ho
  refine ⟨h1, fun ht hm => ?_⟩
  obtain ⟨c, h3, h7, h8, h9⟩ := h2 ht hm
  have hsd := rng.len (rng.init entropy) (hash_output_size t)
  have hel := emeOaep_len ht (label := label) hm hsd
  refine ⟨c, h3, h7, ?_⟩
  have hc : beVal c < k.n := by rw [h9]; exact Nat.mod_lt _ (key_pos hk).1
  obtain ⟨d1, d2, d3⟩ := (rsa_decrypt_oaep_exact rng' fuel' junk' (t := t) (msg := c) entropy' hk hl).2 ht h7 (by omega)
  rcases (rsa_private_op_exact rng' fuel' hk hp hq c true entropy').2 hc with ⟨ha, hb⟩ | ⟨em, e1, e2, e3, -⟩
  · exact Or.inr ⟨d3 ha, hb⟩
  · left
    refine (d1 em e1).1 msg _ hm hsd ?_
    apply Asn1.beVal_inj (by rw [e2, hel])
    rw [e3, h9, ← Nat.pow_mod, ← pow_mul]
    exact pow_ed_lt hk hp hq h8

example : hash_has_backend .SHA1 = true ∧ ([1, 2, 3] : List Byte).length + 2 * hash_output_size .SHA1 + 2 ≤ rsaLen exKey.n := by
  decide +kernel

/-! ## PSS -/

/-- A PSS signature is accepted exactly when its `e`-th power is an EMSA-PSS encoding of the digest with a salt of the
asked length (of any length if that is 0). Everything else fails. -/
theorem rsa_verify_pss_iff (junk : Nat → Nat → Byte) (t : HashId) (msg sig key : List Byte) (salt_len : Nat) :
    (rsa_verify_pss junk t msg sig key salt_len = .ok () ↔
      ∃ n e, key = rsaPubDer n e ∧ hash_has_backend t = true ∧ msg.length = hash_output_size t ∧ RsaPubOk n e ∧
        sig.length = rsaLen n ∧ beVal sig < n ∧
        ∃ salt : List Byte, hash_output_size t + salt.length + 2 ≤ (n.size + 6) / 8 ∧
          (salt_len = 0 ∨ salt.length = if salt_len = 2 ^ 64 - 1 then hash_output_size t else salt_len) ∧
          beVal sig ^ e % n = beVal (emsaPss (hashOf t) (hash_output_size t) (n.size - 1) msg salt)) ∧
    (rsa_verify_pss junk t msg sig key salt_len = .ok () ∨ rsa_verify_pss junk t msg sig key salt_len = .fail) := by
  have h := verify_pss_det junk t msg sig key salt_len
  refine ⟨h.iff, ?_⟩
  by_cases hc : ∃ n e, key = rsaPubDer n e ∧ PssOk t salt_len msg sig n e
  · exact Or.inl (h.1 hc)
  · exact Or.inr (h.2 hc)

/-- Whatever is signed with PSS is accepted under the public key with the same salt length, and signing fails exactly when
the digest has the wrong size, or the digest and the salt do not fit. -/
theorem rsa_sign_verify_pss {S : Type} (rng : Source S) (fuel : Nat) (junk junk' : Nat → Nat → Byte) {out : List Byte}
    {t : HashId} {msg : List Byte} {salt_len : Nat} (entropy : List Byte) {k : RsaKey} (hk : RsaKeyOk k)
    (hp : k.p.Prime) (hq : k.q.Prime) (ho : rsaLen k.n ≤ out.length) :
    (¬ (hash_has_backend t = true ∧ msg.length = hash_output_size t ∧
      hash_output_size t + pssSaltLen (hash_output_size t) ((k.n.size + 6) / 8) salt_len + 2 ≤ (k.n.size + 6) / 8) →
      rsa_sign_pss rng fuel junk out t msg (rsaPrivDer k) salt_len entropy = .fail) ∧
    (hash_has_backend t = true → msg.length = hash_output_size t →
      hash_output_size t + pssSaltLen (hash_output_size t) ((k.n.size + 6) / 8) salt_len + 2 ≤ (k.n.size + 6) / 8 →
      rsa_sign_pss rng fuel junk out t msg (rsaPrivDer k) salt_len entropy = .spin ∨
      ∃ sig, rsa_sign_pss rng fuel junk out t msg (rsaPrivDer k) salt_len entropy = .ok sig ∧
        rsa_verify_pss junk' t msg sig (rsaPubDer k.n k.e) salt_len = .ok ()) := by
  obtain ⟨h1, h2⟩ := sign_pss_eq rng fuel junk (out := out) (t := t) (msg := msg) (salt_len := salt_len) entropy rfl hk ho
  refine ⟨h1, fun ht hm hs => ?_⟩
  rw [h2 ht hm hs]
  have hmin := rsaLen_min hk.pub
  have hrl : rsaLen k.n = (k.n.size + 7) / 8 := rfl
  have hsz : k.n.size - 1 + 7 = k.n.size + 6 := by omega
  generalize hsalt : (rng.gen (rng.init entropy) (pssSaltLen (hash_output_size t) ((k.n.size + 6) / 8) salt_len)).1 = salt
  have hsl : salt.length = pssSaltLen (hash_output_size t) ((k.n.size + 6) / 8) salt_len := by
    rw [← hsalt]; exact rng.len _ _
  have hlt : beVal (emsaPss (hashOf t) (hash_output_size t) (k.n.size - 1) msg salt) < k.n := by
    refine lt_of_lt_of_le (emsaPss_lt ht (by rw [hsz, hsl]; exact hs)) ?_
    exact size_ge.1 (by omega)
  rcases (rsa_private_op_exact rng fuel hk hp hq _ true _).2 hlt with ⟨ha, -⟩ | ⟨sig, e1, e2, e3, e4⟩
  · exact Or.inl ha
  · refine Or.inr ⟨sig, e1, ?_⟩
    refine (rsa_verify_pss_iff junk' t msg sig _ salt_len).1.2 ⟨k.n, k.e, rfl, ht, hm, hk.pub, e2, ?_, salt, ?_, ?_, e4⟩
    · rw [e3]; exact Nat.mod_lt _ (key_pos hk).1
    · rw [hsl]; exact hs
    · rw [hsl]
      unfold pssSaltLen
      by_cases h0 : salt_len = 0
      · exact Or.inl h0
      · rw [if_neg h0]; exact Or.inr rfl

example : hash_has_backend .SHA1 = true ∧ (List.replicate 20 (7 : Byte)).length = hash_output_size .SHA1 ∧
    hash_output_size .SHA1 + pssSaltLen (hash_output_size .SHA1) ((exKey.n.size + 6) / 8) 20 + 2 ≤ (exKey.n.size + 6) / 8 := by
  decide +kernel

/-! ## Veiling -/

/-- Veiling a ciphertext hides the size of the modulus: the result is a string of exactly `bits` bits which is congruent to
the ciphertext, and unveiling gives the ciphertext back. -/
theorem rsa_veil_unveil {S : Type} (rng : Source S) (fuel : Nat) {n e : Nat} (hk : RsaPubOk n e) {msg : List Byte}
    {bits : Nat} (entropy : List Byte) :
    (¬ (msg.length = rsaLen n ∧ n.size ≤ bits ∧ bits ≤ 16384 + 8 ∧ beVal msg < n) →
      rsa_veil rng fuel msg bits (rsaPubDer n e) entropy = .fail) ∧
    (msg.length = rsaLen n → n.size ≤ bits → bits ≤ 16384 + 8 → beVal msg < n →
      rsa_veil rng fuel msg bits (rsaPubDer n e) entropy = .spin ∨
      ∃ v, rsa_veil rng fuel msg bits (rsaPubDer n e) entropy = .ok v ∧ v.length = (bits + 7) / 8 ∧ beVal v < 2 ^ bits ∧
        beVal v % n = beVal msg ∧ rsa_unveil v bits (rsaPubDer n e) = .ok msg) := by
  have hs := pub_small hk
  have hrl : (n.size + 7) / 8 = rsaLen n := rfl
  have hmax : RSA_MAX_MOD_BITS = 16384 := rfl
  have hmax2 : RSA_MAX_MOD_SIZE = 2048 := rfl
  have hmin := rsaLen_min hk
  unfold rsa_veil
  rw [pub_import_ok hs.1 hs.2, R.ok_bind, (pub_verify_det n e).1 hk, R.ok_bind, R.liftM_eq, Mpi.bytelen_of, R.lift_ok, R.ok_bind,
    Int.natAbs_natCast, hrl]
  by_cases hm : msg.length = rsaLen n
  swap
  · exact ⟨fun _ => by rw [decide_eq_false hm]; rfl, fun h => absurd h hm⟩
  rw [decide_eq_true hm, R.need_true, R.ok_bind, hmax]
  by_cases hb : bits > 16384 + 8
  · exact ⟨fun _ => by rw [decide_eq_false (not_not.2 hb)]; rfl, fun _ _ h => absurd h (by omega)⟩
  rw [decide_eq_true hb, R.need_true, R.ok_bind]
  obtain ⟨h1, h2⟩ := veil_cases rng fuel hk msg bits entropy
  constructor
  · intro h
    exact h1 (fun ⟨a, b⟩ => h ⟨hm, a, by omega, b⟩)
  · intro _ ha _ hc
    rcases h2 ha hc with h | ⟨v, h3, h4, h5, h6⟩
    · exact Or.inl h
    · refine Or.inr ⟨v, h3, h4, h5, h6, ?_⟩
      unfold rsa_unveil
      rw [pub_import_ok hs.1 hs.2, R.ok_bind, (pub_verify_det n e).1 hk, R.ok_bind, R.liftM_eq, Mpi.bytelen_of, R.lift_ok,
        R.ok_bind, Int.natAbs_natCast, hrl, decide_eq_true (by omega), R.need_true, R.ok_bind, hmax, hmax2,
        decide_eq_true (by omega), R.need_true, R.ok_bind, decide_eq_true hb, R.need_true, R.ok_bind]
      obtain ⟨z, h7, h8, h9⟩ := (unveil_det hk v bits).2 (by omega)
      rw [h7, Asn1.beVal_inj (by rw [h8, hm]) (h9.trans h6)]

example : RsaPubOk exKey.n exKey.e ∧ (List.replicate 66 (0 : Byte)).length = rsaLen exKey.n ∧ exKey.n.size ≤ 600 :=
  ⟨exKey_ok.pub, by decide +kernel, by decide +kernel⟩

end Torsion
