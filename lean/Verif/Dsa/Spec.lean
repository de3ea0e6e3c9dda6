import Verif.Rsa.Spec

/-!
# Independent specification of DSA (FIPS 186-4, RFC 6979)

Keys and signatures are numbers.
-/
namespace Torsion.Spec

/-- A private key: the prime, the order, the generator, the public and the secret number. -/
structure DsaKey where
  p : Nat
  q : Nat
  g : Nat
  y : Nat
  x : Nat

/-- RFC 3279 2.3.2: Dss-Parms. -/
def dsaParamsDer (p q g : Nat) : List Byte := derSeq (derInt p ++ (derInt q ++ derInt g))

/-- The form of public keys of the library (that of OpenSSL). -/
def dsaPubDer (p q g y : Nat) : List Byte := derSeq (derInt y ++ (derInt p ++ (derInt q ++ derInt g)))

/-- The form of private keys of the library (that of OpenSSL). -/
def dsaPrivDer (k : DsaKey) : List Byte :=
  derSeq ([2, 1, 0] ++ (derInt k.p ++ (derInt k.q ++ (derInt k.g ++ (derInt k.y ++ derInt k.x)))))

/-- The compact forms. -/
def dsaParamsDumb (p q g : Nat) : List Byte := dumbInt p ++ (dumbInt q ++ dumbInt g)
/-- The compact form of a public key. -/
def dsaPubDumb (p q g y : Nat) : List Byte := dumbInt p ++ (dumbInt q ++ (dumbInt g ++ dumbInt y))
/-- The compact form of a private key. -/
def dsaDumb (k : DsaKey) : List Byte := dumbInt k.p ++ (dumbInt k.q ++ (dumbInt k.g ++ (dumbInt k.y ++ dumbInt k.x)))

/-- The sizes and ranges of a group; nothing about the order of the generator. -/
structure DsaGroupSane (p q g : Nat) : Prop where
  plo : 2 ^ 511 ≤ p
  phi : p < 2 ^ 10000
  qbits : q.size = 160 ∨ q.size = 224 ∨ q.size = 256
  podd : p % 2 = 1
  qodd : q % 2 = 1
  glo : 2 ≤ g
  ghi : g < p - 1

/-- A group: the order of the generator divides `q`. -/
structure DsaGroupOk (p q g : Nat) : Prop extends DsaGroupSane p q g where
  order : g ^ q % p = 1

/-- The ranges of a public key. -/
structure DsaPubSane (p q g y : Nat) : Prop extends DsaGroupSane p q g where
  ylo : 2 ≤ y
  yhi : y < p - 1

/-- A public key of a group. -/
structure DsaPubOk (p q g y : Nat) : Prop extends DsaPubSane p q g y where
  gorder : g ^ q % p = 1
  yorder : y ^ q % p = 1

/-- The ranges of a private key. -/
structure DsaKeySane (k : DsaKey) : Prop extends DsaPubSane k.p k.q k.g k.y where
  xlo : 0 < k.x
  xhi : k.x < k.q

/-- A private key with its public key. -/
structure DsaKeyOk (k : DsaKey) : Prop extends DsaKeySane k where
  gorder : k.g ^ k.q % k.p = 1
  pub : k.g ^ k.x % k.p = k.y

/-- The leftmost bits of a string, as many as `q` has. -/
def leftBits (q : Nat) (msg : List Byte) : Nat :=
  if q.size < 8 * msg.length then beVal msg / 2 ^ (8 * msg.length - q.size) else beVal msg

/-- The length of `q` in bytes. -/
def dsaLen (q : Nat) : Nat := (q.size + 7) / 8

/-- FIPS 186-4 4.6: `(r, s)` is the signature of the number `m` with the nonce `k`: `s` is the quotient of
`m + x r` by `k` modulo `q`. -/
def DsaSigned (key : DsaKey) (m k r s : Nat) : Prop :=
  r = key.g ^ k % key.p % key.q ∧ s < key.q ∧ Nat.Coprime k key.q ∧ s * k % key.q = (m + key.x * r) % key.q

/-- FIPS 186-4 4.7: `(r, s)` is a valid signature of the number `m`. -/
def DsaValid (p q g y m r s : Nat) : Prop :=
  0 < r ∧ r < q ∧ 0 < s ∧ s < q ∧ ∃ w, s * w % q = 1 ∧ g ^ (m * w % q) * y ^ (r * w % q) % p % q = r

/-- RFC 3279 2.2.2: Dss-Sig-Value. -/
def dsaSigDer (r s : Nat) : List Byte := derSeq (derInt r ++ derInt s)

/-- The states of the nonce generator. -/
def dsaNonceState {S : Type} (gen : S → Nat → List Byte × S) (q : Nat) (d : S) : Nat → S
  | 0 => d
  | i + 1 => (gen (dsaNonceState gen q d i) (dsaLen q)).2

/-- The candidates for the nonce. -/
def dsaNonce {S : Type} (gen : S → Nat → List Byte × S) (q : Nat) (d : S) (i : Nat) : Nat :=
  beVal (gen (dsaNonceState gen q d i) (dsaLen q)).1

/-- RFC 6979 3.2 h, FIPS 186-4 4.6: a candidate is used when it is in range and neither part of the signature is zero. -/
def DsaNonceOk (key : DsaKey) (m k : Nat) : Prop :=
  0 < k ∧ k < key.q ∧ key.g ^ k % key.p % key.q ≠ 0 ∧ (m + key.x * (key.g ^ k % key.p % key.q)) % key.q ≠ 0

end Torsion.Spec
