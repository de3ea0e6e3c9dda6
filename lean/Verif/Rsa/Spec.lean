import Verif.Asn1.Spec
import Verif.Hash.Spec
import Verif.Hash.Dispatch
import Mathlib.Data.Nat.Size

/-!
# Independent specification of RSA (RFC 8017)

Keys are numbers. `hashOf`-like functions are passed as `H` with output size `hLen`.
-/
namespace Torsion.Spec

/-- X.690: a constructed value with tag SEQUENCE. -/
def derSeq (b : List Byte) : List Byte := 0x30 :: (derLen b.length ++ b)

/-- RFC 8017 A.1.1: RSAPublicKey. -/
def rsaPubDer (n e : Nat) : List Byte := derSeq (derInt n ++ derInt e)

/-- RFC 8017 3.1 with the limits of the library: 512 to 16384 bits, an odd exponent from 3 up to 33 bits. -/
structure RsaPubOk (n e : Nat) : Prop where
  lo : 2 ^ 511 ≤ n
  hi : n < 2 ^ 16384
  odd : n % 2 = 1
  elo : 3 ≤ e
  ehi : e < 2 ^ 33
  eodd : e % 2 = 1

/-- RFC 8017 3.2: a private key in its second representation. -/
structure RsaKey where
  n : Nat
  e : Nat
  d : Nat
  p : Nat
  q : Nat
  dp : Nat
  dq : Nat
  qi : Nat

/-- RFC 8017 A.1.2: RSAPrivateKey, two primes. -/
def rsaPrivDer (k : RsaKey) : List Byte :=
  derSeq ([2, 1, 0] ++ (derInt k.n ++ (derInt k.e ++ (derInt k.d ++ (derInt k.p ++ (derInt k.q ++
    (derInt k.dp ++ (derInt k.dq ++ derInt k.qi))))))))

/-- The compact form of the library: a number after its length in two bytes. -/
def dumbInt (n : Nat) : List Byte := bigBytes 2 (beBytes n).length ++ beBytes n

/-- The compact form of a public key. -/
def rsaPubDumb (n e : Nat) : List Byte := dumbInt n ++ dumbInt e

/-- The compact form of a private key. -/
def rsaDumb (k : RsaKey) : List Byte :=
  dumbInt k.n ++ (dumbInt k.e ++ (dumbInt k.d ++ (dumbInt k.p ++ (dumbInt k.q ++ (dumbInt k.dp ++ (dumbInt k.dq ++
    dumbInt k.qi))))))

/-- RFC 8017 3.2 with the limits of the library, without the primality of the factors. -/
structure RsaKeyOk (k : RsaKey) : Prop where
  pub : RsaPubOk k.n k.e
  podd : k.p % 2 = 1
  qodd : k.q % 2 = 1
  pgt : 3 ≤ k.p
  qgt : 3 ≤ k.q
  ne : k.p ≠ k.q
  prod : k.n = k.p * k.q
  dgt : 2 ≤ k.d
  dlt : k.d < (k.p - 1) * (k.q - 1)
  inv : k.e * k.d % Nat.lcm (k.p - 1) (k.q - 1) = 1
  hdp : k.dp = k.d % (k.p - 1)
  hdq : k.dq = k.d % (k.q - 1)
  dp0 : k.dp ≠ 0
  dq0 : k.dq ≠ 0
  qigt : 2 ≤ k.qi
  qilt : k.qi < k.p
  qinv : k.q * k.qi % k.p = 1

/-- The length of the modulus in bytes. -/
def rsaLen (n : Nat) : Nat := (Nat.size n + 7) / 8

/-! ### PKCS#1 v1.5 -/

/-- X.690 8.19: one subidentifier, base 128, all but the last octet with the high bit. -/
def oidArc (v : Nat) : List Byte :=
  match (Nat.digits 128 v) with
  | [] => [0]
  | d :: ds => ((ds.map (fun x => BitVec.ofNat 8 (128 + x))).reverse ++ [BitVec.ofNat 8 d])

/-- X.690 8.19: the contents octets of an OBJECT IDENTIFIER. -/
def oidBytes : List Nat → List Byte
  | a :: b :: rest => oidArc (40 * a + b) ++ rest.flatMap oidArc
  | _ => []

/-- The object identifiers of the hash functions: RFC 8017 B.1 for MD2, MD5, SHA-1 and SHA-2; the NIST arc for SHA-3
and SHAKE; RFC 7693 for BLAKE2; TeleTrusT for RIPEMD-160; ISO/IEC 10118-3 for Whirlpool; RFC 1320's arc for MD4. For GOST
94 the arc is the one in the code (1.2.643.2.2.20; the arc of the hash function in RFC 4357 is 1.2.643.2.2.9). -/
def hashOid : HashId → Option (List Nat)
  | .BLAKE2B_160 => some [1, 3, 6, 1, 4, 1, 1722, 12, 2, 1, 5]
  | .BLAKE2B_256 => some [1, 3, 6, 1, 4, 1, 1722, 12, 2, 1, 8]
  | .BLAKE2B_384 => some [1, 3, 6, 1, 4, 1, 1722, 12, 2, 1, 12]
  | .BLAKE2B_512 => some [1, 3, 6, 1, 4, 1, 1722, 12, 2, 1, 16]
  | .BLAKE2S_128 => some [1, 3, 6, 1, 4, 1, 1722, 12, 2, 2, 4]
  | .BLAKE2S_160 => some [1, 3, 6, 1, 4, 1, 1722, 12, 2, 2, 5]
  | .BLAKE2S_224 => some [1, 3, 6, 1, 4, 1, 1722, 12, 2, 2, 7]
  | .BLAKE2S_256 => some [1, 3, 6, 1, 4, 1, 1722, 12, 2, 2, 8]
  | .GOST94 => some [1, 2, 643, 2, 2, 20]
  | .MD2 => some [1, 2, 840, 113549, 2, 2]
  | .MD4 => some [1, 2, 840, 113549, 2, 4]
  | .MD5 => some [1, 2, 840, 113549, 2, 5]
  | .RIPEMD160 => some [1, 3, 36, 3, 2, 1]
  | .SHA1 => some [1, 3, 14, 3, 2, 26]
  | .SHA224 => some [2, 16, 840, 1, 101, 3, 4, 2, 4]
  | .SHA256 => some [2, 16, 840, 1, 101, 3, 4, 2, 1]
  | .SHA384 => some [2, 16, 840, 1, 101, 3, 4, 2, 2]
  | .SHA512 => some [2, 16, 840, 1, 101, 3, 4, 2, 3]
  | .SHA3_224 => some [2, 16, 840, 1, 101, 3, 4, 2, 7]
  | .SHA3_256 => some [2, 16, 840, 1, 101, 3, 4, 2, 8]
  | .SHA3_384 => some [2, 16, 840, 1, 101, 3, 4, 2, 9]
  | .SHA3_512 => some [2, 16, 840, 1, 101, 3, 4, 2, 10]
  | .SHAKE128 => some [2, 16, 840, 1, 101, 3, 4, 2, 11]
  | .SHAKE256 => some [2, 16, 840, 1, 101, 3, 4, 2, 12]
  | .WHIRLPOOL => some [1, 0, 10118, 3, 0, 55]
  | _ => none

/-- A value with a tag. -/
def derTlv (tag : Byte) (b : List Byte) : List Byte := tag :: (derLen b.length ++ b)

/-- RFC 8017 A.2.4: DigestInfo with NULL parameters. -/
def digestInfo (oid : List Nat) (digest : List Byte) : List Byte :=
  derSeq (derSeq (derTlv 6 (oidBytes oid) ++ [5, 0]) ++ derTlv 4 digest)

/-- The string `T` of RFC 8017 9.2. Hash functions without an identifier are used bare (as TLS does with MD5SHA1). -/
def rsaT (t : HashId) (digest : List Byte) : List Byte :=
  match hashOid t with
  | some oid => digestInfo oid digest
  | none => digest

/-- The digests which can be signed: of the size of the hash function, of any size for `NONE`. -/
def RsaDigest (t : HashId) (digest : List Byte) : Prop :=
  (∀ i, t ≠ .other i) ∧ (t = .NONE ∨ digest.length = hash_output_size t)

/-- RFC 8017 9.2: EMSA-PKCS1-v1_5 into `k` bytes. -/
def emsaPkcs1 (k : Nat) (T : List Byte) : List Byte :=
  [0x00, 0x01] ++ (List.replicate (k - T.length - 3) 0xff ++ ([0x00] ++ T))

/-- RFC 8017 7.2.1: EME-PKCS1-v1_5 with the padding string `ps`. -/
def emePkcs1 (ps m : List Byte) : List Byte := [0x00, 0x02] ++ (ps ++ ([0x00] ++ m))

/-! ### MGF1, PSS, OAEP -/

def xorStr (a b : List Byte) : List Byte := List.zipWith (fun x y => x ^^^ y) a b

/-- RFC 8017 B.2.1. -/
def mgf1 (H : List Byte → List Byte) (hLen : Nat) (seed : List Byte) (n : Nat) : List Byte :=
  ((List.range ((n + hLen - 1) / hLen)).flatMap fun c => H (seed ++ bigBytes 4 c)).take n

/-- Set the leftmost `k` bits to zero, `k < 8`. -/
def clearTop (k : Nat) : List Byte → List Byte
  | [] => []
  | b :: bs => BitVec.ofNat 8 (b.toNat % 2 ^ (8 - k)) :: bs

/-- RFC 8017 9.1.1: EMSA-PSS into `emBits` bits. -/
def emsaPss (H : List Byte → List Byte) (hLen emBits : Nat) (mHash salt : List Byte) : List Byte :=
  let emLen := (emBits + 7) / 8
  let h := H (List.replicate 8 0 ++ mHash ++ salt)
  let db := List.replicate (emLen - salt.length - hLen - 2) 0x00 ++ ([0x01] ++ salt)
  clearTop (8 * emLen - emBits) (xorStr db (mgf1 H hLen h (emLen - hLen - 1))) ++ (h ++ [0xbc])

/-- RFC 8017 7.1.1: the data block of EME-OAEP. -/
def oaepDb (H : List Byte → List Byte) (hLen k : Nat) (label m : List Byte) : List Byte :=
  H label ++ (List.replicate (k - m.length - 2 * hLen - 2) 0x00 ++ ([0x01] ++ m))

/-- RFC 8017 7.1.1: EME-OAEP into `k` bytes. -/
def emeOaep (H : List Byte → List Byte) (hLen k : Nat) (label seed m : List Byte) : List Byte :=
  let maskedDb := xorStr (oaepDb H hLen k label m) (mgf1 H hLen seed (k - hLen - 1))
  [0x00] ++ (xorStr seed (mgf1 H hLen maskedDb hLen) ++ maskedDb)

/-- The factors and the exponent are those of a key. -/
structure PqeOk (p q e : Nat) : Prop where
  podd : p % 2 = 1
  qodd : q % 2 = 1
  plo : 3 ≤ p
  qlo : 3 ≤ q
  ne : p ≠ q
  cop : Nat.Coprime p q
  pub : RsaPubOk (p * q) e
  inv : Nat.Coprime e (Nat.lcm (p - 1) (q - 1))

/-- The length of the salt a signer uses when asked for `salt_len`: 0 stands for as long as fits and 2^64 - 1 for the
length of the digest. -/
def pssSaltLen (hlen emLen salt_len : Nat) : Nat :=
  if salt_len = 0 then emLen - 2 - hlen else if salt_len = 2 ^ 64 - 1 then hlen else salt_len

end Torsion.Spec
