import Verif.Ecc.EncodeSpec
import Verif.Asn1.Spec

/-!
# Independent specification of ECDSA (SEC 1 4.1, FIPS 186-4 6, RFC 6979)

Private keys, nonces and the two parts of a signature are numbers; `G` is the generator and `n` its order. The number of a
message is `leftBits n msg`, its leftmost bits.
-/
namespace Torsion.Spec

variable {fe : FieldCode} [Fact fe.p.Prime] {c : Curve (ZMod fe.p)}

/-- The abscissa of a finite point as a number. -/
def absc (P : Pt c) : Nat := (affine P).x.val

/-- The ordinate of a finite point as a number. -/
def ordin (P : Pt c) : Nat := (affine P).y.val

/-- `(r, s)` is a valid signature of the number `m` under the public key `Q`. -/
def EcdsaValid (G Q : Pt c) (n m r s : Nat) : Prop :=
  0 < r ∧ r < n ∧ 0 < s ∧ s < n ∧ ∃ w, s * w % n = 1 ∧ (m * w) • G + (r * w) • Q ≠ 0 ∧
    absc ((m * w) • G + (r * w) • Q) % n = r

/-- `(r, s)` is the signature of the number `m` with the private key `d` and the nonce `k`, before `s` is made small. -/
def EcdsaSigned (G : Pt c) (n d m k r s : Nat) : Prop :=
  r = absc (k • G) % n ∧ s < n ∧ s * k % n = (m + d * r) % n

/-- The candidates for the nonce: the leftmost bits of strings of the length of `n`. -/
def ecNonce {S : Type} (gen : S → Nat → List Byte × S) (n : Nat) (st : S) (i : Nat) : Nat :=
  leftBits n (gen (dsaNonceState gen n st i) (dsaLen n)).1

/-- A candidate which is used. -/
def EcNonceOk (G : Pt c) (n k : Nat) : Prop := 0 < k ∧ k < n ∧ k • G ≠ 0 ∧ absc (k • G) % n ≠ 0

/-- `A` is the key recovered from `(r, s)` and the parameter: the nonce point `R` has the abscissa `r`, or `r + n` if the
parameter is at least two, and the parity of the parameter, and `A` is the solution of `r A + m G = s R`. -/
def EcdsaRecovered (G : Pt c) (n m r s param : Nat) (A : Pt c) : Prop :=
  0 < r ∧ r < n ∧ 0 < s ∧ s < n ∧ ∃ R : Pt c, R ≠ 0 ∧ absc R = r + (if 2 ≤ param then n else 0) ∧ ordin R % 2 = param % 2 ∧
    r • A + m • G = s • R

/-- SEC 1 C.5: a signature in DER, `SEQUENCE { r INTEGER, s INTEGER }`. -/
def ecdsaDer (r s : Nat) : List Byte :=
  0x30 :: (derLen (derInt r ++ derInt s).length ++ (derInt r ++ derInt s))

/-- The lax form: any BER lengths, any contents octets read as unsigned numbers, the length of the sequence and what follows
the second number ignored. -/
def EcdsaBer (r s : Nat) (der : List Byte) : Prop :=
  ∃ m enc e1 c1 e2 c2 rest, der = 0x30 :: (enc ++ (2 :: (e1 ++ c1 ++ (2 :: (e2 ++ c2 ++ rest))))) ∧ BerLen m enc ∧
    BerLen c1.length e1 ∧ BerLen c2.length e2 ∧ beVal c1 = r ∧ beVal c2 = s

end Torsion.Spec
