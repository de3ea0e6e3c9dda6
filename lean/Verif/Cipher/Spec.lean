import Verif.Cipher.Modes
import Verif.Stream.Spec
import Verif.Hash.Spec
import Verif.Common.Blocks
import Verif.Common.Calls

/-!
# Specification of PKCS#7 padding and of the modes of operation

Written from the standards (RFC 5652, NIST SP 800-38A/B/C/D, IEEE 1619, the EAX paper), over an
arbitrary block function.
-/
namespace Torsion.Spec

/-- RFC 5652, 6.3: `b` is `x` padded to `n` bytes. -/
def Pkcs7 (n : Nat) (x b : List Byte) : Prop :=
  x.length < n ∧ b = x ++ List.replicate (n - x.length) (BitVec.ofNat 8 (n - x.length))

/-- Decryption undoes encryption on every block. -/
def Invertible {n : Nat} (c : Cipher n) : Prop := ∀ b, c.dec (c.enc b) = b

/-- RFC 5652, 6.3: a message of any length padded to whole blocks. -/
def pad7 (n : Nat) (m : List Byte) : List Byte :=
  m ++ List.replicate (n - m.length % n) (BitVec.ofNat 8 (n - m.length % n))

/-- The bytes of a message after its complete blocks. -/
def rest (n : Nat) (m : List Byte) : List Byte := m.drop (m.length / n * n)

/-- Bytewise exclusive or of blocks. -/
def bxor {n : Nat} (a b : Vector Byte n) : Vector Byte n := Vector.ofFn fun i => a[i] ^^^ b[i]

/-- The concatenation of blocks. -/
def unblocks {n : Nat} (bl : List (Vector Byte n)) : List Byte := bl.flatMap Vector.toList

/-- CBC encryption: each block is enciphered after adding the previous ciphertext block. -/
def cbcEnc {n : Nat} (E : Vector Byte n → Vector Byte n) :
    Vector Byte n → List (Vector Byte n) → List (Vector Byte n)
  | _, [] => []
  | prev, p :: ps => E (bxor p prev) :: cbcEnc E (E (bxor p prev)) ps

/-- CBC decryption. -/
def cbcDec {n : Nat} (D : Vector Byte n → Vector Byte n) :
    Vector Byte n → List (Vector Byte n) → List (Vector Byte n)
  | _, [] => []
  | prev, c :: cs => bxor (D c) prev :: cbcDec D c cs

/-- The last block of a list, `d` if there is none. -/
def lastBlock {n : Nat} (d : Vector Byte n) (bl : List (Vector Byte n)) : Vector Byte n := bl.getLastD d

/-- The field polynomials of degree 64 and 128 (without the leading term). -/
def gfPoly (n : Nat) : Nat := if n = 8 then 0x1b else 0x87

/-- Multiplication by `x` in the field with `2^(8n)` elements, elements written as numbers. -/
def gfDouble (n v : Nat) : Nat :=
  if 2 * v < 256 ^ n then 2 * v else (2 * v - 256 ^ n) ^^^ gfPoly n

/-- The block with the given value, least significant byte first. -/
def leBlock (n v : Nat) : Vector Byte n := Vector.ofFn fun i => BitVec.ofNat 8 (v / 256 ^ i.val)

/-- The block with the given value, most significant byte first. -/
def beBlock (n v : Nat) : Vector Byte n :=
  Vector.ofFn fun i => BitVec.ofNat 8 (v / 256 ^ (n - 1 - i.val))

/-- The next XTS tweak: little-endian doubling in the field. -/
def xtsNext {n : Nat} (t : Vector Byte n) : Vector Byte n := leBlock n (gfDouble n (leVal t.toList))

/-- XTS without stealing, encryption (`f` = block encryption) or decryption (`f` = block
decryption). -/
def xtsBlocks {n : Nat} (f : Vector Byte n → Vector Byte n) :
    Vector Byte n → List (Vector Byte n) → List (Vector Byte n)
  | _, [] => []
  | t, p :: ps => bxor (f (bxor p t)) t :: xtsBlocks f (xtsNext t) ps

/-- Exclusive or with a string, extended by zeros. -/
def padXor {n : Nat} (v : Vector Byte n) (t : List Byte) : Vector Byte n :=
  Vector.ofFn fun i => v[i] ^^^ t.getD i.val 0

/-- A string, filled up with the end of a block. -/
def fillUp {n : Nat} (v : Vector Byte n) (t : List Byte) : Vector Byte n :=
  Vector.ofFn fun i => if i.val < t.length then t.getD i.val 0 else v[i]

/-- CBC with ciphertext stealing (the variant CS3 of the addendum to SP 800-38A for lengths that are
no multiple of the block size; the library applies the same rule to multiples, where CS3 would swap
the last two blocks). The message has at least one block. -/
def ctsEnc {n : Nat} (E : Vector Byte n → Vector Byte n) (iv : Vector Byte n) (m : List Byte) : List Byte :=
  let cs := cbcEnc E iv (blocks n m)
  let l := lastBlock iv cs
  unblocks cs.dropLast ++ (E (padXor l (rest n m))).toList ++ l.toList.take (rest n m).length

/-- XTS with ciphertext stealing (IEEE 1619). The message has at least one block. -/
def xtsEnc {n : Nat} (E : Vector Byte n → Vector Byte n) (t : Vector Byte n) (m : List Byte) : List Byte :=
  let cs := xtsBlocks E t (blocks n m)
  if m.length % n = 0 then unblocks cs
  else
    let l := lastBlock t cs
    let t' := xtsNext^[m.length / n] t
    unblocks cs.dropLast ++ (bxor (E (bxor (fillUp l (rest n m)) t')) t').toList ++
      l.toList.take (rest n m).length

/-- Byte `i` of the counter mode key stream: the block function applied to the successive values of
a big-endian counter. -/
def ctrStream {n : Nat} (E : Vector Byte n → Vector Byte n) (iv : Vector Byte n) (i : Nat) : Byte :=
  (E (beBlock n ((beVal iv.toList + i / n) % 256 ^ n))).toList.getD (i % n) 0

/-- Byte `i` of the output feedback key stream. -/
def ofbStream {n : Nat} (E : Vector Byte n → Vector Byte n) (iv : Vector Byte n) (i : Nat) : Byte :=
  (E^[i / n + 1] iv).toList.getD (i % n) 0

/-- The block fed back in cipher feedback mode before block `k`, where `ct` is the ciphertext. -/
def cfbPrev {n : Nat} (iv : Vector Byte n) (ct : List Byte) : Nat → Vector Byte n
  | 0 => iv
  | k + 1 => Vector.ofFn fun j => ct.getD (k * n + j.val) 0

/-- `ct` is the cipher feedback encryption of `pt`. -/
def Cfb {n : Nat} (E : Vector Byte n → Vector Byte n) (iv : Vector Byte n) (pt ct : List Byte) : Prop :=
  ct.length = pt.length ∧
    ∀ i < pt.length, ct.getD i 0 = pt.getD i 0 ^^^ (E (cfbPrev iv ct (i / n))).toList.getD (i % n) 0

end Torsion.Spec
