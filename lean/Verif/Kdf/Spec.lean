import Verif.Hash.Spec
import Verif.Stream.Spec

/-!
# Independent specification of the key derivation functions

EVP_BytesToKey, HKDF (RFC 5869), PBKDF2 (RFC 8018), OpenPGP S2K (RFC 4880 3.7.1) and scrypt
(RFC 7914), over an arbitrary hash `H` or keyed hash `mac`.
-/
namespace Torsion.Spec

/-- The first `len` bytes of `T 0 || T 1 || ...`, for blocks of `hs` bytes: `ceil (len / hs)` blocks. -/
def cut (T : Nat → List Byte) (hs len : Nat) : List Byte :=
  ((List.range ((len + hs - 1) / hs)).flatMap T).take len

/-- Bytewise XOR. -/
def xorBytes (a b : List Byte) : List Byte := List.zipWith (· ^^^ ·) a b

/-- EVP_BytesToKey with one iteration: D_0 is empty, D_i = H(D_(i-1) || pass || salt). -/
def eb2kD (H : List Byte → List Byte) (pass salt : List Byte) : Nat → List Byte
  | 0 => []
  | n + 1 => H (eb2kD H pass salt n ++ pass ++ salt)

/-- RFC 5869 2.3: T(0) is empty, T(i) = HMAC(PRK, T(i-1) || info || i). -/
def hkdfT (mac : List Byte → List Byte) (info : List Byte) : Nat → List Byte
  | 0 => []
  | n + 1 => mac (hkdfT mac info n ++ info ++ [BitVec.ofNat 8 (n + 1)])

/-- RFC 5869 2.3: the first `len` bytes of T(1) || T(2) || .... -/
def hkdfExpand (mac : List Byte → List Byte) (hs : Nat) (info : List Byte) (len : Nat) : List Byte :=
  cut (fun i => hkdfT mac info (i + 1)) hs len

/-- RFC 8018 5.2: U_1 = PRF(P, S || INT(i)), U_(j+1) = PRF(P, U_j); the argument counts from 0. -/
def pbkdf2U (mac : List Byte → List Byte) (salt : List Byte) (i : Nat) : Nat → List Byte
  | 0 => mac (salt ++ bigBytes 4 i)
  | j + 1 => mac (pbkdf2U mac salt i j)

/-- RFC 8018 5.2: F(P, S, c, i) = U_1 ^ ... ^ U_c with `c = j + 1`. -/
def pbkdf2F (mac : List Byte → List Byte) (salt : List Byte) (i : Nat) : Nat → List Byte
  | 0 => pbkdf2U mac salt i 0
  | j + 1 => xorBytes (pbkdf2F mac salt i j) (pbkdf2U mac salt i (j + 1))

/-- RFC 8018 5.2 with `c ≥ 1` iterations: the first `len` bytes of T_1 || T_2 || .... -/
def pbkdf2 (mac : List Byte → List Byte) (hs : Nat) (salt : List Byte) (c len : Nat) : List Byte :=
  cut (fun i => pbkdf2F mac salt (i + 1) (c - 1)) hs len

/-- The first `n` bytes of `m || m || ...`. -/
def cyc (m : List Byte) (n : Nat) : List Byte := (List.range n).map fun k => m.getD (k % m.length) 0

/-- RFC 4880 3.7.1: context number `i` is preloaded with `i` zeros, then hashes `m`. -/
def s2k (H : List Byte → List Byte) (hs : Nat) (m : List Byte) (len : Nat) : List Byte :=
  cut (fun i => H (List.replicate i 0 ++ m)) hs len

/-- RFC 7914 section 3: the Salsa20/8 core on 64 bytes. -/
def salsa208 (B : List Byte) : List Byte :=
  let m : Mat := fun i => word B (4 * i.val)
  (List.finRange 16).flatMap fun i => leBytes 4 ((salsaDouble^[4]) m i + m i).toNat

/-- The 64-byte block number `i`. -/
def blk64 (B : List Byte) (i : Nat) : List Byte := (B.drop (64 * i)).take 64

/-- RFC 7914 section 4, step 2: the values of X, from B[2 * r - 1] on. -/
def scryptX (r : Nat) (B : List Byte) : Nat → List Byte
  | 0 => blk64 B (2 * r - 1)
  | i + 1 => salsa208 (xorBytes (scryptX r B i) (blk64 B i))

/-- RFC 7914 section 4: Y[0], Y[2], ..., Y[2 * r - 2], Y[1], Y[3], ..., Y[2 * r - 1]. -/
def scryptBlockMix (r : Nat) (B : List Byte) : List Byte :=
  ((List.range r).flatMap fun i => scryptX r B (2 * i + 1)) ++
    (List.range r).flatMap fun i => scryptX r B (2 * i + 2)

/-- RFC 7914 section 5: V[i] = scryptBlockMix^i(B); then N times X = scryptBlockMix(X ^ V[Integerify(X)
mod N]), where Integerify is the last 64-byte block as a little-endian number. -/
def scryptROMix (r N : Nat) (B : List Byte) : List Byte :=
  let V := fun i => (scryptBlockMix r)^[i] B
  (fun X => scryptBlockMix r (xorBytes X (V (leVal (blk64 X (2 * r - 1)) % N))))^[N] (V N)

/-- RFC 7914 section 6, with `mac` = HMAC-SHA256 under the passphrase. -/
def scrypt (mac : List Byte → List Byte) (salt : List Byte) (N r p len : Nat) : List Byte :=
  let B := pbkdf2 mac 32 salt 1 (p * 128 * r)
  pbkdf2 mac 32 ((List.range p).flatMap fun i => scryptROMix r N ((B.drop (i * 128 * r)).take (128 * r))) 1 len

end Torsion.Spec
