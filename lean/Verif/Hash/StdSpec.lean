import Verif.Util.Spec

/-!
# Independent specification of the compression functions

Each compression function as its standard defines it: MD2 (RFC 1319), MD4 (RFC 1320), MD5 (RFC 1321),
RIPEMD-160 (the paper of Dobbertin, Bosselaers and Preneel), SHA-1 and SHA-2 (FIPS 180-4), BLAKE2
(RFC 7693), Keccak-f[1600] (FIPS 202), GOST R 34.11-94 (RFC 5831) and Whirlpool (the paper of Barreto
and Rijmen). Nothing here refers to the model of src/hash.c.
-/
namespace Torsion.Spec.Std

/-- The `i`-th word of `w` bits of a byte string, little-endian. -/
def leWord (w : Nat) (b : List Byte) (i : Nat) : BitVec w :=
  BitVec.ofNat w (leVal ((b.drop (w / 8 * i)).take (w / 8)))

/-- The `i`-th word of `w` bits of a byte string, big-endian. -/
def beWord (w : Nat) (b : List Byte) (i : Nat) : BitVec w :=
  BitVec.ofNat w (beVal ((b.drop (w / 8 * i)).take (w / 8)))

/-- Words added one by one. -/
def vadd {w n : Nat} (x y : Vector (BitVec w) n) : Vector (BitVec w) n := Vector.zipWith (· + ·) x y

/-- "If `x` then `y` else `z`", bit by bit. -/
def ch {w : Nat} (x y z : BitVec w) : BitVec w := (x &&& y) ^^^ (~~~x &&& z)

/-- The majority, bit by bit. -/
def maj {w : Nat} (x y z : BitVec w) : BitVec w := (x &&& y) ^^^ (x &&& z) ^^^ (y &&& z)

/-- `k` is the integer part of `2 ^ 30` times the square root of `n`. -/
def IsSqrt30 (k n : Nat) : Prop := k ^ 2 ≤ n * 2 ^ 60 ∧ n * 2 ^ 60 < (k + 1) ^ 2

/-- `k` is the integer part of `2 ^ 30` times the cube root of `n`. -/
def IsCbrt30 (k n : Nat) : Prop := k ^ 3 ≤ n * 2 ^ 90 ∧ n * 2 ^ 90 < (k + 1) ^ 3

/-- `k` is the first 64 bits of the fractional part of the square root of `n`. -/
def IsSqrtFrac64 (k n : Nat) : Prop :=
  k < 2 ^ 64 ∧ ∃ q, (q * 2 ^ 64 + k) ^ 2 ≤ n * 2 ^ 128 ∧ n * 2 ^ 128 < (q * 2 ^ 64 + k + 1) ^ 2

/-- `k` is the first 64 bits of the fractional part of the cube root of `n`. -/
def IsCbrtFrac64 (k n : Nat) : Prop :=
  k < 2 ^ 64 ∧ ∃ q, (q * 2 ^ 64 + k) ^ 3 ≤ n * 2 ^ 192 ∧ n * 2 ^ 192 < (q * 2 ^ 64 + k + 1) ^ 3

/-! ## MD4, RFC 1320 -/

/-- The word of the block used in step `t`. -/
def md4Idx (t : Fin 48) : Fin 16 :=
  match t.val / 16 with
  | 0 => ⟨t.val % 16, Nat.mod_lt _ (by decide)⟩
  | 1 => ⟨t.val % 4 * 4 + t.val % 16 / 4, by omega⟩
  | _ => (#v[0, 8, 4, 12, 2, 10, 6, 14, 1, 9, 5, 13, 3, 11, 7, 15] : Vector (Fin 16) 16)[t.val % 16]

/-- The amount of the rotation in step `t`. -/
def md4Shift (t : Fin 48) : Nat :=
  match t.val / 16 with
  | 0 => #v[3, 7, 11, 19][t.val % 4]
  | 1 => #v[3, 5, 9, 13][t.val % 4]
  | _ => #v[3, 9, 11, 15][t.val % 4]

/-- The constants: the square roots of 2 and 3 (see `IsSqrt30`). -/
def md4K (t : Fin 48) : BitVec 32 :=
  match t.val / 16 with
  | 0 => 0
  | 1 => 0x5a827999
  | _ => 0x6ed9eba1

def md4F (t : Fin 48) (x y z : BitVec 32) : BitVec 32 :=
  match t.val / 16 with
  | 0 => ch x y z
  | 1 => maj x y z
  | _ => x ^^^ y ^^^ z

/-- One step on the registers `A B C D`, which then move on by one place. -/
def md4Step (X : Fin 16 → BitVec 32) (v : Vector (BitVec 32) 4) (t : Fin 48) : Vector (BitVec 32) 4 :=
  let T := (v[0] + md4F t v[1] v[2] v[3] + X (md4Idx t) + md4K t).rotateLeft (md4Shift t)
  #v[v[3], T, v[1], v[2]]

def md4Compress (h : Vector (BitVec 32) 4) (b : List Byte) : Vector (BitVec 32) 4 :=
  vadd h ((List.finRange 48).foldl (md4Step fun i => leWord 32 b i) h)

/-! ## MD5, RFC 1321 -/

/-- The table `T` of RFC 1321: the integer part of `2 ^ 32 * |sin (i + 1)|`. -/
def md5T : Vector (BitVec 32) 64 := #v[
  0xd76aa478, 0xe8c7b756, 0x242070db, 0xc1bdceee, 0xf57c0faf, 0x4787c62a, 0xa8304613, 0xfd469501,
  0x698098d8, 0x8b44f7af, 0xffff5bb1, 0x895cd7be, 0x6b901122, 0xfd987193, 0xa679438e, 0x49b40821,
  0xf61e2562, 0xc040b340, 0x265e5a51, 0xe9b6c7aa, 0xd62f105d, 0x02441453, 0xd8a1e681, 0xe7d3fbc8,
  0x21e1cde6, 0xc33707d6, 0xf4d50d87, 0x455a14ed, 0xa9e3e905, 0xfcefa3f8, 0x676f02d9, 0x8d2a4c8a,
  0xfffa3942, 0x8771f681, 0x6d9d6122, 0xfde5380c, 0xa4beea44, 0x4bdecfa9, 0xf6bb4b60, 0xbebfbc70,
  0x289b7ec6, 0xeaa127fa, 0xd4ef3085, 0x04881d05, 0xd9d4d039, 0xe6db99e5, 0x1fa27cf8, 0xc4ac5665,
  0xf4292244, 0x432aff97, 0xab9423a7, 0xfc93a039, 0x655b59c3, 0x8f0ccc92, 0xffeff47d, 0x85845dd1,
  0x6fa87e4f, 0xfe2ce6e0, 0xa3014314, 0x4e0811a1, 0xf7537e82, 0xbd3af235, 0x2ad7d2bb, 0xeb86d391]

/-- The word of the block used in step `t`. -/
def md5Idx (t : Fin 64) : Fin 16 :=
  match t.val / 16 with
  | 0 => Fin.ofNat 16 t.val
  | 1 => Fin.ofNat 16 (5 * t.val + 1)
  | 2 => Fin.ofNat 16 (3 * t.val + 5)
  | _ => Fin.ofNat 16 (7 * t.val)

/-- The amount of the rotation in step `t`. -/
def md5Shift (t : Fin 64) : Nat :=
  match t.val / 16 with
  | 0 => #v[7, 12, 17, 22][t.val % 4]
  | 1 => #v[5, 9, 14, 20][t.val % 4]
  | 2 => #v[4, 11, 16, 23][t.val % 4]
  | _ => #v[6, 10, 15, 21][t.val % 4]

def md5F (t : Fin 64) (x y z : BitVec 32) : BitVec 32 :=
  match t.val / 16 with
  | 0 => ch x y z
  | 1 => ch z x y
  | 2 => x ^^^ y ^^^ z
  | _ => y ^^^ (x ||| ~~~z)

/-- One step on the registers `A B C D`, which then move on by one place. -/
def md5Step (X : Fin 16 → BitVec 32) (v : Vector (BitVec 32) 4) (t : Fin 64) : Vector (BitVec 32) 4 :=
  let T := (v[0] + md5F t v[1] v[2] v[3] + X (md5Idx t) + md5T[t]).rotateLeft (md5Shift t)
  #v[v[3], v[1] + T, v[1], v[2]]

def md5Compress (h : Vector (BitVec 32) 4) (b : List Byte) : Vector (BitVec 32) 4 :=
  vadd h ((List.finRange 64).foldl (md5Step fun i => leWord 32 b i) h)

/-! ## RIPEMD-160 -/

/-- The permutation `ρ` of the message words. -/
def rmdRho (i : Fin 16) : Fin 16 :=
  (#v[7, 4, 13, 1, 10, 6, 15, 3, 12, 0, 9, 5, 2, 14, 11, 8] : Vector (Fin 16) 16)[i]

/-- The permutation `π`. -/
def rmdPi (i : Fin 16) : Fin 16 := 9 * i + 5

/-- `ρ` applied `k` times. -/
def rmdRhos : Nat → Fin 16 → Fin 16
  | 0, i => i
  | k + 1, i => rmdRho (rmdRhos k i)

/-- The message word of step `t`: on the left line in round `j` (from 0) `ρ ^ j`, on the right line
`ρ ^ j π`. -/
def rmdIdx (right : Bool) (t : Fin 80) : Fin 16 :=
  let i := Fin.ofNat 16 t.val
  rmdRhos (t.val / 16) (if right then rmdPi i else i)

/-- The rotation of a message word in a round, the same on both lines. -/
def rmdShifts : Vector (Vector Nat 16) 5 := #v[
  #v[11, 14, 15, 12, 5, 8, 7, 9, 11, 13, 14, 15, 6, 7, 9, 8],
  #v[12, 13, 11, 15, 6, 9, 9, 7, 12, 15, 11, 13, 7, 8, 7, 7],
  #v[13, 15, 14, 11, 7, 7, 6, 8, 13, 14, 13, 12, 5, 5, 6, 9],
  #v[14, 11, 12, 14, 8, 6, 5, 5, 15, 12, 15, 14, 9, 9, 8, 6],
  #v[15, 12, 13, 13, 9, 5, 8, 6, 14, 11, 12, 11, 8, 6, 5, 5]]

def rmdShift (right : Bool) (t : Fin 80) : Nat := rmdShifts[t.val / 16][rmdIdx right t]

/-- The constants: on the left line the square roots, on the right line the cube roots of 2, 3, 5, 7
(see `IsSqrt30`, `IsCbrt30`). -/
def rmdK (right : Bool) (t : Fin 80) : BitVec 32 :=
  if right then (#v[0x50a28be6, 0x5c4dd124, 0x6d703ef3, 0x7a6d76e9, 0] : Vector (BitVec 32) 5)[t.val / 16]
  else (#v[0, 0x5a827999, 0x6ed9eba1, 0x8f1bbcdc, 0xa953fd4e] : Vector (BitVec 32) 5)[t.val / 16]

/-- The functions `f₁` ... `f₅`, numbered from 0. -/
def rmdFn (j : Nat) (x y z : BitVec 32) : BitVec 32 :=
  match j with
  | 0 => x ^^^ y ^^^ z
  | 1 => ch x y z
  | 2 => (x ||| ~~~y) ^^^ z
  | 3 => ch z x y
  | _ => x ^^^ (y ||| ~~~z)

/-- The right line takes the functions in reverse order. -/
def rmdF (right : Bool) (t : Fin 80) : BitVec 32 → BitVec 32 → BitVec 32 → BitVec 32 :=
  rmdFn (if right then 4 - t.val / 16 else t.val / 16)

/-- One step on the registers `A B C D E` of a line. -/
def rmdStep (right : Bool) (X : Fin 16 → BitVec 32) (v : Vector (BitVec 32) 5) (t : Fin 80) :
    Vector (BitVec 32) 5 :=
  let T := (v[0] + rmdF right t v[1] v[2] v[3] + X (rmdIdx right t) + rmdK right t).rotateLeft
    (rmdShift right t) + v[4]
  #v[v[4], T, v[1], v[2].rotateLeft 10, v[3]]

def ripemd160Compress (h : Vector (BitVec 32) 5) (b : List Byte) : Vector (BitVec 32) 5 :=
  let l := (List.finRange 80).foldl (rmdStep false fun i => leWord 32 b i) h
  let r := (List.finRange 80).foldl (rmdStep true fun i => leWord 32 b i) h
  #v[h[1] + l[2] + r[3], h[2] + l[3] + r[4], h[3] + l[4] + r[0], h[4] + l[0] + r[1],
    h[0] + l[1] + r[2]]

/-! ## SHA-1, FIPS 180-4 6.1 -/

/-- The message schedule. -/
def sha1W (M : Nat → BitVec 32) (t : Nat) : BitVec 32 :=
  if t < 16 then M t
  else (sha1W M (t - 3) ^^^ sha1W M (t - 8) ^^^ sha1W M (t - 14) ^^^ sha1W M (t - 16)).rotateLeft 1

def sha1F (t : Fin 80) (x y z : BitVec 32) : BitVec 32 :=
  match t.val / 20 with
  | 0 => ch x y z
  | 1 => x ^^^ y ^^^ z
  | 2 => maj x y z
  | _ => x ^^^ y ^^^ z

/-- The constants: the square roots of 2, 3, 5, 10 (see `IsSqrt30`). -/
def sha1K (t : Fin 80) : BitVec 32 :=
  (#v[0x5a827999, 0x6ed9eba1, 0x8f1bbcdc, 0xca62c1d6] : Vector (BitVec 32) 4)[t.val / 20]

/-- One step on `a b c d e`. -/
def sha1Step (W : Nat → BitVec 32) (v : Vector (BitVec 32) 5) (t : Fin 80) : Vector (BitVec 32) 5 :=
  let T := v[0].rotateLeft 5 + sha1F t v[1] v[2] v[3] + v[4] + sha1K t + W t
  #v[T, v[0], v[1].rotateLeft 30, v[2], v[3]]

def sha1Compress (h : Vector (BitVec 32) 5) (b : List Byte) : Vector (BitVec 32) 5 :=
  vadd h ((List.finRange 80).foldl (sha1Step (sha1W (beWord 32 b))) h)

/-! ## SHA-2, FIPS 180-4 6.2 and 6.4 -/

/-- The constants of SHA-512: for the first eighty primes the first 64 bits of the fractional part of
the cube root (see `IsCbrtFrac64`). -/
def sha512K : Vector (BitVec 64) 80 := #v[
  0x428a2f98d728ae22, 0x7137449123ef65cd, 0xb5c0fbcfec4d3b2f, 0xe9b5dba58189dbbc,
  0x3956c25bf348b538, 0x59f111f1b605d019, 0x923f82a4af194f9b, 0xab1c5ed5da6d8118,
  0xd807aa98a3030242, 0x12835b0145706fbe, 0x243185be4ee4b28c, 0x550c7dc3d5ffb4e2,
  0x72be5d74f27b896f, 0x80deb1fe3b1696b1, 0x9bdc06a725c71235, 0xc19bf174cf692694,
  0xe49b69c19ef14ad2, 0xefbe4786384f25e3, 0x0fc19dc68b8cd5b5, 0x240ca1cc77ac9c65,
  0x2de92c6f592b0275, 0x4a7484aa6ea6e483, 0x5cb0a9dcbd41fbd4, 0x76f988da831153b5,
  0x983e5152ee66dfab, 0xa831c66d2db43210, 0xb00327c898fb213f, 0xbf597fc7beef0ee4,
  0xc6e00bf33da88fc2, 0xd5a79147930aa725, 0x06ca6351e003826f, 0x142929670a0e6e70,
  0x27b70a8546d22ffc, 0x2e1b21385c26c926, 0x4d2c6dfc5ac42aed, 0x53380d139d95b3df,
  0x650a73548baf63de, 0x766a0abb3c77b2a8, 0x81c2c92e47edaee6, 0x92722c851482353b,
  0xa2bfe8a14cf10364, 0xa81a664bbc423001, 0xc24b8b70d0f89791, 0xc76c51a30654be30,
  0xd192e819d6ef5218, 0xd69906245565a910, 0xf40e35855771202a, 0x106aa07032bbd1b8,
  0x19a4c116b8d2d0c8, 0x1e376c085141ab53, 0x2748774cdf8eeb99, 0x34b0bcb5e19b48a8,
  0x391c0cb3c5c95a63, 0x4ed8aa4ae3418acb, 0x5b9cca4f7763e373, 0x682e6ff3d6b2b8a3,
  0x748f82ee5defb2fc, 0x78a5636f43172f60, 0x84c87814a1f0ab72, 0x8cc702081a6439ec,
  0x90befffa23631e28, 0xa4506cebde82bde9, 0xbef9a3f7b2c67915, 0xc67178f2e372532b,
  0xca273eceea26619c, 0xd186b8c721c0c207, 0xeada7dd6cde0eb1e, 0xf57d4f7fee6ed178,
  0x06f067aa72176fba, 0x0a637dc5a2c898a6, 0x113f9804bef90dae, 0x1b710b35131c471b,
  0x28db77f523047d84, 0x32caab7b40c72493, 0x3c9ebe0a15c9bebc, 0x431d67c49c100d4c,
  0x4cc5d4becb3e42b6, 0x597f299cfc657e2a, 0x5fcb6fab3ad6faec, 0x6c44198c4a475817]

/-- The constants of SHA-256 are the first 32 bits of the same fractions. -/
def sha256K (t : Fin 64) : BitVec 32 := sha512K[t.val].extractLsb' 32 32

/-- The message schedule, with the functions `σ₀` and `σ₁`. -/
def sha2W {w : Nat} (s0 s1 : BitVec w → BitVec w) (M : Nat → BitVec w) (t : Nat) : BitVec w :=
  if t < 16 then M t
  else s1 (sha2W s0 s1 M (t - 2)) + sha2W s0 s1 M (t - 7) + s0 (sha2W s0 s1 M (t - 15)) +
    sha2W s0 s1 M (t - 16)

/-- One step on `a b c d e f g h`, with the functions `Σ₀` and `Σ₁`. -/
def sha2Step {w : Nat} (S0 S1 : BitVec w → BitVec w) (v : Vector (BitVec w) 8) (K W : BitVec w) :
    Vector (BitVec w) 8 :=
  let T1 := v[7] + S1 v[4] + ch v[4] v[5] v[6] + K + W
  let T2 := S0 v[0] + maj v[0] v[1] v[2]
  #v[T1 + T2, v[0], v[1], v[2], v[3] + T1, v[4], v[5], v[6]]

/-- `σ₀`, `σ₁`, `Σ₀`, `Σ₁` of SHA-256. -/
def sha256s0 (x : BitVec 32) : BitVec 32 := x.rotateRight 7 ^^^ x.rotateRight 18 ^^^ (x >>> 3)
def sha256s1 (x : BitVec 32) : BitVec 32 := x.rotateRight 17 ^^^ x.rotateRight 19 ^^^ (x >>> 10)
def sha256S0 (x : BitVec 32) : BitVec 32 := x.rotateRight 2 ^^^ x.rotateRight 13 ^^^ x.rotateRight 22
def sha256S1 (x : BitVec 32) : BitVec 32 := x.rotateRight 6 ^^^ x.rotateRight 11 ^^^ x.rotateRight 25

/-- `σ₀`, `σ₁`, `Σ₀`, `Σ₁` of SHA-512. -/
def sha512s0 (x : BitVec 64) : BitVec 64 := x.rotateRight 1 ^^^ x.rotateRight 8 ^^^ (x >>> 7)
def sha512s1 (x : BitVec 64) : BitVec 64 := x.rotateRight 19 ^^^ x.rotateRight 61 ^^^ (x >>> 6)
def sha512S0 (x : BitVec 64) : BitVec 64 := x.rotateRight 28 ^^^ x.rotateRight 34 ^^^ x.rotateRight 39
def sha512S1 (x : BitVec 64) : BitVec 64 := x.rotateRight 14 ^^^ x.rotateRight 18 ^^^ x.rotateRight 41

def sha256Compress (h : Vector (BitVec 32) 8) (b : List Byte) : Vector (BitVec 32) 8 :=
  let W := sha2W sha256s0 sha256s1 (beWord 32 b)
  vadd h ((List.finRange 64).foldl (fun v t => sha2Step sha256S0 sha256S1 v (sha256K t) (W t)) h)

def sha512Compress (h : Vector (BitVec 64) 8) (b : List Byte) : Vector (BitVec 64) 8 :=
  let W := sha2W sha512s0 sha512s1 (beWord 64 b)
  vadd h ((List.finRange 80).foldl (fun v (t : Fin 80) => sha2Step sha512S0 sha512S1 v sha512K[t] (W t)) h)

/-! ## BLAKE2, RFC 7693 -/

/-- The mixing function `G`; `R` are the four rotations. -/
def blake2G {w : Nat} (R : Vector Nat 4) (v : Vector (BitVec w) 16) (a b c d : Fin 16)
    (x y : BitVec w) : Vector (BitVec w) 16 :=
  let v := v.set a (v[a] + v[b] + x)
  let v := v.set d ((v[d] ^^^ v[a]).rotateRight R[0])
  let v := v.set c (v[c] + v[d])
  let v := v.set b ((v[b] ^^^ v[c]).rotateRight R[1])
  let v := v.set a (v[a] + v[b] + y)
  let v := v.set d ((v[d] ^^^ v[a]).rotateRight R[2])
  let v := v.set c (v[c] + v[d])
  v.set b ((v[b] ^^^ v[c]).rotateRight R[3])

/-- The message word permutations. -/
def blake2Sigma : Vector (Vector (Fin 16) 16) 10 := #v[
  #v[0, 1, 2, 3, 4, 5, 6, 7, 8, 9, 10, 11, 12, 13, 14, 15],
  #v[14, 10, 4, 8, 9, 15, 13, 6, 1, 12, 0, 2, 11, 7, 5, 3],
  #v[11, 8, 12, 0, 5, 2, 15, 13, 10, 14, 3, 6, 7, 1, 9, 4],
  #v[7, 9, 3, 1, 13, 12, 11, 14, 2, 6, 5, 10, 4, 0, 15, 8],
  #v[9, 0, 5, 7, 2, 4, 10, 15, 14, 1, 11, 12, 6, 8, 3, 13],
  #v[2, 12, 6, 10, 0, 11, 8, 3, 4, 13, 7, 5, 15, 14, 1, 9],
  #v[12, 5, 1, 15, 14, 13, 4, 10, 0, 7, 6, 3, 9, 2, 8, 11],
  #v[13, 11, 7, 14, 12, 1, 3, 9, 5, 0, 15, 4, 8, 6, 2, 10],
  #v[6, 15, 14, 9, 11, 3, 0, 8, 12, 2, 13, 7, 1, 4, 10, 5],
  #v[10, 2, 8, 4, 7, 6, 1, 5, 15, 11, 9, 14, 3, 12, 13, 0]]

/-- One round: the columns, then the diagonals. -/
def blake2Round {w : Nat} (R : Vector Nat 4) (m : Fin 16 → BitVec w) (v : Vector (BitVec w) 16)
    (i : Nat) : Vector (BitVec w) 16 :=
  let s := blake2Sigma[i % 10]
  let v := blake2G R v 0 4 8 12 (m s[0]) (m s[1])
  let v := blake2G R v 1 5 9 13 (m s[2]) (m s[3])
  let v := blake2G R v 2 6 10 14 (m s[4]) (m s[5])
  let v := blake2G R v 3 7 11 15 (m s[6]) (m s[7])
  let v := blake2G R v 0 5 10 15 (m s[8]) (m s[9])
  let v := blake2G R v 1 6 11 12 (m s[10]) (m s[11])
  let v := blake2G R v 2 7 8 13 (m s[12]) (m s[13])
  blake2G R v 3 4 9 14 (m s[14]) (m s[15])

/-- The function `F`: `t0`, `t1` the words of the offset counter, `f` the word of the final flag (all
ones in the last block, otherwise zero). -/
def blake2F {w : Nat} (R : Vector Nat 4) (rounds : Nat) (iv h : Vector (BitVec w) 8)
    (t0 t1 : BitVec w) (b : List Byte) (f : BitVec w) : Vector (BitVec w) 8 :=
  let v : Vector (BitVec w) 16 := h ++ iv
  let v := v.set 12 (v[12] ^^^ t0)
  let v := v.set 13 (v[13] ^^^ t1)
  let v := v.set 14 (v[14] ^^^ f)
  let v := (List.range rounds).foldl (blake2Round R fun i => leWord w b i) v
  Vector.ofFn fun i : Fin 8 => h[i] ^^^ v[i.val] ^^^ v[i.val + 8]

/-- The initial value of BLAKE2b, that of SHA-512: the square roots of the first eight primes (see
`IsSqrtFrac64`). -/
def blake2bIV : Vector (BitVec 64) 8 := #v[
  0x6a09e667f3bcc908, 0xbb67ae8584caa73b, 0x3c6ef372fe94f82b, 0xa54ff53a5f1d36f1,
  0x510e527fade682d1, 0x9b05688c2b3e6c1f, 0x1f83d9abfb41bd6b, 0x5be0cd19137e2179]

/-- The initial value of BLAKE2s, that of SHA-256. -/
def blake2sIV : Vector (BitVec 32) 8 := Vector.ofFn fun i => blake2bIV[i].extractLsb' 32 32

def blake2bF : Vector (BitVec 64) 8 → BitVec 64 → BitVec 64 → List Byte → BitVec 64 →
    Vector (BitVec 64) 8 := blake2F #v[32, 24, 16, 63] 12 blake2bIV

def blake2sF : Vector (BitVec 32) 8 → BitVec 32 → BitVec 32 → List Byte → BitVec 32 →
    Vector (BitVec 32) 8 := blake2F #v[16, 12, 8, 7] 10 blake2sIV

/-! ## Keccak-f[1600], FIPS 202 3.2 -/

/-- The state: the lane at `(x, y)`. -/
abbrev Lanes := Fin 5 → Fin 5 → BitVec 64

def kTheta (A : Lanes) : Lanes :=
  let C := fun x => A x 0 ^^^ A x 1 ^^^ A x 2 ^^^ A x 3 ^^^ A x 4
  let D := fun x : Fin 5 => C (x - 1) ^^^ (C (x + 1)).rotateLeft 1
  fun x y => A x y ^^^ D x

/-- The lane moved in step `t` of `ρ`. -/
def kPath : Nat → Fin 5 × Fin 5
  | 0 => (1, 0)
  | t + 1 => ((kPath t).2, 2 * (kPath t).1 + 3 * (kPath t).2)

/-- The offset of a lane: `(t + 1) (t + 2) / 2` for the one `t < 24` whose lane it is, 0 for the lane
`(0, 0)`. -/
def kOffset (x y : Fin 5) : Nat :=
  (((List.range 24).filter fun t => kPath t = (x, y)).map fun t => (t + 1) * (t + 2) / 2).sum

def kRho (A : Lanes) : Lanes := fun x y => (A x y).rotateLeft (kOffset x y)

def kPi (A : Lanes) : Lanes := fun x y => A (x + 3 * y) x

def kChi (A : Lanes) : Lanes := fun x y => A x y ^^^ (~~~A (x + 1) y &&& A (x + 2) y)

/-- The state of the shift register after `t` steps: the powers of `X` modulo
`X ^ 8 + X ^ 6 + X ^ 5 + X ^ 4 + 1`, bit `i` being the coefficient of `X ^ i`. -/
def kLfsr : Nat → Nat
  | 0 => 1
  | t + 1 => if 2 * kLfsr t < 256 then 2 * kLfsr t else 2 * kLfsr t ^^^ 0b101110001

/-- The round constant: bit `2 ^ j - 1` is the lowest bit of the register after `j + 7 * i` steps. -/
def kRC (i : Nat) : BitVec 64 :=
  (List.range 7).foldl (fun c j =>
    if kLfsr (j + 7 * i) % 2 = 1 then c ||| BitVec.ofNat 64 (2 ^ (2 ^ j - 1)) else c) 0

def kIota (i : Nat) (A : Lanes) : Lanes := fun x y => if x = 0 ∧ y = 0 then A x y ^^^ kRC i else A x y

def kRound (A : Lanes) (i : Nat) : Lanes := kIota i (kChi (kPi (kRho (kTheta A))))

def keccakF (A : Lanes) : Lanes := (List.range 24).foldl kRound A

/-- The lane `(x, y)` of the state as 25 words. -/
def kLanes (v : Vector (BitVec 64) 25) : Lanes := fun x y => v[5 * y.val + x.val]

/-- The permutation on the state as 25 words. -/
def keccakPerm (v : Vector (BitVec 64) 25) : Vector (BitVec 64) 25 :=
  Vector.ofFn fun i : Fin 25 => keccakF (kLanes v) ⟨i.val % 5, by omega⟩ ⟨i.val / 5, by omega⟩

/-! ## MD2, RFC 1319 -/

/-- The first 722 decimal digits of π. -/
def piDigits : Nat :=
  31415926535897932384626433832795028841971693993751058209749445923078164062862089986280348253421170679821480865132823066470938446095505822317253594081284811174502841027019385211055596446229489549303819644288109756659334461284756482337867831652712019091456485669234603486104543266482133936072602491412737245870066063155881748815209209628292540917153643678925903600113305305488204665213841469519415116094330572703657595919530921861173819326117931051185480744623799627495673518857527248912279381830119491298336733624406566430860213949463952247371907021798609437027705392171762931767523846748184676694051320005681271452635608277857713427577896091736371787214684409012249534301465495853710507922796892589235420199561121290219608

/-- The `i`-th digit of π, from 0. -/
def piDigit (i : Nat) : Nat := piDigits / 10 ^ (721 - i) % 10

/-- A number below `n` from the digits of π from position `i` on: take one digit, two if `n > 10`,
three if `n > 100`, and reject if the number would not be uniform. Returns also the next position;
the first argument bounds the number of tries. -/
def piRandom : Nat → Nat → Nat → Nat × Nat
  | 0, _, i => (0, i)
  | k + 1, n, i =>
    let l := if n > 100 then 3 else if n > 10 then 2 else 1
    let x := (List.range l).foldl (fun x j => 10 * x + piDigit (i + j)) 0
    if x < n * (10 ^ l / n) then (x % n, i + l) else piRandom k n (i + l)

/-- The substitution table of MD2: the numbers below 256 shuffled with the digits of π. -/
def md2Table : List Nat :=
  ((List.range 255).foldl (fun (s : List Nat × Nat) k =>
    let r := piRandom 20 (k + 2) s.2
    ((s.1.set r.1 (s.1.getD (k + 1) 0)).set (k + 1) (s.1.getD r.1 0), r.2)) (List.range 256, 0)).1

def md2S (t : Byte) : Byte := BitVec.ofNat 8 (md2Table.getD t.toNat 0)

mutual

/-- Byte `k` of the buffer after `j` rounds over the buffer `X`. -/
def md2X (X : Nat → Byte) : Nat → Nat → Byte
  | 0, k => X k
  | j + 1, k => md2X X j k ^^^ md2S (md2t X j k)
termination_by j k => (j, k, 1)

/-- The value `t` when byte `k` is treated in round `j`. -/
def md2t (X : Nat → Byte) : Nat → Nat → Byte
  | 0, 0 => 0
  | j + 1, 0 => md2X X (j + 1) 47 + BitVec.ofNat 8 j
  | j, k + 1 => md2X X (j + 1) k
termination_by j k => (j + 1, k, 0)

end

/-- The buffer of a block: state, block, their sum. -/
def md2Buf (st b : Vector Byte 16) (k : Nat) : Byte :=
  if h : k < 16 then st[k] else if h : k < 32 then b[k - 16]
  else if h : k < 48 then b[k - 32] ^^^ st[k - 32] else 0

/-- The state after a block: the first 16 bytes after 18 rounds. -/
def md2State (st b : Vector Byte 16) : Vector Byte 16 :=
  Vector.ofFn fun k => md2X (md2Buf st b) 18 k.val

/-- Byte `j` of the checksum after a block; `c` is the checksum before it. -/
def md2C (c b : Vector Byte 16) : Nat → Byte
  | 0 => c[0] ^^^ md2S (b[0] ^^^ c[15])
  | j + 1 => if h : j + 1 < 16 then c[j + 1] ^^^ md2S (b[j + 1] ^^^ md2C c b j) else 0

def md2Step (s : Vector Byte 16 × Vector Byte 16) (b : Vector Byte 16) :
    Vector Byte 16 × Vector Byte 16 :=
  (md2State s.1 b, Vector.ofFn fun j => md2C s.2 b j.val)

/-! ## Whirlpool -/

/-- The exponential mini-box. -/
def whE : Vector (Fin 16) 16 := #v[1, 11, 9, 12, 13, 6, 15, 3, 14, 8, 7, 4, 10, 2, 5, 0]

/-- The inverse of `whE`. -/
def whEinv : Vector (Fin 16) 16 := #v[15, 0, 13, 7, 11, 14, 5, 10, 9, 2, 12, 1, 3, 4, 8, 6]

/-- The pseudo-random mini-box. -/
def whR : Vector (Fin 16) 16 := #v[7, 12, 11, 13, 14, 4, 9, 15, 6, 3, 8, 10, 2, 5, 1, 0]

/-- The substitution box from the mini-boxes. -/
def whS (x : Byte) : Byte :=
  let u := whE[Fin.ofNat 16 (x.toNat / 16)]
  let v := whEinv[Fin.ofNat 16 x.toNat]
  let w := whR[u ^^^ v]
  BitVec.ofNat 8 (16 * whE[u ^^^ w].val + whEinv[v ^^^ w].val)

/-- Multiplication by `X` in `GF(2)[X] / (X ^ 8 + X ^ 4 + X ^ 3 + X ^ 2 + 1)`. -/
def whX (a : Byte) : Byte := if a.getLsbD 7 then (a <<< 1) ^^^ 0x1d else a <<< 1

/-- Multiplication by a number below 16. -/
def whMul (a : Byte) (c : Nat) : Byte :=
  (if c.testBit 0 then a else 0) ^^^ (if c.testBit 1 then whX a else 0) ^^^
    (if c.testBit 2 then whX (whX a) else 0) ^^^ (if c.testBit 3 then whX (whX (whX a)) else 0)

/-- The matrix state. -/
abbrev WMat := Fin 8 → Fin 8 → Byte

/-- The nonlinear layer `γ`. -/
def whGamma (A : WMat) : WMat := fun i j => whS (A i j)

/-- The cyclical permutation `π`: column `j` moves down by `j` places. -/
def whPi (A : WMat) : WMat := fun i j => A (i - j) j

/-- The first row of the circulant matrix of the diffusion layer. -/
def whCir : Vector Nat 8 := #v[1, 1, 4, 1, 8, 5, 2, 9]

/-- The linear diffusion layer `θ`: multiplication by the circulant matrix from the right. -/
def whTheta (A : WMat) : WMat := fun i j =>
  (List.finRange 8).foldl (fun s k => s ^^^ whMul (A i k) whCir[j - k]) 0

/-- The key addition `σ[K]`. -/
def whSigma (K A : WMat) : WMat := fun i j => A i j ^^^ K i j

/-- The round constant of round `r`, from 0. -/
def whRC (r : Nat) : WMat := fun i j => if i = 0 then whS (BitVec.ofNat 8 (8 * r + j.val)) else 0

/-- The round function `ρ[K]`. -/
def whRho (K A : WMat) : WMat := whSigma K (whTheta (whPi (whGamma A)))

/-- The round keys. -/
def whKey (K : WMat) : Nat → WMat
  | 0 => K
  | r + 1 => whRho (whRC r) (whKey K r)

/-- The state after `r` rounds of the block cipher `W[K]`. -/
def whEnc (K P : WMat) : Nat → WMat
  | 0 => whSigma K P
  | r + 1 => whRho (whKey K (r + 1)) (whEnc K P r)

/-- The matrix of eight words, each a row, the first byte the highest. -/
def whMat (v : Fin 8 → BitVec 64) : WMat := fun i j => (v i).extractLsb' (56 - 8 * j.val) 8

/-- The Miyaguchi–Preneel step: `W[H](m) ^ H ^ m`. -/
def whCompress (H m : WMat) : WMat := fun i j => whEnc H m 10 i j ^^^ H i j ^^^ m i j

/-- The word of a row. -/
def whRow (r : Fin 8 → Byte) : BitVec 64 :=
  r 0 ++ r 1 ++ r 2 ++ r 3 ++ r 4 ++ r 5 ++ r 6 ++ r 7

def whirlpoolCompress (h : Vector (BitVec 64) 8) (b : List Byte) : Vector (BitVec 64) 8 :=
  Vector.ofFn fun i => whRow (whCompress (whMat fun i => h[i]) (whMat fun i => beWord 64 b i.val) i)

/-! ## GOST R 34.11-94, RFC 5831, with the S-boxes of RFC 4357 11.2 (CryptoPro) -/

/-- The S-boxes; the first is for the lowest four bits. -/
def gostBox : Vector (Vector (Fin 16) 16) 8 := #v[
  #v[10, 4, 5, 6, 8, 1, 3, 7, 13, 12, 14, 0, 9, 2, 11, 15],
  #v[5, 15, 4, 0, 2, 13, 11, 9, 1, 7, 6, 3, 12, 14, 10, 8],
  #v[7, 15, 12, 14, 9, 4, 1, 0, 3, 11, 5, 2, 6, 10, 8, 13],
  #v[4, 10, 7, 12, 0, 15, 2, 8, 14, 1, 6, 5, 13, 11, 9, 3],
  #v[7, 6, 4, 11, 9, 12, 2, 10, 1, 8, 0, 14, 15, 13, 3, 5],
  #v[7, 6, 2, 4, 13, 9, 15, 0, 10, 1, 5, 11, 8, 14, 12, 3],
  #v[13, 14, 4, 1, 7, 0, 5, 10, 3, 12, 8, 15, 6, 2, 9, 11],
  #v[1, 3, 10, 9, 5, 11, 4, 15, 8, 6, 7, 14, 13, 0, 2, 12]]

/-- The substitution on the half byte number `n` of a word. -/
def gostNib (x : BitVec 32) (n : Fin 8) : BitVec 4 :=
  BitVec.ofNat 4 (gostBox[n][(x.extractLsb' (4 * n.val) 4).toNat]'(BitVec.isLt _)).val

/-- The substitution on the eight half bytes of a word. -/
def gostSub (x : BitVec 32) : BitVec 32 :=
  gostNib x 7 ++ gostNib x 6 ++ gostNib x 5 ++ gostNib x 4 ++ gostNib x 3 ++ gostNib x 2 ++
    gostNib x 1 ++ gostNib x 0

/-- One round of GOST 28147-89 on the halves `(N₁, N₂)`. -/
def gostRound (s : BitVec 32 × BitVec 32) (k : BitVec 32) : BitVec 32 × BitVec 32 :=
  (s.2 ^^^ (gostSub (s.1 + k)).rotateLeft 11, s.1)

/-- GOST 28147-89 encryption of a block of 64 bits with the eight key words: three times upwards, once
downwards, and the halves are not swapped in the last round. -/
def gostE (key : Fin 8 → BitVec 32) (b : BitVec 64) : BitVec 64 :=
  let k := List.ofFn key
  let s := (k ++ k ++ k ++ k.reverse).foldl gostRound (b.extractLsb' 0 32, b.extractLsb' 32 32)
  (s.1 ++ s.2 : BitVec 64)

/-- `A(y₄ ‖ y₃ ‖ y₂ ‖ y₁) = (y₁ ⊕ y₂) ‖ y₄ ‖ y₃ ‖ y₂`. -/
def gostA (y : BitVec 256) : BitVec 256 :=
  (y.extractLsb' 0 64 ^^^ y.extractLsb' 64 64) ++ y.extractLsb' 64 192

/-- Byte `j` (from 0, the lowest first) of a word of 256 bits. -/
def gostByte (y : BitVec 256) (j : Nat) : Byte := y.extractLsb' (8 * j) 8

/-- The key words: byte `φ(i + 1 + 4 (k - 1)) = 8 i + k` of the standard, that is byte `i` of key word
`k` (both from 0) is byte `8 i + k`. -/
def gostP (y : BitVec 256) (k : Fin 8) : BitVec 32 :=
  gostByte y (24 + k) ++ gostByte y (16 + k) ++ gostByte y (8 + k) ++ gostByte y k

/-- The constant `C₃`. -/
def gostC3 : BitVec 256 := 0xff00ffff000000ffff0000ff00ffff0000ff00ff00ff00ffff00ff00ff00ff00

/-- The pairs `(U, V)` of the key generation. -/
def gostUV (H M : BitVec 256) : Nat → BitVec 256 × BitVec 256
  | 0 => (H, M)
  | j + 1 =>
    let p := gostUV H M j
    (gostA p.1 ^^^ (if j = 1 then gostC3 else 0), gostA (gostA p.2))

/-- The four keys. -/
def gostKey (H M : BitVec 256) (j : Nat) (k : Fin 8) : BitVec 32 :=
  gostP ((gostUV H M j).1 ^^^ (gostUV H M j).2) k

/-- The four blocks of the state encrypted. -/
def gostS (H M : BitVec 256) : BitVec 256 :=
  gostE (gostKey H M 3) (H.extractLsb' 192 64) ++ gostE (gostKey H M 2) (H.extractLsb' 128 64) ++
    gostE (gostKey H M 1) (H.extractLsb' 64 64) ++ gostE (gostKey H M 0) (H.extractLsb' 0 64)

/-- `ψ(η₁₆ ‖ ... ‖ η₁) = (η₁ ⊕ η₂ ⊕ η₃ ⊕ η₄ ⊕ η₁₃ ⊕ η₁₆) ‖ η₁₆ ‖ ... ‖ η₂`, words of 16 bits. -/
def gostPsi (y : BitVec 256) : BitVec 256 :=
  let e := fun i => y.extractLsb' (16 * (i - 1)) 16
  (e 1 ^^^ e 2 ^^^ e 3 ^^^ e 4 ^^^ e 13 ^^^ e 16) ++ y.extractLsb' 16 240

/-- The step function `ψ⁶¹(H ⊕ ψ(M ⊕ ψ¹²(S)))`. -/
def gostStep (H M : BitVec 256) : BitVec 256 :=
  gostPsi^[61] (H ^^^ gostPsi (M ^^^ gostPsi^[12] (gostS H M)))

/-- The number of 256 bits that 32 bytes stand for, the first byte the lowest. -/
def gostNum (b : List Byte) : BitVec 256 := BitVec.ofNat 256 (leVal b)

/-- The step function on bytes. -/
def gost94Compress (h m : Vector Byte 32) : Vector Byte 32 :=
  Vector.ofFn fun i => gostByte (gostStep (gostNum h.toList) (gostNum m.toList)) i.val

end Torsion.Spec.Std
