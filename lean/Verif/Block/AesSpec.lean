import Verif.Common.Buffer
import Verif.Util.Bio

/-!
# Specification of AES (FIPS 197)

A state is its 16 bytes in the order of the input: the byte in row `r` and column `c` is byte
`r + 4 * c` (FIPS 197, 3.4).
-/
namespace Torsion.Spec

/-- FIPS 197, 4.2.1: multiplication by `x`. -/
def xtime (b : Byte) : Byte := (b <<< 1) ^^^ (if b.getLsbD 7 then 0x1b else 0)

/-- The sum of the products of `a` with the lowest `n` powers of `x` in `b`. -/
def gmulN : Nat → Byte → Byte → Byte
  | 0, _, _ => 0
  | n + 1, a, b => (if b.getLsbD 0 then a else 0) ^^^ gmulN n (xtime a) (b >>> 1)

/-- FIPS 197, 4.2: multiplication modulo `x^8 + x^4 + x^3 + x + 1`. -/
def gmul (a b : Byte) : Byte := gmulN 8 a b

/-- FIPS 197, 5.1.1: the multiplicative inverse, 0 for 0: the power 254. -/
def ginv (a : Byte) : Byte :=
  let a2 := gmul a a
  let a4 := gmul a2 a2
  let a8 := gmul a4 a4
  let a16 := gmul a8 a8
  let a32 := gmul a16 a16
  let a64 := gmul a32 a32
  let a128 := gmul a64 a64
  gmul a2 (gmul a4 (gmul a8 (gmul a16 (gmul a32 (gmul a64 a128)))))

/-- FIPS 197, (5.1): the affine transformation of the S-box. -/
def saffine (b : Byte) : Byte :=
  b ^^^ b.rotateLeft 1 ^^^ b.rotateLeft 2 ^^^ b.rotateLeft 3 ^^^ b.rotateLeft 4 ^^^ 0x63

/-- FIPS 197, 5.1.1: the S-box. -/
def sbox (b : Byte) : Byte := saffine (ginv b)

/-- FIPS 197, 5.1.1. -/
def subBytes (s : Vector Byte 16) : Vector Byte 16 := Vector.ofFn fun i => sbox s[i]

/-- FIPS 197, 5.1.2: row `r` is moved by `r` columns. -/
def shiftRows (s : Vector Byte 16) : Vector Byte 16 :=
  Vector.ofFn fun i : Fin 16 => s[(i.val + 4 * (i.val % 4)) % 16]'(Nat.mod_lt _ (by decide))

/-- The byte `j` rows below byte `i` in the same column. -/
def below (s : Vector Byte 16) (i : Fin 16) (j : Nat) : Byte :=
  s[4 * (i.val / 4) + (i.val + j) % 4]'(by omega)

/-- FIPS 197, 5.1.3. -/
def mixColumns (s : Vector Byte 16) : Vector Byte 16 :=
  Vector.ofFn fun i : Fin 16 =>
    gmul 2 (below s i 0) ^^^ gmul 3 (below s i 1) ^^^ below s i 2 ^^^ below s i 3

/-- FIPS 197, 5.1.4; the round key as 16 bytes. -/
def addRoundKey (s k : Vector Byte 16) : Vector Byte 16 := Vector.ofFn fun i => s[i] ^^^ k[i]

/-- The rounds 1 to `n` of FIPS 197, 5.1. -/
def encRounds (rk : Nat → Vector Byte 16) : Nat → Vector Byte 16 → Vector Byte 16
  | 0, s => s
  | n + 1, s => addRoundKey (mixColumns (shiftRows (subBytes (encRounds rk n s)))) (rk (n + 1))

/-- FIPS 197, 5.1: the cipher with `nr` rounds. -/
def aesCipher (nr : Nat) (rk : Nat → Vector Byte 16) (s : Vector Byte 16) : Vector Byte 16 :=
  addRoundKey (shiftRows (subBytes (encRounds rk (nr - 1) (addRoundKey s (rk 0))))) (rk nr)

/-- FIPS 197, 5.3.1: row `r` is moved back by `r` columns. -/
def invShiftRows (s : Vector Byte 16) : Vector Byte 16 :=
  Vector.ofFn fun i : Fin 16 => s[(i.val + 12 * (i.val % 4)) % 16]'(Nat.mod_lt _ (by decide))

/-- FIPS 197, 5.3.3. -/
def invMixColumns (s : Vector Byte 16) : Vector Byte 16 :=
  Vector.ofFn fun i : Fin 16 =>
    gmul 14 (below s i 0) ^^^ gmul 11 (below s i 1) ^^^ gmul 13 (below s i 2) ^^^
      gmul 9 (below s i 3)

/-- FIPS 197, 5.3.2: `isb` is the inverse of the S-box. -/
def invSubBytes (isb : Byte → Byte) (s : Vector Byte 16) : Vector Byte 16 :=
  Vector.ofFn fun i => isb s[i]

/-- The rounds `n` down to 1 of FIPS 197, 5.3. -/
def decRounds (isb : Byte → Byte) (rk : Nat → Vector Byte 16) :
    Nat → Vector Byte 16 → Vector Byte 16
  | 0, s => s
  | n + 1, s => decRounds isb rk n
      (invMixColumns (addRoundKey (invSubBytes isb (invShiftRows s)) (rk (n + 1))))

/-- FIPS 197, 5.3: the inverse cipher with `nr` rounds. -/
def aesInvCipher (isb : Byte → Byte) (nr : Nat) (rk : Nat → Vector Byte 16) (s : Vector Byte 16) :
    Vector Byte 16 :=
  addRoundKey (invSubBytes isb (invShiftRows
    (decRounds isb rk (nr - 1) (addRoundKey s (rk nr))))) (rk 0)

/-- Four bytes as a word, the first one on top. -/
def word4 (a b c d : Byte) : BitVec 32 := a ++ b ++ c ++ d

/-- FIPS 197, 5.2. -/
def subWord (w : BitVec 32) : BitVec 32 :=
  word4 (sbox (w.extractLsb' 24 8)) (sbox (w.extractLsb' 16 8)) (sbox (w.extractLsb' 8 8))
    (sbox (w.extractLsb' 0 8))

/-- FIPS 197, 5.2. -/
def rotWord (w : BitVec 32) : BitVec 32 := w.rotateLeft 8

/-- FIPS 197, 5.2: `x^(j - 1)` in the first byte. -/
def rcon : Nat → Byte
  | 0 => 0
  | 1 => 1
  | j + 2 => xtime (rcon (j + 1))

/-- FIPS 197, 5.2: word `i` of the key schedule for a key of `nk` words (there is none without
words). -/
def aesWord (nk : Nat) (key : Vector Byte (4 * nk)) (i : Nat) : BitVec 32 :=
  if h : i < nk then word4 key[4 * i] key[4 * i + 1] key[4 * i + 2] key[4 * i + 3]
  else if h0 : nk = 0 then 0
  else
    let temp := aesWord nk key (i - 1)
    let temp := if i % nk = 0 then subWord (rotWord temp) ^^^ word4 (rcon (i / nk)) 0 0 0
      else if 6 < nk ∧ i % nk = 4 then subWord temp
      else temp
    aesWord nk key (i - nk) ^^^ temp
termination_by i
decreasing_by all_goals omega

/-- Round key `j` as 16 bytes. -/
def aesRoundKey (nk : Nat) (key : Vector Byte (4 * nk)) (j : Nat) : Vector Byte 16 :=
  Vector.ofFn fun i : Fin 16 =>
    (aesWord nk key (4 * j + i.val / 4)).extractLsb' (24 - 8 * (i.val % 4)) 8

end Torsion.Spec
