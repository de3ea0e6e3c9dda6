import Verif.Block.BlowfishSpec
import Verif.Encoding.Spec
import Verif.Encoding.BitsLemmas
import Verif.Hash.Spec

/-!
# Independent specification of bcrypt (Provos and Mazières, 1999) and of bcrypt_pbkdf (OpenBSD)
-/
namespace Torsion.Spec

/-- The bytes of a text in ASCII. -/
def asciiStr (s : String) : List Byte := s.toList.map fun c => BitVec.ofNat 8 c.toNat

/-- The alphabet `./A-Za-z0-9` of bcrypt. -/
def bcryptChar (n : Nat) : Byte :=
  if n < 2 then BitVec.ofNat 8 (46 + n)
  else if n < 28 then BitVec.ofNat 8 (65 + (n - 2))
  else if n < 54 then BitVec.ofNat 8 (97 + (n - 28))
  else BitVec.ofNat 8 (48 + (n - 54))

/-- EksBlowfishSetup: the salted key schedule, then 2 ^ cost times the schedule with the key and with the salt. -/
noncomputable def eksBlowfish (cost : Nat) (salt key : List Byte) : BfState :=
  (fun s => bfExpand (bfExpand s [] key) [] salt)^[2 ^ cost] (bfExpand bfPi salt key)

/-- Block number `i` of a text, encrypted 64 times. -/
def bfEncrypt64 (s : BfState) (m : List Byte) (i : Nat) : BitVec 32 × BitVec 32 :=
  (bfEncrypt s)^[64] (cycWord m (2 * i), cycWord m (2 * i + 1))

/-- The hash of bcrypt: the three blocks of "OrpheanBeholderScryDoubt", encrypted 64 times; the last byte is dropped. -/
noncomputable def bcryptHash (cost : Nat) (salt key : List Byte) : List Byte :=
  ((List.range 3).flatMap fun i =>
    let y := bfEncrypt64 (eksBlowfish cost salt key) (asciiStr "OrpheanBeholderScryDoubt") i
    be32 y.1 ++ be32 y.2).take 23

/-- A record: version, cost in two digits, salt and hash in base 64 without padding. -/
def bcryptRecord (minor : Byte) (cost : Nat) (salt hash : List Byte) : List Byte :=
  asciiStr "$2" ++ [minor] ++ asciiStr "$" ++ [BitVec.ofNat 8 (48 + cost / 10), BitVec.ofNat 8 (48 + cost % 10)] ++ asciiStr "$" ++
    encode 6 4 bcryptChar false salt ++ encode 6 4 bcryptChar false hash

/-- The 64 records which are read as the same salt and hash: the last character of the salt has four bits without a meaning,
the one of the hash two. -/
def IsBcryptRecord (minor : Byte) (cost : Nat) (salt hash : List Byte) (s : List Byte) : Prop :=
  ∃ v1 v2 : List Nat, v1.length = 22 ∧ v2.length = 31 ∧ (∀ v ∈ v1, v < 64) ∧ (∀ v ∈ v2, v < 64) ∧
    bits salt = (bitsK 6 v1).take 128 ∧ bits hash = (bitsK 6 v2).take 184 ∧
    s = asciiStr "$2" ++ [minor] ++ asciiStr "$" ++ [BitVec.ofNat 8 (48 + cost / 10), BitVec.ofNat 8 (48 + cost % 10)] ++ asciiStr "$" ++
      v1.map bcryptChar ++ v2.map bcryptChar

/-- The four bytes of a word, least significant first. -/
def le32 (w : BitVec 32) : List Byte := [0, 8, 16, 24].map fun k => BitVec.ofNat 8 (w.toNat / 2 ^ k)

/-- bcrypt_hash of OpenBSD: 64 times the schedule with the salt and with the key, the four blocks of
"OxychromaticBlowfishSwatDynamite" encrypted 64 times, words least significant byte first. -/
noncomputable def bcryptBlock (key salt : List Byte) : List Byte :=
  let s := (fun s => bfExpand (bfExpand s [] salt) [] key)^[64] (bfExpand bfPi salt key)
  (List.range 4).flatMap fun i =>
    let y := bfEncrypt64 s (asciiStr "OxychromaticBlowfishSwatDynamite") i
    le32 y.1 ++ le32 y.2

/-- The blocks that are added for one number `count`: each from the SHA-512 of the one before. -/
noncomputable def pbkdfChain (pass salt : List Byte) (count : Nat) : Nat → List Byte
  | 0 => bcryptBlock (sha512 pass) (sha512 (salt ++ be32 (BitVec.ofNat 32 count)))
  | i + 1 => bcryptBlock (sha512 pass) (sha512 (pbkdfChain pass salt count i))

/-- Byte `j` of the sum of `rounds` blocks. -/
noncomputable def pbkdfByte (pass salt : List Byte) (rounds count j : Nat) : Byte :=
  (List.range rounds).foldl (fun a i => a ^^^ (pbkdfChain pass salt count i).getD j 0) 0

/-- bcrypt_pbkdf: the bytes of the sums for count = 1, 2, … are spread over the key: with stride = ⌈size / 32⌉, byte `p` of the
key is byte ⌊p / stride⌋ of the sum number p mod stride + 1. -/
noncomputable def bcryptPbkdf (pass salt : List Byte) (rounds size : Nat) : List Byte :=
  (List.range size).map fun p =>
    pbkdfByte pass salt rounds (p % ((size + 31) / 32) + 1) (p / ((size + 31) / 32))

end Torsion.Spec
