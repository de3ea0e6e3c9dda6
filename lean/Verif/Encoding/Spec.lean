import Verif.Basic

/-!
# Independent specification of the text encodings (RFC 4648)

Nothing here refers to the C code: bit strings, groups of bits, alphabets given by formulae.
-/
namespace Torsion.Spec

/-- ASCII lower-casing. -/
def lower (c : Byte) : Byte :=
  if 65 ≤ c.toNat ∧ c.toNat ≤ 90 then c + 32 else c

/-- `0`-`9`, `a`-`f`, `A`-`F`. -/
def IsHex (c : Byte) : Prop :=
  (48 ≤ c.toNat ∧ c.toNat ≤ 57) ∨ (97 ≤ c.toNat ∧ c.toNat ≤ 102) ∨
    (65 ≤ c.toNat ∧ c.toNat ≤ 70)

instance (c : Byte) : Decidable (IsHex c) := by unfold IsHex; infer_instance

/-- The lower-case hexadecimal digit of `n < 16`. -/
def hexDigit (n : Nat) : Byte :=
  if n < 10 then BitVec.ofNat 8 (48 + n) else BitVec.ofNat 8 (97 + (n - 10))

/-- RFC 4648 section 8: most significant nibble first. -/
def hex (b : Byte) : List Byte := [hexDigit (b.toNat / 16), hexDigit (b.toNat % 16)]

/-- Value of a hexadecimal digit of either case. -/
def hexVal (c : Byte) : Nat :=
  if c.toNat ≤ 57 then c.toNat - 48 else if 97 ≤ c.toNat then c.toNat - 87 else c.toNat - 55

/-- Bits of a byte, most significant first. -/
def byteBits (b : Byte) : List Bool :=
  [b.getLsbD 7, b.getLsbD 6, b.getLsbD 5, b.getLsbD 4,
   b.getLsbD 3, b.getLsbD 2, b.getLsbD 1, b.getLsbD 0]

/-- Bit string of a byte string. -/
def bits (bs : List Byte) : List Bool := bs.flatMap byteBits

/-- Number written by a most-significant-first bit string. -/
def bitsVal (l : List Bool) : Nat := l.foldl (fun acc b => 2 * acc + b.toNat) 0

/-- Cut a bit string into groups of `k` (the last one padded on the right with zero bits), as
RFC 4648 prescribes, and read every group as a number. -/
def groups (k : Nat) (l : List Bool) : List Nat :=
  if _h : l = [] ∨ k = 0 then []
  else bitsVal (l.take k ++ List.replicate (k - l.length) false) :: groups k (l.drop k)
termination_by l.length
decreasing_by
  have : 0 < l.length := List.length_pos_iff.2 (fun h' => _h (Or.inl h'))
  rw [List.length_drop]; omega

/-- RFC 4648 table 3 (lower-cased): `a`-`z`, `2`-`7`. -/
def base32Char (n : Nat) : Byte :=
  if n < 26 then BitVec.ofNat 8 (97 + n) else BitVec.ofNat 8 (50 + (n - 26))

/-- RFC 4648 table 4 (lower-cased): `0`-`9`, `a`-`v`. -/
def base32hexChar (n : Nat) : Byte :=
  if n < 10 then BitVec.ofNat 8 (48 + n) else BitVec.ofNat 8 (97 + (n - 10))

/-- RFC 4648 table 1. -/
def base64Char (n : Nat) : Byte :=
  if n < 26 then BitVec.ofNat 8 (65 + n)
  else if n < 52 then BitVec.ofNat 8 (97 + (n - 26))
  else if n < 62 then BitVec.ofNat 8 (48 + (n - 52))
  else if n = 62 then 43 else 47

/-- RFC 4648 table 2. -/
def base64urlChar (n : Nat) : Byte :=
  if n < 62 then base64Char n else if n = 62 then 45 else 95

/-- `=` characters needed to reach a multiple of `m` characters. -/
def eqPad (m n : Nat) : List Byte := List.replicate ((m - n % m) % m) 61

/-- RFC 4648: `k`-bit groups through an alphabet, padded to a multiple of `m` characters
when `pad`. -/
def encode (k m : Nat) (alphabet : Nat → Byte) (pad : Bool) (bs : List Byte) : List Byte :=
  let t := (groups k (bits bs)).map alphabet
  if pad then t ++ eqPad m t.length else t

end Torsion.Spec
