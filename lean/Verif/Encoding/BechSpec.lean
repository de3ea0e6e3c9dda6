import Verif.Encoding.Spec

/-!
# Independent specification of Bech32 (BIP 173) and CashAddr strings

Written from the BIP / the CashAddr description; arithmetic on natural numbers, nothing from the
C code.
-/
namespace Torsion.Spec

/-- Sum (xor) of the generators selected by the bits of `b`. -/
def genSum : List Nat → Nat → Nat
  | [], _ => 0
  | g :: gs, b => (if b % 2 = 1 then g else 0) ^^^ genSum gs (b / 2)

/-- One step of the BCH checksum: multiply the residue (of `k + 5` bits) by `x`, reduce by the
generator polynomial, add the symbol `v`. -/
def polyStep (k : Nat) (gen : List Nat) (c v : Nat) : Nat :=
  (c % 2 ^ k) * 32 ^^^ genSum gen (c / 2 ^ k) ^^^ v

/-- The residue of a symbol sequence (initial value 1). -/
def polymod (k : Nat) (gen : List Nat) (vs : List Nat) : Nat := vs.foldl (polyStep k gen) 1

/-- BIP 173 generator. -/
def bech32Gen : List Nat := [0x3b6a57b2, 0x26508e6d, 0x1ea119fa, 0x3d4233dd, 0x2a1462b3]

/-- CashAddr generator. -/
def cash32Gen : List Nat :=
  [0x98f2bc8e61, 0x79b76d99e2, 0xf33e5fb3c4, 0xae2eabe2a8, 0x1e4f43e470]

/-- The alphabet shared by Bech32 and CashAddr. -/
def bechAlphabet : List Char := "qpzry9x8gf2tvdw0s3jn54khce6mua7l".toList

/-- Character of a 5-bit symbol. -/
def bechChar (n : Nat) : Byte := BitVec.ofNat 8 (bechAlphabet.getD n '?').toNat

/-- BIP 173: high bits of the prefix characters, zero, low five bits. -/
def hrpExpand (hrp : List Byte) : List Nat :=
  hrp.map (·.toNat / 32) ++ [0] ++ hrp.map (·.toNat % 32)

def IsUpper (c : Byte) : Prop := 65 ≤ c.toNat ∧ c.toNat ≤ 90
def IsLower (c : Byte) : Prop := 97 ≤ c.toNat ∧ c.toNat ≤ 122

instance (c : Byte) : Decidable (IsUpper c) := by unfold IsUpper; infer_instance
instance (c : Byte) : Decidable (IsLower c) := by unfold IsLower; infer_instance

/-- The string contains letters of both cases. -/
def Mixed (s : List Byte) : Prop := (∃ c ∈ s, IsLower c) ∧ ∃ c ∈ s, IsUpper c

/-- `s` is the (lower-case) Bech32 string of prefix `hrp` and symbols `data` for the checksum
constant `const` (1 for Bech32, 0x2bc830a3 for Bech32m). -/
def Bech32String (const : Nat) (hrp data s : List Byte) : Prop :=
  1 ≤ hrp.length ∧
  (∀ c ∈ hrp, 33 ≤ c.toNat ∧ c.toNat ≤ 126 ∧ ¬ IsUpper c) ∧
  (∀ d ∈ data, d.toNat < 32) ∧
  s.length ≤ 90 ∧
  ∃ chk : List Byte, chk.length = 6 ∧ (∀ d ∈ chk, d.toNat < 32) ∧
    s = hrp ++ 49 :: (data ++ chk).map (fun d => bechChar d.toNat) ∧
    polymod 25 bech32Gen (hrpExpand hrp ++ (data ++ chk).map (·.toNat)) = const

/-- `s` is the (lower-case, prefixed) CashAddr string of prefix `pfx` and symbols `data`. -/
def Cash32String (pfx data s : List Byte) : Prop :=
  1 ≤ pfx.length ∧ pfx.length ≤ 83 ∧
  (∀ c ∈ pfx, IsLower c) ∧
  (∀ d ∈ data, d.toNat < 32) ∧
  data.length ≤ 104 ∧
  ∃ chk : List Byte, chk.length = 8 ∧ (∀ d ∈ chk, d.toNat < 32) ∧
    s = pfx ++ 58 :: (data ++ chk).map (fun d => bechChar d.toNat) ∧
    polymod 35 cash32Gen (pfx.map (·.toNat % 32) ++ [0] ++ (data ++ chk).map (·.toNat)) = 1

end Torsion.Spec
