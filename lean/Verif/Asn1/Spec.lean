import Verif.Util.Spec

/-!
# Independent specification of the DER encodings used by libtorsion (X.690)
-/
namespace Torsion.Spec

/-- The shortest big-endian byte string of value `v` (empty for zero). -/
def beBytes (v : Nat) : List Byte := ((Nat.digits 256 v).map (BitVec.ofNat 8)).reverse

/-- X.690 10.1: the definite-form length octets with the fewest octets. -/
def derLen (n : Nat) : List Byte :=
  if n < 128 then [BitVec.ofNat 8 n]
  else BitVec.ofNat 8 (128 + (beBytes n).length) :: beBytes n

/-- X.690 8.3: the contents octets of a non-negative INTEGER: shortest two's complement. -/
def derContent (v : Nat) : List Byte :=
  match beBytes v with
  | [] => [0]
  | c :: b => if c.toNat < 128 then c :: b else 0 :: c :: b

/-- DER of the INTEGER `v`. -/
def derInt (v : Nat) : List Byte := 2 :: (derLen (derContent v).length ++ derContent v)

/-- X.690 8.1.3: any definite-form length octets for `n` (BER), for `n` below 2^32; the indefinite
form octet 0x80 counts as length zero. -/
def BerLen (n : Nat) (enc : List Byte) : Prop :=
  (n < 128 ∧ enc = [BitVec.ofNat 8 n]) ∨
  ∃ bs : List Byte, bs.length ≤ 127 ∧ enc = BitVec.ofNat 8 (128 + bs.length) :: bs ∧
    beVal bs = n ∧ n < 2 ^ 32

/-- Length octets accepted in strict (DER) and lax (BER) mode. -/
def LenEnc (strict : Bool) (n : Nat) (enc : List Byte) : Prop :=
  if strict then n < 2 ^ 32 ∧ enc = derLen n else BerLen n enc

end Torsion.Spec
