import Verif.Block.Cipher
import Verif.Cipher.Modes
import Batteries.Data.BitVec.Lemmas

/-!
# Specification of the block ciphers

Written from the published descriptions (Serpent: Anderson, Biham, Knudsen 1998).
-/
namespace Torsion.Spec

/-- The eight S-boxes of Serpent. -/
def serpentS : Vector (Vector (Fin 16) 16) 8 :=
  #v[#v[3, 8, 15, 1, 10, 6, 5, 11, 14, 13, 4, 2, 7, 0, 9, 12],
     #v[15, 12, 2, 7, 9, 0, 5, 10, 1, 11, 14, 8, 6, 13, 3, 4],
     #v[8, 6, 7, 9, 3, 12, 10, 15, 13, 1, 14, 4, 0, 11, 5, 2],
     #v[0, 15, 11, 8, 12, 9, 6, 3, 13, 1, 2, 4, 10, 7, 5, 14],
     #v[1, 15, 8, 3, 12, 0, 11, 6, 2, 5, 4, 10, 9, 14, 7, 13],
     #v[15, 5, 2, 11, 4, 10, 9, 12, 0, 3, 14, 8, 13, 6, 7, 1],
     #v[7, 2, 12, 5, 8, 4, 6, 11, 14, 9, 1, 15, 13, 3, 10, 0],
     #v[1, 13, 15, 0, 14, 8, 2, 11, 7, 4, 12, 10, 9, 3, 5, 6]]

/-- The entry of a table at the four bits, `a` the lowest one. -/
def nibbleAt (t : Vector (Fin 16) 16) (a b c d : Bool) : Nat :=
  t[(Fin.ofNat 16 (a.toNat + 2 * b.toNat + 4 * c.toNat + 8 * d.toNat))].val

/-- A table applied to the 32 groups of bits with the same position in the four words. -/
def sliceBox (t : Vector (Fin 16) 16) (q : Quad) : Quad :=
  let v (i : Fin 32) : Nat := nibbleAt t (q.a.getLsbD i) (q.b.getLsbD i) (q.c.getLsbD i) (q.d.getLsbD i)
  ⟨BitVec.ofFnLE fun i => (v i).testBit 0, BitVec.ofFnLE fun i => (v i).testBit 1,
   BitVec.ofFnLE fun i => (v i).testBit 2, BitVec.ofFnLE fun i => (v i).testBit 3⟩

/-- The number a 16-bit word stands for in the multiplication of IDEA. -/
def ideaVal (x : BitVec 16) : Nat := if x.toNat = 0 then 65536 else x.toNat

/-- The key lengths (in bytes) each cipher takes. -/
def keyLengths : CipherId → List Nat
  | .aes128 | .camellia128 | .serpent128 | .twofish128 => [16]
  | .aes192 | .camellia192 | .serpent192 | .twofish192 => [24]
  | .aes256 | .camellia256 | .serpent256 | .twofish256 => [32]
  | .arc2 | .arc2_gutmann => List.range' 1 128
  | .arc2_40 => [5]
  | .arc2_64 => [8]
  | .arc2_128 | .arc2_128_gutmann => [16]
  | .blowfish => List.range' 1 72
  | .cast5 | .idea | .des_ede => [16]
  | .des => [8]
  | .des_ede3 => [24]
  | .other => []

/-- The block length (in bytes) of each cipher. -/
def blockLength : CipherId → Nat
  | .aes128 | .camellia128 | .serpent128 | .twofish128 => 16
  | .aes192 | .camellia192 | .serpent192 | .twofish192 => 16
  | .aes256 | .camellia256 | .serpent256 | .twofish256 => 16
  | .other => 0
  | _ => 8

/-- The two functions a context computes on blocks of `n` bytes. -/
def Computes {n : Nat} (ctx : CipherT) (c : Cipher n) : Prop :=
  ∀ b : Vector Byte n, cipher_encrypt ctx b.toList = .ok (c.enc b).toList ∧
    cipher_decrypt ctx b.toList = .ok (c.dec b).toList

end Torsion.Spec
