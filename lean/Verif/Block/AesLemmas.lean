import Verif.Block.Aes
import Verif.Block.AesSpec
import Verif.Block.Lemmas

/-!
AES: the tables against FIPS 197.
-/
namespace Torsion.Blkc
open Spec

/-- The S-box as it is in the table `TE1`. -/
def sb (x : Byte) : Byte := byt (tbl aes_TE1 x) 0

theorem forall_byte {p : Byte → Prop} (h : ∀ i : Fin 256, p (BitVec.ofFin i)) : ∀ x : Byte, p x :=
  fun x => h x.toFin

theorem sb_eq_sbox : ∀ x : Byte, sb x = sbox x := by
  apply forall_byte
  decide +kernel

theorem te_bytes : ∀ x : Byte,
    (byt (tbl aes_TE0 x) 24 = gmul 2 (sb x) ∧ byt (tbl aes_TE0 x) 16 = sb x ∧
      byt (tbl aes_TE0 x) 8 = sb x ∧ byt (tbl aes_TE0 x) 0 = gmul 3 (sb x)) ∧
    (byt (tbl aes_TE1 x) 24 = gmul 3 (sb x) ∧ byt (tbl aes_TE1 x) 16 = gmul 2 (sb x) ∧
      byt (tbl aes_TE1 x) 8 = sb x ∧ byt (tbl aes_TE1 x) 0 = sb x) ∧
    (byt (tbl aes_TE2 x) 24 = sb x ∧ byt (tbl aes_TE2 x) 16 = gmul 3 (sb x) ∧
      byt (tbl aes_TE2 x) 8 = gmul 2 (sb x) ∧ byt (tbl aes_TE2 x) 0 = sb x) ∧
    (byt (tbl aes_TE3 x) 24 = sb x ∧ byt (tbl aes_TE3 x) 16 = sb x ∧
      byt (tbl aes_TE3 x) 8 = gmul 3 (sb x) ∧ byt (tbl aes_TE3 x) 0 = gmul 2 (sb x)) := by
  apply forall_byte
  decide +kernel

/-- The inverse S-box as it is in the table `TD4`. -/
def isb (x : Byte) : Byte := tbl aes_TD4 x

theorem isb_sb : ∀ x : Byte, isb (sb x) = x := by
  apply forall_byte
  decide +kernel

theorem td_bytes : ∀ x : Byte,
    (byt (tbl aes_TD0 x) 24 = gmul 14 (isb x) ∧ byt (tbl aes_TD0 x) 16 = gmul 9 (isb x) ∧
      byt (tbl aes_TD0 x) 8 = gmul 13 (isb x) ∧ byt (tbl aes_TD0 x) 0 = gmul 11 (isb x)) ∧
    (byt (tbl aes_TD1 x) 24 = gmul 11 (isb x) ∧ byt (tbl aes_TD1 x) 16 = gmul 14 (isb x) ∧
      byt (tbl aes_TD1 x) 8 = gmul 9 (isb x) ∧ byt (tbl aes_TD1 x) 0 = gmul 13 (isb x)) ∧
    (byt (tbl aes_TD2 x) 24 = gmul 13 (isb x) ∧ byt (tbl aes_TD2 x) 16 = gmul 11 (isb x) ∧
      byt (tbl aes_TD2 x) 8 = gmul 14 (isb x) ∧ byt (tbl aes_TD2 x) 0 = gmul 9 (isb x)) ∧
    (byt (tbl aes_TD3 x) 24 = gmul 9 (isb x) ∧ byt (tbl aes_TD3 x) 16 = gmul 13 (isb x) ∧
      byt (tbl aes_TD3 x) 8 = gmul 11 (isb x) ∧ byt (tbl aes_TD3 x) 0 = gmul 14 (isb x)) := by
  apply forall_byte
  decide +kernel

theorem mix_inv : ∀ x : Byte,
    gmul 14 (gmul 2 x) ^^^ gmul 11 x ^^^ gmul 13 x ^^^ gmul 9 (gmul 3 x) = x ∧
    gmul 14 (gmul 3 x) ^^^ gmul 11 (gmul 2 x) ^^^ gmul 13 x ^^^ gmul 9 x = 0 ∧
    gmul 14 x ^^^ gmul 11 (gmul 3 x) ^^^ gmul 13 (gmul 2 x) ^^^ gmul 9 x = 0 ∧
    gmul 14 x ^^^ gmul 11 x ^^^ gmul 13 (gmul 3 x) ^^^ gmul 9 (gmul 2 x) = 0 := by
  apply forall_byte
  decide +kernel

end Torsion.Blkc
