import Verif.Block.AesLemmas
import Mathlib.Tactic.IntervalCases

/-!
AES: the rounds of the code on words are the rounds of FIPS 197 on bytes.
-/
namespace Torsion.Blkc
open Spec

theorem byt_xor (a b : BitVec 32) (n : Nat) : byt (a ^^^ b) n = byt a n ^^^ byt b n := by
  apply BitVec.eq_of_getLsbD_eq
  intro i hi
  simp [byt, hi]

theorem byt_lsb (w : BitVec 32) (n i : Nat) (hi : i < 8) : (byt w n).getLsbD i = w.getLsbD (n + i) := by
  simp [byt, hi]

theorem word_ext {a b : BitVec 32} (h3 : byt a 24 = byt b 24) (h2 : byt a 16 = byt b 16)
    (h1 : byt a 8 = byt b 8) (h0 : byt a 0 = byt b 0) : a = b := by
  apply BitVec.eq_of_getLsbD_eq
  intro i hi
  rcases (show i < 8 ∨ (8 ≤ i ∧ i < 16) ∨ (16 ≤ i ∧ i < 24) ∨ 24 ≤ i by omega) with h | h | h | h
  · have := congrArg (·.getLsbD i) h0
    simpa [byt_lsb _ _ _ h] using this
  · have := congrArg (·.getLsbD (i - 8)) h1
    simpa [byt_lsb _ _ _ (show i - 8 < 8 by omega), show 8 + (i - 8) = i by omega] using this
  · have := congrArg (·.getLsbD (i - 16)) h2
    simpa [byt_lsb _ _ _ (show i - 16 < 8 by omega), show 16 + (i - 16) = i by omega] using this
  · have := congrArg (·.getLsbD (i - 24)) h3
    simpa [byt_lsb _ _ _ (show i - 24 < 8 by omega), show 24 + (i - 24) = i by omega] using this

theorem byt_and (a b : BitVec 32) (n : Nat) : byt (a &&& b) n = byt a n &&& byt b n := by
  apply BitVec.eq_of_getLsbD_eq
  intro i hi
  simp [byt, hi]

theorem byt_masks :
    (byt 0xff000000 24 = 0xff ∧ byt 0xff000000 16 = 0 ∧ byt 0xff000000 8 = 0 ∧ byt 0xff000000 0 = 0) ∧
    (byt 0x00ff0000 24 = 0 ∧ byt 0x00ff0000 16 = 0xff ∧ byt 0x00ff0000 8 = 0 ∧ byt 0x00ff0000 0 = 0) ∧
    (byt 0x0000ff00 24 = 0 ∧ byt 0x0000ff00 16 = 0 ∧ byt 0x0000ff00 8 = 0xff ∧ byt 0x0000ff00 0 = 0) ∧
    (byt 0x000000ff 24 = 0 ∧ byt 0x000000ff 16 = 0 ∧ byt 0x000000ff 8 = 0 ∧ byt 0x000000ff 0 = 0xff) := by
  decide +kernel

theorem and_ff (x : Byte) : x &&& 0xff = x := by
  have : (0xff : Byte) = BitVec.allOnes 8 := by decide
  rw [this, BitVec.and_allOnes]

theorem and_00 (x : Byte) : x &&& 0 = 0 := BitVec.and_zero

theorem xor_00 (x : Byte) : x ^^^ 0 = x := BitVec.xor_zero

theorem zxor (x : Byte) : 0 ^^^ x = x := BitVec.zero_xor

/-- The bytes of a state. -/
def qb (q : Quad) : Vector Byte 16 :=
  #v[byt q.a 24, byt q.a 16, byt q.a 8, byt q.a 0, byt q.b 24, byt q.b 16, byt q.b 8, byt q.b 0,
     byt q.c 24, byt q.c 16, byt q.c 8, byt q.c 0, byt q.d 24, byt q.d 16, byt q.d 8, byt q.d 0]

theorem store_qb (q : Quad) : store4be q = qb q := rfl

theorem qb_load (v : Vector Byte 16) : qb (load4be v) = v := by
  rw [← store_qb, store_load4be]

theorem te_byte (w x y z k : BitVec 32) :
    byt (aes_te w x y z k) 24 = gmul 2 (sb (byt w 24)) ^^^ gmul 3 (sb (byt x 16)) ^^^ sb (byt y 8) ^^^
      sb (byt z 0) ^^^ byt k 24 ∧
    byt (aes_te w x y z k) 16 = gmul 2 (sb (byt x 16)) ^^^ gmul 3 (sb (byt y 8)) ^^^ sb (byt z 0) ^^^
      sb (byt w 24) ^^^ byt k 16 ∧
    byt (aes_te w x y z k) 8 = gmul 2 (sb (byt y 8)) ^^^ gmul 3 (sb (byt z 0)) ^^^ sb (byt w 24) ^^^
      sb (byt x 16) ^^^ byt k 8 ∧
    byt (aes_te w x y z k) 0 = gmul 2 (sb (byt z 0)) ^^^ gmul 3 (sb (byt w 24)) ^^^ sb (byt x 16) ^^^
      sb (byt y 8) ^^^ byt k 0 := by
  obtain ⟨⟨a0, a1, a2, a3⟩, -, -, -⟩ := te_bytes (byt w 24)
  obtain ⟨-, ⟨b0, b1, b2, b3⟩, -, -⟩ := te_bytes (byt x 16)
  obtain ⟨-, -, ⟨c0, c1, c2, c3⟩, -⟩ := te_bytes (byt y 8)
  obtain ⟨-, -, -, ⟨d0, d1, d2, d3⟩⟩ := te_bytes (byt z 0)
  simp only [aes_te, byt_xor, a0, a1, a2, a3, b0, b1, b2, b3, c0, c1, c2, c3, d0, d1, d2, d3]
  refine ⟨trivial, ?_, ?_, ?_⟩ <;> ac_rfl

theorem tl_byte (w x y z k : BitVec 32) :
    byt (aes_tl w x y z k) 24 = sb (byt w 24) ^^^ byt k 24 ∧
    byt (aes_tl w x y z k) 16 = sb (byt x 16) ^^^ byt k 16 ∧
    byt (aes_tl w x y z k) 8 = sb (byt y 8) ^^^ byt k 8 ∧
    byt (aes_tl w x y z k) 0 = sb (byt z 0) ^^^ byt k 0 := by
  obtain ⟨-, -, ⟨c0, c1, c2, c3⟩, -⟩ := te_bytes (byt w 24)
  obtain ⟨-, -, -, ⟨d0, d1, d2, d3⟩⟩ := te_bytes (byt x 16)
  obtain ⟨⟨a0, a1, a2, a3⟩, -, -, -⟩ := te_bytes (byt y 8)
  obtain ⟨-, ⟨b0, b1, b2, b3⟩, -, -⟩ := te_bytes (byt z 0)
  obtain ⟨⟨m0, m1, m2, m3⟩, ⟨n0, n1, n2, n3⟩, ⟨p0, p1, p2, p3⟩, ⟨r0, r1, r2, r3⟩⟩ := byt_masks
  simp only [aes_tl, byt_xor, byt_and, c0, d1, a2, b3, m0, m1, m2, m3, n0, n1, n2, n3, p0, p1, p2, p3,
    r0, r1, r2, r3, and_ff, and_00, xor_00, zxor, and_self]

theorem td_byte (w x y z k : BitVec 32) :
    byt (aes_td w x y z k) 24 = gmul 14 (isb (byt w 24)) ^^^ gmul 11 (isb (byt x 16)) ^^^
      gmul 13 (isb (byt y 8)) ^^^ gmul 9 (isb (byt z 0)) ^^^ byt k 24 ∧
    byt (aes_td w x y z k) 16 = gmul 14 (isb (byt x 16)) ^^^ gmul 11 (isb (byt y 8)) ^^^
      gmul 13 (isb (byt z 0)) ^^^ gmul 9 (isb (byt w 24)) ^^^ byt k 16 ∧
    byt (aes_td w x y z k) 8 = gmul 14 (isb (byt y 8)) ^^^ gmul 11 (isb (byt z 0)) ^^^
      gmul 13 (isb (byt w 24)) ^^^ gmul 9 (isb (byt x 16)) ^^^ byt k 8 ∧
    byt (aes_td w x y z k) 0 = gmul 14 (isb (byt z 0)) ^^^ gmul 11 (isb (byt w 24)) ^^^
      gmul 13 (isb (byt x 16)) ^^^ gmul 9 (isb (byt y 8)) ^^^ byt k 0 := by
  obtain ⟨⟨a0, a1, a2, a3⟩, -, -, -⟩ := td_bytes (byt w 24)
  obtain ⟨-, ⟨b0, b1, b2, b3⟩, -, -⟩ := td_bytes (byt x 16)
  obtain ⟨-, -, ⟨c0, c1, c2, c3⟩, -⟩ := td_bytes (byt y 8)
  obtain ⟨-, -, -, ⟨d0, d1, d2, d3⟩⟩ := td_bytes (byt z 0)
  simp only [aes_td, byt_xor, a0, a1, a2, a3, b0, b1, b2, b3, c0, c1, c2, c3, d0, d1, d2, d3]
  refine ⟨trivial, ?_, ?_, ?_⟩ <;> ac_rfl

theorem zx_byte (x : Byte) :
    (byt (x.zeroExtend 32 <<< 24) 24 = x ∧ byt (x.zeroExtend 32 <<< 24) 16 = 0 ∧
      byt (x.zeroExtend 32 <<< 24) 8 = 0 ∧ byt (x.zeroExtend 32 <<< 24) 0 = 0) ∧
    (byt (x.zeroExtend 32 <<< 16) 24 = 0 ∧ byt (x.zeroExtend 32 <<< 16) 16 = x ∧
      byt (x.zeroExtend 32 <<< 16) 8 = 0 ∧ byt (x.zeroExtend 32 <<< 16) 0 = 0) ∧
    (byt (x.zeroExtend 32 <<< 8) 24 = 0 ∧ byt (x.zeroExtend 32 <<< 8) 16 = 0 ∧
      byt (x.zeroExtend 32 <<< 8) 8 = x ∧ byt (x.zeroExtend 32 <<< 8) 0 = 0) ∧
    (byt (x.zeroExtend 32 <<< 0) 24 = 0 ∧ byt (x.zeroExtend 32 <<< 0) 16 = 0 ∧
      byt (x.zeroExtend 32 <<< 0) 8 = 0 ∧ byt (x.zeroExtend 32 <<< 0) 0 = x) := by
  revert x
  apply forall_byte
  decide +kernel

theorem tdl_byte (w x y z k : BitVec 32) :
    byt (aes_tdl w x y z k) 24 = isb (byt w 24) ^^^ byt k 24 ∧
    byt (aes_tdl w x y z k) 16 = isb (byt x 16) ^^^ byt k 16 ∧
    byt (aes_tdl w x y z k) 8 = isb (byt y 8) ^^^ byt k 8 ∧
    byt (aes_tdl w x y z k) 0 = isb (byt z 0) ^^^ byt k 0 := by
  obtain ⟨⟨c0, c1, c2, c3⟩, -, -, -⟩ := zx_byte (tbl aes_TD4 (byt w 24))
  obtain ⟨-, ⟨d0, d1, d2, d3⟩, -, -⟩ := zx_byte (tbl aes_TD4 (byt x 16))
  obtain ⟨-, -, ⟨a0, a1, a2, a3⟩, -⟩ := zx_byte (tbl aes_TD4 (byt y 8))
  obtain ⟨-, -, -, ⟨b0, b1, b2, b3⟩⟩ := zx_byte (tbl aes_TD4 (byt z 0))
  simp only [aes_tdl, byt_xor, a0, a1, a2, a3, b0, b1, b2, b3, c0, c1, c2, c3, d0, d1, d2, d3, xor_00,
    zxor, isb, and_self]

theorem enc_round_qb (q k : Quad) :
    qb (aes_enc_round q k) = addRoundKey (mixColumns (shiftRows (subBytes (qb q)))) (qb k) := by
  have e : subBytes (qb q) = Vector.ofFn fun i => sb (qb q)[i] := by
    rw [subBytes]; simp only [sb_eq_sbox]
  rw [e]
  apply Vector.ext
  intro i hi
  simp only [addRoundKey, mixColumns, shiftRows, below, Vector.getElem_ofFn, Fin.getElem_fin]
  interval_cases i
  · exact (te_byte q.a q.b q.c q.d k.a).1
  · exact (te_byte q.a q.b q.c q.d k.a).2.1
  · exact (te_byte q.a q.b q.c q.d k.a).2.2.1
  · exact (te_byte q.a q.b q.c q.d k.a).2.2.2
  · exact (te_byte q.b q.c q.d q.a k.b).1
  · exact (te_byte q.b q.c q.d q.a k.b).2.1
  · exact (te_byte q.b q.c q.d q.a k.b).2.2.1
  · exact (te_byte q.b q.c q.d q.a k.b).2.2.2
  · exact (te_byte q.c q.d q.a q.b k.c).1
  · exact (te_byte q.c q.d q.a q.b k.c).2.1
  · exact (te_byte q.c q.d q.a q.b k.c).2.2.1
  · exact (te_byte q.c q.d q.a q.b k.c).2.2.2
  · exact (te_byte q.d q.a q.b q.c k.d).1
  · exact (te_byte q.d q.a q.b q.c k.d).2.1
  · exact (te_byte q.d q.a q.b q.c k.d).2.2.1
  · exact (te_byte q.d q.a q.b q.c k.d).2.2.2

theorem enc_last_qb (q k : Quad) :
    qb (aes_enc_last q k) = addRoundKey (shiftRows (subBytes (qb q))) (qb k) := by
  have e : subBytes (qb q) = Vector.ofFn fun i => sb (qb q)[i] := by
    rw [subBytes]; simp only [sb_eq_sbox]
  rw [e]
  apply Vector.ext
  intro i hi
  simp only [addRoundKey, shiftRows, Vector.getElem_ofFn, Fin.getElem_fin]
  interval_cases i
  · exact (tl_byte q.a q.b q.c q.d k.a).1
  · exact (tl_byte q.a q.b q.c q.d k.a).2.1
  · exact (tl_byte q.a q.b q.c q.d k.a).2.2.1
  · exact (tl_byte q.a q.b q.c q.d k.a).2.2.2
  · exact (tl_byte q.b q.c q.d q.a k.b).1
  · exact (tl_byte q.b q.c q.d q.a k.b).2.1
  · exact (tl_byte q.b q.c q.d q.a k.b).2.2.1
  · exact (tl_byte q.b q.c q.d q.a k.b).2.2.2
  · exact (tl_byte q.c q.d q.a q.b k.c).1
  · exact (tl_byte q.c q.d q.a q.b k.c).2.1
  · exact (tl_byte q.c q.d q.a q.b k.c).2.2.1
  · exact (tl_byte q.c q.d q.a q.b k.c).2.2.2
  · exact (tl_byte q.d q.a q.b q.c k.d).1
  · exact (tl_byte q.d q.a q.b q.c k.d).2.1
  · exact (tl_byte q.d q.a q.b q.c k.d).2.2.1
  · exact (tl_byte q.d q.a q.b q.c k.d).2.2.2

theorem dec_round_qb (q k : Quad) :
    qb (aes_dec_round q k) =
      addRoundKey (invMixColumns (invSubBytes isb (invShiftRows (qb q)))) (qb k) := by
  apply Vector.ext
  intro i hi
  simp only [addRoundKey, invMixColumns, invShiftRows, invSubBytes, below, Vector.getElem_ofFn,
    Fin.getElem_fin]
  interval_cases i
  · exact (td_byte q.a q.d q.c q.b k.a).1
  · exact (td_byte q.a q.d q.c q.b k.a).2.1
  · exact (td_byte q.a q.d q.c q.b k.a).2.2.1
  · exact (td_byte q.a q.d q.c q.b k.a).2.2.2
  · exact (td_byte q.b q.a q.d q.c k.b).1
  · exact (td_byte q.b q.a q.d q.c k.b).2.1
  · exact (td_byte q.b q.a q.d q.c k.b).2.2.1
  · exact (td_byte q.b q.a q.d q.c k.b).2.2.2
  · exact (td_byte q.c q.b q.a q.d k.c).1
  · exact (td_byte q.c q.b q.a q.d k.c).2.1
  · exact (td_byte q.c q.b q.a q.d k.c).2.2.1
  · exact (td_byte q.c q.b q.a q.d k.c).2.2.2
  · exact (td_byte q.d q.c q.b q.a k.d).1
  · exact (td_byte q.d q.c q.b q.a k.d).2.1
  · exact (td_byte q.d q.c q.b q.a k.d).2.2.1
  · exact (td_byte q.d q.c q.b q.a k.d).2.2.2

theorem dec_last_qb (q k : Quad) :
    qb (aes_dec_last q k) = addRoundKey (invSubBytes isb (invShiftRows (qb q))) (qb k) := by
  apply Vector.ext
  intro i hi
  simp only [addRoundKey, invShiftRows, invSubBytes, Vector.getElem_ofFn, Fin.getElem_fin]
  interval_cases i
  · exact (tdl_byte q.a q.d q.c q.b k.a).1
  · exact (tdl_byte q.a q.d q.c q.b k.a).2.1
  · exact (tdl_byte q.a q.d q.c q.b k.a).2.2.1
  · exact (tdl_byte q.a q.d q.c q.b k.a).2.2.2
  · exact (tdl_byte q.b q.a q.d q.c k.b).1
  · exact (tdl_byte q.b q.a q.d q.c k.b).2.1
  · exact (tdl_byte q.b q.a q.d q.c k.b).2.2.1
  · exact (tdl_byte q.b q.a q.d q.c k.b).2.2.2
  · exact (tdl_byte q.c q.b q.a q.d k.c).1
  · exact (tdl_byte q.c q.b q.a q.d k.c).2.1
  · exact (tdl_byte q.c q.b q.a q.d k.c).2.2.1
  · exact (tdl_byte q.c q.b q.a q.d k.c).2.2.2
  · exact (tdl_byte q.d q.c q.b q.a k.d).1
  · exact (tdl_byte q.d q.c q.b q.a k.d).2.1
  · exact (tdl_byte q.d q.c q.b q.a k.d).2.2.1
  · exact (tdl_byte q.d q.c q.b q.a k.d).2.2.2

theorem xor_qb (q k : Quad) : qb (q.xor k) = addRoundKey (qb q) (qb k) := by
  apply Vector.ext
  intro i hi
  simp only [addRoundKey, Vector.getElem_ofFn, Fin.getElem_fin]
  interval_cases i <;> exact byt_xor _ _ _

end Torsion.Blkc
