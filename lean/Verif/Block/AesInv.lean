import Verif.Block.AesRound

/-!
AES: the inverse cipher of FIPS 197 undoes the cipher; the loops of the code are the rounds.
-/
namespace Torsion.Blkc
open Spec

theorem gmulN_xor (n : Nat) : ∀ (a b c : Byte), gmulN n a (b ^^^ c) = gmulN n a b ^^^ gmulN n a c := by
  induction n with
  | zero => intro a b c; simp [gmulN]
  | succ n ih =>
    intro a b c
    rw [gmulN, gmulN, gmulN, BitVec.ushiftRight_xor_distrib, ih, BitVec.getLsbD_xor]
    cases b.getLsbD 0 <;> cases c.getLsbD 0
    · simp
    · simp only [Bool.false_xor, if_true]
      rw [BitVec.xor_comm a, BitVec.xor_assoc, BitVec.xor_comm _ a]; simp
    · simp only [Bool.xor_false, if_true]
      rw [← BitVec.xor_assoc]; simp
    · simp only [Bool.xor_self, if_true, Bool.false_eq_true, if_false]
      generalize gmulN n (xtime a) (b >>> 1) = u
      generalize gmulN n (xtime a) (c >>> 1) = v
      rw [show a ^^^ u ^^^ (a ^^^ v) = (u ^^^ v) ^^^ a ^^^ a by ac_rfl, xx]
      exact BitVec.zero_xor

theorem gmul_xor (a b c : Byte) : gmul a (b ^^^ c) = gmul a b ^^^ gmul a c := gmulN_xor 8 a b c

theorem mix4 (a b c d : Byte) :
    gmul 14 (gmul 2 a ^^^ gmul 3 b ^^^ c ^^^ d) ^^^ gmul 11 (gmul 2 b ^^^ gmul 3 c ^^^ d ^^^ a) ^^^
      gmul 13 (gmul 2 c ^^^ gmul 3 d ^^^ a ^^^ b) ^^^ gmul 9 (gmul 2 d ^^^ gmul 3 a ^^^ b ^^^ c) = a := by
  have ha := (mix_inv a).1
  have hb := (mix_inv b).2.1
  have hc := (mix_inv c).2.2.1
  have hd := (mix_inv d).2.2.2
  simp only [gmul_xor]
  calc _ = (gmul 14 (gmul 2 a) ^^^ gmul 11 a ^^^ gmul 13 a ^^^ gmul 9 (gmul 3 a)) ^^^
        (gmul 14 (gmul 3 b) ^^^ gmul 11 (gmul 2 b) ^^^ gmul 13 b ^^^ gmul 9 b) ^^^
        (gmul 14 c ^^^ gmul 11 (gmul 3 c) ^^^ gmul 13 (gmul 2 c) ^^^ gmul 9 c) ^^^
        (gmul 14 d ^^^ gmul 11 d ^^^ gmul 13 (gmul 3 d) ^^^ gmul 9 (gmul 2 d)) := by ac_rfl
    _ = a := by rw [ha, hb, hc, hd]; simp

theorem invMix_mix (s : Vector Byte 16) : invMixColumns (mixColumns s) = s := by
  apply Vector.ext
  intro i hi
  simp only [invMixColumns, mixColumns, below, Vector.getElem_ofFn]
  interval_cases i <;> exact mix4 _ _ _ _

theorem invMix_add (s k : Vector Byte 16) :
    invMixColumns (addRoundKey s k) = addRoundKey (invMixColumns s) (invMixColumns k) := by
  apply Vector.ext
  intro i hi
  simp only [invMixColumns, addRoundKey, below, Vector.getElem_ofFn, Fin.getElem_fin, gmul_xor]
  ac_rfl

theorem add_add (s k : Vector Byte 16) : addRoundKey (addRoundKey s k) k = s := by
  apply Vector.ext
  intro i hi
  simp only [addRoundKey, Vector.getElem_ofFn, Fin.getElem_fin, xx]

theorem invShift_shift (s : Vector Byte 16) : invShiftRows (shiftRows s) = s := by
  apply Vector.ext
  intro i hi
  simp only [invShiftRows, shiftRows, Vector.getElem_ofFn]
  interval_cases i <;> rfl

theorem invSub_sub (f : Byte → Byte) (hf : ∀ x, f (sbox x) = x) (s : Vector Byte 16) :
    invSubBytes f (subBytes s) = s := by
  apply Vector.ext
  intro i hi
  simp only [invSubBytes, subBytes, Vector.getElem_ofFn, Fin.getElem_fin, hf]

theorem decRounds_enc (f : Byte → Byte) (hf : ∀ x, f (sbox x) = x) (rk : Nat → Vector Byte 16)
    (s : Vector Byte 16) : ∀ n,
    decRounds f rk n (shiftRows (subBytes (encRounds rk n s))) = shiftRows (subBytes s)
  | 0 => rfl
  | n + 1 => by
    rw [decRounds, invShift_shift, invSub_sub f hf]
    show decRounds f rk n (invMixColumns (addRoundKey (encRounds rk (n + 1) s) (rk (n + 1)))) = _
    rw [encRounds, add_add, invMix_mix, decRounds_enc f hf rk s n]

theorem aes_inv_cipher (f : Byte → Byte) (hf : ∀ x, f (sbox x) = x) (nr : Nat)
    (rk : Nat → Vector Byte 16) (s : Vector Byte 16) :
    aesInvCipher f nr rk (aesCipher nr rk s) = s := by
  rw [aesInvCipher, aesCipher, add_add, decRounds_enc f hf, invShift_shift, invSub_sub f hf, add_add]

/-- `n` rounds with the round keys from `o + 1` on. -/
def iterK (f : Quad → Quad → Quad) (kq : Nat → Quad) : Nat → Nat → Quad → Quad
  | _, 0, s => s
  | o, n + 1, s => iterK f kq (o + 1) n (f s (kq (o + 1)))

theorem iterK_snoc (f : Quad → Quad → Quad) (kq : Nat → Quad) : ∀ (n o : Nat) (s : Quad),
    iterK f kq o (n + 1) s = f (iterK f kq o n s) (kq (o + n + 1))
  | 0, o, s => rfl
  | n + 1, o, s => by
    rw [iterK, iterK_snoc f kq n (o + 1), iterK]
    congr 2; omega

theorem aes_loop_eq (f : Quad → Quad → Quad) (K : List (BitVec 32)) (kq : Nat → Quad) (N : Nat)
    (hK : ∀ j, j ≤ N → rd_quad K (4 * j) = .ok (kq j)) : ∀ (r o : Nat) (s : Quad), o + 2 * (r + 1) ≤ N →
    aes_loop f K (r + 1) (4 * o) s = .ok (iterK f kq o (2 * r + 1) s, 4 * (o + 2 * (r + 1)))
  | 0, o, s, h => by
    rw [aes_loop, show 4 * o + 4 = 4 * (o + 1) by ring, hK (o + 1) (by omega)]
    simp only [C.ok_bind, if_true]
    rfl
  | r + 1, o, s, h => by
    rw [aes_loop, show 4 * o + 4 = 4 * (o + 1) by ring, hK (o + 1) (by omega)]
    simp only [C.ok_bind, Nat.add_eq_zero_iff, Nat.one_ne_zero, and_false, if_false]
    rw [show 4 * o + 8 = 4 * (o + 2) by ring, hK (o + 2) (by omega)]
    simp only [C.ok_bind]
    rw [aes_loop_eq f K kq N hK r (o + 2) _ (by omega), show 2 * (r + 1) + 1 = 2 * r + 1 + 1 + 1 by ring,
      iterK, iterK]
    congr 2; omega

theorem iterK_enc (kq : Nat → Quad) (s : Quad) : ∀ n,
    qb (iterK aes_enc_round kq 0 n s) = encRounds (fun j => qb (kq j)) n (qb s)
  | 0 => rfl
  | n + 1 => by
    rw [iterK_snoc, enc_round_qb, iterK_enc kq s n, encRounds, Nat.zero_add]

theorem iterK_dec (dq : Nat → Quad) (rk : Nat → Vector Byte 16) (nr : Nat)
    (h : ∀ j, 1 ≤ j → j < nr → qb (dq j) = invMixColumns (rk (nr - j))) : ∀ (n o : Nat) (s : Quad),
    o + n + 1 = nr → qb (iterK aes_dec_round dq o n s) = decRounds isb rk n (qb s)
  | 0, o, s, _ => rfl
  | n + 1, o, s, ho => by
    rw [iterK, iterK_dec dq rk nr h n (o + 1) _ (by omega), dec_round_qb, h (o + 1) (by omega) (by omega),
      ← invMix_add, decRounds, show nr - (o + 1) = n + 1 by omega]

theorem encrypt_spec (ctx : Aes) (kq : Nat → Quad) (r : Nat) (hr : ctx.rounds = 2 * (r + 1))
    (hK : ∀ j, j ≤ ctx.rounds → rd_quad ctx.enckey (4 * j) = .ok (kq j)) (v : Vector Byte 16) :
    aes_encrypt ctx v = .ok (aesCipher ctx.rounds (fun j => qb (kq j)) v) := by
  have h0 := hK 0 (by omega)
  rw [Nat.mul_zero] at h0
  have hl := aes_loop_eq aes_enc_round ctx.enckey kq ctx.rounds hK r 0 ((load4be v).xor (kq 0))
    (by omega)
  rw [Nat.mul_zero, Nat.zero_add, ← hr] at hl
  rw [aes_encrypt, h0]
  simp only [C.ok_bind]
  rw [show ctx.rounds / 2 = r + 1 by omega, hl]
  simp only [C.ok_bind]
  rw [hK _ (le_refl _)]
  simp only [C.ok_bind]
  rw [store_qb, enc_last_qb, iterK_enc, xor_qb, qb_load, aesCipher, show ctx.rounds - 1 = 2 * r + 1 by omega]

theorem decrypt_spec (ctx : Aes) (dq : Nat → Quad) (rk : Nat → Vector Byte 16) (r : Nat)
    (hr : ctx.rounds = 2 * (r + 1))
    (hK : ∀ j, j ≤ ctx.rounds → rd_quad ctx.deckey (4 * j) = .ok (dq j))
    (h0 : qb (dq 0) = rk ctx.rounds) (h1 : qb (dq ctx.rounds) = rk 0)
    (h : ∀ j, 1 ≤ j → j < ctx.rounds → qb (dq j) = invMixColumns (rk (ctx.rounds - j)))
    (v : Vector Byte 16) :
    aes_decrypt ctx v = .ok (aesInvCipher isb ctx.rounds rk v) := by
  have hk0 := hK 0 (by omega)
  rw [Nat.mul_zero] at hk0
  have hl := aes_loop_eq aes_dec_round ctx.deckey dq ctx.rounds hK r 0 ((load4be v).xor (dq 0))
    (by omega)
  rw [Nat.mul_zero, Nat.zero_add, ← hr] at hl
  rw [aes_decrypt, hk0]
  simp only [C.ok_bind]
  rw [show ctx.rounds / 2 = r + 1 by omega, hl]
  simp only [C.ok_bind]
  rw [hK _ (le_refl _)]
  simp only [C.ok_bind]
  rw [store_qb, dec_last_qb, iterK_dec dq rk ctx.rounds h _ 0 _ (by omega), xor_qb, qb_load, aesInvCipher,
    show ctx.rounds - 1 = 2 * r + 1 by omega, h0, h1]

end Torsion.Blkc
