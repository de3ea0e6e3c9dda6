import Verif.Block.AesInv
import Verif.Common.Blocks
import Mathlib.Tactic.Ring

/-!
AES: the key schedule of FIPS 197, and the whole cipher.
-/
namespace Torsion.Blkc
open Spec

theorem byt_eq (w : BitVec 32) (n : Nat) : byt w n = w.extractLsb' n 8 := by
  apply BitVec.eq_of_getLsbD_eq
  intro i hi
  simp [byt, hi]

theorem word4_byt (a b c d : Byte) : byt (word4 a b c d) 24 = a ∧ byt (word4 a b c d) 16 = b ∧
    byt (word4 a b c d) 8 = c ∧ byt (word4 a b c d) 0 = d := by
  refine ⟨?_, ?_, ?_, ?_⟩ <;>
  · apply BitVec.eq_of_getLsbD_eq
    intro i hi
    simp only [byt_lsb _ _ _ hi, word4, BitVec.getLsbD_append]
    interval_cases i <;> rfl

theorem sub_eq (w : BitVec 32) : aes_sub w = subWord w := by
  have h := tl_byte w w w w 0
  have e : aes_tl w w w w 0 = aes_sub w := by rw [aes_tl, aes_sub]; exact BitVec.xor_zero
  rw [e] at h
  have z : ∀ n, byt (0 : BitVec 32) n = 0 := by
    intro n; rw [byt_eq]; apply BitVec.eq_of_getLsbD_eq; intro i hi; simp
  simp only [z, xor_00] at h
  have h2 := word4_byt (sbox (w.extractLsb' 24 8)) (sbox (w.extractLsb' 16 8)) (sbox (w.extractLsb' 8 8))
    (sbox (w.extractLsb' 0 8))
  apply word_ext
  · rw [h.1, subWord, h2.1, sb_eq_sbox, byt_eq]
  · rw [h.2.1, subWord, h2.2.1, sb_eq_sbox, byt_eq]
  · rw [h.2.2.1, subWord, h2.2.2.1, sb_eq_sbox, byt_eq]
  · rw [h.2.2.2, subWord, h2.2.2.2, sb_eq_sbox, byt_eq]

theorem rot_byt (w : BitVec 32) : byt (rotWord w) 24 = byt w 16 ∧ byt (rotWord w) 16 = byt w 8 ∧
    byt (rotWord w) 8 = byt w 0 ∧ byt (rotWord w) 0 = byt w 24 := by
  refine ⟨?_, ?_, ?_, ?_⟩ <;>
  · apply BitVec.eq_of_getLsbD_eq
    intro i hi
    rw [byt_lsb _ _ _ hi, byt_lsb _ _ _ hi, rotWord, BitVec.getLsbD_rotateLeft]
    interval_cases i <;> simp

theorem sub_rot_eq (w : BitVec 32) : aes_sub_rot w = subWord (rotWord w) := by
  rw [← sub_eq, aes_sub, aes_sub_rot, (rot_byt w).1, (rot_byt w).2.1, (rot_byt w).2.2.1, (rot_byt w).2.2.2]

theorem rcon_eq : ∀ i, i < 10 → C.rd aes_RCON.toList i = .ok (word4 (rcon (i + 1)) 0 0 0) := by
  decide +kernel

theorem rd_map (w : Nat → BitVec 32) (M i : Nat) (h : i < M) :
    C.rd ((List.range M).map w) i = .ok (w i) := by
  simp [C.rd, h]

theorem range4 (w : Nat → BitVec 32) (m : Nat) :
    (List.range m).map w ++ [w m, w (m + 1), w (m + 2), w (m + 3)] = (List.range (m + 4)).map w := by
  simp [List.range_succ]

theorem word_rec (nk : Nat) (key : Vector Byte (4 * nk)) (i : Nat) (h0 : 0 < nk) :
    aesWord nk key (i + nk) = aesWord nk key i ^^^
      (if i % nk = 0 then subWord (rotWord (aesWord nk key (i + nk - 1))) ^^^
          word4 (rcon (i / nk + 1)) 0 0 0
        else if 6 < nk ∧ i % nk = 4 then subWord (aesWord nk key (i + nk - 1))
        else aesWord nk key (i + nk - 1)) := by
  rw [aesWord, dif_neg (by omega), dif_neg (by omega)]
  simp only [Nat.add_mod_right, Nat.add_sub_cancel, Nat.add_div_right i h0]

theorem range6 (w : Nat → BitVec 32) (m : Nat) :
    (List.range m).map w ++ [w m, w (m + 1), w (m + 2), w (m + 3), w (m + 4), w (m + 5)] =
      (List.range (m + 6)).map w := by
  simp [List.range_succ]

theorem range8 (w : Nat → BitVec 32) (m : Nat) :
    (List.range m).map w ++ [w m, w (m + 1), w (m + 2), w (m + 3), w (m + 4), w (m + 5), w (m + 6),
      w (m + 7)] = (List.range (m + 8)).map w := by
  simp [List.range_succ]

theorem word_rec' (nk : Nat) (key : Vector Byte (4 * nk)) (i j : Nat) (h0 : 0 < j) (h1 : j < nk)
    (h2 : ¬ (6 < nk ∧ j = 4)) :
    aesWord nk key (nk * i + nk + j) = aesWord nk key (nk * i + j) ^^^ aesWord nk key (nk * i + nk + (j - 1)) := by
  have e : (nk * i + j) % nk = j := by rw [Nat.mul_add_mod, Nat.mod_eq_of_lt h1]
  have := word_rec nk key (nk * i + j) (by omega)
  rw [e, if_neg (by omega), if_neg h2, show nk * i + j + nk - 1 = nk * i + nk + (j - 1) by omega,
    show nk * i + j + nk = nk * i + nk + j by omega] at this
  exact this

theorem word_rec0 (nk : Nat) (key : Vector Byte (4 * nk)) (i : Nat) (h1 : 0 < nk) :
    aesWord nk key (nk * i + nk) = aesWord nk key (nk * i) ^^^
      (subWord (rotWord (aesWord nk key (nk * i + (nk - 1)))) ^^^ word4 (rcon (i + 1)) 0 0 0) := by
  have := word_rec nk key (nk * i) (by omega)
  rw [if_pos (Nat.mul_mod_right nk i), Nat.mul_div_cancel_left i h1,
    show nk * i + nk - 1 = nk * i + (nk - 1) by omega] at this
  exact this

theorem word_rec4 (key : Vector Byte (4 * 8)) (i : Nat) :
    aesWord 8 key (8 * i + 8 + 4) = aesWord 8 key (8 * i + 4) ^^^ subWord (aesWord 8 key (8 * i + 8 + 3)) := by
  have := word_rec 8 key (8 * i + 4) (by omega)
  rw [if_neg (by omega), if_pos (by omega), show 8 * i + 4 + 8 - 1 = 8 * i + 8 + 3 by omega,
    show 8 * i + 4 + 8 = 8 * i + 8 + 4 by omega] at this
  exact this

theorem expand128 (key : Vector Byte (4 * 4)) : ∀ (n i : Nat), i + (n + 1) = 10 →
    aes_expand128 (n + 1) i ((List.range (4 * i + 4)).map (aesWord 4 key)) =
      .ok ((List.range 44).map (aesWord 4 key)) := by
  intro n
  induction n with
  | zero =>
    intro i hi
    have h0 := word_rec0 4 key i (by decide)
    have h1 := word_rec' 4 key i 1 (by decide) (by decide) (by decide)
    have h2 := word_rec' 4 key i 2 (by decide) (by decide) (by decide)
    have h3 := word_rec' 4 key i 3 (by decide) (by decide) (by decide)
    simp only [Nat.reduceSub, Nat.add_zero] at h0 h1 h2 h3
    rw [aes_expand128, rd_map _ _ _ (by omega), C.ok_bind, rd_map _ _ _ (by omega), C.ok_bind,
      rd_map _ _ _ (by omega), C.ok_bind, rd_map _ _ _ (by omega), C.ok_bind, rcon_eq _ (by omega),
      C.ok_bind, sub_rot_eq]
    simp only [BitVec.xor_assoc]
    rw [if_pos (by omega)]
    simp only [← h0, ← h1, ← h2, ← h3]
    rw [range4]
    obtain rfl : i = 9 := by omega
    rfl
  | succ n ih =>
    intro i hi
    have h0 := word_rec0 4 key i (by decide)
    have h1 := word_rec' 4 key i 1 (by decide) (by decide) (by decide)
    have h2 := word_rec' 4 key i 2 (by decide) (by decide) (by decide)
    have h3 := word_rec' 4 key i 3 (by decide) (by decide) (by decide)
    simp only [Nat.reduceSub, Nat.add_zero] at h0 h1 h2 h3
    rw [aes_expand128, rd_map _ _ _ (by omega), C.ok_bind, rd_map _ _ _ (by omega), C.ok_bind,
      rd_map _ _ _ (by omega), C.ok_bind, rd_map _ _ _ (by omega), C.ok_bind, rcon_eq _ (by omega),
      C.ok_bind, sub_rot_eq]
    simp only [BitVec.xor_assoc]
    rw [if_neg (by omega)]
    simp only [← h0, ← h1, ← h2, ← h3]
    rw [range4]
    exact ih (i + 1) (by omega)

theorem expand192 (key : Vector Byte (4 * 6)) : ∀ (n i : Nat), i + (n + 1) = 8 →
    aes_expand192 (n + 1) i ((List.range (6 * i + 6)).map (aesWord 6 key)) =
      .ok ((List.range 52).map (aesWord 6 key)) := by
  intro n
  induction n with
  | zero =>
    intro i hi
    have h0 := word_rec0 6 key i (by decide)
    have h1 := word_rec' 6 key i 1 (by decide) (by decide) (by decide)
    have h2 := word_rec' 6 key i 2 (by decide) (by decide) (by decide)
    have h3 := word_rec' 6 key i 3 (by decide) (by decide) (by decide)
    simp only [Nat.reduceSub, Nat.add_zero] at h0 h1 h2 h3
    rw [aes_expand192, rd_map _ _ _ (by omega), C.ok_bind, rd_map _ _ _ (by omega), C.ok_bind,
      rd_map _ _ _ (by omega), C.ok_bind, rd_map _ _ _ (by omega), C.ok_bind,
      rd_map _ _ _ (by omega), C.ok_bind, rd_map _ _ _ (by omega), C.ok_bind, rcon_eq _ (by omega),
      C.ok_bind, sub_rot_eq]
    simp only [BitVec.xor_assoc]
    rw [if_pos (by omega)]
    simp only [← h0, ← h1, ← h2, ← h3]
    rw [range4]
    obtain rfl : i = 7 := by omega
    rfl
  | succ n ih =>
    intro i hi
    have h0 := word_rec0 6 key i (by decide)
    have h1 := word_rec' 6 key i 1 (by decide) (by decide) (by decide)
    have h2 := word_rec' 6 key i 2 (by decide) (by decide) (by decide)
    have h3 := word_rec' 6 key i 3 (by decide) (by decide) (by decide)
    have h4 := word_rec' 6 key i 4 (by decide) (by decide) (by decide)
    have h5 := word_rec' 6 key i 5 (by decide) (by decide) (by decide)
    simp only [Nat.reduceSub, Nat.add_zero] at h0 h1 h2 h3 h4 h5
    rw [aes_expand192, rd_map _ _ _ (by omega), C.ok_bind, rd_map _ _ _ (by omega), C.ok_bind,
      rd_map _ _ _ (by omega), C.ok_bind, rd_map _ _ _ (by omega), C.ok_bind,
      rd_map _ _ _ (by omega), C.ok_bind, rd_map _ _ _ (by omega), C.ok_bind, rcon_eq _ (by omega),
      C.ok_bind, sub_rot_eq]
    simp only [BitVec.xor_assoc]
    rw [if_neg (by omega)]
    simp only [← h0, ← h1, ← h2, ← h3, ← h4, ← h5]
    rw [range6]
    exact ih (i + 1) (by omega)

theorem expand256 (key : Vector Byte (4 * 8)) : ∀ (n i : Nat), i + (n + 1) = 7 →
    aes_expand256 (n + 1) i ((List.range (8 * i + 8)).map (aesWord 8 key)) =
      .ok ((List.range 60).map (aesWord 8 key)) := by
  intro n
  induction n with
  | zero =>
    intro i hi
    have h0 := word_rec0 8 key i (by decide)
    have h1 := word_rec' 8 key i 1 (by decide) (by decide) (by decide)
    have h2 := word_rec' 8 key i 2 (by decide) (by decide) (by decide)
    have h3 := word_rec' 8 key i 3 (by decide) (by decide) (by decide)
    simp only [Nat.reduceSub, Nat.add_zero] at h0 h1 h2 h3
    rw [aes_expand256, rd_map _ _ _ (by omega), C.ok_bind, rd_map _ _ _ (by omega), C.ok_bind,
      rd_map _ _ _ (by omega), C.ok_bind, rd_map _ _ _ (by omega), C.ok_bind,
      rd_map _ _ _ (by omega), C.ok_bind, rd_map _ _ _ (by omega), C.ok_bind,
      rd_map _ _ _ (by omega), C.ok_bind, rd_map _ _ _ (by omega), C.ok_bind, rcon_eq _ (by omega),
      C.ok_bind, sub_rot_eq]
    simp only [BitVec.xor_assoc]
    rw [if_pos (by omega)]
    simp only [← h0, ← h1, ← h2, ← h3]
    rw [range4]
    obtain rfl : i = 6 := by omega
    rfl
  | succ n ih =>
    intro i hi
    have h0 := word_rec0 8 key i (by decide)
    have h1 := word_rec' 8 key i 1 (by decide) (by decide) (by decide)
    have h2 := word_rec' 8 key i 2 (by decide) (by decide) (by decide)
    have h3 := word_rec' 8 key i 3 (by decide) (by decide) (by decide)
    have h4 := word_rec4 key i
    have h5 := word_rec' 8 key i 5 (by decide) (by decide) (by decide)
    have h6 := word_rec' 8 key i 6 (by decide) (by decide) (by decide)
    have h7 := word_rec' 8 key i 7 (by decide) (by decide) (by decide)
    simp only [Nat.reduceSub, Nat.add_zero] at h0 h1 h2 h3 h4 h5 h6 h7
    rw [aes_expand256, rd_map _ _ _ (by omega), C.ok_bind, rd_map _ _ _ (by omega), C.ok_bind,
      rd_map _ _ _ (by omega), C.ok_bind, rd_map _ _ _ (by omega), C.ok_bind,
      rd_map _ _ _ (by omega), C.ok_bind, rd_map _ _ _ (by omega), C.ok_bind,
      rd_map _ _ _ (by omega), C.ok_bind, rd_map _ _ _ (by omega), C.ok_bind, rcon_eq _ (by omega),
      C.ok_bind, sub_rot_eq]
    simp only [BitVec.xor_assoc, sub_eq]
    rw [if_neg (by omega)]
    simp only [← h0, ← h1, ← h2, ← h3]
    simp only [← h4, ← h5, ← h6, ← h7]
    rw [range8]
    exact ih (i + 1) (by omega)

theorem read32be_word4 (v : Vector Byte 4) : read32be v = word4 v[0] v[1] v[2] v[3] := by
  have h := word4_byt v[0] v[1] v[2] v[3]
  have w := (write_read (Vector.replicate 2 0) v (Vector.replicate 8 0)).2.2.2.1
  apply word_ext
  · rw [h.1]; exact congrArg (·[0]) w
  · rw [h.2.1]; exact congrArg (·[1]) w
  · rw [h.2.2.1]; exact congrArg (·[2]) w
  · rw [h.2.2.2]; exact congrArg (·[3]) w

theorem key_be_ok {n : Nat} (key : Vector Byte n) (off : Nat) (h : off + 4 ≤ n) :
    key_be key.toList off = .ok (word4 key[off] key[off + 1] key[off + 2] key[off + 3]) := by
  obtain ⟨v, h1, h2⟩ := Blk.vec_ok (n := 4) (xs := (key.toList.drop off).take 4) (by simp; omega)
  rw [key_be, C.slice, if_pos (by simpa using h), C.ok_bind, h1, C.ok_bind, read32be_word4]
  have e : ∀ i (hi : i < 4), v[i] = key[off + i] := by
    intro i hi
    have : v.toList[i]'(by simpa using hi) = key[off + i] := by simp [h2]
    simpa using this
  rw [e 0 (by decide), e 1 (by decide), e 2 (by decide), e 3 (by decide)]
  rfl

theorem be_words_ok (nk : Nat) (key : Vector Byte (4 * nk)) : ∀ n i, i + n ≤ nk →
    be_words key.toList n i = .ok ((List.range' i n).map (aesWord nk key))
  | 0, i, _ => rfl
  | n + 1, i, h => by
    rw [be_words, key_be_ok key (4 * i) (by omega), C.ok_bind, be_words_ok nk key n (i + 1) (by omega),
      C.ok_bind, List.range'_succ, List.map_cons]
    congr 2
    rw [aesWord, dif_pos (by omega)]

/-- Word `i` of the decryption keys. -/
def dword (nr : Nat) (w : Nat → BitVec 32) (i : Nat) : BitVec 32 :=
  if i / 4 = 0 ∨ i / 4 = nr then w (4 * (nr - i / 4) + i % 4)
  else aes_inv_word (w (4 * (nr - i / 4) + i % 4))

theorem wr_map (w w' : Nat → BitVec 32) (M i : Nat) (v : BitVec 32) (h : i < M)
    (hw : ∀ x, x < M → w' x = if x = i then v else w x) :
    C.wr ((List.range M).map w) i v = .ok ((List.range M).map w') := by
  rw [C.wr, if_pos (by simpa using h)]
  congr 1
  apply List.ext_getElem (by simp)
  intro n h1 h2
  have hn : n < M := by simpa using h2
  rw [List.getElem_set]
  simp only [List.getElem_map, List.getElem_range, hw n hn]
  by_cases e : n = i
  · rw [if_pos e.symm, if_pos e]
  · rw [if_neg (fun h => e h.symm), if_neg e]

theorem swap1_map (w w' : Nat → BitVec 32) (M i j : Nat) (hi : i < M) (hj : j < M)
    (hw : ∀ x, x < M → w' x = if x = j then w i else if x = i then w j else w x) :
    aes_swap1 ((List.range M).map w) i j = .ok ((List.range M).map w') := by
  rw [aes_swap1, rd_map _ _ _ hi, C.ok_bind, rd_map _ _ _ hj, C.ok_bind,
    wr_map w (fun x => if x = i then w j else w x) M i _ hi (fun _ _ => rfl), C.ok_bind,
    wr_map _ w' M j _ hj hw]

/-- The keys after `t` rounds and `m` exchanges of the first loop. -/
def swp (nr : Nat) (w : Nat → BitVec 32) (t m x : Nat) : BitVec 32 :=
  if x / 4 < t ∨ nr < x / 4 + t ∨ ((x / 4 = t ∨ x / 4 + t = nr) ∧ x % 4 < m)
  then w (4 * (nr - x / 4) + x % 4) else w x

theorem swp_step (nr : Nat) (w : Nat → BitVec 32) (t m x : Nat) (ht : 2 * t < nr) (hm : m < 4) :
    swp nr w t (m + 1) x = if x = 4 * (nr - t) + m then swp nr w t m (4 * t + m)
      else if x = 4 * t + m then swp nr w t m (4 * (nr - t) + m) else swp nr w t m x := by
  have e1 : (4 * t + m) / 4 = t := by omega
  have e2 : (4 * t + m) % 4 = m := by omega
  have e3 : (4 * (nr - t) + m) / 4 = nr - t := by omega
  have e4 : (4 * (nr - t) + m) % 4 = m := by omega
  by_cases h1 : x = 4 * (nr - t) + m
  · rw [if_pos h1, h1, swp, swp, e1, e2, e3, e4, if_pos (by omega), if_neg (by omega)]
    congr 2; omega
  · rw [if_neg h1]
    by_cases h2 : x = 4 * t + m
    · rw [if_pos h2, h2, swp, swp, e1, e2, e3, e4, if_pos (by omega), if_neg (by omega)]
    · rw [if_neg h2, swp, swp]
      by_cases hc : x / 4 < t ∨ nr < x / 4 + t ∨ ((x / 4 = t ∨ x / 4 + t = nr) ∧ x % 4 < m)
      · rw [if_pos (by omega), if_pos hc]
      · rw [if_neg (by omega), if_neg hc]

theorem swap_map (nr : Nat) (w : Nat → BitVec 32) : ∀ (n t : Nat), nr ≤ 2 * t + 2 * n →
    aes_swap n (4 * t) (4 * (nr - t)) ((List.range (4 * (nr + 1))).map (swp nr w t 0)) =
      .ok ((List.range (4 * (nr + 1))).map fun x => w (4 * (nr - x / 4) + x % 4)) := by
  have fin : ∀ t, nr ≤ 2 * t → (List.range (4 * (nr + 1))).map (swp nr w t 0) =
      (List.range (4 * (nr + 1))).map fun x => w (4 * (nr - x / 4) + x % 4) := by
    intro t ht
    apply List.map_congr_left
    intro x hx
    rw [List.mem_range] at hx
    rw [swp]
    by_cases hc : x / 4 < t ∨ nr < x / 4 + t ∨ ((x / 4 = t ∨ x / 4 + t = nr) ∧ x % 4 < 0)
    · rw [if_pos hc]
    · rw [if_neg hc]; congr 1; omega
  intro n
  induction n with
  | zero => intro t h; rw [aes_swap, fin t (by omega)]
  | succ n ih =>
    intro t h
    rw [aes_swap]
    by_cases hc : 4 * t < 4 * (nr - t)
    · have st := fun m hm x (_ : x < 4 * (nr + 1)) => swp_step nr w t m x (by omega) hm
      have e0 := st 0 (by decide)
      simp only [Nat.add_zero] at e0
      rw [if_pos hc, swap1_map _ _ _ _ _ (by omega) (by omega) e0, C.ok_bind,
        swap1_map _ _ _ _ _ (by omega) (by omega) (st 1 (by decide)), C.ok_bind,
        swap1_map _ _ _ _ _ (by omega) (by omega) (st 2 (by decide)), C.ok_bind,
        swap1_map _ _ _ _ _ (by omega) (by omega) (st 3 (by decide)), C.ok_bind]
      have e : (List.range (4 * (nr + 1))).map (swp nr w t (3 + 1)) =
          (List.range (4 * (nr + 1))).map (swp nr w (t + 1) 0) := by
        apply List.map_congr_left
        intro x hx
        rw [swp, swp]
        congr 1
        apply propext
        omega
      rw [e, show 4 * t + 4 = 4 * (t + 1) by ring, show 4 * (nr - t) - 4 = 4 * (nr - (t + 1)) by omega]
      exact ih (t + 1) (by omega)
    · rw [if_neg hc, fin t (by omega)]

/-- The keys after `m` assignments in round `t` of the second loop. -/
def ivw (w : Nat → BitVec 32) (t m x : Nat) : BitVec 32 :=
  if 1 ≤ x / 4 ∧ x < 4 * t + m then aes_inv_word (w x) else w x

theorem inv1_map (w : Nat → BitVec 32) (M t m : Nat) (h : 4 * t + m < M) (ht : 1 ≤ t) :
    aes_inv1 ((List.range M).map (ivw w t m)) (4 * t + m) = .ok ((List.range M).map (ivw w t (m + 1))) := by
  rw [aes_inv1, rd_map _ _ _ h, C.ok_bind]
  apply wr_map _ _ _ _ _ h
  intro x _
  by_cases hx : x = 4 * t + m
  · rw [if_pos hx, hx, ivw, ivw, if_pos (by omega), if_neg (by omega)]
  · rw [if_neg hx, ivw, ivw]
    by_cases hc : 1 ≤ x / 4 ∧ x < 4 * t + m
    · rw [if_pos hc, if_pos (by omega)]
    · rw [if_neg hc, if_neg (by omega)]

theorem inv_map (w : Nat → BitVec 32) (M : Nat) : ∀ (n t : Nat), 1 ≤ t → 4 * (t + n) ≤ M →
    aes_inv_loop n t ((List.range M).map (ivw w t 0)) = .ok ((List.range M).map (ivw w (t + n) 0)) := by
  intro n
  induction n with
  | zero => intro t _ _; rfl
  | succ n ih =>
    intro t h1 h2
    have e0 := inv1_map w M t 0 (by omega) h1
    rw [Nat.add_zero] at e0
    rw [aes_inv_loop, e0, C.ok_bind, inv1_map w M t 1 (by omega) h1, C.ok_bind,
      inv1_map w M t 2 (by omega) h1, C.ok_bind, inv1_map w M t 3 (by omega) h1, C.ok_bind,
      show t + (n + 1) = t + 1 + n by omega]
    exact ih (t + 1) (by omega) (by omega)

theorem init_dec (nr : Nat) (hnr : 1 ≤ nr) (w : Nat → BitVec 32) :
    aes_init_decrypt nr ((List.range (4 * (nr + 1))).map w) =
      .ok ((List.range (4 * (nr + 1))).map (dword nr w)) := by
  have h1 := swap_map nr w nr 0 (by omega)
  have e1 : (List.range (4 * (nr + 1))).map (swp nr w 0 0) = (List.range (4 * (nr + 1))).map w := by
    apply List.map_congr_left
    intro x hx
    rw [List.mem_range] at hx
    rw [swp, if_neg (by omega)]
  rw [e1, Nat.mul_zero, Nat.sub_zero] at h1
  rw [aes_init_decrypt, h1, C.ok_bind]
  have h2 := inv_map (fun x => w (4 * (nr - x / 4) + x % 4)) (4 * (nr + 1)) (nr - 1) 1 (le_refl _) (by omega)
  have e2 : (List.range (4 * (nr + 1))).map (ivw (fun x => w (4 * (nr - x / 4) + x % 4)) 1 0) =
      (List.range (4 * (nr + 1))).map (fun x => w (4 * (nr - x / 4) + x % 4)) := by
    apply List.map_congr_left
    intro x hx
    rw [ivw, if_neg (by omega)]
  rw [e2] at h2
  rw [h2]
  congr 1
  apply List.map_congr_left
  intro x hx
  rw [List.mem_range] at hx
  rw [ivw, dword]
  by_cases hc : x / 4 = 0 ∨ x / 4 = nr
  · rw [if_neg (by omega), if_pos hc]
  · rw [if_pos (by omega), if_neg hc]

/-- Round key `j` as words. -/
def kquad (w : Nat → BitVec 32) (j : Nat) : Quad := ⟨w (4 * j), w (4 * j + 1), w (4 * j + 2), w (4 * j + 3)⟩

theorem rd_kquad (w : Nat → BitVec 32) (M j : Nat) (h : 4 * j + 3 < M) :
    rd_quad ((List.range M).map w) (4 * j) = .ok (kquad w j) := by
  rw [rd_quad, rd_map _ _ _ (by omega), C.ok_bind, rd_map _ _ _ (by omega), C.ok_bind,
    rd_map _ _ _ (by omega), C.ok_bind, rd_map _ _ _ (by omega), C.ok_bind]
  rfl

theorem qb_kquad (nk : Nat) (key : Vector Byte (4 * nk)) (j : Nat) :
    qb (kquad (aesWord nk key) j) = aesRoundKey nk key j := by
  apply Vector.ext
  intro i hi
  simp only [aesRoundKey, Vector.getElem_ofFn, qb, kquad, byt_eq]
  interval_cases i <;> rfl

theorem inv_word_byt (w : BitVec 32) :
    byt (aes_inv_word w) 24 = gmul 14 (byt w 24) ^^^ gmul 11 (byt w 16) ^^^ gmul 13 (byt w 8) ^^^
      gmul 9 (byt w 0) ∧
    byt (aes_inv_word w) 16 = gmul 14 (byt w 16) ^^^ gmul 11 (byt w 8) ^^^ gmul 13 (byt w 0) ^^^
      gmul 9 (byt w 24) ∧
    byt (aes_inv_word w) 8 = gmul 14 (byt w 8) ^^^ gmul 11 (byt w 0) ^^^ gmul 13 (byt w 24) ^^^
      gmul 9 (byt w 16) ∧
    byt (aes_inv_word w) 0 = gmul 14 (byt w 0) ^^^ gmul 11 (byt w 24) ^^^ gmul 13 (byt w 16) ^^^
      gmul 9 (byt w 8) := by
  have e : ∀ x : Byte, (tbl aes_TE1 x).truncate 8 = sb x := by
    intro x; rw [sb, byt_eq]; apply BitVec.eq_of_getLsbD_eq; intro i hi; simp [hi]
  have t := td_bytes
  rw [aes_inv_word]
  simp only [e, byt_xor, isb_sb, t]
  refine ⟨trivial, ?_, ?_, ?_⟩ <;> ac_rfl

theorem qb_dword (nr : Nat) (w : Nat → BitVec 32) (j : Nat) (h1 : 1 ≤ j) (h2 : j < nr) :
    qb (kquad (dword nr w) j) = invMixColumns (qb (kquad w (nr - j))) := by
  have e : ∀ m, m < 4 → dword nr w (4 * j + m) = aes_inv_word (w (4 * (nr - j) + m)) := by
    intro m hm
    rw [dword, show (4 * j + m) / 4 = j by omega, show (4 * j + m) % 4 = m by omega, if_neg (by omega)]
  have e0 := e 0 (by decide)
  rw [Nat.add_zero, Nat.add_zero] at e0
  rw [kquad, e0, e 1 (by decide), e 2 (by decide), e 3 (by decide)]
  have ia := inv_word_byt (w (4 * (nr - j)))
  have ib := inv_word_byt (w (4 * (nr - j) + 1))
  have ic := inv_word_byt (w (4 * (nr - j) + 2))
  have id := inv_word_byt (w (4 * (nr - j) + 3))
  rw [qb]
  simp only [ia, ib, ic, id]
  apply Vector.ext
  intro i hi
  simp only [invMixColumns, below, Vector.getElem_ofFn, qb, kquad]
  interval_cases i <;> rfl

theorem kquad_dword0 (nr : Nat) (w : Nat → BitVec 32) : kquad (dword nr w) 0 = kquad w nr := by
  simp [kquad, dword]

theorem kquad_dwordr (nr : Nat) (w : Nat → BitVec 32) : kquad (dword nr w) nr = kquad w 0 := by
  have e : ∀ m, m < 4 → dword nr w (4 * nr + m) = w m := by
    intro m hm
    rw [dword, show (4 * nr + m) / 4 = nr by omega, show (4 * nr + m) % 4 = m by omega, if_pos (by omega)]
    simp
  have e0 := e 0 (by decide)
  rw [Nat.add_zero] at e0
  rw [kquad, e0, e 1 (by decide), e 2 (by decide), e 3 (by decide)]
  rfl

theorem init_finish (nr : Nat) (hnr : 1 ≤ nr) (w : Nat → BitVec 32) :
    ((do
      let e ← (do let K ← C.ok ((List.range (4 * (nr + 1))).map w); C.ok (nr, K))
      let d ← aes_init_decrypt e.1 e.2
      C.ok ⟨e.1, e.2, d⟩) : C Aes) = .ok ⟨nr, (List.range (4 * (nr + 1))).map w,
        (List.range (4 * (nr + 1))).map (dword nr w)⟩ := by
  simp only [C.ok_bind]
  rw [init_dec nr hnr, C.ok_bind]

/-- What `aes_init` leaves behind. -/
def aesCtx (nk : Nat) (key : Vector Byte (4 * nk)) : Aes :=
  ⟨nk + 6, (List.range (4 * (nk + 7))).map (aesWord nk key),
    (List.range (4 * (nk + 7))).map (dword (nk + 6) (aesWord nk key))⟩

theorem aes_init_ok (nk : Nat) (hk : nk = 4 ∨ nk = 6 ∨ nk = 8) (key : Vector Byte (4 * nk)) :
    aes_init (32 * nk) key.toList = .ok (aesCtx nk key) := by
  rcases hk with rfl | rfl | rfl
  · rw [aes_init, aes_init_encrypt, if_pos (by decide), be_words_ok 4 key 4 0 (by decide), C.ok_bind]
    have := expand128 key 9 0 (by decide)
    rw [← List.range_eq_range', this]
    exact init_finish 10 (by decide) _
  · rw [aes_init, aes_init_encrypt, if_neg (by decide), if_pos (by decide),
      be_words_ok 6 key 6 0 (by decide), C.ok_bind]
    have := expand192 key 7 0 (by decide)
    rw [← List.range_eq_range', this]
    exact init_finish 12 (by decide) _
  · rw [aes_init, aes_init_encrypt, if_neg (by decide), if_neg (by decide), if_pos (by decide),
      be_words_ok 8 key 8 0 (by decide), C.ok_bind]
    have := expand256 key 6 0 (by decide)
    rw [← List.range_eq_range', this]
    exact init_finish 14 (by decide) _

theorem aes_enc (nk : Nat) (hk : nk = 4 ∨ nk = 6 ∨ nk = 8) (key : Vector Byte (4 * nk))
    (v : Vector Byte 16) :
    aes_encrypt (aesCtx nk key) v = .ok (aesCipher (nk + 6) (aesRoundKey nk key) v) := by
  rw [encrypt_spec (aesCtx nk key) (kquad (aesWord nk key)) (nk / 2 + 2)
    (by show nk + 6 = _; omega)
    (by intro j hj; exact rd_kquad _ _ _ (by have : j ≤ nk + 6 := hj; omega))]
  simp only [qb_kquad]
  rfl

theorem aes_dec (nk : Nat) (hk : nk = 4 ∨ nk = 6 ∨ nk = 8) (key : Vector Byte (4 * nk))
    (v : Vector Byte 16) :
    aes_decrypt (aesCtx nk key) v = .ok (aesInvCipher isb (nk + 6) (aesRoundKey nk key) v) := by
  rw [decrypt_spec (aesCtx nk key) (kquad (dword (nk + 6) (aesWord nk key))) (aesRoundKey nk key)
    (nk / 2 + 2) (by show nk + 6 = _; omega)
    (by intro j hj; exact rd_kquad _ _ _ (by have : j ≤ nk + 6 := hj; omega))
    (by rw [kquad_dword0, qb_kquad]; rfl)
    (by show qb (kquad _ (nk + 6)) = _; rw [kquad_dwordr, qb_kquad])
    (by intro j h1 h2; exact (qb_dword (nk + 6) _ j h1 h2).trans (by rw [qb_kquad]; rfl))]
  rfl

theorem aes_inv (nk : Nat) (key : Vector Byte (4 * nk)) (v : Vector Byte 16) :
    aesInvCipher isb (nk + 6) (aesRoundKey nk key) (aesCipher (nk + 6) (aesRoundKey nk key) v) = v :=
  aes_inv_cipher isb (fun x => by rw [← sb_eq_sbox, isb_sb]) _ _ _

end Torsion.Blkc
