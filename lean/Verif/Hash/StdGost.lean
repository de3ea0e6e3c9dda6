import Verif.Hash.StdWhi
import Verif.Block.Lemmas

/-!
# The compression functions against their standards: GOST R 34.11-94
-/
namespace Torsion.Cmp
open Spec Spec.Std Mac Strm Blkc

theorem le_bit : ∀ (l : List Byte) (i : Nat),
    (leVal l).testBit i = (l.getD (i / 8) 0).getLsbD (i % 8)
  | [], i => by simp [leVal]
  | x :: l, i => by
    have e : leVal (x :: l) = 2 ^ 8 * leVal l + x.toNat := by
      rw [leVal_cons]; omega
    rw [e, Nat.testBit_two_pow_mul_add _ x.isLt]
    by_cases h : i < 8
    · rw [if_pos h, Nat.div_eq_of_lt h, Nat.mod_eq_of_lt h, BitVec.testBit_toNat]
      rfl
    · rw [if_neg h, le_bit l (i - 8), show i / 8 = (i - 8) / 8 + 1 by omega,
        show (i - 8) % 8 = i % 8 by omega]
      rfl

theorem le_bit_vec {n : Nat} (v : Vector Byte n) (i : Nat) (h : i / 8 < n) :
    (leVal v.toList).testBit i = v[i / 8].getLsbD (i % 8) := by
  rw [le_bit, List.getD_eq_getElem?_getD, List.getElem?_eq_getElem (by simpa using h)]
  simp

theorem num_bit (v : Vector Byte 32) (i : Nat) (hi : i < 256) :
    (gostNum v.toList).getLsbD i = v[i / 8].getLsbD (i % 8) := by
  rw [gostNum, BitVec.getLsbD_ofNat, le_bit_vec v i (by omega)]
  simp [hi]

theorem rd32_bit (v : Vector Byte 4) (i : Nat) (hi : i < 32) :
    (read32le v).getLsbD i = v[i / 8].getLsbD (i % 8) := by
  rw [← BitVec.testBit_toNat, (read32_val v).1, le_bit_vec v i (by omega)]

theorem rd64_bit (v : Vector Byte 8) (i : Nat) (hi : i < 64) :
    (read64le v).getLsbD i = v[i / 8].getLsbD (i % 8) := by
  rw [← BitVec.testBit_toNat, (read64_val v).1, le_bit_vec v i (by omega)]

theorem num_ext (a b : BitVec 256) (h : ∀ i < 256, a.getLsbD i = b.getLsbD i) : a = b :=
  BitVec.eq_of_getLsbD_eq h

theorem gost_x (a b : Vector Byte 32) :
    gostNum (gost94_x a b).toList = gostNum a.toList ^^^ gostNum b.toList := by
  apply num_ext
  intro i hi
  rw [num_bit _ _ hi, BitVec.getLsbD_xor, num_bit _ _ hi, num_bit _ _ hi]
  simp [gost94_x]

theorem gost_a (v : Vector Byte 32) : gostNum (gost94_a v).toList = gostA (gostNum v.toList) := by
  apply num_ext
  intro i hi
  rw [num_bit _ _ hi, gostA, BitVec.getLsbD_append]
  simp only [gost94_a, Vector.getElem_ofFn]
  by_cases h : i < 192
  · rw [dif_pos (by omega), if_pos h, BitVec.getLsbD_extractLsb', num_bit _ _ (by omega)]
    simp only [h, decide_true, Bool.true_and, show (64 + i) / 8 = 8 + i / 8 by omega,
      show (64 + i) % 8 = i % 8 by omega]
  · rw [dif_neg (by omega), if_neg h, BitVec.getLsbD_xor, BitVec.getLsbD_xor,
      BitVec.getLsbD_extractLsb', BitVec.getLsbD_extractLsb', num_bit _ _ (by omega),
      num_bit _ _ (by omega)]
    simp only [show i - 192 < 64 by omega, decide_true, Bool.true_and,
      show (0 + (i - 192)) / 8 = i / 8 - 24 by omega, show (0 + (i - 192)) % 8 = i % 8 by omega,
      show (64 + (i - 192)) / 8 = i / 8 - 24 + 8 by omega, show (64 + (i - 192)) % 8 = i % 8 by omega]

theorem gost_z (v : Vector Byte 32) : gostNum (gost94_z v).toList = gostPsi (gostNum v.toList) := by
  apply num_ext
  intro i hi
  rw [num_bit _ _ hi, gostPsi, BitVec.getLsbD_append]
  simp only [gost94_z, Vector.getElem_ofFn]
  by_cases h : i < 240
  · rw [dif_pos (by omega), if_pos h, BitVec.getLsbD_extractLsb', num_bit _ _ (by omega)]
    simp only [h, decide_true, Bool.true_and, show (16 + i) / 8 = 2 + i / 8 by omega,
      show (16 + i) % 8 = i % 8 by omega]
  · rw [dif_neg (by omega), if_neg h]
    simp only [BitVec.getLsbD_xor, BitVec.getLsbD_extractLsb', show i - 240 < 16 by omega, decide_true,
      Bool.true_and]
    by_cases h2 : i / 8 = 30
    · rw [if_pos h2]
      simp only [BitVec.getLsbD_xor]
      repeat rw [num_bit _ _ (by omega)]
      simp only [show (16 * (1 - 1) + (i - 240)) / 8 = 0 by omega,
        show (16 * (2 - 1) + (i - 240)) / 8 = 2 by omega,
        show (16 * (3 - 1) + (i - 240)) / 8 = 4 by omega,
        show (16 * (4 - 1) + (i - 240)) / 8 = 6 by omega,
        show (16 * (13 - 1) + (i - 240)) / 8 = 24 by omega,
        show (16 * (16 - 1) + (i - 240)) / 8 = 30 by omega,
        show (16 * (1 - 1) + (i - 240)) % 8 = i % 8 by omega,
        show (16 * (2 - 1) + (i - 240)) % 8 = i % 8 by omega,
        show (16 * (3 - 1) + (i - 240)) % 8 = i % 8 by omega,
        show (16 * (4 - 1) + (i - 240)) % 8 = i % 8 by omega,
        show (16 * (13 - 1) + (i - 240)) % 8 = i % 8 by omega,
        show (16 * (16 - 1) + (i - 240)) % 8 = i % 8 by omega]
    · rw [if_neg h2]
      simp only [BitVec.getLsbD_xor]
      repeat rw [num_bit _ _ (by omega)]
      simp only [show (16 * (1 - 1) + (i - 240)) / 8 = 1 by omega,
        show (16 * (2 - 1) + (i - 240)) / 8 = 3 by omega,
        show (16 * (3 - 1) + (i - 240)) / 8 = 5 by omega,
        show (16 * (4 - 1) + (i - 240)) / 8 = 7 by omega,
        show (16 * (13 - 1) + (i - 240)) / 8 = 25 by omega,
        show (16 * (16 - 1) + (i - 240)) / 8 = 31 by omega,
        show (16 * (1 - 1) + (i - 240)) % 8 = i % 8 by omega,
        show (16 * (2 - 1) + (i - 240)) % 8 = i % 8 by omega,
        show (16 * (3 - 1) + (i - 240)) % 8 = i % 8 by omega,
        show (16 * (4 - 1) + (i - 240)) % 8 = i % 8 by omega,
        show (16 * (13 - 1) + (i - 240)) % 8 = i % 8 by omega,
        show (16 * (16 - 1) + (i - 240)) % 8 = i % 8 by omega]

theorem gost_zs : ∀ (n : Nat) (v : Vector Byte 32),
    gostNum (gost94_zs n v).toList = gostPsi^[n] (gostNum v.toList)
  | 0, _ => rfl
  | n + 1, v => by rw [gost94_zs, gost_zs n, gost_z, Function.iterate_succ_apply]

theorem gost_p (v : Vector Byte 32) (k : Fin 8) :
    (words32le (n := 8) (gost94_p v))[k] = gostP (gostNum v.toList) k := by
  apply BitVec.eq_of_getLsbD_eq
  intro i hi
  simp only [words32le, Fin.getElem_fin, Vector.getElem_ofFn]
  rw [rd32_bit _ _ hi, gostP]
  simp only [BitVec.getLsbD_append, gostByte, BitVec.getLsbD_extractLsb', vsub, gost94_p,
    Vector.getElem_ofFn]
  have e : 8 * ((4 * k.val + i / 8) % 4) + (4 * k.val + i / 8) / 4 = 8 * (i / 8) + k.val := by omega
  simp only [e]
  split_ifs with h1 h2 h3
  · rw [num_bit _ _ (by omega)]
    simp only [h1, decide_true, Bool.true_and, show (8 * k.val + i) / 8 = 8 * (i / 8) + k.val by omega,
      show (8 * k.val + i) % 8 = i % 8 by omega]
  · rw [num_bit _ _ (by omega)]
    simp only [h2, decide_true, Bool.true_and, show (8 * (8 + k.val) + (i - 8)) / 8 = 8 * (i / 8) + k.val by omega,
      show (8 * (8 + k.val) + (i - 8)) % 8 = i % 8 by omega]
  · rw [num_bit _ _ (by omega)]
    simp only [h3, decide_true, Bool.true_and, show (8 * (16 + k.val) + (i - 8 - 8)) / 8 = 8 * (i / 8) + k.val by omega,
      show (8 * (16 + k.val) + (i - 8 - 8)) % 8 = i % 8 by omega]
  · rw [num_bit _ _ (by omega)]
    simp only [show i - 8 - 8 - 8 < 8 by omega, decide_true, Bool.true_and,
      show (8 * (24 + k.val) + (i - 8 - 8 - 8)) / 8 = 8 * (i / 8) + k.val by omega,
      show (8 * (24 + k.val) + (i - 8 - 8 - 8)) % 8 = i % 8 by omega]

theorem gost_box : ∀ (n : Fin 8) (x : Fin 16),
    gost94_S[16 * n.val + x.val] = BitVec.ofNat 32 gostBox[n][x].val := by decide +kernel

theorem gost_s (t : BitVec 32) (n : Fin 8) :
    gost94_s t n = (gostNib t n).zeroExtend 32 <<< (4 * n.val) := by
  unfold gost94_s gostNib
  congr 1
  have hx : (t >>> (4 * n.val) &&& 15).toNat = (t.extractLsb' (4 * n.val) 4).toNat := by
    simp only [BitVec.toNat_and, BitVec.toNat_ushiftRight, BitVec.extractLsb'_toNat]
    exact Nat.and_two_pow_sub_one_eq_mod _ 4
  have hl : (t.extractLsb' (4 * n.val) 4).toNat < 16 := BitVec.isLt _
  simp only [hx]
  rw [gost_box n ⟨_, hl⟩]
  apply BitVec.eq_of_toNat_eq
  simp only [BitVec.toNat_ofNat, BitVec.toNat_setWidth, Fin.getElem_fin]
  have := (gostBox[n.val][(t.extractLsb' (4 * n.val) 4).toNat]).isLt
  omega

theorem gost_g (x y : BitVec 32) : gost94_g x y = (gostSub (x + y)).rotateLeft 11 := by
  unfold gost94_g
  simp only [gost_s]
  rw [rotl32_eq _ 11 (by decide)]
  congr 1
  generalize x + y = t
  unfold gostSub
  apply BitVec.eq_of_getLsbD_eq
  intro i hi
  simp only [BitVec.getLsbD_append, BitVec.getLsbD_or, BitVec.getLsbD_shiftLeft, BitVec.getLsbD_setWidth,
    hi, decide_true, Bool.true_and]
  interval_cases i <;> simp

theorem gost_e (m : Vector Byte 8) (key : Vector Byte 32) (K : Fin 8 → BitVec 32)
    (hK : ∀ k : Fin 8, (words32le (n := 8) key)[k] = K k) :
    read64le (gost94_e m key) = gostE K (read64le m) := by
  have hk : (words32le (n := 8) key).toList = List.ofFn K := by
    apply List.ext_getElem
    · simp
    · intro i h1 h2
      simp only [Vector.getElem_toList, List.getElem_ofFn]
      exact hK ⟨i, by simpa using h2⟩
  have hr : gost94_round = gostRound := by
    funext s k
    rw [gost94_round, gostRound, gost_g]
  have h0 : read32le (vsub m 0 4) = (read64le m).extractLsb' 0 32 := by
    apply BitVec.eq_of_getLsbD_eq
    intro i hi
    rw [rd32_bit _ _ hi, BitVec.getLsbD_extractLsb', rd64_bit _ _ (by omega)]
    simp [vsub, hi]
  have h1 : read32le (vsub m 4 4) = (read64le m).extractLsb' 32 32 := by
    apply BitVec.eq_of_getLsbD_eq
    intro i hi
    rw [rd32_bit _ _ hi, BitVec.getLsbD_extractLsb', rd64_bit _ _ (by omega)]
    simp [vsub, hi, show (32 + i) / 8 = 4 + i / 8 by omega, show (32 + i) % 8 = i % 8 by omega]
  unfold gost94_e gostE
  simp only [hk, hr, h0, h1]
  generalize List.foldl gostRound _ _ = s
  apply BitVec.eq_of_getLsbD_eq
  intro i hi
  rw [rd64_bit _ _ hi, BitVec.getLsbD_append]
  have wr : ∀ (w : BitVec 32) (j : Nat) (hj : j < 4) (l : Nat) (hl : l < 8),
      (write32le w)[j].getLsbD l = w.getLsbD (8 * j + l) := by
    intro w j hj l hl
    rw [← (rw32 w).1]
    rw [rd32_bit _ _ (by omega)]
    simp only [(rw32 w).1, show (8 * j + l) / 8 = j by omega, show (8 * j + l) % 8 = l by omega]
  rw [Vector.getElem_append]
  by_cases h : i < 32
  · rw [dif_pos (by omega), if_pos h, wr _ _ (by omega) _ (by omega)]
    congr 1
    omega
  · rw [dif_neg (by omega), if_neg h, wr _ _ (by omega) _ (by omega)]
    congr 1
    omega

theorem gost_part (v : Vector Byte 32) (j : Nat) (h : 8 * j + 8 ≤ 32) :
    read64le (vsub v (8 * j) 8 h) = (gostNum v.toList).extractLsb' (64 * j) 64 := by
  apply BitVec.eq_of_getLsbD_eq
  intro i hi
  rw [rd64_bit _ _ hi, BitVec.getLsbD_extractLsb', num_bit _ _ (by omega)]
  simp [vsub, hi, show (64 * j + i) / 8 = 8 * j + i / 8 by omega, show (64 * j + i) % 8 = i % 8 by omega]

theorem gost_cat (a b c d : Vector Byte 8) (j : Nat) (hj : j < 32) :
    (a ++ b ++ c ++ d : Vector Byte 32)[j] =
      if h : j < 8 then a[j] else if h : j < 16 then b[j - 8] else if h : j < 24 then c[j - 16]
      else d[j - 24] := by
  refine (Vector.getElem_append (xs := a ++ b ++ c) (ys := d) (i := j) hj).trans ?_
  simp only [Vector.getElem_append]
  split_ifs <;> first | omega | rfl

theorem gost_join (a b c d : Vector Byte 8) :
    gostNum (a ++ b ++ c ++ d : Vector Byte 32).toList =
      read64le d ++ read64le c ++ read64le b ++ read64le a := by
  apply num_ext
  intro i hi
  rw [num_bit _ _ hi, gost_cat]
  simp only [BitVec.getLsbD_append]
  by_cases h1 : i < 64
  · rw [dif_pos (by omega), if_pos h1, rd64_bit _ _ h1]
  · rw [dif_neg (by omega), if_neg h1]
    by_cases h2 : i - 64 < 64
    · rw [dif_pos (by omega), if_pos h2, rd64_bit _ _ h2]
      simp only [show (i - 64) / 8 = i / 8 - 8 by omega, show (i - 64) % 8 = i % 8 by omega]
    · rw [dif_neg (by omega), if_neg h2]
      by_cases h3 : i - 64 - 64 < 64
      · rw [dif_pos (by omega), if_pos h3, rd64_bit _ _ h3]
        simp only [show (i - 64 - 64) / 8 = i / 8 - 16 by omega, show (i - 64 - 64) % 8 = i % 8 by omega]
      · rw [dif_neg (by omega), if_neg h3, rd64_bit _ _ (by omega)]
        simp only [show (i - 64 - 64 - 64) / 8 = i / 8 - 24 by omega,
          show (i - 64 - 64 - 64) % 8 = i % 8 by omega]

theorem gost_uv (H M : BitVec 256) :
    gostUV H M 0 = (H, M) ∧ gostUV H M 1 = (gostA H, gostA (gostA M)) ∧
    gostUV H M 2 = (gostA (gostA H) ^^^ gostC3, gostA (gostA (gostA (gostA M)))) ∧
    gostUV H M 3 = (gostA (gostA (gostA H) ^^^ gostC3), gostA (gostA (gostA (gostA (gostA (gostA M)))))) := by
  simp [gostUV]

theorem gost_c3 : gostNum gost94_cp.toList = gostC3 := by decide +kernel

theorem gost_eq (h m : Vector Byte 32) : gost94_compress h m = gost94Compress h m := by
  have key : gostNum (gost94_compress h m).toList = gostStep (gostNum h.toList) (gostNum m.toList) := by
    unfold gost94_compress gostStep
    simp only
    rw [gost_zs, gost_x, gost_z, gost_x, gost_zs, gost_join]
    obtain ⟨u0, u1, u2, u3⟩ := gost_uv (gostNum h.toList) (gostNum m.toList)
    rw [gost_e _ _ (gostKey (gostNum h.toList) (gostNum m.toList) 3) (fun k => by
        rw [gost_p, gost_x, gostKey, u3]
        simp only [gost_a, gost_x, gost_c3]),
      gost_e _ _ (gostKey (gostNum h.toList) (gostNum m.toList) 2) (fun k => by
        rw [gost_p, gost_x, gostKey, u2]
        simp only [gost_a, gost_x, gost_c3]),
      gost_e _ _ (gostKey (gostNum h.toList) (gostNum m.toList) 1) (fun k => by
        rw [gost_p, gost_x, gostKey, u1]
        simp only [gost_a]),
      gost_e _ _ (gostKey (gostNum h.toList) (gostNum m.toList) 0) (fun k => by
        rw [gost_p, gost_x, gostKey, u0]),
      gost_part h 0 (by decide), gost_part h 1 (by decide), gost_part h 2 (by decide),
      gost_part h 3 (by decide), gostS, BitVec.xor_comm (gostNum m.toList)]
  apply Vector.ext
  intro i hi
  apply BitVec.eq_of_getLsbD_eq
  intro j hj
  rw [gost94Compress, Vector.getElem_ofFn, ← key, gostByte, BitVec.getLsbD_extractLsb',
    num_bit _ _ (by omega)]
  simp only [hj, decide_true, Bool.true_and, show (8 * i + j) / 8 = i by omega,
    show (8 * i + j) % 8 = j by omega]

end Torsion.Cmp
