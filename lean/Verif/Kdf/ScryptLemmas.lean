import Verif.Kdf.Lemmas
import Verif.Stream.CoreLemmas

/-!
# Lemmas for the model of scrypt
-/
namespace Torsion.Kdf
open Torsion Spec Hsh

theorem salsa208_length (B : List Byte) : (salsa208 B).length = 64 := by
  simp [salsa208, List.length_flatMap, Strm.leBytes_len]

theorem salsa20_8_eq {B : List Byte} (h : B.length = 64) : salsa20_8 B = .ok (salsa208 B) := by
  obtain ⟨v, h1, h2⟩ := Blk.vec_ok (n := 64) (xs := B) (by omega)
  rw [List.take_of_length_le (by omega)] at h2
  rw [salsa20_8, h1, C.ok_bind]
  refine congrArg C.ok ?_
  have hm : Strm.toMat (Vector.ofFn fun i : Fin 16 => read32le (vsub v (4 * i.val) 4 (by omega))) =
      fun i => word B (4 * i.val) := by
    funext i
    simp only [Strm.toMat, Fin.getElem_fin, Vector.getElem_ofFn]
    rw [word, ← h2, ← Mac.vsub_toList v (4 * i.val) 4 (by omega), ← (read32_val _).1]
    simp
  generalize (Vector.ofFn fun i : Fin 16 => read32le (vsub v (4 * i.val) 4 (by omega))) = w at *
  rw [salsa208, bytes32le, Strm.toList_eq, List.flatMap_map]
  refine congrArg (fun f => List.flatMap f (List.finRange 16)) ?_
  funext i
  rw [Strm.write32le_eq, ← hm, ← Strm.salsa_rounds_eq, BitVec.add_comm]
  simp [Strm.toMat]

theorem flat_block (T : Nat → List Byte) {hs : Nat} (hT : ∀ i, (T i).length = hs) {n j : Nat} (hj : j < n) :
    (((List.range n).flatMap T).drop (j * hs)).take hs = T j := by
  obtain ⟨c, rfl⟩ := Nat.exists_eq_add_of_lt hj
  rw [show j + c + 1 = j + (1 + c) by omega, List.range_add, List.flatMap_append,
    List.drop_append_of_le_length (by rw [flat_length T hT]),
    List.drop_eq_nil_of_le (by rw [flat_length T hT]), List.nil_append, List.range_add, List.map_append,
    List.flatMap_append]
  simp only [List.range_one, List.map_cons, List.map_nil, List.flatMap_cons, List.flatMap_nil,
    List.append_nil, Nat.add_zero]
  rw [List.take_append_of_le_length (by rw [hT]), List.take_of_length_le (by rw [hT])]

theorem flat_slice (T : Nat → List Byte) {hs : Nat} (hT : ∀ i, (T i).length = hs) {n j : Nat} (hj : j < n) :
    C.slice ((List.range n).flatMap T) (j * hs) hs = .ok (T j) := by
  rw [C.slice, if_pos, flat_block T hT hj]
  rw [flat_length T hT, ← Nat.succ_mul]
  exact Nat.mul_le_mul_right _ hj

theorem xor_length {a b : List Byte} (h : a.length = b.length) : (xorBytes a b).length = a.length := by
  rw [xorBytes, List.length_zipWith, h, Nat.min_self]

theorem blk64_length {B : List Byte} {i : Nat} (h : 64 * (i + 1) ≤ B.length) : (blk64 B i).length = 64 := by
  rw [blk64, List.length_take, List.length_drop]; omega

theorem slice64 {B : List Byte} {i : Nat} (h : 64 * (i + 1) ≤ B.length) :
    C.slice B (i * 64) 64 = .ok (blk64 B i) := by
  rw [C.slice, if_pos (by omega), blk64, Nat.mul_comm]

theorem scryptX_length {r : Nat} {B : List Byte} (hr : 0 < r) (hB : B.length = 128 * r) (i : Nat) :
    (scryptX r B i).length = 64 := by
  cases i with
  | zero => exact blk64_length (by omega)
  | succ i => exact salsa208_length _

theorem blockmix_loop_eq {r : Nat} {B : List Byte} (hr : 0 < r) (hB : B.length = 128 * r) :
    ∀ (n i : Nat), i + n ≤ 2 * r → blockmix_loop B n i (scryptX r B i) =
      .ok ((List.range n).flatMap fun k => scryptX r B (i + k + 1))
  | 0, i, h => rfl
  | n + 1, i, h => by
    have h1 : 64 * (i + 1) ≤ B.length := by omega
    have hx : salsa20_8 (List.zipWith (· ^^^ ·) (scryptX r B i) (blk64 B i)) = .ok (scryptX r B (i + 1)) := by
      rw [salsa20_8_eq]
      · rfl
      · rw [List.length_zipWith, scryptX_length hr hB, blk64_length h1]; rfl
    rw [blockmix_loop, slice64 h1, C.ok_bind, hx, C.ok_bind, blockmix_loop_eq hr hB n (i + 1) (by omega),
      C.ok_bind, List.range_succ_eq_map, List.flatMap_cons, List.flatMap_map]
    simp only [Nat.add_zero, Nat.succ_eq_add_one, show ∀ k, i + (k + 1) + 1 = i + 1 + k + 1 by omega]

theorem blockmix_pick_eq {T : Nat → List Byte} (hT : ∀ i, (T i).length = 64) {m o : Nat} :
    ∀ (n i : Nat), (0 < n → (i + n - 1) * 2 + o < m) →
      blockmix_pick ((List.range m).flatMap T) o n i = .ok ((List.range n).flatMap fun k => T ((i + k) * 2 + o))
  | 0, i, h => rfl
  | n + 1, i, h => by
    have h0 := h (by omega)
    rw [blockmix_pick, flat_slice T hT (show i * 2 + o < m by omega), C.ok_bind,
      blockmix_pick_eq hT n (i + 1) (by intro; omega),
      C.ok_bind, List.range_succ_eq_map, List.flatMap_cons, List.flatMap_map]
    simp only [Nat.add_zero, Nat.succ_eq_add_one, show ∀ k, i + 1 + k = i + (k + 1) by omega]

theorem blockmix_eq {r : Nat} {B : List Byte} (hr : 0 < r) (hB : B.length = 128 * r) :
    blockmix_salsa8 B r = .ok (scryptBlockMix r B) := by
  have hX := scryptX_length hr hB
  rw [blockmix_salsa8, slice64 (by omega), C.ok_bind]
  have h1 := blockmix_loop_eq hr hB (2 * r) 0 (by omega)
  rw [scryptX] at h1
  rw [h1, C.ok_bind, blockmix_pick_eq (fun i => hX _) r 0 (by omega), C.ok_bind,
    blockmix_pick_eq (fun i => hX _) r 0 (by omega), C.ok_bind, scryptBlockMix]
  simp only [Nat.zero_add, Nat.add_zero, fun k => Nat.mul_comm k 2]

theorem blockmix_length {r : Nat} {B : List Byte} (hr : 0 < r) (hB : B.length = 128 * r) :
    (scryptBlockMix r B).length = 128 * r := by
  have hX := scryptX_length hr hB
  rw [scryptBlockMix, List.length_append, flat_length _ (fun i => hX _), flat_length _ (fun i => hX _)]
  omega

theorem iter_length {r : Nat} {B : List Byte} (hr : 0 < r) (hB : B.length = 128 * r) (i : Nat) :
    ((scryptBlockMix r)^[i] B).length = 128 * r := by
  induction i with
  | zero => exact hB
  | succ i ih => rw [Function.iterate_succ_apply']; exact blockmix_length hr ih

theorem smix_fill_eq {r : Nat} {B : List Byte} (hr : 0 < r) (hB : B.length = 128 * r) :
    ∀ (n k : Nat), smix_fill r n ((List.range k).flatMap fun i => (scryptBlockMix r)^[i] B)
      ((scryptBlockMix r)^[k] B) =
      .ok ((List.range (k + n)).flatMap fun i => (scryptBlockMix r)^[i] B, (scryptBlockMix r)^[k + n] B)
  | 0, k => rfl
  | n + 1, k => by
    have h1 := smix_fill_eq hr hB n (k + 1)
    rw [List.range_succ, List.flatMap_append, List.flatMap_cons, List.flatMap_nil, List.append_nil,
      Function.iterate_succ_apply', show k + 1 + n = k + (n + 1) by omega] at h1
    rw [smix_fill, blockmix_eq hr (iter_length hr hB k), C.ok_bind, h1]

theorem integerify_eq {r e : Nat} {X : List Byte} (hr : 0 < r) (hX : X.length = 128 * r) (he : e < 64) :
    ∃ v, integerify X r = .ok v ∧
      (v &&& (BitVec.ofNat 64 (2 ^ e) - 1)).toNat = leVal (blk64 X (2 * r - 1)) % 2 ^ e := by
  obtain ⟨v, h1, h2⟩ := Blk.vec_ok (n := 8) (xs := X.drop ((2 * r - 1) * 64)) (by simp; omega)
  refine ⟨read64le v, by rw [integerify, h1, C.ok_bind], ?_⟩
  have hlt : 2 ^ e < 2 ^ 64 := Nat.pow_lt_pow_right (by omega) he
  have hpos : 0 < 2 ^ e := Nat.two_pow_pos e
  have hn : (BitVec.ofNat 64 (2 ^ e) - 1).toNat = 2 ^ e - 1 := by
    rw [BitVec.toNat_sub, BitVec.toNat_ofNat, Nat.mod_eq_of_lt hlt]
    rw [show (1 : BitVec 64).toNat = 1 from rfl]
    rw [show 2 ^ 64 - 1 + 2 ^ e = (2 ^ e - 1) + 2 ^ 64 by omega, Nat.add_mod_right, Nat.mod_eq_of_lt (by omega)]
  rw [BitVec.toNat_and, hn, Nat.and_two_pow_sub_one_eq_mod, (read64_val v).1, h2]
  have h3 : (X.drop ((2 * r - 1) * 64)).take 8 = (blk64 X (2 * r - 1)).take 8 := by
    rw [blk64, List.take_take, Nat.mul_comm]; rfl
  rw [h3, Mac.leVal_take]
  exact Nat.mod_mod_of_dvd _ (show 2 ^ e ∣ 256 ^ 8 by
    rw [show (256 : Nat) ^ 8 = 2 ^ 64 from rfl]; exact Nat.pow_dvd_pow 2 (by omega))

theorem smix_mix_eq {r e : Nat} {B : List Byte} (hr : 0 < r) (hB : B.length = 128 * r) (he : e < 64) :
    ∀ (n : Nat) (X : List Byte), X.length = 128 * r →
      smix_mix r (BitVec.ofNat 64 (2 ^ e)) ((List.range (2 ^ e)).flatMap fun i => (scryptBlockMix r)^[i] B) n X =
      .ok ((fun X => scryptBlockMix r (xorBytes X
        ((scryptBlockMix r)^[leVal (blk64 X (2 * r - 1)) % 2 ^ e] B)))^[n] X)
  | 0, X, hX => rfl
  | n + 1, X, hX => by
    obtain ⟨v, h1, h2⟩ := integerify_eq hr hX he
    have hT := iter_length hr hB
    have hj : leVal (blk64 X (2 * r - 1)) % 2 ^ e < 2 ^ e := Nat.mod_lt _ (Nat.two_pow_pos e)
    have hx : (List.zipWith (· ^^^ ·) X ((scryptBlockMix r)^[leVal (blk64 X (2 * r - 1)) % 2 ^ e] B)).length =
        128 * r := by
      rw [List.length_zipWith, hX, hT, Nat.min_self]
    rw [smix_mix, h1, C.ok_bind, h2]
    dsimp only
    rw [flat_slice _ hT hj, C.ok_bind, blockmix_eq hr hx, C.ok_bind,
      smix_mix_eq hr hB he n _ (blockmix_length hr hx), Function.iterate_succ_apply]
    rfl

theorem smix_eq {r e : Nat} {B : List Byte} (hr : 0 < r) (hB : B.length = 128 * r) (he : e < 64) :
    smix B r (2 ^ e) = .ok (scryptROMix r (2 ^ e) B) := by
  have h1 := smix_fill_eq hr hB (2 ^ e) 0
  rw [Nat.zero_add] at h1
  rw [smix, slice_take _ _ (by omega), List.take_of_length_le (by omega), C.ok_bind]
  rw [List.range_zero, List.flatMap_nil, Function.iterate_zero_apply] at h1
  rw [h1, C.ok_bind]
  dsimp only
  rw [smix_mix_eq hr hB he _ _ (iter_length hr hB _)]
  rfl

theorem romix_length {r N : Nat} {B : List Byte} (hr : 0 < r) (hB : B.length = 128 * r) :
    (scryptROMix r N B).length = 128 * r := by
  rw [scryptROMix]
  have : ∀ (n : Nat) (X : List Byte), X.length = 128 * r → ((fun X => scryptBlockMix r (xorBytes X
        ((scryptBlockMix r)^[leVal (blk64 X (2 * r - 1)) % N] B)))^[n] X).length = 128 * r := by
    intro n
    induction n with
    | zero => intro X hX; exact hX
    | succ n ih =>
      intro X hX
      rw [Function.iterate_succ_apply]
      apply ih
      apply blockmix_length hr
      rw [xor_length (by rw [hX, iter_length hr hB]), hX]
  exact this N _ (iter_length hr hB N)

theorem smix_loop_eq {r e : Nat} {B : List Byte} (hr : 0 < r) (he : e < 64) :
    ∀ (n i : Nat), B.length = (i + n) * 128 * r →
      smix_loop r (2 ^ e) B n i =
      .ok ((List.range n).flatMap fun k => scryptROMix r (2 ^ e) ((B.drop ((i + k) * 128 * r)).take (128 * r)))
  | 0, i, hB => rfl
  | n + 1, i, hB => by
    have hle : i * 128 * r + 128 * r ≤ B.length := by
      have : (i + 1) * 128 * r ≤ (i + (n + 1)) * 128 * r := by
        apply Nat.mul_le_mul_right; omega
      have e : (i + 1) * 128 * r = i * 128 * r + 128 * r := by ring
      omega
    rw [smix_loop, C.slice, if_pos hle, C.ok_bind, smix_eq hr (by simp; omega) he, C.ok_bind,
      smix_loop_eq hr he n (i + 1) (by rw [hB]; congr 2; omega), C.ok_bind, List.range_succ_eq_map,
      List.flatMap_cons, List.flatMap_map]
    simp only [Nat.add_zero, Nat.succ_eq_add_one, show ∀ k, i + 1 + k = i + (k + 1) by omega]

end Torsion.Kdf
