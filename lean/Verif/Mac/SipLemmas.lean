import Verif.Mac.Lemmas
import Verif.Mac.Spec
import Verif.Common.Blocks

/-!
# SipHash
-/
namespace Torsion.Mac
open Spec Blk

theorem rotl64_eq (x : BitVec 64) (y : Nat) (h : y < 64) : rotl64 x y = x.rotateLeft y := by
  rw [rotl64, BitVec.rotateLeft, BitVec.rotateLeftAux, Nat.mod_eq_of_lt h]

/-- The model state as a tuple. -/
def tup (s : SipSt) : Sip := (s.v0, s.v1, s.v2, s.v3)

theorem round_eq (s : SipSt) : tup (sipround s) = sipRound (tup s) := by
  simp only [tup, sipround, sipRound]
  rw [rotl64_eq _ 13 (by decide), rotl64_eq _ 16 (by decide), rotl64_eq _ 17 (by decide),
    rotl64_eq _ 21 (by decide), rotl64_eq _ 32 (by decide), rotl64_eq _ 32 (by decide)]

theorem word_eq (s : SipSt) (w : BitVec 64) : tup (sip_word s w) = sipAbsorb (tup s) w := by
  simp only [sip_word, sipAbsorb]
  have h : (((tup s).1, (tup s).2.1, (tup s).2.2.1, (tup s).2.2.2 ^^^ w) : Sip) =
    tup { s with v3 := s.v3 ^^^ w } := rfl
  rw [h, ← round_eq, ← round_eq]
  rfl

theorem end_eq (s : SipSt) : sip_end s = sipFinish (tup s) := by
  simp only [sip_end, sipFinish]
  have h : (((tup s).1, (tup s).2.1, (tup s).2.2.1 ^^^ 0xff, (tup s).2.2.2) : Sip) =
    tup { s with v2 := s.v2 ^^^ 0xff } := rfl
  rw [h, ← round_eq, ← round_eq, ← round_eq, ← round_eq]
  rfl

theorem read64_word {n : Nat} (v : Vector Byte n) (i : Nat) (h : 8 * i + 8 ≤ n) :
    read64le (vsub v (8 * i) 8 h) = word64 v.toList i := by
  apply BitVec.eq_of_toNat_eq
  rw [read64_vsub, word64, BitVec.toNat_ofNat, leVal_take, leVal_drop]
  rw [show (256 : Nat) ^ 8 = 2 ^ 64 from rfl, Nat.mod_mod]

theorem init_eq (key : Vector Byte 16) : tup (sip_init key) = sipKey key.toList := by
  have h0 := read64_word key 0 (by decide)
  have h1 := read64_word key 1 (by decide)
  simp only [tup, sip_init, sipKey]
  rw [← h0, ← h1]

theorem sip_loop_eq : ∀ (bl : List (Vector Byte 8)) (k : Nat) (s : SipSt) (t : List Byte),
    t.length < 8 → bl.length ≤ k →
    sip_loop k s (cat bl ++ t) = .ok (bl.foldl (fun s v => sip_word s (read64le v)) s, t)
  | [], 0, st, t, _, _ => rfl
  | [], k + 1, st, t, ht, _ => by
    rw [sip_loop, if_neg (by simpa using ht)]; rfl
  | v :: bl, 0, st, t, _, hk => by simp at hk
  | v :: bl, k + 1, st, t, ht, hk => by
    obtain ⟨v', h1, h2⟩ := vec_ok (n := 8) (xs := cat (v :: bl) ++ t) (by simp)
    have hv : v' = v := by
      apply Vector.toList_inj.1
      rw [h2, cat_cons, List.append_assoc, List.take_left' (by simp)]
    rw [sip_loop, if_pos (by simp), h1, C.ok_bind, hv, cat_cons, List.append_assoc,
      List.drop_left' (by simp), sip_loop_eq bl k _ t ht (by simpa using hk)]
    rfl

theorem words_cat (bl : List (Vector Byte 8)) :
    (List.range ((cat bl).length / 8)).map (word64 (cat bl)) = bl.map read64le := by
  rw [cat_length, Nat.mul_div_cancel _ (by decide)]
  induction bl with
  | nil => rfl
  | cons v bl ih =>
    rw [List.length_cons, List.range_succ_eq_map, List.map_cons, List.map_map, List.map_cons, ← ih]
    congr 1
    · apply BitVec.eq_of_toNat_eq
      rw [word64, Nat.mul_zero, List.drop_zero, cat_cons, List.take_left' (by simp),
        BitVec.toNat_ofNat, (read64_val v).1, Nat.mod_eq_of_lt]
      have := leVal_lt v.toList
      rwa [Vector.length_toList] at this
    · apply List.map_congr_left
      intro i _
      simp only [Function.comp, Nat.succ_eq_add_one, word64]
      rw [cat_cons, show 8 * (i + 1) = v.toList.length + 8 * i by simp; omega, List.drop_append,
        List.drop_of_length_le (Nat.le_add_right _ _), Nat.add_sub_cancel_left, List.nil_append]

theorem len_byte (n : Nat) : BitVec.ofNat 64 n <<< 56 = (BitVec.ofNat 8 n).zeroExtend 64 <<< 56 := by
  apply BitVec.eq_of_toNat_eq
  simp only [BitVec.toNat_shiftLeft, BitVec.toNat_ofNat, BitVec.truncate_eq_setWidth,
    BitVec.toNat_setWidth, Nat.shiftLeft_eq]
  omega

/-- The last word: the rest of the message, zeroes, the length byte. -/
theorem last_word (n : Nat) (t : List Byte) (ht : t.length < 8) (v : Vector Byte 8)
    (hv : v.toList = t ++ List.replicate (7 - t.length) 0 ++ [BitVec.ofNat 8 n]) :
    (do
      let f0 ← sip_case t 6 (BitVec.ofNat 64 n <<< 56)
      let f0 ← sip_case t 5 f0
      let f0 ← sip_case t 4 f0
      let f0 ← sip_case t 3 f0
      let f0 ← sip_case t 2 f0
      let f0 ← sip_case t 1 f0
      sip_case t 0 f0) = .ok (read64le v) := by
  have hg : ∀ i (h : i < 8), v[i] = (t ++ List.replicate (7 - t.length) 0 ++ [BitVec.ofNat 8 n])[i]'(by
      simp; omega) := by
    intro i h
    have : v[i] = v.toList[i]'(by simpa using h) := by simp
    rw [this]
    simp only [hv]
  rw [len_byte, read64le]
  rw [hg 0 (by decide), hg 1 (by decide), hg 2 (by decide), hg 3 (by decide), hg 4 (by decide),
    hg 5 (by decide), hg 6 (by decide), hg 7 (by decide)]
  match t, ht with
  | [], _ => simp [sip_case]
  | [a], _ => simp [sip_case, C.rd]
  | [a, b], _ => simp [sip_case, C.rd]
  | [a, b, c], _ => simp [sip_case, C.rd]
  | [a, b, c, d], _ => simp [sip_case, C.rd]
  | [a, b, c, d, e], _ => simp [sip_case, C.rd]
  | [a, b, c, d, e, f], _ => simp [sip_case, C.rd]
  | [a, b, c, d, e, f, g], _ => simp [sip_case, C.rd]
  | _ :: _ :: _ :: _ :: _ :: _ :: _ :: _ :: _, ht => simp only [List.length_cons] at ht; omega

theorem siphash_sum_eq (data : List Byte) (key : Vector Byte 16) :
    siphash_sum data key = .ok (siphash key.toList data) := by
  obtain ⟨bl, t, hm, ht⟩ := split 8 (by decide) data
  have hmod : data.length % 8 = t.length := by rw [hm, List.length_append, cat_length]; omega
  obtain ⟨v, -, hv⟩ := vec_ok (n := 8)
    (xs := t ++ List.replicate (7 - t.length) 0 ++ [BitVec.ofNat 8 data.length]) (by simp; omega)
  rw [List.take_of_length_le (by simp; omega)] at hv
  have hpad : sipPad data = cat (bl ++ [v]) := by
    rw [sipPad, hmod, cat_append, cat_cons, hv]
    conv_lhs => rw [hm]
    simp [List.append_assoc, hm]
  have hlw := last_word data.length t ht v hv
  rw [siphash, hpad, words_cat, siphash_sum]
  dsimp only
  conv_lhs => rw [show sip_loop data.length (sip_init key) data =
    .ok (bl.foldl (fun s v => sip_word s (read64le v)) (sip_init key), t) by
      have := sip_loop_eq bl data.length (sip_init key) t ht (by
        rw [hm, List.length_append, cat_length]; omega)
      rwa [← hm] at this]
  rw [C.ok_bind]
  dsimp only
  have fold : ∀ (bl : List (Vector Byte 8)) (s : SipSt),
      tup (bl.foldl (fun s v => sip_word s (read64le v)) s) =
        (bl.map read64le).foldl sipAbsorb (tup s) := by
    intro bl
    induction bl with
    | nil => intro s; rfl
    | cons v bl ih => intro s; rw [List.foldl_cons, ih, List.map_cons, List.foldl_cons, word_eq]
  rw [List.map_append, List.foldl_append, ← init_eq, ← fold, List.map_cons, List.map_nil,
    List.foldl_cons, List.foldl_nil, ← word_eq, ← end_eq]
  generalize bl.foldl (fun s v => sip_word s (read64le v)) (sip_init key) = s
  have : ∀ (x : C (BitVec 64)) (k : BitVec 64 → C (BitVec 64)), x = .ok (read64le v) →
      (x >>= k) = k (read64le v) := by
    intro x k h; rw [h, C.ok_bind]
  have h2 := this _ (fun f0 => .ok (sip_end (sip_word s f0))) hlw
  rw [← h2]
  simp only [C.bind_assoc]

theorem mulhi_portable_eq (a b : BitVec 64) : sip_mulhi_portable a b = sip_mulhi a b := by
  apply BitVec.eq_of_toNat_eq
  rw [sip_mulhi_portable, sip_mulhi]
  simp only [BitVec.toNat_add, BitVec.toNat_mul, BitVec.toNat_ushiftRight, BitVec.toNat_and,
    BitVec.toNat_ofNat, Nat.shiftRight_eq_div_pow]
  have ha := a.isLt
  have hb := b.isLt
  generalize a.toNat = x at *
  generalize b.toNat = y at *
  rw [show BitVec.toNat (4294967295 : BitVec 64) = 2 ^ 32 - 1 from rfl]
  simp only [Nat.and_two_pow_sub_one_eq_mod]
  obtain ⟨xh, xl, hx, hxl⟩ : ∃ xh xl, x = 2 ^ 32 * xh + xl ∧ xl < 2 ^ 32 :=
    ⟨x / 2 ^ 32, x % 2 ^ 32, by omega, Nat.mod_lt _ (by decide)⟩
  obtain ⟨yh, yl, hy, hyl⟩ : ∃ yh yl, y = 2 ^ 32 * yh + yl ∧ yl < 2 ^ 32 :=
    ⟨y / 2 ^ 32, y % 2 ^ 32, by omega, Nat.mod_lt _ (by decide)⟩
  have hxh : xh < 2 ^ 32 := by omega
  have hyh : yh < 2 ^ 32 := by omega
  rw [show x / 2 ^ 32 = xh by omega, show x % 2 ^ 32 = xl by omega, show y / 2 ^ 32 = yh by omega,
    show y % 2 ^ 32 = yl by omega]
  have hp : x * y = 2 ^ 64 * (xh * yh) + 2 ^ 32 * (xh * yl) + 2 ^ 32 * (yh * xl) + xl * yl := by
    rw [hx, hy]; ring
  rw [hp]
  have m := fun a b (ha : a < 2 ^ 32) (hb : b < 2 ^ 32) =>
    show a * b ≤ (2 ^ 32 - 1) * (2 ^ 32 - 1) from Nat.mul_le_mul (by omega) (by omega)
  have m1 := m xh yh hxh hyh
  have m2 := m xh yl hxh hyl
  have m3 := m yh xl hyh hxl
  have m4 := m xl yl hxl hyl
  generalize xh * yh = p at *
  generalize xh * yl = q at *
  generalize yh * xl = r at *
  generalize xl * yl = s at *
  clear hx hy hp ha hb hxl hyl hxh hyh m
  omega

end Torsion.Mac
