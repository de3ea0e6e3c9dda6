import Verif.Cipher.Spec
import Verif.Cipher.CStream
import Verif.Util.Props

/-!
# Lemmas: blocks as vectors and as numbers
-/
namespace Torsion.Ciph
open Spec

/-! ## Exclusive or -/

theorem vxor_eq {n : Nat} (a b : Vector Byte n) : vxor a b = bxor a b := by
  apply Vector.ext
  intro i hi
  simp [vxor, bxor]

theorem bxor_comm {n : Nat} (a b : Vector Byte n) : bxor a b = bxor b a := by
  apply Vector.ext
  intro i hi
  simp [bxor, BitVec.xor_comm]

theorem bxor_cancel {n : Nat} (a b : Vector Byte n) : bxor (bxor a b) b = a := by
  apply Vector.ext
  intro i hi
  simp [bxor, BitVec.xor_assoc]

theorem memxor3_toList {n : Nat} (a b : Vector Byte n) :
    memxor3 a.toList b.toList = (bxor a b).toList := by
  apply List.ext_getElem
  · simp [memxor3]
  · intro i h1 h2
    simp [memxor3, bxor]

theorem memxor3_length (a b : List Byte) : (memxor3 a b).length = min a.length b.length := by
  simp [memxor3]

theorem memxor3_app {a b c d : List Byte} (h : a.length = c.length) :
    memxor3 (a ++ b) (c ++ d) = memxor3 a c ++ memxor3 b d := by
  rw [memxor3, List.zipWith_append h]; rfl

theorem memxor3_cancel : ∀ {a b : List Byte}, a.length ≤ b.length → memxor3 (memxor3 a b) b = a
  | [], b, _ => by simp [memxor3]
  | x :: a, [], h => by simp at h
  | x :: a, y :: b, h => by
    have := memxor3_cancel (a := a) (b := b) (by simpa using h)
    simp only [memxor3, List.zipWith_cons_cons] at this ⊢
    rw [this]
    simp [BitVec.xor_assoc]

/-! ## Bits of numbers -/

theorem leVal_testBit : ∀ (l : List Byte) (i j : Nat), j < 8 →
    (leVal l).testBit (8 * i + j) = (l.getD i 0).getLsbD j
  | [], i, j, _ => by simp [leVal_nil]
  | b :: l, 0, j, hj => by
    rw [leVal_cons, Nat.mul_zero, Nat.zero_add, Nat.add_comm, show (256 : Nat) = 2 ^ 8 from rfl,
      Nat.testBit_two_pow_mul_add _ b.isLt, if_pos hj]
    rfl
  | b :: l, i + 1, j, hj => by
    rw [leVal_cons, Nat.add_comm b.toNat, show (256 : Nat) = 2 ^ 8 from rfl,
      Nat.testBit_two_pow_mul_add _ b.isLt, if_neg (by omega),
      show 8 * (i + 1) + j - 8 = 8 * i + j by omega, leVal_testBit l i j hj]
    rfl

theorem byte_testBit (v i j : Nat) (hj : j < 8) :
    (BitVec.ofNat 8 (v / 256 ^ i)).getLsbD j = v.testBit (8 * i + j) := by
  rw [BitVec.getLsbD_ofNat, decide_eq_true hj, Bool.true_and, show (256 : Nat) = 2 ^ 8 from rfl, ← Nat.pow_mul,
    Nat.testBit_div_two_pow, Nat.add_comm]

theorem leBlock_val {n : Nat} (v : Vector Byte n) : leBlock n (leVal v.toList) = v := by
  apply Vector.ext
  intro i hi
  apply BitVec.eq_of_getLsbD_eq
  intro j hj
  rw [leBlock, Vector.getElem_ofFn, byte_testBit _ _ _ hj, leVal_testBit _ _ _ hj,
    List.getD_eq_getElem?_getD, List.getElem?_eq_getElem (by simpa using hi)]
  simp

theorem beBlock_val {n : Nat} (v : Vector Byte n) : beBlock n (beVal v.toList) = v := by
  apply Vector.ext
  intro i hi
  apply BitVec.eq_of_getLsbD_eq
  intro j hj
  rw [beBlock, Vector.getElem_ofFn, byte_testBit _ _ _ hj, beVal_eq, leVal_testBit _ _ _ hj,
    List.getD_eq_getElem?_getD, List.getElem?_eq_getElem (by simp; omega)]
  simp only [List.getElem_reverse, Option.getD_some, Vector.getElem_toList, Vector.length_toList]
  congr 2
  omega

theorem beVal_lt (b : List Byte) : beVal b < 256 ^ b.length := by
  rw [beVal_eq]; simpa using leVal_lt b.reverse

theorem beVal_beBlock {n v : Nat} (h : v < 256 ^ n) : beVal (beBlock n v).toList = v := by
  apply Nat.eq_of_testBit_eq
  intro k
  by_cases hk : k < 8 * n
  · have e : k = 8 * (k / 8) + k % 8 := by omega
    rw [e, beVal_eq, leVal_testBit _ _ _ (by omega), List.getD_eq_getElem?_getD,
      List.getElem?_eq_getElem (by simp; omega)]
    simp only [List.getElem_reverse, Option.getD_some, Vector.getElem_toList, Vector.length_toList,
      beBlock, Vector.getElem_ofFn]
    rw [byte_testBit _ _ _ (by omega)]
    congr 1; omega
  · have h1 : (256 : Nat) ^ n = 2 ^ (8 * n) := by rw [show (256 : Nat) = 2 ^ 8 from rfl, ← Nat.pow_mul]
    have h2 : beVal (beBlock n v).toList < 256 ^ n := by simpa using beVal_lt (beBlock n v).toList
    rw [Nat.testBit_lt_two_pow (Nat.lt_of_lt_of_le h2 (h1 ▸ Nat.pow_le_pow_right (by omega) (by omega))),
      Nat.testBit_lt_two_pow (Nat.lt_of_lt_of_le h (h1 ▸ Nat.pow_le_pow_right (by omega) (by omega)))]

/-! ## Sizes -/

/-- The block sizes of the library. -/
def Size (n : Nat) : Prop := n = 8 ∨ n = 16

theorem mask_mod {n : Nat} (hn : Size n) (x : Nat) : x &&& (n - 1) = x % n := by
  rcases hn with rfl | rfl
  · exact Nat.and_two_pow_sub_one_eq_mod x 3
  · exact Nat.and_two_pow_sub_one_eq_mod x 4


theorem align_val {n : Nat} (hn : Size n) {x : Nat} (hx : x < 2 ^ 64) : align_down n x = x / n * n := by
  have main : ∀ e, e ≤ 64 → x &&& (2 ^ 64 - 2 ^ e) = x / 2 ^ e * 2 ^ e := by
    intro e he
    apply Nat.eq_of_testBit_eq
    intro k
    have h1 : 2 ^ 64 - 2 ^ e = 2 ^ e * (2 ^ (64 - e) - 1) := by
      rw [Nat.mul_sub, ← Nat.pow_add, Nat.mul_one]; congr 2; omega
    rw [Nat.testBit_and, h1, Nat.testBit_two_pow_mul, Nat.testBit_two_pow_sub_one, Nat.mul_comm,
      Nat.testBit_two_pow_mul, Nat.testBit_div_two_pow]
    by_cases h2 : e ≤ k
    · rw [show k - e + e = k by omega]
      by_cases h3 : k < 64
      · simp [h2, show k - e < 64 - e by omega]
      · rw [Nat.testBit_lt_two_pow (Nat.lt_of_lt_of_le hx (Nat.pow_le_pow_right (by omega) (by omega)))]
        simp
    · simp [h2]
  rcases hn with rfl | rfl
  · exact main 3 (by omega)
  · exact main 4 (by omega)

/-! ## Doubling -/

theorem pow256 (n : Nat) : (256 : Nat) ^ n = 2 ^ (8 * n) := by
  rw [show (256 : Nat) = 2 ^ 8 from rfl, ← Nat.pow_mul]

theorem gfPoly_lt (n : Nat) : gfPoly n < 2 ^ 8 := by
  unfold gfPoly; split <;> decide

theorem gfDouble_bit {n v k : Nat} (hn : 1 ≤ n) (hv : v < 256 ^ n) (hk : k < 8 * n) :
    (gfDouble n v).testBit k =
      ((decide (1 ≤ k) && v.testBit (k - 1)) ^^ (v.testBit (8 * n - 1) && (gfPoly n).testBit k)) := by
  have h2 : (2 * v).testBit k = (decide (1 ≤ k) && v.testBit (k - 1)) := by
    have := Nat.testBit_two_pow_mul (a := v) (i := 1) (j := k)
    simpa using this
  rw [pow256] at hv
  have hp : 2 ^ (8 * n) = 2 * 2 ^ (8 * n - 1) := by
    rw [← Nat.pow_succ']; congr 1; omega
  have ht : v.testBit (8 * n - 1) = decide (¬ 2 * v < 256 ^ n) := by
    rw [pow256, hp]
    by_cases h : 2 * v < 2 * 2 ^ (8 * n - 1)
    · rw [Nat.testBit_lt_two_pow (by omega)]; simp [h]
    · have : v = 2 ^ (8 * n - 1) + (v - 2 ^ (8 * n - 1)) := by omega
      rw [this, Nat.testBit_two_pow_add_eq, Nat.testBit_lt_two_pow (by omega)]
      rw [← this]; simp [h]
  unfold gfDouble
  by_cases h : 2 * v < 256 ^ n
  · rw [if_pos h, ht, h2]; simp [h]
  · rw [if_neg h, ht, Nat.testBit_xor]
    have h3 : 2 * v - 256 ^ n = 2 * v % 2 ^ (8 * n) := by
      rw [pow256] at h ⊢
      rw [Nat.mod_eq_sub_mod (by omega), Nat.mod_eq_of_lt (by omega)]
    rw [h3, Nat.testBit_mod_two_pow, h2]
    simp [h, hk]

theorem top_bit (b : Byte) : b >>> 7 = if b.getLsbD 7 then 1 else 0 := by
  revert b; decide

theorem and_neg_top (p b : Byte) : p &&& -(b >>> 7) = if b.getLsbD 7 then p else 0 := by
  rw [top_bit]
  cases b.getLsbD 7
  · simp
  · simp only [if_true]
    rw [show (-(1 : Byte)) = BitVec.allOnes 8 by decide, BitVec.and_allOnes]

theorem poly_rd {n : Nat} (hn : Size n) : C.rd poly_table (n >>> 4) = .ok (BitVec.ofNat 32 (gfPoly n)) := by
  rcases hn with rfl | rfl <;> rfl

theorem poly_byte (n i j : Nat) (hi : i < 3) (hj : j < 8) :
    (BitVec.truncate 8 (BitVec.ofNat 32 (gfPoly n) >>> (8 * i))).getLsbD j = (gfPoly n).testBit (8 * i + j) := by
  rw [BitVec.truncate_eq_setWidth, BitVec.getLsbD_setWidth, BitVec.getLsbD_ushiftRight, BitVec.getLsbD_ofNat]
  simp [hj, show 8 * i + j < 32 by omega]

theorem shl_bit (a : Byte) (j : Nat) (hj : j < 8) :
    (a <<< (1 : Nat)).getLsbD j = (decide (1 ≤ j) && a.getLsbD (j - 1)) := by
  rw [BitVec.getLsbD_shiftLeft]
  rcases j with _ | j
  · simp
  · simp [hj]

theorem shr_bit (a : Byte) (j : Nat) : (a >>> (7 : Nat)).getLsbD j = (decide (j = 0) && a.getLsbD 7) := by
  rw [BitVec.getLsbD_ushiftRight]
  rcases j with _ | j
  · simp
  · simp only [Nat.add_eq_zero_iff, Nat.one_ne_zero, and_false, decide_false, Bool.false_and]
    exact BitVec.getLsbD_of_ge _ _ (by omega)

theorem xts_shift_eq {n : Nat} (hn : Size n) (t : Vector Byte n) : xts_shift t = .ok (xtsNext t) := by
  have hn8 : 8 ≤ n := by rcases hn with rfl | rfl <;> omega
  unfold xts_shift
  rw [poly_rd hn, C.ok_bind, C.rd, List.getElem?_eq_getElem (show n - 1 < t.toList.length by simp; omega)]
  simp only [C.ok_bind]
  rw [C.xorat, if_pos (by simp; omega)]
  congr 1
  apply Vector.ext
  intro i hi
  apply BitVec.eq_of_getLsbD_eq
  intro j hj
  have hbit : ∀ i' : Nat, i' < n → ∀ j' : Nat, j' < 8 →
      (leVal t.toList).testBit (8 * i' + j') = (t.toList.getD i' 0).getLsbD j' :=
    fun i' _ j' h => leVal_testBit _ _ _ h
  have hlt : leVal t.toList < 256 ^ n := by simpa using leVal_lt t.toList
  have hR : (xtsNext t)[i].getLsbD j = ((decide (1 ≤ 8 * i + j) && (leVal t.toList).testBit (8 * i + j - 1)) ^^
      ((leVal t.toList).testBit (8 * n - 1) && (gfPoly n).testBit (8 * i + j))) := by
    rw [← gfDouble_bit (by omega) hlt (by omega), ← byte_testBit _ _ _ hj]
    simp only [xtsNext, leBlock, Vector.getElem_ofFn]
  rw [hR]
  simp only [Vector.getElem_ofFn]
  have htop : (leVal t.toList).testBit (8 * n - 1) = (t.toList[n - 1]'(by simp; omega)).getLsbD 7 := by
    rw [show 8 * n - 1 = 8 * (n - 1) + 7 by omega, leVal_testBit _ _ _ (by omega), List.getD_eq_getElem?_getD,
      List.getElem?_eq_getElem (by simp; omega)]
    rfl
  have hsh : ((t[i] <<< (1 : Nat)) ||| (if i = 0 then (0 : Byte) else t[i - 1] >>> (7 : Nat))).getLsbD j =
      (decide (1 ≤ 8 * i + j) && (leVal t.toList).testBit (8 * i + j - 1)) := by
    rw [BitVec.getLsbD_or, shl_bit _ _ hj]
    rcases j with _ | j
    · rcases i with _ | i
      · simp
      · rw [if_neg (by omega), shr_bit, show 8 * (i + 1) + 0 - 1 = 8 * i + 7 by omega,
          leVal_testBit _ _ _ (by omega), List.getD_eq_getElem?_getD,
          List.getElem?_eq_getElem (by simp; omega)]
        simp
        omega
    · rw [show 8 * i + (j + 1) - 1 = 8 * i + j by omega, leVal_testBit _ _ _ (by omega),
        List.getD_eq_getElem?_getD, List.getElem?_eq_getElem (by simp; omega)]
      by_cases h0 : i = 0
      · simp [h0]
      · rw [if_neg h0, shr_bit]; simp; omega
  rw [htop]
  by_cases h3 : i < 3
  · rw [if_pos (by simpa using h3), BitVec.getLsbD_xor, hsh]
    congr 1
    simp only [Nat.sub_zero]
    rcases (show i = 0 ∨ i = 1 ∨ i = 2 by omega) with rfl | rfl | rfl
    all_goals
      simp only [List.getD_cons_zero, List.getD_cons_succ, and_neg_top]
    · have := poly_byte n 0 j (by omega) hj
      simp only [Nat.mul_zero, BitVec.ushiftRight_zero] at this
      rw [← this]
      cases (t.toList[n - 1]'(by simp; omega)).getLsbD 7 <;> simp
    · rw [← poly_byte n 1 j (by omega) hj]
      cases (t.toList[n - 1]'(by simp; omega)).getLsbD 7 <;> simp
    · rw [← poly_byte n 2 j (by omega) hj]
      cases (t.toList[n - 1]'(by simp; omega)).getLsbD 7 <;> simp
  · rw [if_neg (by simpa using h3), hsh,
      Nat.testBit_lt_two_pow (i := 8 * i + j) (Nat.lt_of_lt_of_le (gfPoly_lt n)
        (Nat.pow_le_pow_right (by omega) (by omega)))]
    simp

end Torsion.Ciph
