import Verif.Mac.Model
import Verif.Mac.Spec
import Verif.Stream.CoreLemmas
import Mathlib.Tactic.Ring

/-!
# Poly1305: lemmas shared by the two back ends
-/
namespace Torsion.Mac
open Spec

theorem leVal_drop (xs : List Byte) (a : Nat) : leVal (xs.drop a) = leVal xs / 256 ^ a := by
  by_cases h : a ≤ xs.length
  · have e : leVal xs = leVal (xs.take a) + 256 ^ a * leVal (xs.drop a) := by
      conv => lhs; rw [← List.take_append_drop a xs]
      rw [leVal_append, List.length_take, Nat.min_eq_left h]
    have hl := leVal_lt (xs.take a)
    rw [List.length_take, Nat.min_eq_left h] at hl
    rw [e, Nat.add_mul_div_left _ _ (by positivity), Nat.div_eq_of_lt hl, Nat.zero_add]
  · rw [List.drop_of_length_le (by omega), leVal_nil, Nat.div_eq_of_lt]
    exact Nat.lt_of_lt_of_le (leVal_lt xs) (Nat.pow_le_pow_right (by decide) (by omega))

theorem leVal_take (xs : List Byte) (a : Nat) : leVal (xs.take a) = leVal xs % 256 ^ a := by
  by_cases h : a ≤ xs.length
  · have e : leVal xs = leVal (xs.take a) + 256 ^ a * leVal (xs.drop a) := by
      conv => lhs; rw [← List.take_append_drop a xs]
      rw [leVal_append, List.length_take, Nat.min_eq_left h]
    have hl := leVal_lt (xs.take a)
    rw [List.length_take, Nat.min_eq_left h] at hl
    rw [e, Nat.add_mul_mod_self_left, Nat.mod_eq_of_lt hl]
  · rw [List.take_of_length_le (by omega), Nat.mod_eq_of_lt]
    exact Nat.lt_of_lt_of_le (leVal_lt xs) (Nat.pow_le_pow_right (by decide) (by omega))

theorem vsub_toList {n : Nat} (v : Vector Byte n) (off k : Nat) (h : off + k ≤ n) :
    (vsub v off k h).toList = (v.toList.drop off).take k := by
  apply List.ext_getElem
  · simp; omega
  · intro i h1 h2
    simp [vsub]

theorem read64_vsub {n : Nat} (v : Vector Byte n) (off : Nat) (h : off + 8 ≤ n) :
    (read64le (vsub v off 8 h)).toNat = leVal v.toList / 256 ^ off % 2 ^ 64 := by
  rw [(read64_val _).1, vsub_toList, leVal_take, leVal_drop]
  rfl

theorem read32_vsub {n : Nat} (v : Vector Byte n) (off : Nat) (h : off + 4 ≤ n) :
    (read32le (vsub v off 4 h)).toNat = leVal v.toList / 256 ^ off % 2 ^ 32 := by
  rw [(read32_val _).1, vsub_toList, leVal_take, leVal_drop]
  rfl

theorem mask_limb (T M a k : Nat) :
    (T &&& M) / 2 ^ a % 2 ^ k = (T / 2 ^ a % 2 ^ k) &&& (M / 2 ^ a % 2 ^ k) := by
  rw [← Nat.shiftRight_eq_div_pow, Nat.shiftRight_and_distrib, Nat.and_mod_two_pow,
    Nat.shiftRight_eq_div_pow, Nat.shiftRight_eq_div_pow]

theorem mask_low (x m k : Nat) (h : m < 2 ^ k) : x &&& m = (x % 2 ^ k) &&& m := by
  have h1 : x &&& m < 2 ^ k := Nat.lt_of_le_of_lt Nat.and_le_right h
  rw [← Nat.mod_eq_of_lt h1, Nat.and_mod_two_pow, Nat.mod_eq_of_lt h]

theorem and44 (x : Nat) : x &&& 0xfffffffffff = x % 2 ^ 44 := Nat.and_two_pow_sub_one_eq_mod x 44
theorem and42 (x : Nat) : x &&& 0x3ffffffffff = x % 2 ^ 42 := Nat.and_two_pow_sub_one_eq_mod x 42
theorem and26 (x : Nat) : x &&& 0x3ffffff = x % 2 ^ 26 := Nat.and_two_pow_sub_one_eq_mod x 26
theorem and32 (x : Nat) : x &&& 0xffffffff = x % 2 ^ 32 := Nat.and_two_pow_sub_one_eq_mod x 32

/-- Joining two words as `(a >> k) | (b << (64 - k))`. -/
theorem join64 (a b : Nat) (h : a < 2 ^ 64) :
    (a >>> 44) ||| w64 (b <<< 20) = (a + 2 ^ 64 * b) / 2 ^ 44 % 2 ^ 64 := by
  rw [w64, Nat.shiftLeft_eq, Nat.shiftRight_eq_div_pow, Nat.or_comm]
  have e : b * 2 ^ 20 % 2 ^ 64 = (b % 2 ^ 44) * 2 ^ 20 := by omega
  rw [e, or_two _ _ 20 (by omega)]
  omega

end Torsion.Mac
