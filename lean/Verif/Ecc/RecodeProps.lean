import Verif.Ecc.RecodeLemmas

/-! # Properties: recodings of scalars (C52) -/
namespace Torsion

open Torsion.Spec (digits joint)

/-- The width-`w` form of every scalar, when the array is large enough: its digits stand for `sign * k`; they are
zero or odd and less than `2^(w-1)` in absolute value; among `w` consecutive ones at most one is not zero; from
the returned length on they are zero. -/
theorem sc_naf_exact (k : Nat) (sign : Int) (w m : Nat) (hw : 2 ≤ w) (hm : k.size + 1 ≤ m) :
    ∃ naf len, sc_naf_var0 k sign w m = .ok (naf, len) ∧ naf.length = m ∧ digits naf = sign * k ∧
      (∀ d ∈ naf, d = 0 ∨ ∃ e : Int, d = sign * e ∧ e % 2 = 1 ∧ -2 ^ (w - 1) < e ∧ e < 2 ^ (w - 1)) ∧
      (∀ a b, a < b → b < a + w → b < m → naf[a]? = some 0 ∨ naf[b]? = some 0) ∧
      len ≤ k.size + 1 ∧ ∀ d ∈ naf.drop len, d = 0 := by
  obtain ⟨naf, len, i, h1, h2, h3, inv⟩ := Ecc.naf_loop_spec (sign := sign) hw rfl hm (k.size + 1) 0 0 0 _
    (by omega) (fun _ => rfl) (by omega) (Ecc.naf_inv0 k sign w m)
  refine ⟨naf, len, ?_, inv.size, ?_, inv.odd, ?_, h2, ?_⟩
  · unfold sc_naf_var0; dsimp only
    rw [Ecc.check_true (show sc_bitlen_var k + 1 ≤ m from hm), C.ok_bind]
    change (naf_loop k sign w (k.size + 1) (k.size + 1) 0 0 0 _ >>= _) = _
    rw [h1, C.ok_bind, Ecc.check_true rfl]
    rfl
  · rw [inv.val, Nat.mod_eq_of_lt]
    · simp
    · exact lt_of_lt_of_le (Nat.lt_size_self k) (Nat.pow_le_pow_right (by decide) (by omega))
  · intro a b hab hb hbm
    by_cases h : naf[a]? = some 0
    · exact Or.inl h
    · exact Or.inr ((inv.sparse a b hab hb hbm h).resolve_right (by omega))
  · intro d hd
    obtain ⟨j, hj, rfl⟩ := List.mem_iff_getElem.1 hd
    rw [List.length_drop, inv.size] at hj
    have := inv.hlen (len + j) (by omega) (by omega)
    rw [List.getElem_drop]
    rw [List.getElem?_eq_getElem (by rw [inv.size]; omega)] at this
    simpa using this

/-- With too small an array the function stops. -/
theorem sc_naf_abort (k : Nat) (sign : Int) (w m : Nat) (hm : m < k.size + 1) :
    sc_naf_var0 k sign w m = .abort := by
  unfold sc_naf_var0; dsimp only
  rw [Ecc.check_false (show ¬ sc_bitlen_var k + 1 ≤ m by unfold sc_bitlen_var; omega)]
  rfl

/-- The joint form of every pair of scalars, when the array is large enough: the digits stand for `s1 * k1` and
`s2 * k2`; every entry is a valid index of the table of points; from the returned length on they are zero. -/
theorem sc_jsf_exact (k1 k2 : Nat) (s1 s2 : Int) (m : Nat) (h1 : s1 = 1 ∨ s1 = -1) (h2 : s2 = 1 ∨ s2 = -1)
    (m1 : k1.size + 1 ≤ m) (m2 : k2.size + 1 ≤ m) :
    ∃ naf len, sc_jsf_var0 k1 s1 k2 s2 m = .ok (naf, len) ∧ naf.length = m ∧
      digits (naf.map fun z => (joint z).1) = s1 * k1 ∧ digits (naf.map fun z => (joint z).2) = s2 * k2 ∧
      (∀ z ∈ naf, z = 0 ∨ (z.natAbs % 2 = 1 ∧ z.natAbs ≤ 7)) ∧
      len ≤ max k1.size k2.size + 1 ∧ ∀ d ∈ naf.drop len, d = 0 := by
  obtain ⟨bits, hbits⟩ : ∃ b, b = max k1.size k2.size + 1 := ⟨_, rfl⟩
  have hb : (if sc_bitlen_var k1 + 1 > sc_bitlen_var k2 + 1 then sc_bitlen_var k1 + 1
      else sc_bitlen_var k2 + 1) = bits := by
    rw [hbits]; unfold sc_bitlen_var; split <;> omega
  obtain ⟨naf, e1, e2, hn, hlen, hr, v1, v2, z1, z2, _⟩ :=
    Ecc.jsf_loop_spec (k1 := k1) (k2 := k2) h1 h2 bits 0 0 0 (by omega) (by omega)
  have l1 : k1 < 2 ^ (bits - 1) :=
    lt_of_lt_of_le (Nat.lt_size_self k1) (Nat.pow_le_pow_right (by decide) (by omega))
  have l2 : k2 < 2 ^ (bits - 1) :=
    lt_of_lt_of_le (Nat.lt_size_self k2) (Nat.pow_le_pow_right (by decide) (by omega))
  have g1 := z1 (by omega) (by simpa using l1)
  have g2 := z2 (by omega) (by simpa using l2)
  have hj0 : joint 0 = (0, 0) := rfl
  refine ⟨naf ++ List.replicate (m - bits) 0, jsf_trim (naf ++ List.replicate (m - bits) 0) bits, ?_, ?_, ?_, ?_,
    ?_, ?_, ?_⟩
  · unfold sc_jsf_var0
    dsimp only
    rw [hb, Ecc.check_true (show bits ≤ m by omega), C.ok_bind, hn]
    rfl
  · rw [List.length_append, hlen, List.length_replicate]; omega
  · rw [List.map_append, Ecc.digits_append, List.map_replicate, hj0, Ecc.digits_replicate, v1, g1,
      pow_zero, Nat.div_one, Nat.mod_eq_of_lt (lt_of_lt_of_le l1 (Nat.pow_le_pow_right (by decide) (by omega)))]
    push_cast; ring
  · rw [List.map_append, Ecc.digits_append, List.map_replicate, hj0, Ecc.digits_replicate, v2, g2,
      pow_zero, Nat.div_one, Nat.mod_eq_of_lt (lt_of_lt_of_le l2 (Nat.pow_le_pow_right (by decide) (by omega)))]
    push_cast; ring
  · intro z hz
    rcases List.mem_append.1 hz with h | h
    · exact hr z h
    · exact Or.inl (List.eq_of_mem_replicate h)
  · have := Ecc.jsf_trim_le (naf ++ List.replicate (m - bits) 0) bits
    omega
  · intro d hd
    obtain ⟨j, hj, rfl⟩ := List.mem_iff_getElem.1 hd
    rw [List.length_drop, List.length_append, hlen, List.length_replicate] at hj
    rw [List.getElem_drop]
    generalize hL : jsf_trim (naf ++ List.replicate (m - bits) 0) bits = len at *
    by_cases hjb : len + j < bits
    · have := Ecc.jsf_trim_zero (naf ++ List.replicate (m - bits) 0) bits (len + j) (by omega) hjb
      rw [List.getElem?_eq_getElem (by rw [List.length_append, hlen, List.length_replicate]; omega)] at this
      simpa using this
    · rw [List.getElem_append_right (by omega)]
      simp

/-- With too small an array the function stops. -/
theorem sc_jsf_abort (k1 k2 : Nat) (s1 s2 : Int) (m : Nat) (hm : m < max k1.size k2.size + 1) :
    sc_jsf_var0 k1 s1 k2 s2 m = .abort := by
  unfold sc_jsf_var0
  dsimp only
  rw [Ecc.check_false (by unfold sc_bitlen_var; split <;> omega)]
  rfl

/-- The representative of least absolute value. -/
theorem sc_minimize_exact (n k : Nat) (hk : k < n) :
    (sc_minimize_var n k).1 ≤ n / 2 ∧
    (k : Int) = (if (sc_minimize_var n k).2 then -1 else 1) * ((sc_minimize_var n k).1 : Int)
      + (if (sc_minimize_var n k).2 then n else 0) ∧
    ((sc_minimize_var n k).2 = true ↔ n / 2 < k) := by
  unfold sc_minimize_var
  split
  · rename_i h
    rw [if_neg (by omega)]
    simp only [if_true, true_iff]
    omega
  · rename_i h
    simp only [Bool.false_eq_true, if_false, false_iff]
    omega

example : (Nat.size 1234567) + 1 ≤ 32 := by decide

/-- A scalar whose form needs one digit more than its bits. -/
example : sc_naf_var0 31 1 5 6 = .ok ([-1, 0, 0, 0, 0, 1], 6) := by decide
end Torsion
