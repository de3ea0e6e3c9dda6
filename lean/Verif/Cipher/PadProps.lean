import Verif.Cipher.PadLemmas

/-!
# C41: PKCS#7 padding

`pkcs7_pad` produces the padding of RFC 5652; `pkcs7_unpad` accepts exactly the padded blocks and
returns exactly the message, for every block size a byte can describe and every content of the
block.
-/
namespace Torsion
open Spec

/-- Padding a partial block produces the padded block; a full block is returned unchanged; longer
input stops the program. -/
theorem pkcs7_pad_exact (x : List Byte) (n : Nat) :
    (x.length < n → ∃ b, pkcs7_pad x n = .ok b ∧ Pkcs7 n x b) ∧
    (x.length = n → pkcs7_pad x n = .ok x) ∧ (n < x.length → pkcs7_pad x n = .abort) := by
  refine ⟨fun h => ⟨_, ?_, h, rfl⟩, fun h => ?_, fun h => ?_⟩
  · rw [pkcs7_pad, C.check, decide_eq_true (show x.length ≤ n by omega)]; rfl
  · rw [pkcs7_pad, C.check, decide_eq_true (show x.length ≤ n by omega)]
    subst h; simp
  · rw [pkcs7_pad, C.check, decide_eq_false (show ¬ x.length ≤ n by omega)]; rfl

namespace Ciph

theorem pkcs7_iff {n : Nat} (h1 : 1 ≤ n) (h2 : n ≤ 255) {b : List Byte} (hb : b.length = n) (x : List Byte) :
    Pkcs7 n x b ↔
      (1 ≤ (b.getD (b.length - 1) 0).toNat ∧ (b.getD (b.length - 1) 0).toNat ≤ b.length ∧
          ∀ j, j < b.length → b.length - (b.getD (b.length - 1) 0).toNat ≤ j →
            b.getD j 0 = b.getD (b.length - 1) 0) ∧
        x = b.take (b.length - (b.getD (b.length - 1) 0).toNat) := by
  constructor
  · rintro ⟨hx, rfl⟩
    have hl : (x ++ List.replicate (n - x.length) (BitVec.ofNat 8 (n - x.length) : Byte)).length = n := hb
    have hg : ∀ j, x.length ≤ j → j < n →
        (x ++ List.replicate (n - x.length) (BitVec.ofNat 8 (n - x.length) : Byte)).getD j 0 =
          BitVec.ofNat 8 (n - x.length) := by
      intro j h3 h4
      rw [List.getD_eq_getElem?_getD, List.getElem?_append_right h3, List.getElem?_replicate,
        if_pos (by omega)]
      rfl
    rw [hl, hg (n - 1) (by omega) (by omega)]
    have hv : (BitVec.ofNat 8 (n - x.length)).toNat = n - x.length := by
      rw [BitVec.toNat_ofNat]; exact Nat.mod_eq_of_lt (by omega)
    rw [hv]
    refine ⟨⟨by omega, by omega, fun j h3 h4 => hg j (by omega) h3⟩, ?_⟩
    rw [show n - (n - x.length) = x.length by omega, List.take_left' rfl]
  · rintro ⟨⟨h3, h4, h5⟩, rfl⟩
    rw [hb] at h3 h4 h5 ⊢
    generalize b.getD (n - 1) 0 = L at *
    refine ⟨by rw [List.length_take]; omega, ?_⟩
    have hlen : (b.take (n - L.toNat)).length = n - L.toNat := by rw [List.length_take]; omega
    rw [hlen, show n - (n - L.toNat) = L.toNat by omega]
    apply List.ext_getElem
    · simp [hlen]; omega
    · intro i h6 h7
      by_cases h8 : i < n - L.toNat
      · rw [List.getElem_append_left (by omega), List.getElem_take]
      · rw [List.getElem_append_right (by omega), List.getElem_replicate]
        have := h5 i (by omega) (by omega)
        rw [List.getD_eq_getElem?_getD, List.getElem?_eq_getElem h6] at this
        rw [show b[i] = L from this]
        simp

end Ciph

/-- The unpadding check accepts `b` as the padding of `x` exactly if it is, whatever `b`. -/
theorem pkcs7_unpad_iff {n : Nat} (h1 : 1 ≤ n) (h2 : n ≤ 255) {b : List Byte} (hb : b.length = n) (x : List Byte) :
    (∃ r, pkcs7_unpad b = .ok r ∧ r.1 ≠ 0 ∧ r.2.2.take r.2.1 = x) ↔ Pkcs7 n x b := by
  rw [Ciph.pkcs7_iff h1 h2 hb, Ciph.unpad_val b (by omega) (by omega)]
  split
  · rename_i h
    constructor
    · rintro ⟨r, h3, -, h5⟩
      cases h3
      exact ⟨h, h5.symm⟩
    · rintro ⟨-, h5⟩
      exact ⟨_, rfl, (by decide : (1 : BitVec 32) ≠ 0), h5.symm⟩
  · rename_i h
    constructor
    · rintro ⟨r, h3, h4, -⟩
      cases h3
      exact absurd rfl h4
    · exact fun h5 => absurd h5.1 h

/-- Without valid padding the result is failure with length zero; there is no other outcome and no
read outside the block. -/
theorem pkcs7_unpad_reject {n : Nat} (h1 : 1 ≤ n) (h2 : n ≤ 255) {b : List Byte} (hb : b.length = n)
    (h : ¬ ∃ x, Pkcs7 n x b) : pkcs7_unpad b = .ok (0, 0, b) := by
  rw [Ciph.unpad_val b (by omega) (by omega), if_neg]
  intro h3
  exact h ⟨_, (Ciph.pkcs7_iff h1 h2 hb _).2 ⟨h3, rfl⟩⟩

/-- Unpadding a padded block returns success and the length of the message. -/
theorem pkcs7_round_trip {n : Nat} (h2 : n ≤ 255) {x : List Byte} (hx : x.length < n) :
    ∃ b, pkcs7_pad x n = .ok b ∧ b.length = n ∧ pkcs7_unpad b = .ok (1, x.length, b) := by
  obtain ⟨b, h3, h4⟩ := (pkcs7_pad_exact x n).1 hx
  have hb : b.length = n := by rw [h4.2]; simp; omega
  refine ⟨b, h3, hb, ?_⟩
  have h5 := (Ciph.pkcs7_iff (by omega) h2 hb x).1 h4
  rw [Ciph.unpad_val b (by omega) (by omega), if_pos h5.1]
  have h6 := congrArg List.length h5.2
  rw [List.length_take] at h6
  rw [show b.length - (b.getD (b.length - 1) 0).toNat = x.length by omega]

/-- Two messages never have the same padded block. -/
theorem pkcs7_injective {n : Nat} (h2 : n ≤ 255) {x y b : List Byte} (hx : Pkcs7 n x b) (hy : Pkcs7 n y b) :
    x = y := by
  have hb : b.length = n := by have := hx.1; rw [hx.2]; simp; omega
  have h1 : 1 ≤ n := by have := hx.1; omega
  rw [((Ciph.pkcs7_iff h1 h2 hb x).1 hx).2, ((Ciph.pkcs7_iff h1 h2 hb y).1 hy).2]

example : pkcs7_pad [1, 2, 3] 8 = .ok [1, 2, 3, 5, 5, 5, 5, 5] := by decide
example : pkcs7_unpad [1, 2, 3, 5, 5, 5, 5, 5] = .ok (1, 3, [1, 2, 3, 5, 5, 5, 5, 5]) := by decide
example : pkcs7_unpad [1, 2, 3, 5, 4, 5, 5, 5] = .ok (0, 0, [1, 2, 3, 5, 4, 5, 5, 5]) := by decide
example : pkcs7_unpad [1, 2, 3, 5, 4, 5, 5, 9] = .ok (0, 0, [1, 2, 3, 5, 4, 5, 5, 9]) := by decide
example : Pkcs7 8 [] [8, 8, 8, 8, 8, 8, 8, 8] := by unfold Pkcs7; decide

end Torsion
