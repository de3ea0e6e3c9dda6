import Verif.Ecc.Fiat.PropsW32
import Verif.Ecc.Fiat.BytesLemmasW32

/-!
# C101: serialisation, comparison and selection with 32-bit words
-/
namespace Torsion
open Torsion.Fiat Torsion.Spec

section
variable (f : W32.FieldName) {x y : List Nat} {u v : ZMod (W32.field f).p}

/-- The bytes are those of the number below the modulus, however the element is represented. -/
theorem limb32_to_bytes (hx : TightRep f x u) :
    ∃ z, W32.fe_to_bytes (W32.field f) x = .ok z ∧ z.length = (W32.field f).size ∧ (∀ b ∈ z, b < 256) ∧ bytesValue z = u.val :=
  W32.to_bytes_ok hx

theorem limb32_select (hx : LooseRep f x u) (hy : LooseRep f y v) (flag : Int) :
    W32.fe_select x y flag = if flag ≠ 0 then y else x := by
  have hb := (W32.loose_check f).1
  exact W32.select_ok (hx.1.trans hy.1.symm) (W32.below_lt hx.2.1 hb) (W32.below_lt hy.2.1 hb) flag

theorem limb32_is_zero (hx : TightRep f x u) :
    W32.fe_is_zero (W32.field f) x = .ok (if u = 0 then 1 else 0) := by
  obtain ⟨z, z1, _, z3, z4⟩ := W32.to_bytes_ok hx
  have hp := (W32.bits_check f).2.2
  have : NeZero (W32.field f).p := ⟨by omega⟩
  rw [W32.fe_is_zero, z1, C.ok_bind]
  dsimp only
  rw [W32.top_bit (foldl_lt z 0 (by omega) z3)]
  have : (z.foldl (fun z b => z ||| b) 0 = 0) ↔ u = 0 := by
    rw [foldl_or, ← bytes_zero, z4, ZMod.val_eq_zero]
    simp
  simp only [this]

theorem limb32_equal (hx : TightRep f x u) (hy : TightRep f y v) :
    W32.fe_equal (W32.field f) x y = .ok (if u = v then 1 else 0) := by
  obtain ⟨z, z1, z2, z3, z4⟩ := W32.to_bytes_ok hx
  obtain ⟨w, w1, w2, w3, w4⟩ := W32.to_bytes_ok hy
  have hp := (W32.bits_check f).2.2
  have : NeZero (W32.field f).p := ⟨by omega⟩
  rw [W32.fe_equal, z1, C.ok_bind, w1, C.ok_bind]
  dsimp only
  rw [W32.top_bit (foldl_lt _ 0 (by omega) (xor_lt z3 w3))]
  have : ((List.zipWith (fun a b => a ^^^ b) z w).foldl (fun z b => z ||| b) 0 = 0) ↔ u = v := by
    rw [foldl_or, xor_zero_iff (z2.trans w2.symm)]
    constructor
    · rintro ⟨_, rfl⟩
      exact ZMod.val_injective _ (z4.symm.trans w4)
    · rintro rfl
      exact ⟨rfl, bytes_inj (z2.trans w2.symm) z3 w3 (z4.trans w4.symm)⟩
  simp only [this]

theorem limb32_is_odd (hx : TightRep f x u) : W32.fe_is_odd (W32.field f) x = .ok (u.val % 2) := by
  obtain ⟨z, z1, z2, z3, z4⟩ := W32.to_bytes_ok hx
  have hs := (W32.bits_check f).2.1
  rcases z with _ | ⟨a, r⟩
  · simp only [List.length_nil] at z2
    omega
  · rw [W32.fe_is_odd, z1, C.ok_bind, rd_of_some (by rfl : (a :: r)[0]? = some a), C.ok_bind, Nat.and_one_is_mod, ← z4, bytesValue,
      List.length_cons, List.replicate_succ, radixValue]
    congr 1
    omega

theorem limb32_neg_cond (hx : TightRep f x u) (flag : Int) :
    ∃ z, W32.fe_neg_cond (W32.field f) x flag = .ok z ∧ TightRep f z (if flag ≠ 0 then -u else u) := by
  obtain ⟨⟨y, y1, y2⟩, _⟩ := limb32_neg f hx
  refine ⟨if flag ≠ 0 then y else x, ?_, ?_⟩
  · rw [W32.fe_neg_cond, y1, C.ok_bind, limb32_select f (W32.tight_loose hx) (W32.tight_loose y2)]
  · split <;> assumption

/-- `fe_set_odd` gives the one of the two roots that is odd if and only if this is asked for, except that zero stays zero. -/
theorem limb32_set_odd (hx : TightRep f x u) (odd : Int) :
    ∃ z, W32.fe_set_odd (W32.field f) x odd = .ok z ∧
      TightRep f z (if (u.val % 2 = 1) = (odd ≠ 0) then u else -u) := by
  obtain ⟨z, z1, z2⟩ := limb32_neg_cond f hx ((u.val % 2 ^^^ (if odd ≠ 0 then 1 else 0) : Nat) : Int)
  refine ⟨z, by rw [W32.fe_set_odd, limb32_is_odd f hx, C.ok_bind, z1], ?_⟩
  have e : (if ((u.val % 2 ^^^ (if odd ≠ 0 then 1 else 0) : Nat) : Int) ≠ 0 then -u else u) = if (u.val % 2 = 1) = (odd ≠ 0) then u else -u := by
    rcases Nat.mod_two_eq_zero_or_one u.val with h | h <;> by_cases ho : odd = 0 <;> simp [h, ho]
  rw [e] at z2
  exact z2

end

/-- The limbs of 5 + p and those of 5 are equal as elements, and odd; those of 6 are different. -/
example : W32.fe_equal (W32.field .p25519) [2 ^ 26 - 14, 2 ^ 25 - 1, 2 ^ 26 - 1, 2 ^ 25 - 1, 2 ^ 26 - 1, 2 ^ 25 - 1, 2 ^ 26 - 1, 2 ^ 25 - 1, 2 ^ 26 - 1, 2 ^ 25 - 1]
      [5, 0, 0, 0, 0, 0, 0, 0, 0, 0] = .ok 1 ∧
    W32.fe_is_odd (W32.field .p25519) [2 ^ 26 - 14, 2 ^ 25 - 1, 2 ^ 26 - 1, 2 ^ 25 - 1, 2 ^ 26 - 1, 2 ^ 25 - 1, 2 ^ 26 - 1, 2 ^ 25 - 1, 2 ^ 26 - 1, 2 ^ 25 - 1] = .ok 1 ∧
    W32.fe_equal (W32.field .p25519) [6, 0, 0, 0, 0, 0, 0, 0, 0, 0] [5, 0, 0, 0, 0, 0, 0, 0, 0, 0] = .ok 0 := by decide +kernel

end Torsion
