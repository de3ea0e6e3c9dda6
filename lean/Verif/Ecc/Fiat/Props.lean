import Verif.Ecc.Fiat.FieldOps

/-!
# C97: the limb arithmetic of the fields is exact

For every field without Montgomery representation: limbs within the bounds stand for an element (`FieldRep`; `1` is the bound after a
reduction, `3` the bound after one addition or subtraction without reduction), and every function returns limbs within its bounds that
stand for the result; nothing wraps around and nothing is undefined.
-/
namespace Torsion
open Torsion.Fiat Torsion.Spec

section
variable (f : FieldName) {x y : List Nat} {u v : ZMod (field f).p}

theorem limb_add (hx : FieldRep (field f).bits (field f).p 1 x u) (hy : FieldRep (field f).bits (field f).p 1 y v) :
    (∃ z, Fiat.fe_add (field f) x y = .ok z ∧ FieldRep (field f).bits (field f).p 1 z (u + v)) ∧
    ∃ z, Fiat.fe_add_nc (field f) x y = .ok z ∧ FieldRep (field f).bits (field f).p 3 z (u + v) := by
  obtain ⟨a, a1, a2⟩ := add_ok (check_field f) hx hy
  obtain ⟨b, b1, b2⟩ := carry_ok (check_field f) a2
  exact ⟨⟨b, by rw [Fiat.fe_add, a1, C.ok_bind, b1], b2⟩, a, a1, a2⟩

theorem limb_sub (hx : FieldRep (field f).bits (field f).p 1 x u) (hy : FieldRep (field f).bits (field f).p 1 y v) :
    (∃ z, Fiat.fe_sub (field f) x y = .ok z ∧ FieldRep (field f).bits (field f).p 1 z (u - v)) ∧
    ∃ z, Fiat.fe_sub_nc (field f) x y = .ok z ∧ FieldRep (field f).bits (field f).p 3 z (u - v) := by
  obtain ⟨a, a1, a2⟩ := sub_ok (check_field f) hx hy
  obtain ⟨b, b1, b2⟩ := carry_ok (check_field f) a2
  exact ⟨⟨b, by rw [Fiat.fe_sub, a1, C.ok_bind, b1], b2⟩, a, a1, a2⟩

theorem limb_neg (hx : FieldRep (field f).bits (field f).p 1 x u) :
    (∃ z, Fiat.fe_neg (field f) x = .ok z ∧ FieldRep (field f).bits (field f).p 1 z (-u)) ∧
    ∃ z, Fiat.fe_neg_nc (field f) x = .ok z ∧ FieldRep (field f).bits (field f).p 3 z (-u) := by
  obtain ⟨a, a1, a2⟩ := opp_ok (check_field f) hx
  obtain ⟨b, b1, b2⟩ := carry_ok (check_field f) a2
  exact ⟨⟨b, by rw [Fiat.fe_neg, a1, C.ok_bind, b1], b2⟩, a, a1, a2⟩

theorem limb_carry (hx : FieldRep (field f).bits (field f).p 3 x u) :
    ∃ z, Fiat.fe_carry (field f) x = .ok z ∧ FieldRep (field f).bits (field f).p 1 z u := carry_ok (check_field f) hx

theorem limb_mul (hx : FieldRep (field f).bits (field f).p 3 x u) (hy : FieldRep (field f).bits (field f).p 3 y v) :
    ∃ z, Fiat.fe_mul (field f) x y = .ok z ∧ FieldRep (field f).bits (field f).p 1 z (u * v) :=
  mul_sound (ops_pos (check_field f)) (check_parts (check_field f)).2.2.2.2.1 (ops_len (check_field f)) hx hy

theorem limb_sqr (hx : FieldRep (field f).bits (field f).p 3 x u) :
    ∃ z, Fiat.fe_sqr (field f) x = .ok z ∧ FieldRep (field f).bits (field f).p 1 z (u * u) :=
  sqr_sound (ops_pos (check_field f)) (check_parts (check_field f)).2.2.2.2.2.1 (ops_len (check_field f)) hx

theorem limb_mul_small (hx : FieldRep (field f).bits (field f).p 3 x u) :
    (∃ z, Fiat.fe_mul3 (field f) x = .ok z ∧ FieldRep (field f).bits (field f).p 1 z (3 * u)) ∧
    (∃ z, Fiat.fe_mul4 (field f) x = .ok z ∧ FieldRep (field f).bits (field f).p 1 z (4 * u)) ∧
    ∃ z, Fiat.fe_mul8 (field f) x = .ok z ∧ FieldRep (field f).bits (field f).p 1 z (8 * u) :=
  ⟨lin_sound (ops_pos (check_field f)) (check_parts (check_field f)).2.2.2.2.2.2.1 (ops_len (check_field f)) hx,
    lin_sound (ops_pos (check_field f)) (check_parts (check_field f)).2.2.2.2.2.2.2.1 (ops_len (check_field f)) hx,
    lin_sound (ops_pos (check_field f)) (check_parts (check_field f)).2.2.2.2.2.2.2.2.1 (ops_len (check_field f)) hx⟩

/-- The multiplications by the constants of the curves; the one by `d` negates first and so needs a reduced argument. -/
theorem limb_mul_curve {c : Int} {q : List Prog} :
    ((field f).scmul_a24 = some (c, q) → FieldRep (field f).bits (field f).p 3 x u →
      ∃ z, runAll q x = .ok z ∧ FieldRep (field f).bits (field f).p 1 z ((c : ZMod (field f).p) * u)) ∧
    ((field f).scmul_d = some (c, q) → FieldRep (field f).bits (field f).p 1 x u →
      ∃ z, runAll q x = .ok z ∧ FieldRep (field f).bits (field f).p 1 z ((c : ZMod (field f).p) * u)) :=
  ⟨fun h hx => scmul_a24_ok (check_field f) h hx, fun h hx => scmul_d_ok (check_field f) h hx⟩

/-- Any word, also one that does not fit in the lowest limb. -/
theorem limb_set_word {n : Nat} (hn : n < 2 ^ 64) :
    ∃ z, Fiat.fe_set_word (field f) n = .ok z ∧ FieldRep (field f).bits (field f).p 1 z (n : ZMod (field f).p) := by
  have hc := check_parts (check_field f)
  have hw : Below (n :: List.replicate ((field f).bits.length - 1) 0) ((2 ^ 64 - 1) :: List.replicate ((field f).bits.length - 1) 0) := by
    refine .cons (by omega) ?_
    generalize (field f).bits.length - 1 = k
    induction k with
    | zero => exact .nil
    | succ k ih => exact .cons le_rfl ih
  have hl : (n :: List.replicate ((field f).bits.length - 1) 0).length = (field f).bits.length := by
    have := hc.2.2.2.2.2.2.2.2.2.2.2.2.2.2.2.2.2.2.1
    simp only [List.length_cons, List.length_replicate]
    omega
  obtain ⟨z, z1, z2⟩ := read_sound (ops_pos (check_field f)) hc.2.2.2.2.2.2.2.2.2.2.2.1 (ops_len (check_field f)) hw hl
  refine ⟨z, z1, ?_⟩
  have e : radixValue (field f).bits (n :: List.replicate ((field f).bits.length - 1) 0) = n := by
    have h0 : ∀ (bs : List Nat) (k : Nat), radixValue bs (List.replicate k 0) = 0 := by
      intro bs
      induction bs with
      | nil => intro k; simp [radixValue]
      | cons b bs ih =>
        intro k
        cases k with
        | zero => simp [radixValue]
        | succ k => rw [List.replicate_succ, radixValue, ih, Nat.mul_zero]
    have := hc.2.2.2.2.2.2.2.2.2.2.2.2.2.2.2.2.2.2.1
    rcases hb : (field f).bits with _ | ⟨b, bs⟩
    · rw [hb] at this; exact absurd this (by simp)
    · rw [radixValue, h0]; omega
  rw [e] at z2
  exact z2

/-- The bytes that `fe_import` passes on: as many as the field has, the last one below two to the number of bits in it. -/
theorem limb_from_bytes {b : List Nat} {m : Nat} (hl : b.length + 1 = (field f).size) (hb : ∀ n ∈ b, n < 256) (hm : m ≤ (field f).mask) :
    ∃ z, Fiat.fe_from_bytes (field f) (b ++ [m]) = .ok z ∧
      FieldRep (field f).bits (field f).p 1 z (bytesValue (b ++ [m]) : ZMod (field f).p) := by
  have hc := check_parts (check_field f)
  have hw : Below (b ++ [m]) (byteBounds (field f)) := by
    unfold byteBounds
    rw [← hl, Nat.add_sub_cancel]
    clear hl
    induction b with
    | nil => exact .cons hm .nil
    | cons a b ih =>
      rw [List.length_cons, List.replicate_succ, List.cons_append, List.cons_append]
      exact .cons (by have := hb a (List.mem_cons_self ..); omega) (ih fun n hn => hb n (List.mem_cons_of_mem _ hn))
  obtain ⟨z, z1, z2⟩ := read_sound (ops_pos (check_field f)) hc.2.2.2.2.2.2.2.2.2.2.2.2.1
    (by rw [List.length_replicate]; exact hc.2.2.2.2.2.2.2.2.2.2.2.2.2.2.2.1) hw (by simp [hl])
  refine ⟨z, z1, ?_⟩
  rw [bytesValue, show (b ++ [m]).length = (field f).size by simp [hl]]
  exact z2

/-- The bytes are those of the number below the modulus, however the element is represented. -/
theorem limb_to_bytes (hx : FieldRep (field f).bits (field f).p 1 x u) :
    ∃ z, Fiat.fe_to_bytes (field f) x = .ok z ∧ z.length = (field f).size ∧ (∀ b ∈ z, b < 256) ∧ bytesValue z = u.val :=
  to_bytes_ok (check_field f) hx

theorem limb_select (hx : FieldRep (field f).bits (field f).p 3 x u) (hy : FieldRep (field f).bits (field f).p 3 y v) (flag : Int) :
    Fiat.fe_select x y flag = if flag ≠ 0 then y else x := by
  have hb := (check_parts (check_field f)).2.2.2.2.2.2.2.2.2.2.2.2.2.2.2.2.2.2.2
  exact select_ok (hx.1.length_eq.symm.trans hy.1.length_eq) (rep_lt le_rfl hb hx) (rep_lt le_rfl hb hy) flag

theorem limb_is_zero (hx : FieldRep (field f).bits (field f).p 1 x u) :
    Fiat.fe_is_zero (field f) x = .ok (if u = 0 then 1 else 0) := by
  obtain ⟨z, z1, _, z3, z4⟩ := to_bytes_ok (check_field f) hx
  have hp := ops_pos (check_field f)
  have : NeZero (field f).p := ⟨by omega⟩
  rw [Fiat.fe_is_zero, z1, C.ok_bind]
  dsimp only
  rw [top_bit (foldl_lt z 0 (by omega) z3)]
  have : (z.foldl (fun z b => z ||| b) 0 = 0) ↔ u = 0 := by
    rw [foldl_or, ← bytes_zero, z4, ZMod.val_eq_zero]
    simp
  simp only [this]

theorem limb_equal (hx : FieldRep (field f).bits (field f).p 1 x u) (hy : FieldRep (field f).bits (field f).p 1 y v) :
    Fiat.fe_equal (field f) x y = .ok (if u = v then 1 else 0) := by
  obtain ⟨z, z1, z2, z3, z4⟩ := to_bytes_ok (check_field f) hx
  obtain ⟨w, w1, w2, w3, w4⟩ := to_bytes_ok (check_field f) hy
  have hp := ops_pos (check_field f)
  have : NeZero (field f).p := ⟨by omega⟩
  rw [Fiat.fe_equal, z1, C.ok_bind, w1, C.ok_bind]
  dsimp only
  rw [top_bit (foldl_lt _ 0 (by omega) (xor_lt z3 w3))]
  have : ((List.zipWith (fun a b => a ^^^ b) z w).foldl (fun z b => z ||| b) 0 = 0) ↔ u = v := by
    rw [foldl_or, xor_zero_iff (z2.trans w2.symm)]
    constructor
    · rintro ⟨_, rfl⟩
      exact ZMod.val_injective _ (z4.symm.trans w4)
    · rintro rfl
      exact ⟨rfl, bytes_inj (z2.trans w2.symm) z3 w3 (z4.trans w4.symm)⟩
  simp only [this]

theorem limb_is_odd (hx : FieldRep (field f).bits (field f).p 1 x u) : Fiat.fe_is_odd (field f) x = .ok (u.val % 2) := by
  obtain ⟨z, z1, z2, z3, z4⟩ := to_bytes_ok (check_field f) hx
  have hs := (check_parts (check_field f)).2.2.2.2.2.2.2.2.2.2.2.2.2.2.2.2.2.1
  rcases z with _ | ⟨a, r⟩
  · simp only [List.length_nil] at z2
    omega
  · rw [Fiat.fe_is_odd, z1, C.ok_bind, rd_of_some (by rfl : (a :: r)[0]? = some a), C.ok_bind, Nat.and_one_is_mod, ← z4, bytesValue,
      List.length_cons, List.replicate_succ, radixValue]
    congr 1
    omega

theorem limb_neg_cond (hx : FieldRep (field f).bits (field f).p 1 x u) (flag : Int) :
    ∃ z, Fiat.fe_neg_cond (field f) x flag = .ok z ∧ FieldRep (field f).bits (field f).p 1 z (if flag ≠ 0 then -u else u) := by
  obtain ⟨⟨y, y1, y2⟩, _⟩ := limb_neg f hx
  refine ⟨if flag ≠ 0 then y else x, ?_, ?_⟩
  · rw [Fiat.fe_neg_cond, y1, C.ok_bind, limb_select f (rep_mono (by omega) hx) (rep_mono (by omega) y2)]
  · split <;> assumption

/-- `fe_set_odd` gives the one of the two roots that is odd if and only if this is asked for, except that zero stays zero. -/
theorem limb_set_odd (hx : FieldRep (field f).bits (field f).p 1 x u) (odd : Int) :
    ∃ z, Fiat.fe_set_odd (field f) x odd = .ok z ∧
      FieldRep (field f).bits (field f).p 1 z (if (u.val % 2 = 1) = (odd ≠ 0) then u else -u) := by
  obtain ⟨z, z1, z2⟩ := limb_neg_cond f hx ((u.val % 2 ^^^ (if odd ≠ 0 then 1 else 0) : Nat) : Int)
  refine ⟨z, by rw [Fiat.fe_set_odd, limb_is_odd f hx, C.ok_bind, z1], ?_⟩
  have e : (if ((u.val % 2 ^^^ (if odd ≠ 0 then 1 else 0) : Nat) : Int) ≠ 0 then -u else u) = if (u.val % 2 = 1) = (odd ≠ 0) then u else -u := by
    rcases Nat.mod_two_eq_zero_or_one u.val with h | h <;> by_cases ho : odd = 0 <;> simp [h, ho]
  rw [e] at z2
  exact z2

end

/-- Limbs within the bounds: the element 5 in a form that is not the shortest, modulo 2^255 - 19. -/
example : FieldRep field_p25519.bits field_p25519.p 1 [2 ^ 51 - 14, 2 ^ 51 - 1, 2 ^ 51 - 1, 2 ^ 51 - 1, 2 ^ 51 - 1] 5 := by
  refine ⟨by unfold field_p25519; simp, ?_⟩
  have : radixValue field_p25519.bits [2 ^ 51 - 14, 2 ^ 51 - 1, 2 ^ 51 - 1, 2 ^ 51 - 1, 2 ^ 51 - 1] = field_p25519.p + 5 := by decide +kernel
  rw [this]
  simp

/-- The limbs of 5 + p and those of 5 are equal as elements, and have the same bytes. -/
example : Fiat.fe_equal field_p25519 [2 ^ 51 - 14, 2 ^ 51 - 1, 2 ^ 51 - 1, 2 ^ 51 - 1, 2 ^ 51 - 1] [5, 0, 0, 0, 0] = .ok 1 ∧
    Fiat.fe_equal field_p25519 [2 ^ 51 - 14, 2 ^ 51 - 1, 2 ^ 51 - 1, 2 ^ 51 - 1, 2 ^ 51 - 1] [6, 0, 0, 0, 0] = .ok 0 := by decide +kernel

/-- Multiplication by the constant of Curve448 and by that of Ed1174. -/
example : ∃ q r, field_p448.scmul_a24 = some (39082, q) ∧ field_p251.scmul_d = some (-1174, r) := ⟨_, _, rfl, rfl⟩

/-- Without the bound the sum wraps around: the function is only right for reduced limbs. -/
example : ∃ z, Fiat.fe_add field_p25519 [2 ^ 64 - 1, 0, 0, 0, 0] [1, 0, 0, 0, 0] = .ok z ∧ radixValue field_p25519.bits z = 0 := by
  refine ⟨[0, 0, 0, 0, 0], ?_, ?_⟩ <;> decide +kernel

end Torsion
