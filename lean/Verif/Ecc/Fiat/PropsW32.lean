import Verif.Ecc.Fiat.FieldLemmasW32

/-!
# C97: the limb arithmetic of the fields is exact, with 32-bit words

As `Verif/Ecc/Fiat/Props.lean`, for the code that is used where the compiler has no integers of 128 bits. The bounds are those of the
comments in src/fields (p192, secp256k1, p25519 and p251): `tight` after a reduction, `loose` after one addition or subtraction without reduction. Every function
returns limbs within its bounds that stand for the result; nothing wraps around and nothing is undefined.
-/
namespace Torsion
open Torsion.Fiat Torsion.Spec

section
variable (f : W32.FieldName)

/-- Reduced limbs of the element `z`. -/
abbrev TightRep (x : List Nat) (z : ZMod (W32.field f).p) : Prop := LimbRep (W32.field f).bits (W32.field f).tight (W32.field f).p x z

/-- Limbs of the element `z` that need not be reduced. -/
abbrev LooseRep (x : List Nat) (z : ZMod (W32.field f).p) : Prop := LimbRep (W32.field f).bits (W32.field f).loose (W32.field f).p x z

variable {x y : List Nat} {u v : ZMod (W32.field f).p}

theorem limb32_add (hx : TightRep f x u) (hy : TightRep f y v) :
    (∃ z, W32.fe_add (W32.field f) x y = .ok z ∧ TightRep f z (u + v)) ∧
    ∃ z, W32.fe_add_nc (W32.field f) x y = .ok z ∧ LooseRep f z (u + v) := by
  obtain ⟨a, a1, a2⟩ := W32.add_ok (W32.check_field f) hx hy
  obtain ⟨b, b1, b2⟩ := W32.carry_ok (W32.check_field f) a2
  exact ⟨⟨b, by rw [W32.fe_add, a1, C.ok_bind, b1], b2⟩, a, a1, a2⟩

theorem limb32_sub (hx : TightRep f x u) (hy : TightRep f y v) :
    (∃ z, W32.fe_sub (W32.field f) x y = .ok z ∧ TightRep f z (u - v)) ∧
    ∃ z, W32.fe_sub_nc (W32.field f) x y = .ok z ∧ LooseRep f z (u - v) := by
  obtain ⟨a, a1, a2⟩ := W32.sub_ok (W32.check_field f) hx hy
  obtain ⟨b, b1, b2⟩ := W32.carry_ok (W32.check_field f) a2
  exact ⟨⟨b, by rw [W32.fe_sub, a1, C.ok_bind, b1], b2⟩, a, a1, a2⟩

theorem limb32_neg (hx : TightRep f x u) :
    (∃ z, W32.fe_neg (W32.field f) x = .ok z ∧ TightRep f z (-u)) ∧
    ∃ z, W32.fe_neg_nc (W32.field f) x = .ok z ∧ LooseRep f z (-u) := by
  obtain ⟨a, a1, a2⟩ := W32.opp_ok (W32.check_field f) hx
  obtain ⟨b, b1, b2⟩ := W32.carry_ok (W32.check_field f) a2
  exact ⟨⟨b, by rw [W32.fe_neg, a1, C.ok_bind, b1], b2⟩, a, a1, a2⟩

theorem limb32_carry (hx : LooseRep f x u) : ∃ z, W32.fe_carry (W32.field f) x = .ok z ∧ TightRep f z u :=
  W32.carry_ok (W32.check_field f) hx

theorem limb32_mul (hx : LooseRep f x u) (hy : LooseRep f y v) :
    ∃ z, W32.fe_mul (W32.field f) x y = .ok z ∧ TightRep f z (u * v) := W32.mul_ok (W32.check_field f) hx hy

theorem limb32_sqr (hx : LooseRep f x u) : ∃ z, W32.fe_sqr (W32.field f) x = .ok z ∧ TightRep f z (u * u) :=
  W32.sqr_ok (W32.check_field f) hx

theorem limb32_mul_small (hx : LooseRep f x u) :
    (∃ z, W32.fe_mul3 (W32.field f) x = .ok z ∧ TightRep f z (3 * u)) ∧
    (∃ z, W32.fe_mul4 (W32.field f) x = .ok z ∧ TightRep f z (4 * u)) ∧
    ∃ z, W32.fe_mul8 (W32.field f) x = .ok z ∧ TightRep f z (8 * u) :=
  have h := W32.check_field f
  ⟨W32.lin_ok h (W32.check_parts h).2.1.1 hx, W32.lin_ok h (W32.check_parts h).2.1.2.1 hx, W32.lin_ok h (W32.check_parts h).2.1.2.2.1 hx⟩

/-- The multiplications by the constants of the curves; the one by `d` negates first and so needs a reduced argument. -/
theorem limb32_mul_curve {c : Int} {q : List Prog} :
    ((W32.field f).scmul_a24 = some (c, q) → LooseRep f x u →
      ∃ z, W32.runAll q x = .ok z ∧ TightRep f z ((c : ZMod (W32.field f).p) * u)) ∧
    ((W32.field f).scmul_d = some (c, q) → TightRep f x u →
      ∃ z, W32.runAll q x = .ok z ∧ TightRep f z ((c : ZMod (W32.field f).p) * u)) :=
  ⟨fun h hx => W32.scmul_a24_ok (W32.check_field f) h hx, fun h hx => W32.scmul_d_ok (W32.check_field f) h hx⟩

/-- Any word, also one that does not fit in the lowest limb. -/
theorem limb32_set_word {n : Nat} (hn : n < 2 ^ 32) :
    ∃ z, W32.fe_set_word (W32.field f) n = .ok z ∧ TightRep f z (n : ZMod (W32.field f).p) := by
  have h := W32.check_field f
  have hlen := (W32.check_parts h).2.2.2.2.2.2
  have hx : LimbRep (W32.field f).bits ((2 ^ 32 - 1) :: List.replicate ((W32.field f).bits.length - 1) 0) (W32.field f).p
      (n :: List.replicate ((W32.field f).bits.length - 1) 0) (n : ZMod (W32.field f).p) := by
    refine ⟨by simp only [List.length_cons, List.length_replicate]; omega, .cons (by omega) ?_, ?_⟩
    · generalize (W32.field f).bits.length - 1 = k
      induction k with
      | zero => exact .nil
      | succ k ih => exact .cons le_rfl ih
    · have h0 : ∀ (bs : List Nat) (k : Nat), radixValue bs (List.replicate k 0) = 0 := by
        intro bs
        induction bs with
        | nil => intro k; simp [radixValue]
        | cons b bs ih =>
          intro k
          cases k with
          | zero => simp [radixValue]
          | succ k => rw [List.replicate_succ, radixValue, ih, Nat.mul_zero]
      rcases hb : (W32.field f).bits with _ | ⟨b, bs⟩
      · rw [hb] at hlen; exact absurd hlen (by simp)
      · rw [radixValue, h0, Nat.mul_zero, Nat.add_zero]
  obtain ⟨z, z1, z2⟩ := W32.lin_ok h (W32.check_parts h).2.1.2.2.2.2.2.2 hx
  exact ⟨z, z1, by simpa using z2⟩

/-- The bytes that `fe_import` passes on: as many as the field has, the last one below two to the number of bits in it. -/
theorem limb32_from_bytes {b : List Nat} {m : Nat} (hl : b.length + 1 = (W32.field f).size) (hb : ∀ n ∈ b, n < 256)
    (hm : m ≤ (W32.field f).mask) :
    ∃ z, W32.fe_from_bytes (W32.field f) (b ++ [m]) = .ok z ∧ TightRep f z (bytesValue (b ++ [m]) : ZMod (W32.field f).p) := by
  have hw : Below (b ++ [m]) (W32.byteBounds (W32.field f)) := by
    unfold W32.byteBounds
    rw [← hl, Nat.add_sub_cancel]
    clear hl
    induction b with
    | nil => exact .cons hm .nil
    | cons a b ih =>
      rw [List.length_cons, List.replicate_succ, List.cons_append, List.cons_append]
      exact .cons (by have := hb a (List.mem_cons_self ..); omega) (ih fun n hn => hb n (List.mem_cons_of_mem _ hn))
  exact W32.read_ok (W32.check_field f) hw (by simp [hl])

end

/-- The two versions are of the same fields: the moduli, the numbers of bytes and the masks agree. -/
theorem limb32_same_fields :
    [W32.FieldName.p192, .secp256k1, .p25519, .p251].map (fun f => ((W32.field f).p, (W32.field f).size, (W32.field f).mask)) =
    [Fiat.FieldName.p192, .secp256k1, .p25519, .p251].map (fun f => ((field f).p, (field f).size, (field f).mask)) := by decide +kernel

/-- What the bounds are: reduced limbs may be two to their width, so that every number of that many bits has reduced limbs, and three
times that fits without reduction; all limbs fit in a word. -/
theorem limb32_bounds (f : W32.FieldName) :
    (W32.field f).bits.length = (W32.field f).tight.length ∧ (W32.field f).bits.length = (W32.field f).loose.length ∧
    (∀ q ∈ (W32.field f).bits.zip (W32.field f).tight, 2 ^ q.1 ≤ q.2) ∧
    (∀ q ∈ (W32.field f).bits.zip (W32.field f).loose, 3 * 2 ^ q.1 ≤ q.2 ∧ q.2 < 2 ^ 32) ∧
    (W32.field f).p < 2 ^ (W32.field f).bits.sum ∧ 2 ^ (W32.field f).bits.sum < 2 * (W32.field f).p := by
  cases f <;> decide +kernel

/-- Reduced limbs: the element 5 in a form that is not the shortest, modulo 2^255 - 19. -/
example : TightRep .p25519 [2 ^ 26 - 14, 2 ^ 25 - 1, 2 ^ 26 - 1, 2 ^ 25 - 1, 2 ^ 26 - 1, 2 ^ 25 - 1, 2 ^ 26 - 1, 2 ^ 25 - 1, 2 ^ 26 - 1, 2 ^ 25 - 1] 5 := by
  refine ⟨rfl, by unfold W32.field W32.field_p25519; simp, ?_⟩
  have : radixValue (W32.field .p25519).bits [2 ^ 26 - 14, 2 ^ 25 - 1, 2 ^ 26 - 1, 2 ^ 25 - 1, 2 ^ 26 - 1, 2 ^ 25 - 1, 2 ^ 26 - 1, 2 ^ 25 - 1, 2 ^ 26 - 1, 2 ^ 25 - 1] =
    (W32.field .p25519).p + 5 := by decide +kernel
  rw [this]
  simp

/-- A product whose limbs carry into each other. -/
example : W32.fe_mul (W32.field .p25519) [2 ^ 26 - 1, 2 ^ 25, 0, 0, 0, 0, 0, 0, 0, 2 ^ 25 - 1] [0, 0, 0, 0, 0, 0, 0, 0, 0, 2] =
    .ok [76, 38, 0, 0, 0, 0, 0, 0, 67108788, 35] := by decide +kernel

/-- Without the bound the sum wraps around: the function is only right for reduced limbs. -/
example : ∃ z, W32.fe_add (W32.field .p25519) [2 ^ 32 - 1, 0, 0, 0, 0, 0, 0, 0, 0, 0] [1, 0, 0, 0, 0, 0, 0, 0, 0, 0] = .ok z ∧
    radixValue (W32.field .p25519).bits z = 0 := by
  refine ⟨[0, 0, 0, 0, 0, 0, 0, 0, 0, 0], ?_, ?_⟩ <;> decide +kernel

/-- The constants of the curves. -/
example : ∃ q r, (W32.field .p25519).scmul_a24 = some (121666, q) ∧ (W32.field .p251).scmul_d = some (-1174, r) := ⟨_, _, rfl, rfl⟩

end Torsion
