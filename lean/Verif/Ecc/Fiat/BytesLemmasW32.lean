import Verif.Ecc.Fiat.BytesB32
import Verif.Ecc.Fiat.FieldOps

/-!
# Serialisation and selection on 32-bit words
-/
namespace Torsion.Fiat.W32
open Torsion.Spec

set_option maxRecDepth 100000 in
theorem bytes_check (f : FieldName) :
    B32.bytesCheck (2 ^ 640) (field f).p (field f).size (field f).bits (field f).tight (field f).to_bytes = true := by
  cases f <;> decide +kernel

theorem bits_check (f : FieldName) : (field f).bits.length ≤ 100 ∧ 0 < (field f).size ∧ 0 < (field f).p := by
  cases f <;> decide +kernel

theorem loose_check (f : FieldName) : (∀ b ∈ (field f).loose, b < 2 ^ 32) ∧ List.Forall₂ (fun a b => a ≤ b) (field f).tight (field f).loose := by
  cases f <;> decide +kernel

theorem to_bytes_ok {f : FieldName} {x : List Nat} {z : ZMod (field f).p} (hx : LimbRep (field f).bits (field f).tight (field f).p x z) :
    ∃ out, B32.run (field f).to_bytes [x] = .ok out ∧ out.length = (field f).size ∧ (∀ b ∈ out, b < 256) ∧ bytesValue out = z.val := by
  obtain ⟨o, o1, o2, o3⟩ := B32.bytes_sound (bytes_check f) (bits_check f).1 hx.2.1 hx.1
  refine ⟨o, o1, o2.1, o2.2, ?_⟩
  rw [bytesValue, o2.1, o3, ← hx.2.2, ZMod.val_natCast]

theorem cmov_zero {x y : Nat} (hx : x < 2 ^ 32) : B32.cmovznz 0 x y = x := by
  have e : (2 ^ 32 - 1 : Nat) &&& x = x := by
    rw [Nat.and_comm, Nat.and_two_pow_sub_one_eq_mod, Nat.mod_eq_of_lt hx]
  show ((2 ^ 32 - 0) % 2 ^ 32 &&& 0xffffffff) &&& y ||| ((2 ^ 32 - 1 - ((2 ^ 32 - 0) % 2 ^ 32 &&& 0xffffffff)) &&& x) = x
  have z : ((2 ^ 32 - 0) % 2 ^ 32 &&& 0xffffffff : Nat) = 0 := by decide
  rw [z, Nat.zero_and, Nat.zero_or, Nat.sub_zero, e]

theorem cmov_one {x y : Nat} (hy : y < 2 ^ 32) : B32.cmovznz 1 x y = y := by
  have e : (2 ^ 32 - 1 : Nat) &&& y = y := by
    rw [Nat.and_comm, Nat.and_two_pow_sub_one_eq_mod, Nat.mod_eq_of_lt hy]
  show ((2 ^ 32 - 1) % 2 ^ 32 &&& 0xffffffff) &&& y ||| ((2 ^ 32 - 1 - ((2 ^ 32 - 1) % 2 ^ 32 &&& 0xffffffff)) &&& x) = y
  have z : ((2 ^ 32 - 1) % 2 ^ 32 &&& 0xffffffff : Nat) = 2 ^ 32 - 1 := by decide
  rw [z, Nat.sub_self, Nat.zero_and, Nat.or_zero, e]

theorem select_ok : ∀ {x y : List Nat} (_ : x.length = y.length) (_ : ∀ n ∈ x, n < 2 ^ 32) (_ : ∀ n ∈ y, n < 2 ^ 32) (flag : Int),
    fe_select x y flag = if flag ≠ 0 then y else x
  | [], [], _, _, _, flag => by simp [fe_select, selectznz]
  | [], _ :: _, h, _, _, _ => absurd h (by simp)
  | _ :: _, [], h, _, _, _ => absurd h (by simp)
  | a :: x, b :: y, h, hx, hy, flag => by
    have ih := select_ok (x := x) (y := y) (by simpa using h) (fun n hn => hx n (List.mem_cons_of_mem _ hn)) (fun n hn => hy n (List.mem_cons_of_mem _ hn)) flag
    unfold fe_select selectznz at ih ⊢
    rw [List.zipWith_cons_cons, ih]
    split
    · rw [cmov_one (hy b (List.mem_cons_self ..))]
    · rw [cmov_zero (hx a (List.mem_cons_self ..))]

theorem below_lt {bnd : List Nat} : ∀ {x : List Nat}, Below x bnd → (∀ b ∈ bnd, b < 2 ^ 32) → ∀ n ∈ x, n < 2 ^ 32 := by
  intro x h
  induction h with
  | nil => intro _ n hn; simp at hn
  | cons h1 _ ih =>
    intro hb n hn
    rcases List.mem_cons.mp hn with rfl | hn
    · exact lt_of_le_of_lt h1 (hb _ (List.mem_cons_self ..))
    · exact ih (fun b hb' => hb b (List.mem_cons_of_mem _ hb')) n hn

theorem below_trans : ∀ {x a b : List Nat}, Below x a → Below a b → Below x b
  | _, _, _, .nil, .nil => .nil
  | _, _, _, .cons h1 h2, .cons g1 g2 => .cons (le_trans h1 g1) (below_trans h2 g2)

theorem tight_loose {f : FieldName} {x : List Nat} {z : ZMod (field f).p} (hx : LimbRep (field f).bits (field f).tight (field f).p x z) :
    LimbRep (field f).bits (field f).loose (field f).p x z := ⟨hx.1, below_trans hx.2.1 (loose_check f).2, hx.2.2⟩

theorem top_bit {z : Nat} (hz : z < 256) : ((z + (2 ^ 32 - 1)) % 2 ^ 32) >>> 31 = if z = 0 then 1 else 0 := by
  split
  next h => rw [h]; decide
  next h =>
    rw [show z + (2 ^ 32 - 1) = (z - 1) + 2 ^ 32 by omega, Nat.add_mod_right, Nat.mod_eq_of_lt (by omega), Nat.shiftRight_eq_div_pow, Nat.div_eq_of_lt (by omega)]

end Torsion.Fiat.W32
