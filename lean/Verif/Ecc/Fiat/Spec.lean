import Mathlib.Data.ZMod.Basic

/-!
# What limbs mean

A field element is kept as a list of limbs; limb number `i` counts multiples of two to the sum of the widths before it. A limb may be
larger than its width allows: up to `k` times two to its width.
-/
namespace Torsion.Spec

/-- The number that limbs of these widths stand for. -/
def radixValue : List Nat → List Nat → Nat
  | b :: bs, x :: xs => x + 2 ^ b * radixValue bs xs
  | _, _ => 0

/-- Limbs of the widths `bits`, each at most `k` times two to its width, that stand for the element `z`. -/
def FieldRep (bits : List Nat) (p k : Nat) (l : List Nat) (z : ZMod p) : Prop :=
  List.Forall₂ (fun b x => x ≤ k * 2 ^ b) bits l ∧ (radixValue bits l : ZMod p) = z

/-- The number that bytes stand for, the lowest first. -/
def bytesValue (l : List Nat) : Nat := radixValue (List.replicate l.length 8) l

end Torsion.Spec
