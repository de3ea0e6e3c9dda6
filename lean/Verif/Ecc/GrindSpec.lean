import Verif.Ecc.SchnorrSpec

/-! # Searching for keys: what is searched for -/
namespace Torsion.Spec

variable {fe : FieldCode} [Fact fe.p.Prime] {c : Curve (ZMod fe.p)}

/-- The point is finite and the callback accepts its encoding. -/
def Passes (enc : Pt c → List Byte) (check : List Byte → Bool) (P : Pt c) : Prop := P ≠ 0 ∧ check (enc P) = true

/-- `i` is the first number with the property. -/
def FirstAt (p : Nat → Prop) (i : Nat) : Prop := p i ∧ ∀ j < i, ¬ p j

/-- A private key: a number between one and the order. -/
def KeyRange (n a : Nat) : Prop := 0 < a ∧ a < n

end Torsion.Spec
