import Verif.Ecc.EdMulSpec

/-!
# Ristretto: which bytes stand for which classes of points

For cofactor 4 or 8 the group is the group of the doubled points of the curve modulo the points whose order divides half the cofactor.
A class is written as a number `s` modulo the prime. "Even" and "odd" are about the remainder below the prime.
-/
namespace Torsion.Spec

variable {fe : FieldCode} [Fact fe.p.Prime] {a d : ZMod fe.p} [EdGood a d]

/-- The number of bytes of a field element. -/
def ristLen (fe : FieldCode) : Nat := (fe.p.size + 7) / 8

/-- `P` and `Q` are in the same class: their difference has an order which divides half the cofactor. -/
def RistEq (h : Nat) (P Q : EPt a d) : Prop := (h / 2) • (P - Q) = 0

/-- The number of the class of `P`: zero for the neutral element; otherwise an even `s` with `s^2 = -a (1 - y) / (1 + y)`, for
the point `(x, y)` of the class whose abscissa is even and, for cofactor 8, for which also `x y` is even. -/
def RistNum (h : Nat) (P : EPt a d) (s : ZMod fe.p) : Prop :=
  s.val % 2 = 0 ∧ (RistEq h P 0 ∧ s = 0 ∨ ¬ RistEq h P 0 ∧ ∃ Q : EPt a d, RistEq h Q P ∧ Q.x.val % 2 = 0 ∧
    (h = 8 → (Q.x * Q.y).val % 2 = 0) ∧ s ^ 2 * (1 + Q.y) = -a * (1 - Q.y))

/-- The bytes of the class of `P`. -/
def RistOf (h : Nat) (P : EPt a d) (b : List Byte) : Prop := ∃ s : ZMod fe.p, RistNum h P s ∧ b = leBytes (ristLen fe) s.val

end Torsion.Spec
