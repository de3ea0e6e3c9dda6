import Verif.Ecc.Encode
import Verif.Ecc.MulSpec
import Verif.Dsa.Spec

/-!
# Encodings of points, and what the protocols rely on

SEC 1: an affine point is a byte and its coordinates, big-endian, in as many bytes as the prime has.
-/
namespace Torsion.Spec

variable {fe : FieldCode} [Fact fe.p.Prime]

/-- The parity byte of SEC 1: `base`, or `base + 1` for an odd ordinate. -/
def parity (base : Byte) (y : ZMod fe.p) : Byte := if y.val % 2 = 1 then base + 1 else base

/-- The compressed form. -/
def sec1Short (x y : ZMod fe.p) : List Byte := parity 2 y :: bigBytes ((fe.p.size + 7) / 8) x.val

/-- The long form, and the hybrid form with the parity in front. -/
def sec1Long (form : Byte) (x y : ZMod fe.p) : List Byte :=
  form :: (bigBytes ((fe.p.size + 7) / 8) x.val ++ bigBytes ((fe.p.size + 7) / 8) y.val)

/-- `raw` is one of the three encodings of a finite point. -/
def Sec1 {c : Curve (ZMod fe.p)} : Pt c → List Byte → Prop
  | .zero, _ => False
  | .some x y _, raw => raw = sec1Short x y ∨ raw = sec1Long 4 x y ∨ raw = sec1Long (parity 6 y) x y

/-- The encoding which the library writes, also for infinity (then flagged as a failure). -/
def sec1Out {c : Curve (ZMod fe.p)} (P : Pt c) (compact : Bool) : List Byte :=
  match P with
  | .zero => if compact then sec1Short (0 : ZMod fe.p) 0 else sec1Long 4 (0 : ZMod fe.p) 0
  | .some x y _ => if compact then sec1Short x y else sec1Long 4 x y

/-- A group of prime order, with everything the protocols use. -/
structure EcOk (ec : WeiT fe) (G : Pt ec.toCurve) : Prop where
  wei : WeiOk ec.toWei G
  field : fe ∈ fieldCodes
  cofactor : ec.h = 1
  prime : ec.n.Prime
  nonzero : G ≠ 0
  all : ∀ P : Pt ec.toCurve, ∃ m : Nat, P = m • G
  sc_p : ec.sc_p = fe.p % ec.n
  fe_n : ec.fe_n = (ec.n : ZMod fe.p)
  highOrder : ec.highOrder = decide (fe.p ≤ ec.n)
  gap : fe.p < 2 * ec.n

end Torsion.Spec
