import Verif.Ecc.Edwards
import Verif.Ecc.EdGroup

/-!
# Edwards curves: which struct stands for which point, and what the struct of a curve has to contain

The points are `EPt a d`, an abelian group under the addition law of EdwardsSpec.lean (EdGroup.lean).
-/
namespace Torsion.Spec

variable {F : Type} [Field F] [DecidableEq F]

/-- `p` is one of the structs `xge_t` for the point `P`. -/
structure Ext {a d : F} (p : Xge F) (P : EPt a d) : Prop where
  z : p.z ≠ 0
  x : p.x = P.x * p.z
  y : p.y = P.y * p.z
  t : p.t = P.x * P.y * p.z

/-- The one with `z = 1`. -/
def xaff {a d : F} (P : EPt a d) : Xge F := ⟨P.x, P.y, 1, P.x * P.y⟩

/-- The constants which are derived from `d`. -/
structure EdConst (ec : Edwards F) : Prop where
  k : ec.k = 2 * ec.d
  scmul : ∀ k, ec.scmul = some k → k = ec.d

/-- A curve with generator `G`: the tables hold the multiples of the generator they should hold, the group order kills the
generator, and the blinding pair cancels. `edwards_init` and `edwards_randomize` establish and keep this. -/
structure EdOk (ec : Edwards F) [EdGood ec.a ec.d] (G : EPt ec.a ec.d) : Prop where
  const : EdConst ec
  gen : ec.g = xaff G
  pos : 0 < ec.n
  order : ec.n • G = 0
  blind : ∃ b : Nat, Ext ec.unblind (b • G) ∧ (ec.blind + b) % ec.n = 0
  fixed : ∀ w i, w < (ec.n.size + 3) / 4 → i < 16 → ec.wndFixed[w * 16 + i]? = some (xaff ((i * 16 ^ w) • G))
  naf : ∀ i < 1024, ec.wndNaf[i]? = some (xaff ((2 * i + 1) • G))

/-- `ec` is the curve `d` of the tables, with generator `G`, after `edwards_init` and any calls of `edwards_randomize`. -/
structure EdCurve (d : EdwardsDef) [Fact d.fe.p.Prime] (ec : Edwards (ZMod d.fe.p)) [EdGood ec.a ec.d] (G : EPt ec.a ec.d) : Prop
    extends EdOk ec G where
  hash : ec.hash = d.hash
  context : ec.context = d.context
  pfx : ec.pfx = d.pfx
  bits : ec.bits = feBits d.fe
  nval : ec.n = beVal d.sc.n
  hval : ec.h = d.h
  aval : ec.a = (beVal d.a : ZMod d.fe.p)
  dval : ec.d = (beVal d.d : ZMod d.fe.p)
  zval : ec.z = (d.z : ZMod d.fe.p)
  inv : ec.invert = d.invert
  gx : G.x = (beVal d.x : ZMod d.fe.p)
  gy : G.y = (beVal d.y : ZMod d.fe.p)
  /-- The generator has exactly the order `n`, and the curve `h n` points. -/
  exact : addOrderOf G = ec.n
  card : Nat.card (EPt ec.a ec.d) = ec.h * ec.n
  /-- The table of the points whose order divides the cofactor holds each of them once. -/
  torsion : ∃ ts : List (EPt ec.a ec.d), ec.torsion = ts.map xaff ∧ ts.Nodup ∧ ts.length = ec.h ∧ ∀ P, P ∈ ts ↔ ec.h • P = 0
  /-- The Montgomery curve which is isomorphic to this curve is `y^2 = x^3 + A x^2 + x`. -/
  cval : ec.c = (beVal d.c : ZMod d.fe.p)
  mont : ec.A * (if ec.invert then ec.d - ec.a else ec.a - ec.d) = 2 * (ec.a + ec.d)
  iso : ec.c ^ 2 * (if ec.invert then ec.d - ec.a else ec.a - ec.d) = 4
  montB : ec.B = 1 ∧ ec.Bi = 1 ∧ ec.A0 = ec.A ∧ ec.B0 = 1

end Torsion.Spec
