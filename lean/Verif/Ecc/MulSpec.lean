import Verif.Ecc.Mul
import Verif.Ecc.Endo

/-!
# What the struct of a curve has to contain

The conditions under which the multiplications are correct: the tables hold the multiples of the generator they
should hold, the group order kills the generator, the blinding pair cancels, and the constants of the endomorphism
fit together. `wei_init` and `wei_randomize` establish and keep them.
-/
namespace Torsion.Spec

variable {F : Type} [Field F] [DecidableEq F]

/-- The constants of an endomorphism `(x, y) ↦ (β x, y)` which multiplies the generator by `l`. -/
structure EndoOk (ec : Curve F) (n ebits : Nat) (e : Endo F) (G : Pt ec) : Prop where
  za : ec.a = 0
  cube : e.beta ^ 3 = 1
  /-- `lambda` holds `-l`, and `l` is the factor. -/
  lam : ∃ l : Nat, (l + e.lambda) % n = 0 ∧
    ∃ H : Pt ec, affine H = wge_endo_beta e.beta (affine G) ∧ H = l • G
  /-- The halves of every scalar are short. -/
  short : ∀ k < n, (sc_minimize_var n (wei_endo_split n e k).1).1 < 2 ^ ebits ∧
    (sc_minimize_var n (wei_endo_split n e k).2).1 < 2 ^ ebits

/-- A curve with generator `G`. -/
structure WeiOk (ec : Wei F) (G : Pt ec.toCurve) : Prop where
  good : Good ec.toCurve
  gen : ec.g = affine G
  pos : 0 < ec.n
  order : ec.n • G = 0
  bits : ec.bits = ec.n.size
  blind : ∃ b : Nat, Jac ec.unblind (b • G) ∧ (ec.blind + b) % ec.n = 0
  fixed : ∀ w i, w < (ec.bits + 3) / 4 → i < 16 → ec.wndFixed[w * 16 + i]? = some (affine ((i * 16 ^ w) • G))
  naf : ∀ i < 1024, ec.wndNaf[i]? = some (affine ((2 * i + 1) • G))
  endo : ∀ e, ec.endo = some e → EndoOk ec.toCurve ec.n ec.ebits e G ∧
    ∀ i < 1024, ec.wndEndo[i]? = some (wge_endo_beta e.beta (affine ((2 * i + 1) • G)))

end Torsion.Spec
