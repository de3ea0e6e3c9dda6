import Mathlib.Data.Int.Init
import Mathlib.Tactic.Ring

/-! # Signed binary representations -/
namespace Torsion.Spec

/-- The number with the given signed digits, least significant first. -/
def digits : List Int → Int
  | [] => 0
  | d :: ds => d + 2 * digits ds

/-- The pair of digits which an entry of a joint form stands for: `1, 3, 5, 7` are `(1, 0)`, `(1, 1)`, `(1, -1)`
and `(0, 1)`, the opposite entries the opposite pairs. -/
def joint (z : Int) : Int × Int :=
  if z = 1 then (1, 0) else if z = 3 then (1, 1) else if z = 5 then (1, -1) else if z = 7 then (0, 1)
  else if z = -1 then (-1, 0) else if z = -3 then (-1, -1) else if z = -5 then (-1, 1)
  else if z = -7 then (0, -1) else (0, 0)

end Torsion.Spec
