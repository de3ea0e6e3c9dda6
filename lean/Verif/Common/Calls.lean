import Verif.Basic

/-!
# Sequences of calls, as used in the property statements
-/
namespace Torsion.Spec

/-- Several calls in a row, one per chunk; the outputs are concatenated. -/
def calls {S : Type} (f : S → List Byte → C (List Byte × S)) :
    S → List (List Byte) → C (List Byte × S)
  | s, [] => .ok ([], s)
  | s, c :: cs => do
    let (o, s) ← f s c
    let (os, s) ← calls f s cs
    .ok (o ++ os, s)

/-- Several update calls in a row, one per chunk. -/
def updates {S : Type} (f : S → List Byte → C S) : S → List (List Byte) → C S
  | s, [] => .ok s
  | s, c :: cs => do
    let s ← f s c
    updates f s cs

end Torsion.Spec
