import Verif.Ecc.Fiat.Code
import Verif.Ecc.Fiat.Spec
import Mathlib.Data.ZMod.Basic

/-!
# The same statements in the field itself
-/
namespace Torsion.Fiat

section
variable {F : Type} [CommRing F] [DecidableEq F] (c24 cd : F)

def binF : Bin → F → F → F
  | .mul, x, y => x * y
  | .add, x, y => x + y
  | .sub, x, y => x - y
  | .addnc, x, y => x + y
  | .subnc, x, y => x - y

def unF : Un → F → F
  | .sqr, x => x * x
  | .neg, x => -x
  | .negnc, x => -x
  | .mul3, x => 3 * x
  | .mul4, x => 4 * x
  | .mul8, x => 8 * x
  | .set, x => x
  | .carry, x => x
  | .scd, x => x * cd
  | .sca24, x => x * c24

def stepF (m : Mem F) : FSt → Mem F
  | .bin o z x y => m.put z (binF o (m.r x) (m.r y))
  | .un o z x => m.put z (unF c24 cd o (m.r x))
  | .sel z x y b => m.put z (if m.f b then m.r y else m.r x)
  | .isz b x => m.putf b (decide (m.r x = 0))
  | .setf b g => m.putf b (g m.f)

def runF : Code → Mem F → Mem F
  | .nil, m => m
  | .st s, m => stepF c24 cd m s
  | .seq c d, m => runF d (runF c m)
  | .ite b c d, m => if m.f b then runF c m else runF d m

end

/-! ### The discipline of reductions -/

def binLev : Bin → Nat → Nat → Option Nat
  | .mul, j, k => bif Nat.ble j 3 && Nat.ble k 3 then some 1 else none
  | .add, j, k => bif Nat.ble j 1 && Nat.ble k 1 then some 1 else none
  | .sub, j, k => bif Nat.ble j 1 && Nat.ble k 1 then some 1 else none
  | .addnc, j, k => bif Nat.ble j 1 && Nat.ble k 1 then some 3 else none
  | .subnc, j, k => bif Nat.ble j 1 && Nat.ble k 1 then some 3 else none

def unLev (h24 hd : Bool) : Un → Nat → Option Nat
  | .sqr, j => bif Nat.ble j 3 then some 1 else none
  | .neg, j => bif Nat.ble j 1 then some 1 else none
  | .negnc, j => bif Nat.ble j 1 then some 3 else none
  | .mul3, j => bif Nat.ble j 3 then some 1 else none
  | .mul4, j => bif Nat.ble j 3 then some 1 else none
  | .mul8, j => bif Nat.ble j 3 then some 1 else none
  | .set, j => some j
  | .carry, j => bif Nat.ble j 3 then some 1 else none
  | .scd, j => bif Nat.ble j 1 && hd then some 1 else none
  | .sca24, j => bif Nat.ble j 3 && h24 then some 1 else none

/-- The bounds of the registers after a statement; `none` if a bound is not met. -/
def stepLev (h24 hd : Bool) (l : Nat → Option Nat) : FSt → Option (Nat → Option Nat)
  | .bin o z x y =>
    match l x, l y with
    | some j, some k =>
      match binLev o j k with
      | some v => some fun i => if i = z then some v else l i
      | none => none
    | _, _ => none
  | .un o z x =>
    match l x with
    | some j =>
      match unLev h24 hd o j with
      | some v => some fun i => if i = z then some v else l i
      | none => none
    | none => none
  | .sel z x y _ =>
    match l x, l y with
    | some j, some k => bif Nat.ble j 3 && Nat.ble k 3 then some fun i => if i = z then some (max j k) else l i else none
    | _, _ => none
  | .isz _ x =>
    match l x with
    | some j => bif Nat.ble j 1 then some l else none
    | none => none
  | .setf _ _ => some l

def joinLev (l m : Nat → Option Nat) : Nat → Option Nat := fun i =>
  match l i, m i with
  | some j, some k => some (max j k)
  | _, _ => none

def runLev (h24 hd : Bool) : Code → (Nat → Option Nat) → Option (Nat → Option Nat)
  | .nil, l => some l
  | .st s, l => stepLev h24 hd l s
  | .seq c d, l =>
    match runLev h24 hd c l with
    | some l => runLev h24 hd d l
    | none => none
  | .ite _ c d, l =>
    match runLev h24 hd c l, runLev h24 hd d l with
    | some l, some m => some (joinLev l m)
    | _, _ => none

end Torsion.Fiat
