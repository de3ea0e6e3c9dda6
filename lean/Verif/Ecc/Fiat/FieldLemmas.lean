import Verif.Ecc.Fiat.FieldCheck

/-!
# The six fields pass the checks
-/
namespace Torsion.Fiat
open Torsion.Spec

def a24Check (fe : FiatField) : Bool :=
  match fe.scmul_a24 with
  | none => true
  | some (.ofNat k, [q]) => linCheck fe.p 3 1 fe.bits q k
  | _ => false

def dCheck (fe : FiatField) : Bool :=
  match fe.scmul_d with
  | none => true
  | some (.negSucc k, [o, q]) => linCheck fe.p 1 3 fe.bits o (fe.p - 1) && linCheck fe.p 3 1 fe.bits q (k + 1)
  | _ => false

/-- The bounds of the bytes that `from_bytes` takes. -/
def byteBounds (fe : FiatField) : List Nat := List.replicate (fe.size - 1) 255 ++ [fe.mask]

def fieldCheck (fe : FiatField) : Bool :=
  addCheck fe.p 1 3 fe.bits fe.add 1 && addCheck fe.p 1 3 fe.bits fe.sub (fe.p - 1) && linCheck fe.p 1 3 fe.bits fe.opp (fe.p - 1) &&
  linCheck fe.p 3 1 fe.bits fe.carry 1 && mulCheck fe.p 3 1 fe.bits fe.mul && sqrCheck fe.p 3 1 fe.bits fe.square &&
  linCheck fe.p 3 1 fe.bits fe.scmul_3 3 && linCheck fe.p 3 1 fe.bits fe.scmul_4 4 && linCheck fe.p 3 1 fe.bits fe.scmul_8 8 &&
  a24Check fe && dCheck fe &&
  readCheck fe.p fe.bits ((2 ^ 64 - 1) :: List.replicate (fe.bits.length - 1) 0) fe.bits fe.carry &&
  readCheck fe.p (List.replicate fe.size 8) (byteBounds fe) fe.bits fe.from_bytes &&
  bytesCheck (2 ^ 640) fe.p fe.size fe.bits fe.to_bytes &&
  Nat.ble fe.bits.length 20 && Nat.ble fe.size 100 && Nat.blt 1 fe.p && Nat.blt 0 fe.size && Nat.blt 0 fe.bits.length &&
  fe.bits.all (fun b => Nat.ble b 60)

set_option maxRecDepth 100000 in
theorem check_p192 : fieldCheck field_p192 = true := by decide +kernel
set_option maxRecDepth 100000 in
theorem check_p521 : fieldCheck field_p521 = true := by decide +kernel
set_option maxRecDepth 100000 in
theorem check_secp256k1 : fieldCheck field_secp256k1 = true := by decide +kernel
set_option maxRecDepth 100000 in
theorem check_p25519 : fieldCheck field_p25519 = true := by decide +kernel
set_option maxRecDepth 100000 in
theorem check_p448 : fieldCheck field_p448 = true := by decide +kernel
set_option maxRecDepth 100000 in
theorem check_p251 : fieldCheck field_p251 = true := by decide +kernel

theorem check_field (f : FieldName) : fieldCheck (field f) = true := by
  cases f
  · exact check_p192
  · exact check_p521
  · exact check_secp256k1
  · exact check_p25519
  · exact check_p448
  · exact check_p251

end Torsion.Fiat
