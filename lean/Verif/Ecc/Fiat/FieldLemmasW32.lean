import Verif.Ecc.Fiat.FieldCheckW32

/-!
# The 32-bit code of the four fields passes the checks
-/
namespace Torsion.Fiat.W32

set_option maxRecDepth 100000 in
theorem check_p192 : fieldCheck field_p192 = true := by decide +kernel
set_option maxRecDepth 100000 in
theorem check_secp256k1 : fieldCheck field_secp256k1 = true := by decide +kernel
set_option maxRecDepth 100000 in
theorem check_p25519 : fieldCheck field_p25519 = true := by decide +kernel
set_option maxRecDepth 100000 in
theorem check_p251 : fieldCheck field_p251 = true := by decide +kernel

theorem check_field (f : FieldName) : fieldCheck (field f) = true := by
  cases f
  · exact check_p192
  · exact check_secp256k1
  · exact check_p25519
  · exact check_p251

end Torsion.Fiat.W32
