import Verif.Ecc.Eddsa

/-!
# Model of the conversion of Montgomery public keys to Edwards public keys, src/ecc.c

The conversion in the other direction is `eddsa_pubkey_convert` in Eddsa.lean.
-/
namespace Torsion

section
variable {F : Type} [Field F] [DecidableEq F]

/-- src/ecc.c:5618-5621 `mge_export_xge`. -/
def mge_export_xge (ec : Mont F) (p : Mge F) : Xge F := mont_to_edwards ec.bits p ec.c ec.invert true

end

section
variable {fe : FieldCode} [Fact fe.p.Prime]

/-- src/ecc.c:13060-13067, the end of `ecdh_pubkey_convert`: the ordinate, with the parity of the abscissa in a byte of its own if all bits
are taken and in the highest bit otherwise. The buffer `out` has `edLen` bytes. -/
def ecdh_convert_export (x y : ZMod fe.p) : C (List Byte) :=
  let out := fe_export_le fe y
  let odd : Byte := (if fe_is_odd fe x then (1 : Byte) else 0) <<< 7
  if feBits fe &&& 7 == 0 then .ok (out ++ [odd])
  else do
    let b ← C.rd out (feSize fe - 1)
    C.wr out (feSize fe - 1) (b ||| odd)

/-- src/ecc.c:13021-13068 `ecdh_pubkey_convert`; `sign` is `none` for -1. -/
def ecdh_pubkey_convert (ec : Mont (ZMod fe.p)) (pub : List Byte) (sign : Option Bool) : C (List Byte × Bool) := do
  let (A, ret) ← if feBits fe == 448 then do
      let P ← pge_import ec pub
      let Q ← pge_mulh ec P.1
      let Q := mont_mul ec Q ec.i16 false
      let A ← mge_set_pge ec Q none
      C.check A.2
      pure (A.1, P.2)
    else mge_import ec pub none
  let e := mge_export_xge ec A
  let i := fe_invert e.z
  C.check i.2
  let x := e.x * i.1
  let y := e.y * i.1
  let x := match sign with
    | none => x
    | some s => fe_set_odd fe x s
  let out ← ecdh_convert_export x y
  return (out, ret)

end

end Torsion
