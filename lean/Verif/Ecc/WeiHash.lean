import Verif.Ecc.Encode
import Verif.Ecc.Schnorr
import Verif.Common.Proto

/-!
# Model: uniform bytes and hashes as points of a short Weierstrass curve (src/ecc.c)

The maps of Shallue and van de Woestijne and of Ulas, their inverses, and the functions on public keys which use them. All curves of
the library have the cofactor one, so the branches for `h > 1` (points of small order, the test for `y = 0`) are left out.
-/
namespace Torsion

open Spec (beVal leVal)

/-- src/ecc.c:425-439, `wei_def_t`: the entries for the maps. -/
structure WeiMapDef where
  z : Int
  c : List Byte

/-- src/ecc.c:9974-9980, `curve_secp256k1`: the constant `c`. -/
def svdw_secp256k1 : List Byte :=
  [0x0a, 0x2d, 0x2b, 0xa9, 0x35, 0x07, 0xf1, 0xdf, 0x23, 0x37, 0x70, 0xc2, 0xa7, 0x97, 0x96, 0x2c,
   0xc6, 0x1f, 0x6d, 0x15, 0xda, 0x14, 0xec, 0xd4, 0x7d, 0x8d, 0x27, 0xae, 0x1c, 0xd5, 0xf8, 0x52]

/-- src/ecc.c:9722-9983: the entries `z` and `c` of the tables of the curves; `{0}` is the empty list here. -/
def weiMapDefs : List (WeiDef × WeiMapDef) :=
  [(curve_p192, ⟨-5, []⟩), (curve_p224, ⟨31, []⟩), (curve_p256, ⟨-10, []⟩), (curve_p384, ⟨-12, []⟩), (curve_p521, ⟨-4, []⟩),
   (curve_secp256k1, ⟨1, svdw_secp256k1⟩)]

/-- src/ecc.c:388-423, `wei_s`: the fields for the maps. -/
structure WeiMap (F : Type) where
  c : F
  z : F
  ai : F
  zi : F
  i2 : F
  i3 : F

section
variable {fe : FieldCode} [Fact fe.p.Prime]

/-- src/ecc.c:4018-4087, `wei_init`: the constants of the maps. The result of `fe_invert_var` is not tested there; `ai` is not used if
`a` is zero. -/
def wei_map_init (ec : WeiT fe) (d : WeiMapDef) : WeiMap (ZMod fe.p) :=
  { c := (beVal d.c : ZMod fe.p), z := (d.z : ZMod fe.p), ai := ec.a⁻¹, zi := (d.z : ZMod fe.p)⁻¹, i2 := (2 : ZMod fe.p)⁻¹,
    i3 := (3 : ZMod fe.p)⁻¹ }

/-- src/ecc.c:4795-4869 `wei_sswu`. -/
def wei_sswu (ec : WeiT fe) (m : WeiMap (ZMod fe.p)) (u : ZMod fe.p) : C (Wge (ZMod fe.p)) := do
  let z2 := m.z * m.z
  let ba := -ec.b
  let ba := ba * m.ai
  let bza := ec.b * m.zi
  let bza := bza * m.ai
  let u2 := u * u
  let u4 := u2 * u2
  let x1 := m.z * u2
  let t1 := z2 * u4
  let t1 := t1 + x1
  let (t1, ok) := fe_invert t1
  let zero := !ok
  let t1 := t1 + 1
  let x1 := ba * t1
  let x1 := fe_select x1 bza zero
  let x2 := m.z * u2
  let x2 := x2 * x1
  let y1 := wei_solve_y2 ec.toCurve x1
  let y2 := wei_solve_y2 ec.toCurve x2
  let alpha ← fe_is_square fe y1
  let x1 := fe_select x1 x2 (!alpha)
  let y1 := fe_select y1 y2 (!alpha)
  let (y1, ok) ← fe_sqrt fe 0 0 y1
  C.check ok
  let y1 := fe_set_odd fe y1 (fe_is_odd fe u)
  return ⟨x1, y1, false⟩

/-- src/ecc.c:4871-4950 `wei_sswui`. -/
def wei_sswui (ec : WeiT fe) (m : WeiMap (ZMod fe.p)) (p : Wge (ZMod fe.p)) (hint : BitVec 32) : C (ZMod fe.p × Bool) := do
  let r := hint &&& 3
  let n0 := ec.a * ec.a
  let n1 := p.x * p.x
  let a2x2 := n0 * n1
  let abx2 := wei_mul_a ec.toCurve ec.b
  let abx2 := abx2 + abx2
  let abx2 := abx2 * p.x
  let b23 := ec.b * ec.b
  let b23 := b23 * 3
  let axb := wei_mul_a ec.toCurve p.x
  let axb := axb + ec.b
  let c := a2x2 - abx2
  let c := c - b23
  let (c, ret) ← fe_sqrt fe 0 0 c
  let n0 := axb - c
  let n0 := -n0
  let n1 := axb + c
  let n1 := -n1
  let d0 := axb + axb
  let d0 := d0 * m.z
  let d1 := ec.b + ec.b
  let d1 := d1 * m.z
  let n0 := fe_select n0 n1 ((r &&& 1) != 0)
  let d0 := fe_select d0 d1 ((r >>> 1) != 0)
  let (u, ok) ← fe_isqrt fe 0 n0 d0
  let ret := ret && ok
  let u := fe_set_odd fe u (fe_is_odd fe p.y)
  let ret := ret && !p.inf
  return (u, ret)

/-- src/ecc.c:4952-5036 `wei_svdwf`: the abscissa and the square of the ordinate. -/
def wei_svdwf (ec : WeiT fe) (m : WeiMap (ZMod fe.p)) (u : ZMod fe.p) : C (ZMod fe.p × ZMod fe.p) := do
  let gz := wei_solve_y2 ec.toCurve m.z
  let z3 := m.zi * m.zi
  let z3 := z3 * m.i3
  let u2 := u * u
  let u4 := u2 * u2
  let t1 := u2 + gz
  let t2 := u2 * t1
  let (t2, _) := fe_invert t2
  let t3 := u4 * t2
  let t3 := t3 * m.c
  let t4 := t1 * t1
  let t4 := t4 * t1
  let x1 := m.c - m.z
  let x1 := x1 * m.i2
  let x1 := x1 - t3
  let y1 := m.c + m.z
  let y1 := y1 * m.i2
  let x2 := t3 - y1
  let y1 := t4 * t2
  let y1 := y1 * z3
  let x3 := m.z - y1
  let y1 := wei_solve_y2 ec.toCurve x1
  let y2 := wei_solve_y2 ec.toCurve x2
  let y3 := wei_solve_y2 ec.toCurve x3
  let alpha ← fe_is_square fe y1
  let beta ← fe_is_square fe y2
  let x1 := fe_select x1 x2 (!alpha && beta)
  let y1 := fe_select y1 y2 (!alpha && beta)
  let x1 := fe_select x1 x3 (!alpha && !beta)
  let y1 := fe_select y1 y3 (!alpha && !beta)
  return (x1, y1)

/-- src/ecc.c:5038-5053 `wei_svdw`. -/
def wei_svdw (ec : WeiT fe) (m : WeiMap (ZMod fe.p)) (u : ZMod fe.p) : C (Wge (ZMod fe.p)) := do
  let (x, y) ← wei_svdwf ec m u
  let (y, ok) ← fe_sqrt fe 0 0 y
  C.check ok
  let y := fe_set_odd fe y (fe_is_odd fe u)
  return ⟨x, y, false⟩

/-- src/ecc.c:5055-5172 `wei_svdwi`. -/
def wei_svdwi (ec : WeiT fe) (m : WeiMap (ZMod fe.p)) (p : Wge (ZMod fe.p)) (hint : BitVec 32) : C (ZMod fe.p × Bool) := do
  let r := hint &&& 3
  let z2 := m.z * m.z
  let z3 := z2 * m.z
  let z4 := z2 * z2
  let gz := z3 + ec.b
  let n0 := p.x * p.x
  let n0 := n0 * z2
  let n0 := n0 + z4
  let n0 := n0 * 3
  let n0 := n0 * 3
  let n1 := p.x * z3
  let n1 := n1 + n1
  let n1 := n1 * 3
  let n1 := n1 * 3
  let n2 := p.x - m.z
  let n2 := n2 * gz
  let n2 := n2 * 3
  let n2 := n2 * 4
  let t4 := n0 - n1
  let t4 := t4 + n2
  let (t4, sqr) ← fe_sqrt fe 0 0 t4
  let t4 := t4 * m.z
  let ret := ((r - 2) >>> 31) != 0 || sqr
  let n0 := p.x * z2
  let n1 := gz + gz
  let t5 := z3 - n0
  let t5 := t5 * 3
  let t5 := t5 - n1
  let n0 := p.x + p.x
  let n0 := n0 + m.z
  let c0 := m.c - n0
  let c1 := m.c + n0
  let n0 := gz * c0
  let n1 := gz * c1
  let n2 := t5 + t4
  let n3 := t5 - t4
  let d0 := 2
  let n0 := fe_select n0 n1 ((((r ^^^ 1) - 1) >>> 31) != 0)
  let n0 := fe_select n0 n2 ((((r ^^^ 2) - 1) >>> 31) != 0)
  let n0 := fe_select n0 n3 ((((r ^^^ 3) - 1) >>> 31) != 0)
  let d0 := fe_select d0 c1 ((((r ^^^ 0) - 1) >>> 31) != 0)
  let d0 := fe_select d0 c0 ((((r ^^^ 1) - 1) >>> 31) != 0)
  let (u, ok) ← fe_isqrt fe 0 n0 d0
  let ret := ret && ok
  let (n0, _) ← wei_svdwf ec m u
  let ret := ret && fe_equal n0 p.x
  let u := fe_set_odd fe u (fe_is_odd fe p.y)
  let ret := ret && !p.inf
  return (u, ret)

/-- src/ecc.c:5174-5187 `wei_point_from_uniform`. -/
def wei_point_from_uniform (ec : WeiT fe) (m : WeiMap (ZMod fe.p)) (bytes : List Byte) : C (Wge (ZMod fe.p)) := do
  let u ← fe_import fe bytes
  if ec.zero_a then wei_svdw ec m u.1 else wei_sswu ec m u.1

/-- src/ecc.c:5189-5230 `wei_point_to_uniform`, for the cofactor one. -/
def wei_point_to_uniform (ec : WeiT fe) (m : WeiMap (ZMod fe.p)) (p : Wge (ZMod fe.p)) (hint : BitVec 32) : C (List Byte × Bool) := do
  let (u, ret) ← (if ec.zero_a then wei_svdwi ec m p hint else wei_sswui ec m p hint : C (ZMod fe.p × Bool))
  let bytes := fe_export fe u
  let top ← C.rd bytes 0
  let bytes ← C.wr bytes 0 (top ||| ((hint >>> 8) &&& (~~~(feMask fe).setWidth 32) &&& 0xff).setWidth 8)
  return (bytes, ret)

/-- src/ecc.c:5232-5247 `wei_point_from_hash`. -/
def wei_point_from_hash (ec : WeiT fe) (m : WeiMap (ZMod fe.p)) (bytes : List Byte) : C (Wge (ZMod fe.p)) := do
  let p1 ← wei_point_from_uniform ec m bytes
  let p2 ← wei_point_from_uniform ec m (bytes.drop (feSize fe))
  return wge_add ec.toCurve p1 p2

/-- src/ecc.c:5249-5288 `wei_point_to_hash`: the loop, for the cofactor one. The first argument is the fuel. -/
def wei_point_to_hash_loop {S : Type} (ec : WeiT fe) (m : WeiMap (ZMod fe.p)) (gen : ByteGen S) (p : Wge (ZMod fe.p)) (flag : BitVec 32) :
    Nat → S → R (List Byte)
  | 0, _ => .spin
  | fuel + 1, s => do
    let (u1, s) := gen.gen s (feSize fe)
    let p1 ← R.lift (wei_point_from_uniform ec m u1)
    let p2 := wge_sub ec.toCurve p p1
    let (w, s) := gen.gen s 4
    let hint := BitVec.ofNat 32 (leVal w)
    let hint := (hint &&& 0xff0f) ||| flag
    let (u2, ret) ← R.lift (wei_point_to_uniform ec m p2 hint)
    if ret then return u1 ++ u2
    wei_point_to_hash_loop ec m gen p flag fuel s

/-- src/ecc.c:5249-5288 `wei_point_to_hash`; on a little-endian machine. -/
def wei_point_to_hash {S : Type} (rng : Source S) (fuel : Nat) (ec : WeiT fe) (m : WeiMap (ZMod fe.p)) (p : Wge (ZMod fe.p))
    (subgroup : BitVec 32) (entropy : List Byte) : R (List Byte) :=
  wei_point_to_hash_loop ec m rng.toByteGen p ((subgroup &&& 15) <<< 4) fuel (rng.init entropy)

/-! ### Public keys -/

/-- src/ecc.c:10801-10812 `ecdsa_pubkey_from_uniform`. -/
def ecdsa_pubkey_from_uniform (ec : WeiT fe) (m : WeiMap (ZMod fe.p)) (bytes : List Byte) (compact : Bool) : C (List Byte) := do
  let A ← wei_point_from_uniform ec m bytes
  let r := wge_export ec A compact
  C.check r.2
  return r.1

/-- src/ecc.c:10814-10827 `ecdsa_pubkey_to_uniform`. -/
def ecdsa_pubkey_to_uniform (ec : WeiT fe) (m : WeiMap (ZMod fe.p)) (pub : List Byte) (hint : BitVec 32) : C (List Byte × Bool) := do
  let A ← wge_import ec pub
  let r ← wei_point_to_uniform ec m A.1 hint
  return (r.1, A.2 && r.2)

/-- src/ecc.c:10829-10840 `ecdsa_pubkey_from_hash`. -/
def ecdsa_pubkey_from_hash (ec : WeiT fe) (m : WeiMap (ZMod fe.p)) (bytes : List Byte) (compact : Bool) : C (List Byte × Bool) := do
  let A ← wei_point_from_hash ec m bytes
  return wge_export ec A compact

/-- src/ecc.c:10842-10857 `ecdsa_pubkey_to_hash`. -/
def ecdsa_pubkey_to_hash {S : Type} (rng : Source S) (fuel : Nat) (ec : WeiT fe) (m : WeiMap (ZMod fe.p)) (pub : List Byte)
    (subgroup : BitVec 32) (entropy : List Byte) : R (List Byte × Bool) := do
  let A ← R.lift (wge_import ec pub)
  let out ← wei_point_to_hash rng fuel ec m A.1 subgroup entropy
  return (out, A.2)

/-- src/ecc.c:12145-12154 `bip340_pubkey_from_uniform`. -/
def bip340_pubkey_from_uniform (ec : WeiT fe) (m : WeiMap (ZMod fe.p)) (bytes : List Byte) : C (List Byte) := do
  let A ← wei_point_from_uniform ec m bytes
  let r := wge_export_x ec A
  C.check r.2
  return r.1

/-- src/ecc.c:12156-12168 `bip340_pubkey_to_uniform`. -/
def bip340_pubkey_to_uniform (ec : WeiT fe) (m : WeiMap (ZMod fe.p)) (pub : List Byte) (hint : BitVec 32) : C (List Byte × Bool) := do
  let A ← wge_import_even ec pub
  let r ← wei_point_to_uniform ec m A.1 hint
  return (r.1, A.2 && r.2)

/-- src/ecc.c:12170-12179 `bip340_pubkey_from_hash`. -/
def bip340_pubkey_from_hash (ec : WeiT fe) (m : WeiMap (ZMod fe.p)) (bytes : List Byte) : C (List Byte × Bool) := do
  let A ← wei_point_from_hash ec m bytes
  return wge_export_x ec A

/-- src/ecc.c:12181-12195 `bip340_pubkey_to_hash`. -/
def bip340_pubkey_to_hash {S : Type} (rng : Source S) (fuel : Nat) (ec : WeiT fe) (m : WeiMap (ZMod fe.p)) (pub : List Byte)
    (subgroup : BitVec 32) (entropy : List Byte) : R (List Byte × Bool) := do
  let A ← R.lift (wge_import_even ec pub)
  let out ← wei_point_to_hash rng fuel ec m A.1 subgroup entropy
  return (out, A.2)

end

end Torsion
