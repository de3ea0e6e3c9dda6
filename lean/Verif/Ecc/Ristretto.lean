import Verif.Ecc.Eddsa

/-!
# Model: Ristretto (src/ecc.c)

The encoding of the points of a twisted Edwards curve modulo the points of small order, the map from field elements to the curve with
its inverse, and the functions on keys. `rge_t` is `xge_t`. The member `rs` of `edwards_t` is a separate argument. Field elements are integers
modulo the prime, scalars are numbers (the limb code is modelled in Scalar.lean). Elsewhere: `rge_export_batch` (RistBatch.lean) and
`ristretto_privkey_generate` (Grind.lean). Left out: the wiping of memory.
-/
namespace Torsion

open Spec (beVal leVal leBytes)

/-- src/ecc.c:508-516, `ristretto_t`. -/
structure Ristretto (F : Type) where
  qnr : F
  qnrds : F
  adm1s : F
  adm1si : F
  dmaddpa : F
  amdsi : F
  dmasi : F

/-- src/ecc.c:518-526, `ristretto_def_t`: arrays of `MAX_FIELD_SIZE` = 66 bytes. -/
structure RistrettoDef where
  qnr : List Byte
  qnrds : List Byte
  adm1s : List Byte
  adm1si : List Byte
  dmaddpa : List Byte
  amdsi : List Byte
  dmasi : List Byte

/-- src/ecc.c:181, `MAX_FIELD_SIZE`: an array whose initializer is shorter is filled with zeros. -/
def padField (xs : List Byte) : List Byte := xs ++ List.replicate (66 - xs.length) 0

/-- src/ecc.c:9583-9626, `ristretto_ed25519`. -/
def ristretto_ed25519 : RistrettoDef :=
  { qnr := padField [0x2b, 0x83, 0x24, 0x80, 0x4f, 0xc1, 0xdf, 0x0b, 0x2b, 0x4d, 0x00, 0x99, 0x3d, 0xfb, 0xd7, 0xa7,
      0x2f, 0x43, 0x18, 0x06, 0xad, 0x2f, 0xe4, 0x78, 0xc4, 0xee, 0x1b, 0x27, 0x4a, 0x0e, 0xa0, 0xb0],
    qnrds := padField [0x7a, 0x4c, 0xaa, 0xa7, 0x0b, 0x84, 0x14, 0x68, 0x8a, 0xcb, 0xab, 0x66, 0x8c, 0x14, 0x91, 0xea,
      0x32, 0x43, 0x56, 0xd2, 0xf1, 0x15, 0x92, 0x55, 0x8a, 0xcf, 0xd5, 0x34, 0xb5, 0xa3, 0xe4, 0x45],
    adm1s := padField [0x37, 0x69, 0x31, 0xbf, 0x2b, 0x83, 0x48, 0xac, 0x0f, 0x3c, 0xfc, 0xc9, 0x31, 0xf5, 0xd1, 0xfd,
      0xaf, 0x9d, 0x8e, 0x0c, 0x1b, 0x78, 0x54, 0xbd, 0x7e, 0x97, 0xf6, 0xa0, 0x49, 0x7b, 0x2e, 0x1b],
    adm1si := padField [0x07, 0x93, 0x76, 0xfa, 0x30, 0x50, 0x03, 0x5d, 0xe9, 0x3d, 0x84, 0x6e, 0x01, 0xfe, 0x27, 0xbf,
      0x62, 0xd0, 0xe9, 0xe8, 0xa5, 0xbe, 0x8d, 0x41, 0x66, 0x37, 0x02, 0x55, 0x7f, 0xa2, 0xbf, 0x03],
    dmaddpa := padField [0x0e, 0x67, 0xc8, 0x30, 0xa7, 0xe8, 0xd8, 0x9d, 0xae, 0xf8, 0xd9, 0x5f, 0x99, 0x9f, 0x18, 0x24,
      0x48, 0x9a, 0xe7, 0xf1, 0xcd, 0x24, 0x1d, 0xc8, 0x27, 0x7f, 0xac, 0x5f, 0x9b, 0x81, 0xbb, 0x2c],
    amdsi := padField [0x78, 0x6c, 0x89, 0x05, 0xcf, 0xaf, 0xfc, 0xa2, 0x16, 0xc2, 0x7b, 0x91, 0xfe, 0x01, 0xd8, 0x40,
      0x9d, 0x2f, 0x16, 0x17, 0x5a, 0x41, 0x72, 0xbe, 0x99, 0xc8, 0xfd, 0xaa, 0x80, 0x5d, 0x40, 0xea],
    dmasi := padField [0x0a, 0x0d, 0x85, 0xb4, 0x03, 0x2b, 0x1e, 0xa8, 0x1e, 0xf0, 0x2c, 0x42, 0x94, 0x05, 0xac, 0x88,
      0x4e, 0x52, 0xf7, 0x1c, 0x6b, 0xda, 0xb6, 0x4e, 0x0b, 0x2e, 0xdb, 0x88, 0x31, 0xbb, 0xdd, 0xec] }

/-- src/ecc.c:9628-9681, `ristretto_ed448`. -/
def ristretto_ed448 : RistrettoDef :=
  { qnr := padField [0x00, 0x00, 0x00, 0x00, 0x00, 0x00, 0x00, 0x00, 0xff, 0xff, 0xff, 0xff, 0xff, 0xff, 0xff, 0xff,
      0xff, 0xff, 0xff, 0xff, 0xff, 0xff, 0xff, 0xff, 0xff, 0xff, 0xff, 0xff, 0xff, 0xff, 0xff, 0xff,
      0xff, 0xff, 0xff, 0xfe, 0xff, 0xff, 0xff, 0xff, 0xff, 0xff, 0xff, 0xff, 0xff, 0xff, 0xff, 0xff,
      0xff, 0xff, 0xff, 0xff, 0xff, 0xff, 0xff, 0xff, 0xff, 0xff, 0xff, 0xff, 0xff, 0xff, 0xff, 0xfe],
    qnrds := padField [0x00, 0x00, 0x00, 0x00, 0x00, 0x00, 0x00, 0x00, 0xdd, 0x26, 0x9d, 0x04, 0x14, 0xdb, 0x08, 0x97,
      0xc4, 0x09, 0x72, 0x8d, 0xd0, 0x5d, 0x95, 0x5f, 0x5e, 0x0e, 0x58, 0x47, 0x5a, 0x47, 0x2a, 0xb4,
      0x9b, 0x5d, 0x28, 0x7e, 0x69, 0x73, 0xeb, 0x45, 0x7c, 0x65, 0x99, 0x0b, 0x02, 0x91, 0x21, 0x2d,
      0x9f, 0xcc, 0x84, 0x09, 0x55, 0xdf, 0x31, 0xad, 0x69, 0xbd, 0x10, 0xf0, 0xba, 0xa8, 0xd8, 0xc9],
    adm1s := padField [0x00, 0x00, 0x00, 0x00, 0x00, 0x00, 0x00, 0x00, 0x12, 0xfe, 0xc0, 0xc0, 0xb2, 0x5b, 0x7a, 0x49,
      0x44, 0x3b, 0x87, 0x48, 0x73, 0x4a, 0xdc, 0xac, 0x46, 0x28, 0xc5, 0xf6, 0x56, 0xa4, 0x9f, 0x7b,
      0x42, 0x4d, 0x97, 0x70, 0x51, 0xe6, 0x5c, 0xa6, 0xf1, 0x4c, 0x06, 0x5a, 0x18, 0x9a, 0xab, 0xde,
      0xea, 0x38, 0x88, 0x8d, 0xb4, 0x2b, 0x4f, 0x01, 0x79, 0xd2, 0xe2, 0x18, 0x36, 0x74, 0x9f, 0x46],
    adm1si := padField [0x00, 0x00, 0x00, 0x00, 0x00, 0x00, 0x00, 0x00, 0xdf, 0x64, 0x97, 0xe8, 0x36, 0xd1, 0x56, 0x79,
      0x5a, 0x71, 0x30, 0xf4, 0x3e, 0x77, 0x86, 0x9a, 0x11, 0x73, 0xae, 0x0c, 0x1e, 0x2c, 0x4c, 0x2b,
      0xdb, 0x8c, 0x92, 0x72, 0x39, 0xe1, 0x7c, 0xe7, 0x70, 0xc6, 0xd2, 0xf9, 0x23, 0x37, 0x17, 0x9c,
      0x9e, 0x17, 0x76, 0xf8, 0x78, 0x82, 0xd3, 0x05, 0x5a, 0x06, 0x38, 0xbe, 0xa7, 0x8f, 0x0f, 0xeb],
    dmaddpa := padField [0x00, 0x00, 0x00, 0x00, 0x00, 0x00, 0x00, 0x00, 0x18, 0xa4, 0xc3, 0x28, 0x4c, 0xb8, 0xad, 0x25,
      0xad, 0xee, 0xea, 0x76, 0x1f, 0x20, 0xf6, 0x83, 0xbf, 0x3a, 0x1e, 0x14, 0xa5, 0xcf, 0x79, 0x00,
      0xfe, 0xe6, 0x44, 0xdc, 0x37, 0x38, 0xdc, 0x1a, 0x33, 0xe1, 0x9a, 0xdb, 0x94, 0x0b, 0x87, 0x77,
      0xbf, 0x04, 0x74, 0x56, 0xfe, 0x2a, 0x72, 0xc4, 0x85, 0x1c, 0x09, 0x6e, 0xd6, 0x56, 0x78, 0x03],
    amdsi := padField [0],
    dmasi := padField [0] }

/-- src/ecc.c:9683-9716, `ristretto_ed1174`. -/
def ristretto_ed1174 : RistrettoDef :=
  { qnr := padField [0x07, 0xff, 0xff, 0xff, 0xff, 0xff, 0xff, 0xff, 0xff, 0xff, 0xff, 0xff, 0xff, 0xff, 0xff, 0xff,
      0xff, 0xff, 0xff, 0xff, 0xff, 0xff, 0xff, 0xff, 0xff, 0xff, 0xff, 0xff, 0xff, 0xff, 0xff, 0xf6],
    qnrds := padField [0x05, 0xb7, 0x8c, 0xa2, 0x46, 0xe7, 0x0f, 0x1f, 0xe2, 0x8c, 0x50, 0x57, 0xb5, 0xcf, 0xfc, 0x39,
      0xf1, 0xcd, 0x31, 0x16, 0xed, 0xde, 0xcf, 0x99, 0x03, 0x37, 0xa8, 0x4a, 0x0f, 0xdb, 0xb3, 0xdf],
    adm1s := padField [0x00, 0x5c, 0xfb, 0xdd, 0x72, 0xb1, 0xed, 0x48, 0x2a, 0xaf, 0xda, 0x05, 0xd6, 0x92, 0xe7, 0x90,
      0x79, 0x11, 0x64, 0x99, 0x07, 0xe7, 0x97, 0xf9, 0x98, 0xa6, 0x34, 0x7b, 0xc5, 0x5d, 0xd8, 0xa7],
    adm1si := padField [0x07, 0xd2, 0xc2, 0xfe, 0x02, 0x7e, 0x84, 0x73, 0x50, 0xdd, 0xf1, 0x96, 0x8e, 0x04, 0x7b, 0x83,
      0x48, 0x38, 0x02, 0x0b, 0xe5, 0x35, 0x5b, 0xa2, 0xbe, 0xc4, 0xa9, 0x8c, 0xa2, 0x0c, 0x10, 0x0e],
    dmaddpa := padField [0x04, 0x30, 0x03, 0x7d, 0xed, 0x3b, 0x24, 0xe2, 0x19, 0xc0, 0xb5, 0x94, 0x30, 0x03, 0x7d, 0xed,
      0x3b, 0x24, 0xe2, 0x19, 0xc0, 0xb5, 0x94, 0x30, 0x03, 0x7d, 0xed, 0x3b, 0x24, 0xe2, 0x19, 0xbd],
    amdsi := padField [0],
    dmasi := padField [0] }

/-- src/ecc.c:10154, 10225, 10281: the member `ristretto` of `curve_ed25519`, `curve_ed448` and `curve_ed1174`. -/
def ristrettoDefs : List (EdwardsDef × RistrettoDef) :=
  [(curve_ed25519, ristretto_ed25519), (curve_ed448, ristretto_ed448), (curve_ed1174, ristretto_ed1174)]

/-- src/ecc.c:529-532, `qge_t`: a point of a Jacobi quartic. -/
structure Qge (F : Type) where
  s : F
  t : F

/-- src/ecc.c:1390-1400, `fe_import_be` with `fe->endian == -1`: reads `fe->size` bytes. -/
def fe_import_be_le (fe : FieldCode) (xp : List Byte) : C (ZMod fe.p × Bool) := do
  let tmp ← C.slice xp 0 (feSize fe)
  fe_import_le fe tmp.reverse

/-- src/ecc.c:7889-7917 `ristretto_init`. -/
def ristretto_init (fe : FieldCode) (d : RistrettoDef) : C (Ristretto (ZMod fe.p)) := do
  let qnr ← fe_import_be_le fe d.qnr
  let qnrds ← fe_import_be_le fe d.qnrds
  let adm1s ← fe_import_be_le fe d.adm1s
  let adm1si ← fe_import_be_le fe d.adm1si
  let dmaddpa ← fe_import_be_le fe d.dmaddpa
  let amdsi ← fe_import_be_le fe d.amdsi
  let dmasi ← fe_import_be_le fe d.dmasi
  return ⟨qnr.1, qnrds.1, adm1s.1, adm1si.1, dmaddpa.1, amdsi.1, dmasi.1⟩

section
variable {fe : FieldCode} [Fact fe.p.Prime]

/-- src/ecc.c:1900-1909 `fe_rsqrt`; `z` is the register of the output as for `fe_isqrt`. -/
def fe_rsqrt (fe : FieldCode) [Fact fe.p.Prime] (z : Nat) (u v : ZMod fe.p) : C (ZMod fe.p × Bool) := do
  let (r, ret) ← fe_isqrt fe z u v
  return (fe_set_odd fe r false, ret)

/-! ### Encoding -/

/-- src/ecc.c:8161-8250 `rge_import`. -/
def rge_import (ec : Edwards (ZMod fe.p)) (raw : List Byte) : C (Xge (ZMod fe.p) × Bool) := do
  let (s, ret) ← fe_import_le fe raw
  let ret := ret && !fe_is_odd fe s
  let as2 := edwards_mul_a ec (s * s)
  let u1 := 1 + as2
  let u2 := 1 - as2
  let u2u2 := u2 * u2
  let v := edwards_mul_a ec (edwards_mul_d ec (u1 * u1)) - u2u2
  let i := v * u2u2
  let (i, sq) ← fe_rsqrt fe 2 1 i
  let ret := ret && sq
  let dx := i * u2
  let dy := i * dx * v
  let x := fe_set_odd fe ((s + s) * dx) false
  let y := u1 * dy
  let t := x * y
  let ret := if ec.h = 8 then ret && !fe_is_odd fe t && !fe_is_zero y else ret
  return (⟨x, y, 1, t⟩, ret)

/-- src/ecc.c:8252-8353 `rge_export`. -/
def rge_export (ec : Edwards (ZMod fe.p)) (rs : Ristretto (ZMod fe.p)) (p : Xge (ZMod fe.p)) : C (List Byte) := do
  let u1 := edwards_mul_a ec ((p.y + p.z) * (p.y - p.z))
  let u2 := p.x * p.y
  let (i, _) ← fe_rsqrt fe 2 1 (u2 * u2 * u1)
  let d1 := u1 * i
  let d2 := u2 * i
  let zi := d1 * d2 * p.t
  let rotate := decide (ec.h = 8) && fe_is_odd fe (p.t * zi)
  let x := fe_select p.x (p.y * rs.qnr) rotate
  let y := fe_select p.y (p.x * rs.qnr) rotate
  let d := fe_select d2 (d1 * rs.amdsi) rotate
  let y := fe_neg_cond y (fe_is_odd fe (x * zi))
  let s := fe_set_odd fe ((p.z - y) * d) false
  return fe_export_le fe s

/-- src/ecc.c:8533-8568 `rge_equal`. -/
def rge_equal (ec : Edwards (ZMod fe.p)) (p1 p2 : Xge (ZMod fe.p)) : Bool :=
  fe_equal (p1.x * p2.y) (p1.y * p2.x) || (decide (ec.h = 8) && fe_equal (p1.y * p2.y) (p1.x * p2.x))

/-- src/ecc.c:8570-8595 `rge_is_zero`. -/
def rge_is_zero (ec : Edwards (ZMod fe.p)) (p : Xge (ZMod fe.p)) : Bool :=
  fe_is_zero p.x || (decide (ec.h = 8) && fe_is_zero p.y)

/-! ### Elligator -/

/-- src/ecc.c:7919-8018 `ristretto_elligator`. -/
def ristretto_elligator (ec : Edwards (ZMod fe.p)) (rs : Ristretto (ZMod fe.p)) (r0 : ZMod fe.p) : C (Xge (ZMod fe.p)) := do
  let r := r0 * r0 * rs.qnr
  let w0 := ec.d + ec.a
  let w1 := ec.d - ec.a
  let ns := edwards_mul_a ec ((r + 1) * w0 * w1)
  let w2 := edwards_mul_d ec r - ec.a
  let w3 := edwards_mul_a ec r - ec.d
  let d := w2 * w3
  let (s, sqr) ← fe_rsqrt fe 0 ns d
  let sp := fe_set_odd fe (s * r0) true
  let s := fe_select s sp (!sqr)
  let c := fe_select (-1) r (!sqr)
  let nt := (r - 1) * c * (w0 * w0) - d
  let as2 := edwards_mul_a ec (s * s)
  let w0 := (s + s) * d
  let w1 := nt * rs.adm1s
  let w2 := 1 + as2
  let w3 := 1 - as2
  return ⟨w0 * w3, w2 * w1, w1 * w3, w0 * w2⟩

/-- src/ecc.c:8601-8761 `qge_import_rge`: two points, or four if the cofactor is 8. -/
def qge_import_rge (ec : Edwards (ZMod fe.p)) (rs : Ristretto (ZMod fe.p)) (p : Xge (ZMod fe.p)) : C (List (Qge (ZMod fe.p))) := do
  let xyz := fe_is_zero p.x || fe_is_zero p.y
  let x2 := p.x * p.x
  let y2 := p.y * p.y
  let y4 := y2 * y2
  let z2 := p.z * p.z
  let z2my2 := z2 - y2
  let (g, _) ← fe_rsqrt fe 2 1 (y4 * x2 * z2my2)
  let d0 := g * y2
  let sx := d0 * (p.z - p.y)
  let spxp := d0 * (p.z + p.y)
  let s0 := sx * p.x
  let s1 := -spxp * p.x
  let h0 := (p.z + p.z) * rs.adm1si
  let t0 := h0 * sx
  let t1 := h0 * spxp
  let q0 : Qge (ZMod fe.p) := ⟨fe_select s0 0 xyz, fe_select t0 1 xyz⟩
  let q1 : Qge (ZMod fe.p) := ⟨fe_select s1 0 xyz, fe_select t1 1 xyz⟩
  if ec.h = 8 then
    let d1 := -z2my2 * g * rs.dmasi
    let iz := rs.qnr * p.z
    let sy := d1 * (iz - p.x)
    let spyp := d1 * (iz + p.x)
    let s2 := sy * p.y
    let s3 := -spyp * p.y
    let h1 := (iz + iz) * rs.adm1si
    let t2 := h1 * sy
    let t3 := h1 * spyp
    let h2 := (rs.qnr + rs.qnr) * rs.adm1si
    return [q0, q1, ⟨fe_select s2 1 xyz, fe_select t2 h2 xyz⟩, ⟨fe_select s3 (-1) xyz, fe_select t3 h2 xyz⟩]
  else return [q0, q1]

/-- src/ecc.c:8763-8828 `qge_invert`. -/
def qge_invert (rs : Ristretto (ZMod fe.p)) (p : Qge (ZMod fe.p)) (hint : Nat) : C (ZMod fe.p × Bool) := do
  let s_zero := fe_is_zero p.s
  let t_one := fe_equal p.t 1
  let a := (p.t + 1) * rs.dmaddpa
  let a2 := a * a
  let s2 := p.s * p.s
  let s4 := s2 * s2
  let (y, sq) ← fe_rsqrt fe 2 1 ((s4 - a2) * rs.qnr)
  let ret := s_zero || sq
  let s2 := fe_neg_cond s2 (fe_is_odd fe p.s)
  let r := (a + s2) * y
  let r := fe_select r rs.qnrds (s_zero && t_one)
  let r := fe_select r 0 (s_zero && !t_one)
  return (fe_set_odd fe r (hint % 2 == 1), ret)

/-- src/ecc.c:8020-8059 `ristretto_invert`: the second half of the array holds the negations. Reading an element which is not set
is undefined behaviour (`C.rd`). -/
def ristretto_invert (ec : Edwards (ZMod fe.p)) (rs : Ristretto (ZMod fe.p)) (p : Xge (ZMod fe.p)) (hint : BitVec 32) :
    C (ZMod fe.p × Bool) := do
  let sign := ((hint >>> 4) &&& 15).toNat
  let idx := (hint &&& 15).toNat
  C.check (decide (ec.h ≤ 8))
  let quartic ← qge_import_rge ec rs p
  if quartic.length < ec.h / 2 then C.ub
  let low := quartic.take (ec.h / 2)
  let quartic := low ++ low.map fun q => (⟨-q.s, -q.t⟩ : Qge (ZMod fe.p))
  let q ← C.rd quartic (idx % ec.h)
  qge_invert rs q sign

/-- src/ecc.c:8061-8072 `ristretto_point_from_uniform`. -/
def ristretto_point_from_uniform (ec : Edwards (ZMod fe.p)) (rs : Ristretto (ZMod fe.p)) (bytes : List Byte) : C (Xge (ZMod fe.p)) := do
  let u ← fe_import_le fe bytes
  ristretto_elligator ec rs u.1

/-- src/ecc.c:8074-8104 `ristretto_point_to_uniform`. -/
def ristretto_point_to_uniform (ec : Edwards (ZMod fe.p)) (rs : Ristretto (ZMod fe.p)) (p : Xge (ZMod fe.p)) (hint : BitVec 32) :
    C (List Byte × Bool) := do
  let (u, ret) ← ristretto_invert ec rs p hint
  let bytes := fe_export_le fe u
  let top ← C.rd bytes (feSize fe - 1)
  let bytes ← C.wr bytes (feSize fe - 1)
    (top ||| ((hint >>> 8) &&& (~~~(feMask fe).setWidth 32) &&& 0xff).setWidth 8)
  return (bytes, ret)

/-- src/ecc.c:8106-8123 `ristretto_point_from_hash`. -/
def ristretto_point_from_hash (ec : Edwards (ZMod fe.p)) (rs : Ristretto (ZMod fe.p)) (bytes : List Byte) : C (Xge (ZMod fe.p)) := do
  let p1 ← ristretto_point_from_uniform ec rs bytes
  let p2 ← ristretto_point_from_uniform ec rs (bytes.drop (feSize fe))
  return xge_add ec p1 p2

/-- src/ecc.c:8140-8148, `ristretto_point_to_hash`: the loop. The first argument is the fuel. -/
def ristretto_point_to_hash_loop {S : Type} (ec : Edwards (ZMod fe.p)) (rs : Ristretto (ZMod fe.p)) (gen : ByteGen S) (p : Xge (ZMod fe.p)) :
    Nat → S → R (List Byte)
  | 0, _ => .spin
  | fuel + 1, s => do
    let (u1, s) := gen.gen s (feSize fe)
    let p1 ← R.lift (ristretto_point_from_uniform ec rs u1)
    let p2 := xge_sub ec p p1
    let (w, s) := gen.gen s 4
    let (u2, ret) ← R.lift (ristretto_point_to_uniform ec rs p2 (BitVec.ofNat 32 (leVal w)))
    if ret then return u1 ++ u2
    ristretto_point_to_hash_loop ec rs gen p fuel s

/-- src/ecc.c:8125-8155 `ristretto_point_to_hash`; on a little-endian machine. -/
def ristretto_point_to_hash {S : Type} (rng : Source S) (fuel : Nat) (ec : Edwards (ZMod fe.p)) (rs : Ristretto (ZMod fe.p))
    (p : Xge (ZMod fe.p)) (entropy : List Byte) : R (List Byte) :=
  ristretto_point_to_hash_loop ec rs rng.toByteGen p fuel (rng.init entropy)

/-! ### Private keys -/

/-- src/ecc.c:1003-1037, `sc_import_pad_raw` and `sc_import_pad` on numbers in little-endian order: zeros at the end are dropped until
the size fits. -/
def num_import_pad_le (n : Nat) (xp : List Byte) : Nat × Bool :=
  let xp := (byte_pad_skip (scSize n) xp.reverse).reverse
  let ret := decide (xp.length ≤ scSize n ∧ leVal xp < n)
  (if ret then leVal xp else 0, ret)

/-- src/ecc.c:14394-14397 `ristretto_privkey_size`. -/
def ristretto_privkey_size (ec : Edwards (ZMod fe.p)) : Nat := scSize ec.n

/-- src/ecc.c:14399-14402 `ristretto_pubkey_size`. -/
def ristretto_pubkey_size (_ec : Edwards (ZMod fe.p)) : Nat := feSize fe

/-- src/ecc.c:14438-14448 `ristretto_privkey_from_uniform`. -/
def ristretto_privkey_from_uniform (ec : Edwards (ZMod fe.p)) (bytes : List Byte) : C (List Byte) := do
  let b ← C.slice bytes 0 (scSize ec.n * 2)
  let a ← num_import_wide_le ec.n b
  return num_export_le ec.n a

/-- src/ecc.c:14450-14461 `ristretto_privkey_verify`. -/
def ristretto_privkey_verify (ec : Edwards (ZMod fe.p)) (priv : List Byte) : C Bool := do
  let (_, ret) ← num_import_le ec.n priv
  return ret

/-- src/ecc.c:14463-14469 `ristretto_privkey_is_zero`. -/
def ristretto_privkey_is_zero (ec : Edwards (ZMod fe.p)) (priv : List Byte) : C Bool := do
  let b ← C.slice priv 0 (scSize ec.n)
  return b == List.replicate (scSize ec.n) 0

/-- src/ecc.c:14471-14485 `ristretto_privkey_export`. -/
def ristretto_privkey_export (ec : Edwards (ZMod fe.p)) (priv : List Byte) : C (List Byte × Bool) := do
  let (a, ret) ← num_import_le ec.n priv
  return (num_export_le ec.n a, ret)

/-- src/ecc.c:14487-14502 `ristretto_privkey_import`. -/
def ristretto_privkey_import (ec : Edwards (ZMod fe.p)) (bytes : List Byte) : List Byte × Bool :=
  let (a, ret) := num_import_pad_le ec.n bytes
  (num_export_le ec.n a, ret)

/-- src/ecc.c:14504-14523 `ristretto_privkey_tweak_add`. -/
def ristretto_privkey_tweak_add (ec : Edwards (ZMod fe.p)) (priv tweak : List Byte) : C (List Byte × Bool) := do
  let (a, r1) ← num_import_le ec.n priv
  let (t, r2) ← num_import_le ec.n tweak
  return (num_export_le ec.n ((a + t) % ec.n), r1 && r2)

/-- src/ecc.c:14525-14546 `ristretto_privkey_tweak_mul`. -/
def ristretto_privkey_tweak_mul (ec : Edwards (ZMod fe.p)) (priv tweak : List Byte) : C (List Byte × Bool) := do
  let (a, r1) ← num_import_le ec.n priv
  let (t, r2) ← num_import_le ec.n tweak
  let a := a * t % ec.n
  return (num_export_le ec.n a, r1 && r2 && !(a == 0))

/-- src/ecc.c:14548-14564 `ristretto_privkey_negate`. -/
def ristretto_privkey_negate (ec : Edwards (ZMod fe.p)) (priv : List Byte) : C (List Byte × Bool) := do
  let (a, ret) ← num_import_le ec.n priv
  return (num_export_le ec.n (num_neg ec.n a), ret)

/-- src/ecc.c:14566-14582 `ristretto_privkey_invert`. -/
def ristretto_privkey_invert (ec : Edwards (ZMod fe.p)) (priv : List Byte) : C (List Byte × Bool) := do
  let (a, ret) ← num_import_le ec.n priv
  return (num_export_le ec.n (num_invert ec.n a).1, ret)

/-! ### Public keys -/

/-- src/ecc.c:14584-14604 `ristretto_pubkey_create`. -/
def ristretto_pubkey_create (ec : Edwards (ZMod fe.p)) (rs : Ristretto (ZMod fe.p)) (priv : List Byte) : C (List Byte × Bool) := do
  let (a, ret) ← num_import_le ec.n priv
  let A ← edwards_mul_g ec a
  let pub ← rge_export ec rs A
  return (pub, ret)

/-- src/ecc.c:14622-14632, `ristretto_pubkey_grind`: the loop, for at most `fuel` iterations. The scalar `t` is not initialized: `none`;
adding to it is undefined behaviour. `check` is the callback. -/
def ristretto_grind_loop (ec : Edwards (ZMod fe.p)) (rs : Ristretto (ZMod fe.p)) (check : List Byte → Bool) :
    Nat → Xge (ZMod fe.p) → Nat → Option Nat → R (Nat × Option Nat)
  | 0, _, _, _ => .spin
  | fuel + 1, A, counter, t => do
    let A := xge_mixed_add ec A ec.g
    let counter := (counter + 1) % 2 ^ 64
    let (t, counter) ← if counter = 2 ^ 64 - 1 then
        match t with
        | none => R.ub
        | some t => .ok (some ((t + counter) % ec.n), 0)
      else .ok (t, counter)
    let tmp ← R.lift (rge_export ec rs A)
    if check tmp then return (counter, t)
    ristretto_grind_loop ec rs check fuel A counter t

/-- src/ecc.c:14606-14641 `ristretto_pubkey_grind`: `fail` is the result 0. -/
def ristretto_pubkey_grind (ec : Edwards (ZMod fe.p)) (rs : Ristretto (ZMod fe.p)) (fuel : Nat) (pub : List Byte) (check : List Byte → Bool) :
    R (List Byte) := do
  let (A, ret) ← R.lift (rge_import ec pub)
  if !ret then .fail
  else
    let (counter, t) ← ristretto_grind_loop ec rs check fuel A 0 none
    match t with
    | none => .ub
    | some t => return num_export_le ec.n ((t + counter) % ec.n)

/-- src/ecc.c:14643-14652 `ristretto_pubkey_from_uniform`. -/
def ristretto_pubkey_from_uniform (ec : Edwards (ZMod fe.p)) (rs : Ristretto (ZMod fe.p)) (bytes : List Byte) : C (List Byte) := do
  let A ← ristretto_point_from_uniform ec rs bytes
  rge_export ec rs A

/-- src/ecc.c:14654-14666 `ristretto_pubkey_to_uniform`. -/
def ristretto_pubkey_to_uniform (ec : Edwards (ZMod fe.p)) (rs : Ristretto (ZMod fe.p)) (pub : List Byte) (hint : BitVec 32) :
    C (List Byte × Bool) := do
  let (A, r1) ← rge_import ec pub
  let (out, r2) ← ristretto_point_to_uniform ec rs A hint
  return (out, r1 && r2)

/-- src/ecc.c:14668-14677 `ristretto_pubkey_from_hash`. -/
def ristretto_pubkey_from_hash (ec : Edwards (ZMod fe.p)) (rs : Ristretto (ZMod fe.p)) (bytes : List Byte) : C (List Byte) := do
  let A ← ristretto_point_from_hash ec rs bytes
  rge_export ec rs A

/-- src/ecc.c:14679-14692 `ristretto_pubkey_to_hash`. -/
def ristretto_pubkey_to_hash {S : Type} (rng : Source S) (fuel : Nat) (ec : Edwards (ZMod fe.p)) (rs : Ristretto (ZMod fe.p)) (pub : List Byte)
    (entropy : List Byte) : R (List Byte × Bool) := do
  let (A, ret) ← R.lift (rge_import ec pub)
  let out ← ristretto_point_to_hash rng fuel ec rs A entropy
  return (out, ret)

/-- src/ecc.c:14694-14699 `ristretto_pubkey_verify`. -/
def ristretto_pubkey_verify (ec : Edwards (ZMod fe.p)) (pub : List Byte) : C Bool := do
  let (_, ret) ← rge_import ec pub
  return ret

/-- src/ecc.c:14701-14707 `ristretto_pubkey_is_infinity`. -/
def ristretto_pubkey_is_infinity (_ec : Edwards (ZMod fe.p)) (pub : List Byte) : C Bool := do
  let b ← C.slice pub 0 (feSize fe)
  return b == List.replicate (feSize fe) 0

/-- src/ecc.c:14709-14730 `ristretto_pubkey_tweak_add`. -/
def ristretto_pubkey_tweak_add (ec : Edwards (ZMod fe.p)) (rs : Ristretto (ZMod fe.p)) (pub tweak : List Byte) : C (List Byte × Bool) := do
  let (A, r1) ← rge_import ec pub
  let (t, r2) ← num_import_le ec.n tweak
  let T ← edwards_mul_g ec t
  let out ← rge_export ec rs (xge_add ec A T)
  return (out, r1 && r2)

/-- src/ecc.c:14732-14754 `ristretto_pubkey_tweak_mul`. -/
def ristretto_pubkey_tweak_mul (ec : Edwards (ZMod fe.p)) (rs : Ristretto (ZMod fe.p)) (pub tweak : List Byte) : C (List Byte × Bool) := do
  let (A, r1) ← rge_import ec pub
  let (t, r2) ← num_import_le ec.n tweak
  let A ← edwards_mul ec A t
  let ret := r1 && r2 && !rge_is_zero ec A
  let out ← rge_export ec rs A
  return (out, ret)

/-- src/ecc.c:14756-14772 `ristretto_pubkey_add`. -/
def ristretto_pubkey_add (ec : Edwards (ZMod fe.p)) (rs : Ristretto (ZMod fe.p)) (pub1 pub2 : List Byte) : C (List Byte × Bool) := do
  let (P, r1) ← rge_import ec pub1
  let (Q, r2) ← rge_import ec pub2
  let out ← rge_export ec rs (xge_mixed_add ec P Q)
  return (out, r1 && r2)

/-- src/ecc.c:14788-14792, `ristretto_pubkey_combine`: the loop. -/
def ristretto_combine_loop (ec : Edwards (ZMod fe.p)) : List (List Byte) → Xge (ZMod fe.p) → Bool → C (Xge (ZMod fe.p) × Bool)
  | [], P, ret => .ok (P, ret)
  | pub :: pubs, P, ret => do
    let (A, r) ← rge_import ec pub
    ristretto_combine_loop ec pubs (xge_mixed_add ec P A) (ret && r)

/-- src/ecc.c:14774-14797 `ristretto_pubkey_combine`. -/
def ristretto_pubkey_combine (ec : Edwards (ZMod fe.p)) (rs : Ristretto (ZMod fe.p)) (pubs : List (List Byte)) : C (List Byte × Bool) := do
  let (P, ret) ← match pubs with
    | [] => .ok (xge_zero, true)
    | pub :: pubs => do
      let (P, r) ← rge_import ec pub
      ristretto_combine_loop ec pubs P r
  let out ← rge_export ec rs P
  return (out, ret)

/-- src/ecc.c:14799-14813 `ristretto_pubkey_negate`. -/
def ristretto_pubkey_negate (ec : Edwards (ZMod fe.p)) (rs : Ristretto (ZMod fe.p)) (pub : List Byte) : C (List Byte × Bool) := do
  let (A, ret) ← rge_import ec pub
  let out ← rge_export ec rs (xge_neg A)
  return (out, ret)

/-- src/ecc.c:14815-14838 `ristretto_derive`. -/
def ristretto_derive (ec : Edwards (ZMod fe.p)) (rs : Ristretto (ZMod fe.p)) (pub priv : List Byte) : C (List Byte × Bool) := do
  let (a, r1) ← num_import_le ec.n priv
  let (A, r2) ← rge_import ec pub
  let P ← edwards_mul ec A a
  let secret ← rge_export ec rs P
  return (secret, r1 && r2)

end

end Torsion
