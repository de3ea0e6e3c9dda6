import Verif.Ecc.MontDefs
import Verif.Ecc.Encode
import Verif.Common.Proto

/-!
# Model: Montgomery curves and ECDH (src/ecc.c)

The curve is `B y^2 = x^3 + A x^2 + x`. Field elements are the elements of a field `F` (see Point.lean), of the integers modulo
the prime where bytes are read or written; scalars are numbers (the limb code is modelled in Scalar.lean). The curves here are
little-endian. `ecdh_pubkey_convert` belongs to the Edwards curves and is not modelled here.
-/
namespace Torsion

open Spec (beVal leVal leBytes)

/-- src/ecc.c:456-461, `mge_t`. -/
structure Mge (F : Type) where
  x : F
  y : F
  inf : Bool
  deriving DecidableEq

/-- src/ecc.c:464-468, `pge_t`: the abscissa `x / z`. -/
structure Pge (F : Type) where
  x : F
  z : F
  deriving DecidableEq

/-- src/ecc.c:470-488, `mont_t`; `n` is `sc.n`, `bits` is `fe.bits`, and `scmul` the constant of `fe.scmul_a24`. The field `b_one`
is a function below; `i4` is only used by `mont_init`. -/
structure Mont (F : Type) where
  bits : Nat
  n : Nat
  h : Nat
  a : F
  b : F
  z : F
  invert : Bool
  c : F
  bi : F
  scmul : Option F
  a24 : F
  a0 : F
  b0 : F
  i16 : Nat
  g : Mge F
  torsion : List (Mge F)

section
variable {F : Type} [Field F] [DecidableEq F]

/-- src/ecc.c:5930-5931, `mont_init`: `b_one`. -/
def Mont.b_one (ec : Mont F) : Bool := fe_equal ec.b 1

/-- src/ecc.c:6027-6035 `mont_mul_b`. -/
def mont_mul_b (ec : Mont F) (x : F) : F := if ec.b_one then x else x * ec.b

/-- src/ecc.c:6037-6045 `mont_div_b`. -/
def mont_div_b (ec : Mont F) (x : F) : F := if ec.b_one then x else x * ec.bi

/-- src/ecc.c:6047-6055 `mont_mul_a24`. -/
def mont_mul_a24 (ec : Mont F) (x : F) : F :=
  match ec.scmul with
  | some k => x * k
  | none => x * ec.a24

/-- src/ecc.c:6057-6072 `mont_solve_y2`. -/
def mont_solve_y2 (ec : Mont F) (x : F) : F :=
  let x2 := x * x
  let x3 := x2 * x
  let x2 := x2 * ec.a
  let y2 := x + x2
  let y2 := y2 + x3
  mont_div_b ec y2

/-- src/ecc.c:6074-6084 `mont_validate_xy`. -/
def mont_validate_xy (ec : Mont F) (x y : F) : Bool := fe_equal (y * y) (mont_solve_y2 ec x)

/-! ### Affine points -/

/-- src/ecc.c:5324-5332 `mge_zero`. -/
def mge_zero : Mge F := ⟨0, 0, true⟩

/-- src/ecc.c:5344-5347 `mge_validate`. -/
def mge_validate (ec : Mont F) (p : Mge F) : Bool := mont_validate_xy ec p.x p.y || p.inf

/-- src/ecc.c:5373-5384 `mge_set_xy`. -/
def mge_set_xy (ec : Mont F) (x y : F) : Mge F × Bool :=
  let ret := mont_validate_xy ec x y
  (⟨fe_select x 0 (!ret), fe_select y 0 (!ret), !ret⟩, ret)

/-- src/ecc.c:5419-5434 `mge_equal`. -/
def mge_equal (p1 p2 : Mge F) : Bool :=
  let ret := !(p1.inf || p2.inf)
  let ret := ret && fe_equal p1.x p2.x
  let ret := ret && fe_equal p1.y p2.y
  ret || (p1.inf && p2.inf)

/-- src/ecc.c:5442-5450 `mge_neg`. -/
def mge_neg (p : Mge F) : Mge F := ⟨p.x, -p.y, p.inf⟩

/-- src/ecc.c:5452-5496 `mge_dbl`. -/
def mge_dbl (ec : Mont F) (p1 : Mge F) : Mge F :=
  let inf := p1.inf || fe_is_zero p1.y
  let z := p1.y + p1.y
  let z := mont_mul_b ec z
  let z := (fe_invert z).1
  let x3 := p1.x * p1.x
  let x3 := 3 * x3
  let y3 := p1.x + p1.x
  let y3 := y3 * ec.a
  let l := x3 + y3
  let l := l + 1
  let l := l * z
  let x3 := l * l
  let x3 := mont_mul_b ec x3
  let x3 := x3 - ec.a
  let x3 := x3 - p1.x
  let x3 := x3 - p1.x
  let y3 := p1.x - x3
  let y3 := y3 * l
  let y3 := y3 - p1.y
  ⟨fe_select x3 0 inf, fe_select y3 0 inf, inf⟩

/-- src/ecc.c:5498-5584 `mge_add`. -/
def mge_add (ec : Mont F) (p1 p2 : Mge F) : Mge F :=
  let h := p2.x - p1.x
  let r := p2.y - p1.y
  let x3 := p1.x * p1.x
  let x3 := 3 * x3
  let y3 := p1.x + p1.x
  let y3 := y3 * ec.a
  let m := x3 + y3
  let m := m + 1
  let z := p1.y + p1.y
  let z := mont_mul_b ec z
  let dbl := fe_is_zero h && fe_is_zero r
  let r := fe_select r m dbl
  let h := fe_select h z dbl
  let hi := fe_invert h
  let zero := !hi.2
  let h := hi.1
  let l := r * h
  let neg := zero && !(p1.inf || p2.inf)
  let x3 := l * l
  let x3 := mont_mul_b ec x3
  let x3 := x3 - ec.a
  let x3 := x3 - p1.x
  let x3 := x3 - p2.x
  let y3 := p1.x - x3
  let y3 := y3 * l
  let y3 := y3 - p1.y
  let inf := neg || (p1.inf && p2.inf)
  let x3 := fe_select x3 p2.x p1.inf
  let y3 := fe_select y3 p2.y p1.inf
  let x3 := fe_select x3 p1.x p2.inf
  let y3 := fe_select y3 p1.y p2.inf
  let x3 := fe_select x3 0 inf
  let y3 := fe_select y3 0 inf
  ⟨x3, y3, inf⟩

/-- src/ecc.c:5586-5591 `mge_sub`. -/
def mge_sub (ec : Mont F) (p1 p2 : Mge F) : Mge F := mge_add ec p1 (mge_neg p2)

/-! ### Points with the abscissa only -/

/-- src/ecc.c:5627-5633 `pge_zero`. -/
def pge_zero : Pge F := ⟨1, 0⟩

/-- src/ecc.c:5713-5719 `pge_swap`. -/
def pge_swap (p1 p2 : Pge F) (flag : Bool) : Pge F × Pge F := if flag then (p2, p1) else (p1, p2)

/-- src/ecc.c:5729-5734 `pge_is_zero`. -/
def pge_is_zero (p : Pge F) : Bool := fe_is_zero p.z

/-- src/ecc.c:5736-5754 `pge_equal`. -/
def pge_equal (p1 p2 : Pge F) : Bool :=
  let inf1 := pge_is_zero p1
  let inf2 := pge_is_zero p2
  let ret := !(inf1 || inf2)
  let lhs := p1.x * p2.z
  let rhs := p2.x * p1.z
  let ret := ret && fe_equal lhs rhs
  ret || (inf1 && inf2)

/-- src/ecc.c:5756-5789 `pge_dbl`. -/
def pge_dbl (ec : Mont F) (p1 : Pge F) : Pge F :=
  let a := p1.x + p1.z
  let aa := a * a
  let b := p1.x - p1.z
  let bb := b * b
  let c := aa - bb
  let x := aa * bb
  let z := mont_mul_a24 ec c
  let z := z + bb
  let z := z * c
  ⟨fe_select x 1 (fe_is_zero z), z⟩

/-- src/ecc.c:5791-5854 `pge_ladder`: the double of `p2` and the sum of `p2` and `p3`, whose difference is `p1`. The assertions are
about addresses of the variables; the callers use different ones. -/
def pge_ladder (ec : Mont F) (p1 p2 p3 : Pge F) (affine : Bool) : Pge F × Pge F :=
  let a := p2.x + p2.z
  let aa := a * a
  let b := p2.x - p2.z
  let bb := b * b
  let e := aa - bb
  let c := p3.x + p3.z
  let d := p3.x - p3.z
  let da := d * a
  let cb := c * b
  let x5 := da + cb
  let x5 := x5 * x5
  let x5 := if affine then x5 else x5 * p1.z
  let z5 := da - cb
  let z5 := z5 * z5
  let z5 := z5 * p1.x
  let x4 := aa * bb
  let z4 := mont_mul_a24 ec e
  let z4 := z4 + bb
  let z4 := z4 * e
  (⟨x4, z4⟩, ⟨x5, z5⟩)

/-- src/ecc.c:5856-5862 `pge_set_mge`. -/
def pge_set_mge (p : Mge F) : Pge F := ⟨fe_select p.x 1 p.inf, fe_select 1 0 p.inf⟩

/-- src/ecc.c:5869-5876, the loop of `pge_mulh`; the first argument is the fuel, 32 for `unsigned int`. -/
def pge_mulh_loop (ec : Mont F) : Nat → Nat → Pge F → Pge F
  | 0, _, r => r
  | fuel + 1, h, r => if h = 0 then r else pge_mulh_loop ec fuel (h / 2) (pge_dbl ec r)

/-- src/ecc.c:5864-5878 `pge_mulh`. -/
def pge_mulh (ec : Mont F) (p : Pge F) : C (Pge F) := do
  C.check (ec.h != 0 && ec.h &&& (ec.h - 1) == 0)
  return pge_mulh_loop ec 32 (ec.h / 2) p

/-- src/ecc.c:5880-5891 `pge_is_small`. -/
def pge_is_small (ec : Mont F) (p : Pge F) : C Bool := do
  let r ← pge_mulh ec p
  return pge_is_zero r && !pge_is_zero p

/-- src/ecc.c:6096-6141 `mont_mul`: the loop, from bit `i - 1` downwards; the last value of `swap` and the two points. -/
def mont_mul_loop (ec : Mont F) (p : Pge F) (k : Nat) (affine : Bool) : Nat → Bool → Pge F → Pge F → Bool × Pge F × Pge F
  | 0, swap, a, b => (swap, a, b)
  | i + 1, swap, a, b =>
    let bit := k.testBit i
    let s := pge_swap a b (swap ^^ bit)
    let l := pge_ladder ec p s.1 s.2 affine
    mont_mul_loop ec p k affine i bit l.1 l.2

/-- src/ecc.c:6096-6141 `mont_mul`. -/
def mont_mul (ec : Mont F) (p : Pge F) (k : Nat) (affine : Bool) : Pge F :=
  let l := mont_mul_loop ec p k affine ec.bits false pge_zero p
  let r := (pge_swap l.2.1 l.2.2 l.1).1
  ⟨fe_select r.x 1 (fe_is_zero r.z), r.z⟩

/-- src/ecc.c:6143-6150 `mont_mul_g`. -/
def mont_mul_g (ec : Mont F) (k : Nat) : Pge F := mont_mul ec (pge_set_mge ec.g) k true

/-- src/ecc.c:5893-5906 `pge_has_torsion`. -/
def pge_has_torsion (ec : Mont F) (p : Pge F) : Bool :=
  let r := mont_mul ec p ec.n false
  let ret := !pge_is_zero r
  ret || fe_is_zero p.x

/-- src/ecc.c:6152-6169 `mont_solve_y0`. -/
def mont_solve_y0 (ec : Mont F) (x : F) : F :=
  let x2 := x * x
  let x3 := x2 * x
  let x2 := x2 * ec.a0
  let bx := if ec.b_one then x else x * ec.b0
  let y2 := x3 + x2
  y2 + bx

end

/-! ### Initialization -/

section
variable (d : MontDef) [Fact d.fe.p.Prime]

/-- src/ecc.c:5915-5968 `mont_init`; `fe_import_be` reads a big-endian number, `fe_set_int` sets an element from an `int`. -/
def mont_init : C (Mont (ZMod d.fe.p)) := do
  let n := beVal d.sc.n
  C.check (decide ((feBits d.fe + 63) / 64 ≤ (n.size + 63) / 64))
  let num (x : List Byte) : ZMod d.fe.p := (beVal x : ZMod d.fe.p)
  let a := num d.a
  let b := num d.b
  let c := num d.c
  let c := if fe_is_zero c then 1 else c
  let bi := b⁻¹
  let i4 : ZMod d.fe.p := 4⁻¹
  let i16 ← if feBits d.fe = 448 then
      let r := num_invert n 16
      C.check r.2 >>= fun _ => C.ok r.1
    else C.ok 0
  return { bits := feBits d.fe, n := n, h := d.h, a := a, b := b, z := (d.z : ZMod d.fe.p), invert := d.invert, c := c, bi := bi,
           scmul := some (d.scmul : ZMod d.fe.p), a24 := (a + 2) * i4, a0 := a * bi, b0 := bi * bi, i16 := i16,
           g := ⟨num d.x, num d.y, false⟩, torsion := d.torsion.map fun t => ⟨num t.x, num t.y, t.inf⟩ }

end

/-! ### Bytes -/

section
variable (fe : FieldCode)

/-- src/ecc.c:1363-1388, `fe_import` with `fe->endian == -1`: the element and whether the number was reduced. -/
def fe_import_le (xp : List Byte) : C (ZMod fe.p × Bool) := do
  let tmp ← C.slice xp 0 (feSize fe)
  let ret ← bytes_lt tmp (leBytes (feSize fe) fe.p) (feSize fe)
  let top ← C.rd tmp (feSize fe - 1)
  let tmp ← C.wr tmp (feSize fe - 1) (top &&& feMask fe)
  return ((leVal tmp : ZMod fe.p), ret != 0)

/-- src/ecc.c:1416-1428, `fe_export` with `fe->endian == -1`. -/
def fe_export_le (x : ZMod fe.p) : List Byte := leBytes (feSize fe) x.val

/-- src/ecc.c:674-691 `byte_pad_le`. -/
def byte_pad_le (zn : Nat) (xp : List Byte) : List Byte × Bool :=
  let xp := (byte_pad_skip zn xp.reverse).reverse
  if xp.length > zn then (List.replicate zn 0, false)
  else (xp ++ List.replicate (zn - xp.length) 0, true)

/-- src/ecc.c:1402-1414, `fe_import_pad` with `fe->endian == -1`. -/
def fe_import_pad_le (xp : List Byte) : C (ZMod fe.p × Bool) := do
  let tmp := byte_pad_le (feSize fe) xp
  let z ← fe_import_le fe tmp.1
  return (z.1, tmp.2 && z.2)

end

section
variable {fe : FieldCode} [Fact fe.p.Prime]

/-- src/ecc.c:6086-6094 `mont_validate_x`. -/
def mont_validate_x (ec : Mont (ZMod fe.p)) (x : ZMod fe.p) : C Bool := fe_is_square fe (mont_solve_y2 ec x)

/-- src/ecc.c:5349-5371 `mge_set_x`; `sign` is `none` for -1. -/
def mge_set_x (ec : Mont (ZMod fe.p)) (x : ZMod fe.p) (sign : Option Bool) : C (Mge (ZMod fe.p) × Bool) := do
  let y := mont_solve_y2 ec x
  let (y, ret) ← fe_sqrt fe 0 0 y
  let (y, ret) := match sign with
    | none => (y, ret)
    | some sign =>
      let y := fe_set_odd fe y sign
      (y, ret && !(fe_is_zero y && sign))
  return (⟨fe_select x 0 (!ret), fe_select y 0 (!ret), !ret⟩, ret)

/-- src/ecc.c:5386-5394 `mge_import`. -/
def mge_import (ec : Mont (ZMod fe.p)) (raw : List Byte) (sign : Option Bool) : C (Mge (ZMod fe.p) × Bool) := do
  let x ← fe_import_le fe raw
  mge_set_x ec x.1 sign

/-- src/ecc.c:5396-5407 `mge_export`: the bytes, the sign and the result. -/
def mge_export (p : Mge (ZMod fe.p)) : List Byte × Bool × Bool := (fe_export_le fe p.x, fe_is_odd fe p.y, !p.inf)

/-- src/ecc.c:5593-5616 `mge_set_pge`. -/
def mge_set_pge (ec : Mont (ZMod fe.p)) (p : Pge (ZMod fe.p)) (sign : Option Bool) : C (Mge (ZMod fe.p) × Bool) := do
  let i := fe_invert p.z
  let inf := !i.2
  let x := p.x * i.1
  let r ← mge_set_x ec x sign
  return ({ r.1 with inf := inf }, r.2)

/-- src/ecc.c:5665-5674 `pge_set_x`. -/
def pge_set_x (ec : Mont (ZMod fe.p)) (x : ZMod fe.p) : C (Pge (ZMod fe.p) × Bool) := do
  let ret ← mont_validate_x ec x
  return (⟨fe_select x 1 (!ret), fe_select 1 0 (!ret)⟩, ret)

/-- src/ecc.c:5643-5663 `pge_validate`. -/
def pge_validate (ec : Mont (ZMod fe.p)) (p : Pge (ZMod fe.p)) : C Bool := do
  let x2 := p.x * p.x
  let x3 := x2 * p.x
  let z2 := p.z * p.z
  let ax2 := ec.a * x2
  let ax2 := ax2 * p.z
  let xz2 := p.x * z2
  let y2 := x3 + ax2
  let y2 := y2 + xz2
  let y2 := mont_div_b ec y2
  let y2 := y2 * p.z
  fe_is_square fe y2

/-- src/ecc.c:5676-5685 `pge_import`. -/
def pge_import (ec : Mont (ZMod fe.p)) (raw : List Byte) : C (Pge (ZMod fe.p) × Bool) := do
  let x ← fe_import_le fe raw
  pge_set_x ec x.1

/-- src/ecc.c:5687-5702 `pge_export`. -/
def pge_export (p : Pge (ZMod fe.p)) : List Byte × Bool :=
  let a := fe_invert p.z
  let x := p.x * a.1
  (fe_export_le fe x, a.2)

/-- src/ecc.c:5704-5711 `pge_import_unsafe`. -/
def pge_import_unsafe (raw : List Byte) : C (Pge (ZMod fe.p)) := do
  let x ← fe_import_le fe raw
  return ⟨x.1, 1⟩

/-- src/ecc.c:5996-6025 `mont_clamp`: `-ec->h` is an `unsigned int`, the shifts are those of `int`. -/
def mont_clamp (ec : Mont (ZMod fe.p)) (scalar : List Byte) : C (List Byte) := do
  let size := scSize ec.n
  let top := ec.bits % 8
  C.check (decide (size ≤ feSize fe))
  let top := if top = 0 then 8 else top
  let out ← C.slice scalar 0 size
  let top := if size < feSize fe then 8 else top
  let lo ← C.rd out 0
  let out ← C.wr out 0 ((lo.setWidth 32 &&& -(BitVec.ofNat 32 ec.h)).setWidth 8)
  let hi ← C.rd out (size - 1)
  let out ← C.wr out (size - 1) ((hi.setWidth 32 &&& ((1 : BitVec 32) <<< top - 1)).setWidth 8)
  let hi ← C.rd out (size - 1)
  C.wr out (size - 1) ((hi.setWidth 32 ||| ((1 : BitVec 32) <<< (top - 1))).setWidth 8)

/-! ### Elligator 2 -/

/-- src/ecc.c:6171-6260 `mont_elligator2`. -/
def mont_elligator2 (ec : Mont (ZMod fe.p)) (u : ZMod fe.p) : C (Mge (ZMod fe.p)) := do
  let lhs := -ec.a0
  let rhs := u * u
  let rhs := rhs * ec.z
  let rhs := rhs + 1
  let rhs := fe_select rhs 1 (fe_is_zero rhs)
  let rhs := (fe_invert rhs).1
  let x1 := lhs * rhs
  let x2 := -x1
  let x2 := x2 - ec.a0
  let y1 := mont_solve_y0 ec x1
  let y2 := mont_solve_y0 ec x2
  let alpha ← fe_is_square fe y1
  let x1 := fe_select x1 x2 (!alpha)
  let y1 := fe_select y1 y2 (!alpha)
  let (y1, ok) ← fe_sqrt fe 0 0 y1
  C.check ok
  let y1 := fe_set_odd fe y1 (fe_is_odd fe u)
  let x1 := mont_mul_b ec x1
  let y1 := mont_mul_b ec y1
  return ⟨x1, y1, false⟩

/-- src/ecc.c:6262-6306 `mont_invert2`. -/
def mont_invert2 (ec : Mont (ZMod fe.p)) (p : Mge (ZMod fe.p)) (hint : Nat) : C (ZMod fe.p × Bool) := do
  let x0 := mont_div_b ec p.x
  let y0 := mont_div_b ec p.y
  let n := x0 + ec.a0
  let d := x0
  let (n, d) := if hint % 2 = 1 then (d, n) else (n, d)
  let n := -n
  let d := d * ec.z
  let (u, ret) ← fe_isqrt fe 0 n d
  let u := fe_set_odd fe u (fe_is_odd fe y0)
  let ret := ret && !p.inf
  return (u, ret)

/-- src/ecc.c:6308-6319 `mont_point_from_uniform`. -/
def mont_point_from_uniform (ec : Mont (ZMod fe.p)) (bytes : List Byte) : C (Mge (ZMod fe.p)) := do
  let u ← fe_import_le fe bytes
  mont_elligator2 ec u.1

/-- src/ecc.c:6321-6355 `mont_point_to_uniform`. -/
def mont_point_to_uniform (ec : Mont (ZMod fe.p)) (p : Mge (ZMod fe.p)) (hint : BitVec 32) : C (List Byte × Bool) := do
  let subgroup := ((hint >>> 4) &&& 15).toNat
  let t ← C.rd ec.torsion (subgroup % ec.h)
  let p0 := mge_add ec p t
  let (u, ret) ← mont_invert2 ec p0 hint.toNat
  let bytes := fe_export_le fe u
  let top ← C.rd bytes (feSize fe - 1)
  let bytes ← C.wr bytes (feSize fe - 1)
    (top ||| ((hint >>> 8) &&& (~~~(feMask fe).setWidth 32) &&& 0xff).setWidth 8)
  return (bytes, ret)

/-- src/ecc.c:6357-6372 `mont_point_from_hash`. -/
def mont_point_from_hash (ec : Mont (ZMod fe.p)) (bytes : List Byte) : C (Mge (ZMod fe.p)) := do
  let u1 := bytes
  let u2 := bytes.drop (feSize fe)
  let p1 ← mont_point_from_uniform ec u1
  let p2 ← mont_point_from_uniform ec u2
  return mge_add ec p1 p2

/-- src/ecc.c:6374-6413 `mont_point_to_hash`: the loop. `p2` is `none` while the variable is not initialized: the `continue` goes on with
the condition of the loop, which reads it. The first argument is the fuel. -/
def mont_point_to_hash_loop {S : Type} (ec : Mont (ZMod fe.p)) (gen : ByteGen S) (p : Mge (ZMod fe.p)) (flag : BitVec 32) :
    Nat → Option (Mge (ZMod fe.p)) → BitVec 32 → S → R (List Byte)
  | 0, _, _, _ => .spin
  | fuel + 1, p2, hint, s => do
    let (u1, s) := gen.gen s (feSize fe)
    let p1 ← R.lift (mont_point_from_uniform ec u1)
    let (p2, hint, s) := if fe_is_zero p1.y then (p2, hint, s)
      else
        let p2 := mge_sub ec p p1
        let (w, s) := gen.gen s 4
        let hint := BitVec.ofNat 32 (leVal w)
        (some p2, (hint &&& 0xff0f) ||| flag, s)
    match p2 with
    | none => .ub
    | some q =>
      let (u2, ret) ← R.lift (mont_point_to_uniform ec q hint)
      if ret then return u1 ++ u2
      mont_point_to_hash_loop ec gen p flag fuel p2 hint s

/-- src/ecc.c:6374-6413 `mont_point_to_hash`; on a little-endian machine. -/
def mont_point_to_hash {S : Type} (rng : Source S) (fuel : Nat) (ec : Mont (ZMod fe.p)) (p : Mge (ZMod fe.p)) (subgroup : BitVec 32)
    (entropy : List Byte) : R (List Byte) :=
  mont_point_to_hash_loop ec rng.toByteGen p ((subgroup &&& 15) <<< 4) fuel none 0 (rng.init entropy)

/-! ### ECDH -/

/-- src/ecc.c:12917-12930 `ecdh_privkey_generate`. -/
def ecdh_privkey_generate {S : Type} (rng : Source S) (ec : Mont (ZMod fe.p)) (entropy : List Byte) : C (List Byte) := do
  let out := (rng.gen (rng.init entropy) (scSize ec.n)).1
  mont_clamp ec out

/-- src/ecc.c:12960-12965 `ecdh_privkey_verify`. -/
def ecdh_privkey_verify (_ec : Mont (ZMod fe.p)) (_priv : List Byte) : Bool := true

/-- src/ecc.c:12967-12978 `ecdh_privkey_export`. -/
def ecdh_privkey_export (ec : Mont (ZMod fe.p)) (priv : List Byte) : C (List Byte × Bool) := do
  let out ← C.slice priv 0 (scSize ec.n)
  return (out, true)

/-- src/ecc.c:12980-12995 `ecdh_privkey_import`: `sc_import_pad_raw` and `sc_export` on bytes. -/
def ecdh_privkey_import (ec : Mont (ZMod fe.p)) (bytes : List Byte) : List Byte × Bool := byte_pad_le (scSize ec.n) bytes

/-- src/ecc.c:12997-13019 `ecdh_pubkey_create`. -/
def ecdh_pubkey_create (ec : Mont (ZMod fe.p)) (priv : List Byte) : C (List Byte) := do
  let clamped ← mont_clamp ec priv
  let a := leVal clamped
  let p := mont_mul_g ec a
  let r := pge_export p
  C.check r.2
  return r.1

/-- src/ecc.c:13070-13079 `ecdh_pubkey_from_uniform`. -/
def ecdh_pubkey_from_uniform (ec : Mont (ZMod fe.p)) (bytes : List Byte) : C (List Byte) := do
  let p ← mont_point_from_uniform ec bytes
  let r := mge_export p
  C.check r.2.2
  return r.1

/-- src/ecc.c:13081-13093 `ecdh_pubkey_to_uniform`. -/
def ecdh_pubkey_to_uniform (ec : Mont (ZMod fe.p)) (pub : List Byte) (hint : BitVec 32) : C (List Byte × Bool) := do
  let p ← mge_import ec pub none
  let r ← mont_point_to_uniform ec p.1 hint
  return (r.1, p.2 && r.2)

/-- src/ecc.c:13095-13111 `ecdh_pubkey_from_hash`. -/
def ecdh_pubkey_from_hash (ec : Mont (ZMod fe.p)) (bytes : List Byte) (pake : Bool) : C (List Byte × Bool) := do
  let A ← mont_point_from_hash ec bytes
  let p := pge_set_mge A
  let p ← if pake then pge_mulh ec p else C.ok p
  return pge_export p

/-- src/ecc.c:13113-13127 `ecdh_pubkey_to_hash`. -/
def ecdh_pubkey_to_hash {S : Type} (rng : Source S) (fuel : Nat) (ec : Mont (ZMod fe.p)) (pub : List Byte) (subgroup : BitVec 32)
    (entropy : List Byte) : R (List Byte × Bool) := do
  let p ← R.lift (mge_import ec pub none)
  let out ← mont_point_to_hash rng fuel ec p.1 subgroup entropy
  return (out, p.2)

/-- src/ecc.c:13129-13134 `ecdh_pubkey_verify`. -/
def ecdh_pubkey_verify (ec : Mont (ZMod fe.p)) (pub : List Byte) : C Bool := do
  let r ← pge_import ec pub
  return r.2

/-- src/ecc.c:13136-13152 `ecdh_pubkey_export`. -/
def ecdh_pubkey_export (ec : Mont (ZMod fe.p)) (pub : List Byte) (sign : Option Bool) : C (List Byte × List Byte × Bool) := do
  let A ← mge_import ec pub sign
  return (fe_export_le fe A.1.x, fe_export_le fe A.1.y, A.2)

/-- src/ecc.c:13154-13180 `ecdh_pubkey_import`. -/
def ecdh_pubkey_import (ec : Mont (ZMod fe.p)) (x_raw y_raw : List Byte) : C (List Byte × Bool) := do
  let has_x := decide (x_raw.length > 0)
  let has_y := decide (y_raw.length > 0)
  let x ← fe_import_pad_le fe x_raw
  let y ← fe_import_pad_le fe y_raw
  let A ← if has_x && has_y then C.ok (mge_set_xy ec x.1 y.1) else mge_set_x ec x.1 none
  let r := mge_export A.1
  return (r.1, has_x && x.2 && y.2 && A.2 && r.2.2)

/-- src/ecc.c:13182-13191 `ecdh_pubkey_is_small`. -/
def ecdh_pubkey_is_small (ec : Mont (ZMod fe.p)) (pub : List Byte) : C Bool := do
  let A ← pge_import ec pub
  let s ← pge_is_small ec A.1
  return A.2 && s

/-- src/ecc.c:13193-13202 `ecdh_pubkey_has_torsion`. -/
def ecdh_pubkey_has_torsion (ec : Mont (ZMod fe.p)) (pub : List Byte) : C Bool := do
  let A ← pge_import ec pub
  return A.2 && pge_has_torsion ec A.1

/-- src/ecc.c:13204-13233 `ecdh_derive`. -/
def ecdh_derive (ec : Mont (ZMod fe.p)) (pub priv : List Byte) : C (List Byte × Bool) := do
  let clamped ← mont_clamp ec priv
  let a := leVal clamped
  let A ← pge_import_unsafe pub
  let P := mont_mul ec A a true
  return pge_export P

end

end Torsion
