import Verif.Ecc.EdwardsDefs
import Verif.Ecc.Mont
import Verif.Ecc.Mul

/-!
# Model: twisted Edwards curves (src/ecc.c)

The curve is `a x^2 + y^2 = 1 + d x^2 y^2`. Field elements are the elements of a field `F` (see Point.lean), of the integers modulo
the prime where bytes are read or written; scalars are numbers (the limb code is modelled in Scalar.lean). The curves here are
little-endian. The constants for the Ristretto encoding are in a struct of their own (`Ristretto`).
-/
namespace Torsion

open Spec (beVal leVal leBytes)

/-- src/ecc.c:522-537, `xge_t`: the point `(x / z, y / z)`, with `t = x y / z`. -/
structure Xge (F : Type) where
  x : F
  y : F
  z : F
  t : F
  deriving DecidableEq

/-- src/ecc.c:539-578, `edwards_t`; `n` is `sc.n`, whose size is `sc.bits`; `bits` is `fe.bits`, and `scmul` the constant of
`fe.scmul_d`. The fields `mone_a` and `one_a` are functions below. -/
structure Edwards (F : Type) where
  hash : HashId
  context : Bool
  pfx : List Byte
  bits : Nat
  n : Nat
  h : Nat
  a : F
  d : F
  k : F
  z : F
  invert : Bool
  c : F
  A : F
  B : F
  Bi : F
  A0 : F
  B0 : F
  scmul : Option F
  g : Xge F
  blind : Nat
  unblind : Xge F
  wndFixed : List (Xge F)
  wndNaf : List (Xge F)
  torsion : List (Xge F)

section
variable {F : Type} [Field F] [DecidableEq F]

/-- src/ecc.c:7203, `edwards_init`: `mone_a`. -/
def Edwards.mone_a (ec : Edwards F) : Bool := fe_equal ec.a (-1)

/-- src/ecc.c:7204, `edwards_init`: `one_a`. -/
def Edwards.one_a (ec : Edwards F) : Bool := fe_equal ec.a 1

/-- src/ecc.c:7319-7329 `edwards_mul_a`. -/
def edwards_mul_a (ec : Edwards F) (x : F) : F :=
  if ec.mone_a then -x else if ec.one_a then x else x * ec.a

/-- src/ecc.c:7331-7339 `edwards_mul_d`. -/
def edwards_mul_d (ec : Edwards F) (x : F) : F :=
  match ec.scmul with
  | some k => x * k
  | none => x * ec.d

/-- src/ecc.c:7341-7360 `edwards_validate_xy`. -/
def edwards_validate_xy (ec : Edwards F) (x y : F) : Bool :=
  let x2 := x * x
  let y2 := y * y
  let lhs := edwards_mul_a ec x2
  let lhs := lhs + y2
  let rhs := edwards_mul_d ec x2
  let rhs := rhs * y2
  let rhs := rhs + 1
  fe_equal lhs rhs

/-! ### Points -/

/-- src/ecc.c:6440-6448 `xge_zero`. -/
def xge_zero : Xge F := ⟨0, 1, 1, 0⟩

/-- src/ecc.c:6460-6495 `xge_validate`. -/
def xge_validate (ec : Edwards F) (p : Xge F) : Bool :=
  let x2 := p.x * p.x
  let y2 := p.y * p.y
  let z2 := p.z * p.z
  let z4 := z2 * z2
  let lhs := edwards_mul_a ec x2
  let lhs := lhs + y2
  let lhs := lhs * z2
  let rhs := edwards_mul_d ec x2
  let rhs := rhs * y2
  let rhs := rhs + z4
  let ret := fe_equal lhs rhs
  let lhs := p.t * p.z
  let rhs := p.x * p.y
  let ret := ret && fe_equal lhs rhs
  ret && !fe_is_zero p.z

/-- src/ecc.c:6497-6508 `xge_set_xy`. -/
def xge_set_xy (ec : Edwards F) (x y : F) : Xge F × Bool :=
  let ret := edwards_validate_xy ec x y
  let x := fe_select x 0 (!ret)
  let y := fe_select y 1 (!ret)
  (⟨x, y, 1, x * y⟩, ret)

/-- src/ecc.c:6629-6641 `xge_select`. -/
def xge_select (p1 p2 : Xge F) (flag : Bool) : Xge F :=
  ⟨fe_select p1.x p2.x flag, fe_select p1.y p2.y flag, fe_select p1.z p2.z flag, fe_select p1.t p2.t flag⟩

/-- src/ecc.c:6653-6666 `xge_is_zero`. -/
def xge_is_zero (p : Xge F) : Bool := fe_is_zero p.x && fe_equal p.y p.z

/-- src/ecc.c:6668-6692 `xge_equal`. -/
def xge_equal (p1 p2 : Xge F) : Bool :=
  let ret := fe_equal (p1.x * p2.z) (p2.x * p1.z)
  ret && fe_equal (p1.y * p2.z) (p2.y * p1.z)

/-- src/ecc.c:6694-6702 `xge_neg`. -/
def xge_neg (p : Xge F) : Xge F := ⟨-p.x, p.y, p.z, -p.t⟩

/-- src/ecc.c:6704-6712 `xge_neg_cond`. -/
def xge_neg_cond (p : Xge F) (flag : Bool) : Xge F := ⟨fe_neg_cond p.x flag, p.y, p.z, fe_neg_cond p.t flag⟩

/-- src/ecc.c:6714-6761 `xge_dbl`. -/
def xge_dbl (ec : Edwards F) (p1 : Xge F) : Xge F :=
  let a := p1.x * p1.x
  let b := p1.y * p1.y
  let c := p1.z * p1.z
  let c := c + c
  let d := edwards_mul_a ec a
  let e := p1.x + p1.y
  let e := e * e
  let e := e - a
  let e := e - b
  let g := d + b
  let f := g - c
  let h := d - b
  ⟨e * f, g * h, f * g, e * h⟩

/-- src/ecc.c:6763-6819 `xge_add_a`. -/
def xge_add_a (ec : Edwards F) (p1 p2 : Xge F) (affine : Bool) : Xge F :=
  let a := p1.x * p2.x
  let b := p1.y * p2.y
  let c := p1.t * p2.t
  let c := edwards_mul_d ec c
  let d := if affine then p1.z else p1.z * p2.z
  let f := p1.x + p1.y
  let g := p2.x + p2.y
  let e := f * g
  let e := e - a
  let e := e - b
  let f := d - c
  let g := d + c
  let h := edwards_mul_a ec a
  let h := b - h
  ⟨e * f, g * h, f * g, e * h⟩

/-- src/ecc.c:6821-6877 `xge_sub_a`. -/
def xge_sub_a (ec : Edwards F) (p1 p2 : Xge F) (affine : Bool) : Xge F :=
  let a := p1.x * p2.x
  let b := p1.y * p2.y
  let c := p1.t * p2.t
  let c := edwards_mul_d ec c
  let d := if affine then p1.z else p1.z * p2.z
  let f := p1.y + p1.x
  let g := p2.y - p2.x
  let e := f * g
  let e := e + a
  let e := e - b
  let f := d + c
  let g := d - c
  let h := edwards_mul_a ec a
  let h := b + h
  ⟨e * f, g * h, f * g, e * h⟩

/-- src/ecc.c:6879-6938 `xge_add_m1`. -/
def xge_add_m1 (ec : Edwards F) (p1 p2 : Xge F) (affine : Bool) : Xge F :=
  let c := p1.y - p1.x
  let d := p2.y - p2.x
  let a := c * d
  let c := p1.y + p1.x
  let d := p2.y + p2.x
  let b := c * d
  let c := p1.t * p2.t
  let c := c * ec.k
  let d := if affine then p1.z + p1.z else (p1.z + p1.z) * p2.z
  let e := b - a
  let f := d - c
  let g := d + c
  let h := b + a
  ⟨e * f, g * h, f * g, e * h⟩

/-- src/ecc.c:6940-6999 `xge_sub_m1`. -/
def xge_sub_m1 (ec : Edwards F) (p1 p2 : Xge F) (affine : Bool) : Xge F :=
  let c := p1.y - p1.x
  let d := p2.y + p2.x
  let a := c * d
  let c := p1.y + p1.x
  let d := p2.y - p2.x
  let b := c * d
  let c := p1.t * p2.t
  let c := c * ec.k
  let d := if affine then p1.z + p1.z else (p1.z + p1.z) * p2.z
  let e := b - a
  let f := d + c
  let g := d - c
  let h := b + a
  ⟨e * f, g * h, f * g, e * h⟩

/-- src/ecc.c:7001-7007 `xge_add`. -/
def xge_add (ec : Edwards F) (p1 p2 : Xge F) : Xge F :=
  if ec.mone_a then xge_add_m1 ec p1 p2 false else xge_add_a ec p1 p2 false

/-- src/ecc.c:7009-7015 `xge_sub`. -/
def xge_sub (ec : Edwards F) (p1 p2 : Xge F) : Xge F :=
  if ec.mone_a then xge_sub_m1 ec p1 p2 false else xge_sub_a ec p1 p2 false

/-- src/ecc.c:7017-7024 `xge_mixed_add`. -/
def xge_mixed_add (ec : Edwards F) (p1 p2 : Xge F) : Xge F :=
  if ec.mone_a then xge_add_m1 ec p1 p2 true else xge_add_a ec p1 p2 true

/-- src/ecc.c:7026-7033 `xge_mixed_sub`. -/
def xge_mixed_sub (ec : Edwards F) (p1 p2 : Xge F) : Xge F :=
  if ec.mone_a then xge_sub_m1 ec p1 p2 true else xge_sub_a ec p1 p2 true

/-- src/ecc.c:7027-7034, the loop of `xge_mulh`; the first argument is the fuel, 32 for `unsigned int`. -/
def xge_mulh_loop (ec : Edwards F) : Nat → Nat → Xge F → Xge F
  | 0, _, r => r
  | fuel + 1, h, r => if h = 0 then r else xge_mulh_loop ec fuel (h / 2) (xge_dbl ec r)

/-- src/ecc.c:7035-7049 `xge_mulh`. -/
def xge_mulh (ec : Edwards F) (p : Xge F) : C (Xge F) := do
  C.check (ec.h != 0 && ec.h &&& (ec.h - 1) == 0)
  return xge_mulh_loop ec 32 (ec.h / 2) p

/-- src/ecc.c:7051-7062 `xge_is_small`. -/
def xge_is_small (ec : Edwards F) (p : Xge F) : C Bool := do
  let r ← xge_mulh ec p
  return xge_is_zero r && !xge_is_zero p

/-- src/ecc.c:7078-7081, `xge_normalize_all_var`, first loop: the products of the `z` before each entry, and of all. -/
def xnorm_prefix (acc : F) : List (Xge F) → List F × F
  | [] => ([], acc)
  | p :: ps =>
    let r := xnorm_prefix (acc * p.z) ps
    (acc :: r.1, r.2)

/-- src/ecc.c:7085-7088, `xge_normalize_all_var`, second loop: from the last entry to the first, the inverse of each `z`. -/
def xnorm_invert (acc : F) : List (Xge F × F) → List F × F
  | [] => ([], acc)
  | (p, o) :: ps =>
    let r := xnorm_invert acc ps
    (o * r.2 :: r.1, r.2 * p.z)

/-- src/ecc.c:7074-7105 `xge_normalize_all_var`; the allocation is not modelled. -/
def xge_normalize_all_var (ps : List (Xge F)) : C (List (Xge F)) := do
  let r := xnorm_prefix 1 ps
  let acc ← fe_invert_var r.2
  let invs := (xnorm_invert acc (ps.zip r.1)).1
  return List.zipWith (fun p o => ⟨p.x * o, p.y * o, 1, p.t * o⟩) ps invs

/-- src/ecc.c:7114-7117, `xge_fixed_points`, and 7139-7140, `xge_naf_points`, the inner loop: `n` entries from `p` on, each
the sum of the one before and `g`. -/
def xge_steps (ec : Edwards F) (g : Xge F) : Nat → Xge F → List (Xge F)
  | 0, _ => []
  | n + 1, p => p :: xge_steps ec g n (xge_add ec p g)

/-- src/ecc.c:7111-7121, `xge_fixed_points`, the windows; `g` is multiplied by 16 after each. -/
def xge_windows (ec : Edwards F) : Nat → Xge F → List (Xge F)
  | 0, _ => []
  | n + 1, g => xge_steps ec g 16 xge_zero ++ xge_windows ec n ((xge_dbl ec)^[4] g)

/-- src/ecc.c:7107-7130 `xge_fixed_points`. -/
def xge_fixed_points (ec : Edwards F) (p : Xge F) : C (List (Xge F)) :=
  xge_normalize_all_var (xge_windows ec ((ec.n.size + 3) / 4) p)

/-- src/ecc.c:7132-7143 `xge_naf_points`. -/
def xge_naf_points (ec : Edwards F) (p : Xge F) (width : Nat) : List (Xge F) :=
  xge_steps ec (xge_dbl ec p) (2 ^ (width - 2)) p

/-- src/ecc.c:7145-7152 `xge_fixed_naf_points`. -/
def xge_fixed_naf_points (ec : Edwards F) (p : Xge F) (width : Nat) : C (List (Xge F)) :=
  xge_normalize_all_var (xge_naf_points ec p width)

/-- src/ecc.c:7154-7162 `xge_jsf_points`. -/
def xge_jsf_points (ec : Edwards F) (p1 p2 : Xge F) : List (Xge F) :=
  [p1, xge_add ec p1 p2, xge_sub ec p1 p2, p2]

/-! ### Scalar multiplication -/

/-- src/ecc.c:7390-7391, `edwards_mul_g`, and 7432-7433, `edwards_mul`, the inner loop: entry `b` of the 16 entries from
`off` on. -/
def xge_select16 (wnds : List (Xge F)) (off b : Nat) (t : Xge F) : C (Xge F) :=
  (List.range 16).foldlM (fun t j => do
    let w ← C.rd wnds (off + j)
    return xge_select t w (j == b)) t

/-- src/ecc.c:7387-7394, `edwards_mul_g`, the loop over the windows from `i` on. -/
def xge_fixed_loop (ec : Edwards F) (k0 : Nat) : Nat → Nat → Xge F → Xge F → C (Xge F)
  | 0, _, r, _ => .ok r
  | steps + 1, i, r, t => do
    let b := sc_get_bits k0 (i * 4) 4
    let t ← xge_select16 ec.wndFixed (i * 16) b t
    xge_fixed_loop ec k0 steps (i + 1) (xge_mixed_add ec r t) t

/-- src/ecc.c:7362-7400 `edwards_mul_g`. -/
def edwards_mul_g (ec : Edwards F) (k : Nat) : C (Xge F) :=
  let k0 := (k + ec.blind) % ec.n
  xge_fixed_loop ec k0 ((ec.n.size + 3) / 4) 0 ec.unblind xge_zero

/-- src/ecc.c:7584-7603 `edwards_randomize`, with the scalar `blind` which is drawn from the generator. -/
def edwards_randomize (ec : Edwards F) (blind : Nat) : C (Edwards F) := do
  let unblind ← edwards_mul_g ec blind
  return { ec with blind := if blind = 0 then 0 else ec.n - blind, unblind := unblind }

/-- src/ecc.c:7420-7423, `edwards_mul`, the table of the multiples `0` to `15`: from the entries so far, two more,
`fuel` times. -/
def xge_wnd_table (ec : Edwards F) (p : Xge F) : Nat → List (Xge F) → C (List (Xge F))
  | 0, wnd => .ok wnd
  | fuel + 1, wnd => do
    let h ← C.rd wnd (wnd.length / 2)
    let d := xge_dbl ec h
    xge_wnd_table ec p fuel (wnd ++ [d, xge_add ec d p])

/-- src/ecc.c:7429-7443, `edwards_mul`, the loop. -/
def xge_wnd_loop (ec : Edwards F) (k : Nat) (wnd : List (Xge F)) (steps : Nat) : Nat → Xge F → Xge F → C (Xge F)
  | 0, r, _ => .ok r
  | i + 1, r, t => do
    let b := sc_get_bits k (i * 4) 4
    let t ← xge_select16 wnd 0 b t
    let r := if i = steps - 1 then t else xge_add ec ((xge_dbl ec)^[4] r) t
    xge_wnd_loop ec k wnd steps i r t

/-- src/ecc.c:7402-7446 `edwards_mul`. -/
def edwards_mul (ec : Edwards F) (p : Xge F) (k : Nat) : C (Xge F) := do
  let steps := (ec.bits + 3) / 4
  let wnd ← xge_wnd_table ec p 7 [xge_zero, p]
  xge_wnd_loop ec k wnd steps steps xge_zero xge_zero

/-- src/ecc.c:7064-7072 `xge_has_torsion`. -/
def xge_has_torsion (ec : Edwards F) (p : Xge F) : C Bool := do
  let r ← edwards_mul ec p ec.n
  return !xge_is_zero r

/-- src/ecc.c:7485-7488, `edwards_mul_double_var`, the addition of the multiple which the digit `z` stands for from a
table of points with `z = 1`. -/
def xge_digit_mixed (ec : Edwards F) (wnd : List (Xge F)) (z : Int) (r : Xge F) : C (Xge F) :=
  if z > 0 then do
    let w ← C.rd wnd ((z - 1) / 2).toNat
    return xge_mixed_add ec r w
  else if z < 0 then do
    let w ← C.rd wnd ((-z - 1) / 2).toNat
    return xge_mixed_sub ec r w
  else .ok r

/-- src/ecc.c:7490-7493, `edwards_mul_double_var`, the same from a table of any points. -/
def xge_digit (ec : Edwards F) (wnd : List (Xge F)) (z : Int) (r : Xge F) : C (Xge F) :=
  if z > 0 then do
    let w ← C.rd wnd ((z - 1) / 2).toNat
    return xge_add ec r w
  else if z < 0 then do
    let w ← C.rd wnd ((-z - 1) / 2).toNat
    return xge_sub ec r w
  else .ok r

/-- src/ecc.c:7478-7494, `edwards_mul_double_var`, the loop; `m` is `max`. -/
def xge_double_loop (ec : Edwards F) (naf1 naf2 : List Int) (wnd2 : List (Xge F)) (m : Nat) : Nat → Xge F → C (Xge F)
  | 0, r => .ok r
  | i + 1, r => do
    let z1 ← C.rd naf1 i
    let z2 ← C.rd naf2 i
    let r := if i ≠ m - 1 then xge_dbl ec r else r
    let r ← xge_digit_mixed ec ec.wndNaf z1 r
    let r ← xge_digit ec wnd2 z2 r
    xge_double_loop ec naf1 naf2 wnd2 m i r

/-- src/ecc.c:7448-7495 `edwards_mul_double_var`. -/
def edwards_mul_double_var (ec : Edwards F) (k1 : Nat) (p2 : Xge F) (k2 : Nat) : C (Xge F) := do
  let r1 ← sc_naf_var ec.n.size k1 12
  let r2 ← sc_naf_var ec.n.size k2 5
  let m := max r1.2 r2.2
  let wnd2 := xge_naf_points ec p2 5
  xge_double_loop ec r1.1 r2.1 wnd2 m m xge_zero

/-- src/ecc.c:7526-7535, `edwards_mul_multi_var`, the forms and tables of the pairs, and the largest length. -/
def xge_multi_pairs (ec : Edwards F) : List (Xge F × Nat) → Nat → C (List (List Int × List (Xge F)) × Nat)
  | (p, a) :: (q, b) :: rest, m => do
    let r ← sc_jsf_var ec.n.size a b
    let s ← xge_multi_pairs ec rest (max m r.2)
    return ((r.1, xge_jsf_points ec p q) :: s.1, s.2)
  | _, m => .ok ([], m)

/-- src/ecc.c:7537-7549, `edwards_mul_multi_var`, the last term when the number of terms is odd. -/
def xge_multi_last (ec : Edwards F) : List (Xge F × Nat) → Nat → C (List Int × List (Xge F) × Nat)
  | [(p, a)], m => do
    let r ← sc_naf_var ec.n.size a 5
    return (r.1, xge_naf_points ec p 5, max m r.2)
  | _ :: _ :: rest, m => xge_multi_last ec rest m
  | [], m => .ok (List.replicate m 0, [], m)

/-- src/ecc.c:7568-7575, `edwards_mul_multi_var`, the inner loop at digit `i`. -/
def xge_multi_digits (ec : Edwards F) (i : Nat) : List (List Int × List (Xge F)) → Xge F → C (Xge F)
  | [], r => .ok r
  | t :: ts, r => do
    let z ← C.rd t.1 i
    let r ← xge_digit ec t.2 z r
    xge_multi_digits ec i ts r

/-- src/ecc.c:7556-7581, `edwards_mul_multi_var`, the loop. -/
def xge_multi_loop (ec : Edwards F) (naf0 naf1 : List Int) (ts : List (List Int × List (Xge F))) (wnd1 : List (Xge F))
    (m : Nat) : Nat → Xge F → C (Xge F)
  | 0, r => .ok r
  | i + 1, r => do
    let z0 ← C.rd naf0 i
    let z1 ← C.rd naf1 i
    let r := if i ≠ m - 1 then xge_dbl ec r else r
    let r ← xge_digit_mixed ec ec.wndNaf z0 r
    let r ← xge_multi_digits ec i ts r
    let r ← xge_digit ec wnd1 z1 r
    xge_multi_loop ec naf0 naf1 ts wnd1 m i r

/-- src/ecc.c:7497-7582 `edwards_mul_multi_var`; `size` is `scratch->size`. -/
def edwards_mul_multi_var (ec : Edwards F) (k0 : Nat) (terms : List (Xge F × Nat)) (size : Nat) : C (Xge F) := do
  C.check (decide (terms.length ≤ size))
  let r0 ← sc_naf_var ec.n.size k0 12
  let s ← xge_multi_pairs ec terms r0.2
  let l ← xge_multi_last ec terms s.2
  xge_multi_loop ec r0.1 l.1 s.1 l.2.1 l.2.2 l.2.2 xge_zero

/-! ### Conversion from and to Montgomery curves -/

/-- src/ecc.c:8851-8901, `mont_to_edwards`, the branch for the isogeny: numerators and denominators of both coordinates. -/
def mont_to_edwards_isogeny (p : Mge F) : F × F × F × F :=
  let u2 := p.x * p.x
  let u3 := u2 * p.x
  let u4 := u3 * p.x
  let u5 := u4 * p.x
  let v2 := p.y * p.y
  let a := 4 * p.y
  let b := u2 - 1
  let d := u2 + u2
  let e := 4 * v2
  let f := u3 + u3
  let g := p.x * v2
  let g := 4 * g
  let h := u2 * v2
  let h := h + h
  let i := v2 + v2
  let xx := a * b
  let xz := u4 - d
  let xz := xz + e
  let xz := xz + 1
  let yy := u5 - f
  let yy := yy - g
  let yy := yy + p.x
  let yy := -yy
  let yz := u5 - h
  let yz := yz - f
  let yz := yz - i
  let yz := yz + p.x
  (xx, xz, yy, yz)

/-- src/ecc.c:8834-8959 `mont_to_edwards`; `bits` is `fe->bits`. -/
def mont_to_edwards (bits : Nat) (p : Mge F) (c : F) (invert isogeny : Bool) : Xge F :=
  let inf := p.inf
  let tor := fe_is_zero p.x && !inf
  let iso := isogeny && bits == 448
  let q := if iso then mont_to_edwards_isogeny p
    else if invert then (c * p.x, fe_select p.y 1 tor, p.x + 1, p.x - 1)
    else (c * p.x, fe_select p.y 1 tor, p.x - 1, p.x + 1)
  let inf := if iso then inf || tor else inf
  let x := q.1 * q.2.2.2
  let y := q.2.2.1 * q.2.1
  let z := q.2.1 * q.2.2.2
  let t := q.1 * q.2.2.1
  ⟨fe_select x 0 inf, fe_select y 1 inf, fe_select z 1 inf, fe_select t 0 inf⟩

/-- src/ecc.c:8961-9052 `edwards_to_mont`; `bits` is `fe->bits`. -/
def edwards_to_mont (bits : Nat) (p : Xge F) (c : F) (invert isogeny : Bool) : Mge F :=
  let zero := fe_is_zero p.x
  let inf := zero && fe_equal p.y p.z
  let tor := zero && !inf
  let q : F × F × F × F := if isogeny && bits == 448 then
      let two := p.z * p.z
      let two := two + two
      let uu := p.y * p.y
      let uz := p.x * p.x
      let vv := two - uz
      let vv := vv - uu
      let vv := vv * p.y
      (uu, uz, vv, uz * p.x)
    else if invert then
      let uu := p.y + p.z
      let uz := p.y - p.z
      (uu, uz, c * p.z * uu, p.x * uz)
    else
      let uu := p.z + p.y
      let uz := p.z - p.y
      (uu, uz, c * p.z * uu, p.x * uz)
  let x := q.1 * q.2.2.2
  let y := q.2.2.1 * q.2.1
  let uz := q.2.1 * q.2.2.2
  let uz := (fe_invert uz).1
  let x := x * uz
  let y := y * uz
  ⟨fe_select x 0 tor, fe_select y 0 tor, inf⟩

/-- src/ecc.c:7164-7167 `xge_export_mge`. -/
def xge_export_mge (ec : Edwards F) (p : Xge F) : Mge F := edwards_to_mont ec.bits p ec.c ec.invert true

/-- src/ecc.c:7605-7618 `edwards_solve_y0`. -/
def edwards_solve_y0 (ec : Edwards F) (x : F) : F :=
  let x2 := x * x
  let x3 := x2 * x
  let x2 := x2 * ec.A0
  let bx := x * ec.B0
  let y2 := x3 + x2
  y2 + bx

/-! ### Initialization -/

/-- src/ecc.c:7230-7284 `edwards_init_isomorphism`, without the import of `c`: `A`, `B`, `1 / B`, `A'` and `B'`. -/
def edwards_init_isomorphism (a d c : F) (invert : Bool) : C (F × F × F × F × F) := do
  let u := if !invert then a + d else d + a
  let v := if !invert then a - d else d - a
  let u := u + u
  let v ← fe_invert_var v
  let A := u * v
  let u := if !invert then A + 2 else A - 2
  let v := c * c
  let v := v * a
  let v ← fe_invert_var v
  let B := u * v
  let Bi ← fe_invert_var B
  return (A, B, Bi, A * Bi, Bi * Bi)

end

section
variable (d : EdwardsDef) [Fact d.fe.p.Prime]

/-- src/ecc.c:7187-7217, `edwards_init`: the fields except the tables of multiples; `c` and `iso` are what
`edwards_init_isomorphism` sets. `fe_import_be` reads a big-endian number, `fe_set_int` sets an element from an `int`. -/
def edwards_fields (c : ZMod d.fe.p) (iso : ZMod d.fe.p × ZMod d.fe.p × ZMod d.fe.p × ZMod d.fe.p × ZMod d.fe.p) :
    Edwards (ZMod d.fe.p) :=
  let num (x : List Byte) : ZMod d.fe.p := (beVal x : ZMod d.fe.p)
  let point (x y : List Byte) : Xge (ZMod d.fe.p) := ⟨num x, num y, 1, num x * num y⟩
  { hash := d.hash, context := d.context, pfx := d.pfx, bits := feBits d.fe, n := beVal d.sc.n, h := d.h, a := num d.a, d := num d.d,
    k := num d.d + num d.d, z := (d.z : ZMod d.fe.p), invert := d.invert, c := c, A := iso.1, B := iso.2.1, Bi := iso.2.2.1,
    A0 := iso.2.2.2.1, B0 := iso.2.2.2.2, scmul := d.scmul.map (Int.cast : Int → ZMod d.fe.p), g := point d.x d.y, blind := 0,
    unblind := xge_zero, wndFixed := [], wndNaf := [], torsion := d.torsion.map fun t => point t.x t.y }

/-- src/ecc.c:7179-7228 `edwards_init`. `ristretto_init`, called at the end, is modelled on its own. -/
def edwards_init : C (Edwards (ZMod d.fe.p)) := do
  C.check (decide ((feBits d.fe + 63) / 64 ≤ ((beVal d.sc.n).size + 63) / 64))
  let c : ZMod d.fe.p := (beVal d.c : ZMod d.fe.p)
  let c := if fe_is_zero c then 1 else c
  let iso ← edwards_init_isomorphism (beVal d.a : ZMod d.fe.p) (beVal d.d : ZMod d.fe.p) c d.invert
  let ec := edwards_fields d c iso
  let wndFixed ← xge_fixed_points ec ec.g
  let wndNaf ← xge_fixed_naf_points ec ec.g 12
  return { ec with wndFixed := wndFixed, wndNaf := wndNaf }

end

/-! ### Bytes -/

section
variable {fe : FieldCode} [Fact fe.p.Prime]

/-- src/ecc.c:6510-6539 `xge_set_x`; `sign` is `none` for -1. -/
def xge_set_x (ec : Edwards (ZMod fe.p)) (x : ZMod fe.p) (sign : Option Bool) : C (Xge (ZMod fe.p) × Bool) := do
  let x2 := x * x
  let lhs := edwards_mul_a ec x2
  let lhs := lhs - 1
  let rhs := edwards_mul_d ec x2
  let rhs := rhs - 1
  let (y, ret) ← fe_isqrt fe 0 lhs rhs
  let (y, ret) := match sign with
    | none => (y, ret)
    | some sign =>
      let y := fe_set_odd fe y sign
      (y, ret && !(fe_is_zero y && sign))
  let x := fe_select x 0 (!ret)
  let y := fe_select y 1 (!ret)
  return (⟨x, y, 1, x * y⟩, ret)

/-- src/ecc.c:6541-6570 `xge_set_y`; `sign` is `none` for -1. -/
def xge_set_y (ec : Edwards (ZMod fe.p)) (y : ZMod fe.p) (sign : Option Bool) : C (Xge (ZMod fe.p) × Bool) := do
  let y2 := y * y
  let lhs := y2 - 1
  let rhs := edwards_mul_d ec y2
  let rhs := rhs - ec.a
  let (x, ret) ← fe_isqrt fe 0 lhs rhs
  let (x, ret) := match sign with
    | none => (x, ret)
    | some sign =>
      let x := fe_set_odd fe x sign
      (x, ret && !(fe_is_zero x && sign))
  let x := fe_select x 0 (!ret)
  let y := fe_select y 1 (!ret)
  return (⟨x, y, 1, x * y⟩, ret)

/-- src/ecc.c:6579-6594, `xge_import`, the reading of the bytes: the ordinate, the sign, and whether both are valid. -/
def xge_import_y (fe : FieldCode) (raw : List Byte) : C (ZMod fe.p × Bool × Bool) :=
  if feBits fe % 8 = 0 then do
    let top ← C.rd raw (feSize fe)
    let y ← fe_import_le fe raw
    return (y.1, (top >>> 7) != 0, (top &&& 0x7f) == 0 && y.2)
  else do
    let tmp ← C.slice raw 0 (feSize fe)
    let top ← C.rd tmp (feSize fe - 1)
    let tmp ← C.wr tmp (feSize fe - 1) (top &&& 0x7f)
    let y ← fe_import_le fe tmp
    let top ← C.rd raw (feSize fe - 1)
    return (y.1, (top >>> 7) != 0, y.2)

/-- src/ecc.c:6572-6599 `xge_import`. -/
def xge_import (ec : Edwards (ZMod fe.p)) (raw : List Byte) : C (Xge (ZMod fe.p) × Bool) := do
  let (y, sign, ok) ← xge_import_y fe raw
  let r ← xge_set_y ec y (some sign)
  return (r.1, ok && r.2)

/-- src/ecc.c:6601-6627 `xge_export`. -/
def xge_export (p : Xge (ZMod fe.p)) : C (List Byte) := do
  let a := fe_invert p.z
  C.check a.2
  let x := p.x * a.1
  let y := p.y * a.1
  let raw := fe_export_le fe y
  let sign : Byte := (if fe_is_odd fe x then (1 : Byte) else 0) <<< 7
  if feBits fe % 8 = 0 then return raw ++ [sign]
  else
    let top ← C.rd raw (feSize fe - 1)
    C.wr raw (feSize fe - 1) (top ||| sign)

/-- src/ecc.c:7286-7317 `edwards_clamp`: `-ec->h` is an `unsigned int`, the shifts are those of `int`. -/
def edwards_clamp (ec : Edwards (ZMod fe.p)) (scalar : List Byte) : C (List Byte) := do
  let size := scSize ec.n
  let top := ec.bits % 8
  C.check (decide (size ≤ feSize fe))
  let top := if top = 0 then 8 else top
  let out ← C.slice scalar 0 size
  let top := if size < feSize fe then 8 else top
  let lo ← C.rd out 0
  let out ← C.wr out 0 ((lo.setWidth 32 &&& -(BitVec.ofNat 32 ec.h)).setWidth 8)
  let hi ← C.rd out (size - 1)
  let out ← C.wr out (size - 1) ((hi.setWidth 32 &&& ((1 : BitVec 32) <<< top - 1)).setWidth 8)
  let hi ← C.rd out (size - 1)
  C.wr out (size - 1) ((hi.setWidth 32 ||| ((1 : BitVec 32) <<< (top - 1))).setWidth 8)

/-! ### Elligator 2 -/

/-- src/ecc.c:7620-7712 `edwards_elligator2`. -/
def edwards_elligator2 (ec : Edwards (ZMod fe.p)) (u : ZMod fe.p) : C (Xge (ZMod fe.p)) := do
  let lhs := -ec.A0
  let rhs := u * u
  let rhs := rhs * ec.z
  let rhs := rhs + 1
  let rhs := fe_select rhs 1 (fe_is_zero rhs)
  let rhs := (fe_invert rhs).1
  let x1 := lhs * rhs
  let x2 := -x1
  let x2 := x2 - ec.A0
  let y1 := edwards_solve_y0 ec x1
  let y2 := edwards_solve_y0 ec x2
  let alpha ← fe_is_square fe y1
  let x1 := fe_select x1 x2 (!alpha)
  let y1 := fe_select y1 y2 (!alpha)
  let (y1, ok) ← fe_sqrt fe 0 0 y1
  C.check ok
  let y1 := fe_set_odd fe y1 (fe_is_odd fe u)
  let x1 := x1 * ec.B
  let y1 := y1 * ec.B
  return mont_to_edwards ec.bits ⟨x1, y1, false⟩ ec.c ec.invert false

/-- src/ecc.c:7714-7762 `edwards_invert2`. -/
def edwards_invert2 (ec : Edwards (ZMod fe.p)) (p : Xge (ZMod fe.p)) (hint : Nat) : C (ZMod fe.p × Bool) := do
  let m := edwards_to_mont ec.bits p ec.c ec.invert false
  let x0 := m.x * ec.Bi
  let y0 := m.y * ec.Bi
  let n := x0 + ec.A0
  let d := x0
  let (n, d) := if hint % 2 = 1 then (d, n) else (n, d)
  let n := -n
  let d := d * ec.z
  let (u, ret) ← fe_isqrt fe 0 n d
  let u := fe_set_odd fe u (fe_is_odd fe y0)
  let ret := ret && !m.inf
  return (u, ret)

/-- src/ecc.c:7764-7775 `edwards_point_from_uniform`. -/
def edwards_point_from_uniform (ec : Edwards (ZMod fe.p)) (bytes : List Byte) : C (Xge (ZMod fe.p)) := do
  let u ← fe_import_le fe bytes
  edwards_elligator2 ec u.1

/-- src/ecc.c:7777-7811 `edwards_point_to_uniform`. -/
def edwards_point_to_uniform (ec : Edwards (ZMod fe.p)) (p : Xge (ZMod fe.p)) (hint : BitVec 32) : C (List Byte × Bool) := do
  let subgroup := ((hint >>> 4) &&& 15).toNat
  let t ← C.rd ec.torsion (subgroup % ec.h)
  let p0 := xge_mixed_add ec p t
  let (u, ret) ← edwards_invert2 ec p0 hint.toNat
  let bytes := fe_export_le fe u
  let top ← C.rd bytes (feSize fe - 1)
  let bytes ← C.wr bytes (feSize fe - 1)
    (top ||| ((hint >>> 8) &&& (~~~(feMask fe).setWidth 32) &&& 0xff).setWidth 8)
  return (bytes, ret)

/-- src/ecc.c:7813-7829 `edwards_point_from_hash`. -/
def edwards_point_from_hash (ec : Edwards (ZMod fe.p)) (bytes : List Byte) : C (Xge (ZMod fe.p)) := do
  let u1 := bytes
  let u2 := bytes.drop (feSize fe)
  let p1 ← edwards_point_from_uniform ec u1
  let p2 ← edwards_point_from_uniform ec u2
  return xge_add ec p1 p2

/-- src/ecc.c:7849-7863, `edwards_point_to_hash`: the loop. `p2` is `none` while the variable is not initialized: the `continue` goes
on with the condition of the loop, which reads it. The first argument is the fuel. -/
def edwards_point_to_hash_loop {S : Type} (ec : Edwards (ZMod fe.p)) (gen : ByteGen S) (p : Xge (ZMod fe.p)) (flag : BitVec 32) :
    Nat → Option (Xge (ZMod fe.p)) → BitVec 32 → S → R (List Byte)
  | 0, _, _, _ => .spin
  | fuel + 1, p2, hint, s => do
    let (u1, s) := gen.gen s (feSize fe)
    let p1 ← R.lift (edwards_point_from_uniform ec u1)
    let (p2, hint, s) := if fe_is_zero p1.x then (p2, hint, s)
      else
        let p2 := xge_sub ec p p1
        let (w, s) := gen.gen s 4
        let hint := BitVec.ofNat 32 (leVal w)
        (some p2, (hint &&& 0xff0f) ||| flag, s)
    match p2 with
    | none => .ub
    | some q =>
      let (u2, ret) ← R.lift (edwards_point_to_uniform ec q hint)
      if ret then return u1 ++ u2
      edwards_point_to_hash_loop ec gen p flag fuel p2 hint s

/-- src/ecc.c:7831-7870 `edwards_point_to_hash`; on a little-endian machine. -/
def edwards_point_to_hash {S : Type} (rng : Source S) (fuel : Nat) (ec : Edwards (ZMod fe.p)) (p : Xge (ZMod fe.p))
    (subgroup : BitVec 32) (entropy : List Byte) : R (List Byte) :=
  edwards_point_to_hash_loop ec rng.toByteGen p ((subgroup &&& 15) <<< 4) fuel none 0 (rng.init entropy)

end

end Torsion
