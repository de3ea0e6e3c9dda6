import Verif.Basic
import Mathlib.Algebra.Field.Basic

/-!
# Model: points of short Weierstrass curves (`src/ecc.c`)

Field elements are the elements of an arbitrary field `F` with decidable equality: the word representations
and the generated multiplication code of `src/fields/` are not modelled, and every `fe_*` operation is the
operation of the field it names. `fe_invert` returns `0` for `0`, as the power `x^(p-2)` does.
The flags `inf` and `aff`, which the C code keeps as the integers 0 and 1, are Booleans.
The functions are written with one `let` for each assignment of the C code, in its order. Where the C code
writes to a coordinate of the result and later reads a coordinate of an operand, the two are different
coordinates; results may therefore alias operands.
-/
namespace Torsion

/-- src/ecc.c:371-376 `wge_s`: an affine point; `inf` marks the point at infinity. -/
structure Wge (F : Type) where
  x : F
  y : F
  inf : Bool
  deriving DecidableEq

/-- src/ecc.c:379-386 `jge_s`: a Jacobian point, `(x/z^2, y/z^3)`; `aff` marks `z = 1`. -/
structure Jge (F : Type) where
  x : F
  y : F
  z : F
  inf : Bool
  aff : Bool
  deriving DecidableEq

/-- src/ecc.c:376-421, `wei_s`: the coefficients and the cofactor. The flags `zero_a` and `three_a` which
`wei_init` computes from `a` are functions below. -/
structure Curve (F : Type) where
  a : F
  b : F
  h : Nat

section
variable {F : Type} [Field F] [DecidableEq F]

/-- src/ecc.c:4045-4055, `zero_a` of `wei_init`. -/
def Curve.zero_a (ec : Curve F) : Bool := decide (ec.a = 0)

/-- src/ecc.c:4045-4055, `three_a` of `wei_init`. -/
def Curve.three_a (ec : Curve F) : Bool := decide (ec.a = -3)

/-- src/ecc.c:1444-1451 `fe_select`. -/
def fe_select (x y : F) (flag : Bool) : F := if flag then y else x

/-- src/ecc.c:1542-1561 `fe_is_zero`. -/
def fe_is_zero (x : F) : Bool := decide (x = 0)

/-- src/ecc.c:1563-1587 `fe_equal`. -/
def fe_equal (x y : F) : Bool := decide (x = y)

/-- src/ecc.c:1741-1758 `fe_invert`: the inverse (`0` for `0`) and whether it is non-zero. -/
def fe_invert (x : F) : F × Bool := (x⁻¹, !fe_is_zero x⁻¹)

/-- src/ecc.c:1726-1739 `fe_invert_var` in an assertion: aborts for zero. -/
def fe_invert_var (x : F) : C F := if x = 0 then .abort else .ok x⁻¹

/-- src/ecc.c:1631-1636 `fe_neg_cond`. -/
def fe_neg_cond (x : F) (flag : Bool) : F := fe_select x (-x) flag

/-- src/ecc.c:4123-4135 `wei_mul_a`. -/
def wei_mul_a (ec : Curve F) (x : F) : F :=
  if ec.zero_a then 0 else if ec.three_a then 3 * (-x) else x * ec.a

/-- src/ecc.c:4137-4150 `wei_solve_y2`. -/
def wei_solve_y2 (ec : Curve F) (x : F) : F :=
  let x3 := x * x
  let x3 := x3 * x
  let y2 := wei_mul_a ec x
  let y2 := y2 + x3
  y2 + ec.b

/-- src/ecc.c:4152-4162 `wei_validate_xy`. -/
def wei_validate_xy (ec : Curve F) (x y : F) : Bool := fe_equal (y * y) (wei_solve_y2 ec x)

/-! ### Affine points -/

/-- src/ecc.c:2108-2116 `wge_zero`. -/
def wge_zero : Wge F := ⟨0, 0, true⟩

/-- src/ecc.c:2128-2131 `wge_validate`. -/
def wge_validate (ec : Curve F) (p : Wge F) : Bool := wei_validate_xy ec p.x p.y || p.inf

/-- src/ecc.c:2158-2169 `wge_set_xy`: the point and whether it is valid. -/
def wge_set_xy (ec : Curve F) (x y : F) : Wge F × Bool :=
  let ret := wei_validate_xy ec x y
  (⟨fe_select x 0 (!ret), fe_select y 0 (!ret), !ret⟩, ret)

/-- src/ecc.c:2282-2295 `wge_select`. -/
def wge_select (p1 p2 : Wge F) (flag : Bool) : Wge F :=
  ⟨fe_select p1.x p2.x flag, fe_select p1.y p2.y flag, (p1.inf && !flag) || (p2.inf && flag)⟩

/-- src/ecc.c:2307-2322 `wge_equal`. -/
def wge_equal (p1 p2 : Wge F) : Bool :=
  ((!(p1.inf || p2.inf)) && fe_equal p1.x p2.x && fe_equal p1.y p2.y) || (p1.inf && p2.inf)

/-- src/ecc.c:2348-2351 `wge_equal_x`. -/
def wge_equal_x (p : Wge F) (x : F) : Bool := fe_equal p.x x && !p.inf

/-- src/ecc.c:2353-2361 `wge_neg`. -/
def wge_neg (p : Wge F) : Wge F := ⟨p.x, -p.y, p.inf⟩

/-- src/ecc.c:2363-2371 `wge_neg_cond`. -/
def wge_neg_cond (p : Wge F) (flag : Bool) : Wge F := ⟨p.x, fe_neg_cond p.y flag, p.inf⟩

/-- src/ecc.c:2373-2422 `wge_dbl_var`. -/
def wge_dbl_var (ec : Curve F) (p1 : Wge F) : C (Wge F) := do
  if p1.inf then return wge_zero
  if ec.h > 1 && fe_is_zero p1.y then return wge_zero
  let z := p1.y + p1.y
  let z ← fe_invert_var z
  let l := p1.x * p1.x
  let l := 3 * l
  let l := l + ec.a
  let l := l * z
  let x3 := l * l
  let x3 := x3 - p1.x
  let x3 := x3 - p1.x
  let y3 := p1.x - x3
  let y3 := y3 * l
  let y3 := y3 - p1.y
  return ⟨x3, y3, false⟩

/-- src/ecc.c:2424-2501 `wge_add_var`. -/
def wge_add_var (ec : Curve F) (p1 p2 : Wge F) : C (Wge F) := do
  if p1.inf then return p2
  if p2.inf then return p1
  if fe_equal p1.x p2.x then
    if fe_equal p1.y p2.y then
      return ← wge_dbl_var ec p1
    else
      return wge_zero
  if fe_equal p1.y p2.y then
    let x3 := -p1.x
    let x3 := x3 - p2.x
    let y3 := -p1.y
    return ⟨x3, y3, false⟩
  let z := p1.x - p2.x
  let z ← fe_invert_var z
  let l := p1.y - p2.y
  let l := l * z
  let x3 := l * l
  let x3 := x3 - p1.x
  let x3 := x3 - p2.x
  let y3 := p1.x - x3
  let y3 := y3 * l
  let y3 := y3 - p1.y
  return ⟨x3, y3, false⟩

/-- src/ecc.c:2503-2508 `wge_sub_var`. -/
def wge_sub_var (ec : Curve F) (p1 p2 : Wge F) : C (Wge F) := wge_add_var ec p1 (wge_neg p2)

/-- src/ecc.c:2510-2549 `wge_dbl`. -/
def wge_dbl (ec : Curve F) (p1 : Wge F) : Wge F :=
  let inf := p1.inf || (ec.h > 1 && fe_is_zero p1.y)
  let z := p1.y + p1.y
  let z := (fe_invert z).1
  let l := p1.x * p1.x
  let l := 3 * l
  let l := l + ec.a
  let l := l * z
  let x3 := l * l
  let x3 := x3 - p1.x
  let x3 := x3 - p1.x
  let y3 := p1.x - x3
  let y3 := y3 * l
  let y3 := y3 - p1.y
  ⟨fe_select x3 0 inf, fe_select y3 0 inf, inf⟩

/-- src/ecc.c:2551-2637 `wge_add`. -/
def wge_add (ec : Curve F) (p1 p2 : Wge F) : Wge F :=
  let m := p1.y + p2.y
  let l := p1.x * p2.x
  let r := p1.x + p2.x
  let r := r * r
  let r := r - l
  let r := r + ec.a
  let degenerate := fe_is_zero m && fe_is_zero r
  let l := p1.x - p2.x
  let m := fe_select m l degenerate
  let l := p1.y + p1.y
  let r := fe_select r l degenerate
  let inv := fe_invert m
  let zero := !inv.2
  let m := inv.1
  let l := r * m
  let neg := zero && !(p1.inf || p2.inf)
  let x3 := l * l
  let x3 := x3 - p1.x
  let x3 := x3 - p2.x
  let y3 := p1.x - x3
  let y3 := y3 * l
  let y3 := y3 - p1.y
  let inf := neg || (p1.inf && p2.inf)
  let x3 := fe_select x3 p2.x p1.inf
  let y3 := fe_select y3 p2.y p1.inf
  let x3 := fe_select x3 p1.x p2.inf
  let y3 := fe_select y3 p1.y p2.inf
  let x3 := fe_select x3 0 inf
  let y3 := fe_select y3 0 inf
  ⟨x3, y3, inf⟩

/-- src/ecc.c:2639-2644 `wge_sub`. -/
def wge_sub (ec : Curve F) (p1 p2 : Wge F) : Wge F := wge_add ec p1 (wge_neg p2)

/-- src/ecc.c:2646-2668 `wge_set_jge`. -/
def wge_set_jge (p : Jge F) : Wge F :=
  let a := (fe_invert p.z).1
  let aa := a * a
  let x := p.x * aa
  let y := p.y * aa
  let y := y * a
  ⟨x, y, p.inf⟩

/-- src/ecc.c:2670-2706 `wge_set_jge_var`. -/
def wge_set_jge_var (p : Jge F) : C (Wge F) := do
  if p.inf then return wge_zero
  if p.aff then return ⟨p.x, p.y, false⟩
  let a ← fe_invert_var p.z
  let aa := a * a
  let x := p.x * aa
  let y := p.y * aa
  let y := y * a
  return ⟨x, y, false⟩

/-! ### Jacobian points -/

/-- src/ecc.c:2814-2824 `jge_zero`. -/
def jge_zero : Jge F := ⟨1, 1, 0, true, false⟩

/-- src/ecc.c:2838-2853 `jge_select`. -/
def jge_select (p1 p2 : Jge F) (flag : Bool) : Jge F :=
  ⟨fe_select p1.x p2.x flag, fe_select p1.y p2.y flag, fe_select p1.z p2.z flag,
   (p1.inf && !flag) || (p2.inf && flag), (p1.aff && !flag) || (p2.aff && flag)⟩

/-- src/ecc.c:2873-2899 `jge_equal`. -/
def jge_equal (p1 p2 : Jge F) : Bool :=
  let ret := !(p1.inf || p2.inf)
  let z1 := p1.z * p1.z
  let z2 := p2.z * p2.z
  let e1 := p1.x * z2
  let e2 := p2.x * z1
  let ret := ret && fe_equal e1 e2
  let z1 := z1 * p1.z
  let z2 := z2 * p2.z
  let e1 := p1.y * z2
  let e2 := p2.y * z1
  let ret := ret && fe_equal e1 e2
  ret || (p1.inf && p2.inf)

/-- src/ecc.c:2926-2936 `jge_equal_x`. -/
def jge_equal_x (p : Jge F) (x : F) : Bool :=
  let xz := p.z * p.z
  let xz := xz * x
  fe_equal p.x xz && !p.inf

/-- src/ecc.c:2992-3005 `jge_neg`. -/
def jge_neg (p : Jge F) : Jge F := ⟨p.x, fe_select (-p.y) 1 p.inf, p.z, p.inf, p.aff⟩

/-- src/ecc.c:3007-3020 `jge_neg_cond`. -/
def jge_neg_cond (p : Jge F) (flag : Bool) : Jge F :=
  ⟨p.x, fe_select (fe_neg_cond p.y flag) 1 p.inf, p.z, p.inf, p.aff⟩

/-- src/ecc.c:3022-3067 `jge_dblj`: the three coordinates. -/
def jge_dblj (ec : Curve F) (p1 : Jge F) : F × F × F :=
  let xx := p1.x * p1.x
  let yy := p1.y * p1.y
  let zz := p1.z * p1.z
  let s := 4 * p1.x
  let s := s * yy
  let t := zz * zz
  let t := t * ec.a
  let m := 3 * xx
  let m := m + t
  let t := m * m
  let t := t - s
  let t := t - s
  let xx := p1.y + p1.y
  let z3 := p1.z * xx
  let x3 := t
  let s := s - t
  let yy := yy * yy
  let yy := 8 * yy
  let y3 := m * s
  let y3 := y3 - yy
  (x3, y3, z3)

/-- src/ecc.c:3069-3113 `jge_dbl0`. -/
def jge_dbl0 (p1 : Jge F) : F × F × F :=
  let a := p1.x * p1.x
  let b := p1.y * p1.y
  let c := b * b
  let d := p1.x + b
  let d := d * d
  let d := d - a
  let d := d - c
  let d := d + d
  let e := 3 * a
  let f := e * e
  let a := p1.y + p1.y
  let z3 := p1.z * a
  let x3 := f - d
  let x3 := x3 - d
  let d := d - x3
  let c := 8 * c
  let y3 := e * d
  let y3 := y3 - c
  (x3, y3, z3)

/-- src/ecc.c:3115-3157 `jge_dbl3`. -/
def jge_dbl3 (p1 : Jge F) : F × F × F :=
  let delta := p1.z * p1.z
  let gamma := p1.y * p1.y
  let beta := p1.x * gamma
  let alpha := p1.x - delta
  let theta := p1.x + delta
  let alpha := 3 * alpha
  let alpha := alpha * theta
  let z3 := p1.y + p1.z
  let z3 := z3 * z3
  let z3 := z3 - gamma
  let z3 := z3 - delta
  let theta := 4 * beta
  let x3 := alpha * alpha
  let x3 := x3 - theta
  let x3 := x3 - theta
  let theta := theta - x3
  let gamma := gamma * gamma
  let gamma := 8 * gamma
  let y3 := alpha * theta
  let y3 := y3 - gamma
  (x3, y3, z3)

/-- src/ecc.c:3159-3184 `jge_dbl_var`. -/
def jge_dbl_var (ec : Curve F) (p1 : Jge F) : Jge F :=
  if p1.inf then jge_zero
  else if ec.h > 1 && fe_is_zero p1.y then jge_zero
  else
    let r := if ec.zero_a then jge_dbl0 p1 else if ec.three_a then jge_dbl3 p1 else jge_dblj ec p1
    ⟨r.1, r.2.1, r.2.2, false, false⟩

/-- src/ecc.c:3186-3292 `jge_addsub_var`: `sign` set for addition. -/
def jge_addsub_var (ec : Curve F) (p1 p2 : Jge F) (sign : Bool) : Jge F :=
  let z1z1 := p1.z * p1.z
  let z2z2 := p2.z * p2.z
  let u1 := p1.x * z2z2
  let u2 := p2.x * z1z1
  let s1 := p1.y * p2.z
  let s1 := s1 * z2z2
  let s2 := p2.y * p1.z
  let s2 := s2 * z1z1
  let h := u2 - u1
  let r := if sign then s2 - s1 else s2 + s1
  if fe_is_zero h then
    if fe_is_zero r then jge_dbl_var ec p1 else jge_zero
  else
    let hh := h * h
    let hhh := h * hh
    let v := u1 * hh
    let x3 := r * r
    let x3 := x3 - hhh
    let x3 := x3 - v
    let x3 := x3 - v
    let v := if sign then v - x3 else x3 - v
    let s1 := s1 * hhh
    let y3 := r * v
    let y3 := y3 - s1
    let z3 := p1.z * p2.z
    let z3 := z3 * h
    ⟨x3, y3, z3, false, false⟩

/-- src/ecc.c:3340-3432 `jge_mixed_addsub_var`: the second operand is the affine point `(x2, y2)`. -/
def jge_mixed_addsub_var (ec : Curve F) (p1 : Jge F) (x2 y2 : F) (sign : Bool) : Jge F :=
  let z1z1 := p1.z * p1.z
  let u2 := x2 * z1z1
  let s2 := y2 * p1.z
  let s2 := s2 * z1z1
  let h := u2 - p1.x
  let r := if sign then s2 - p1.y else s2 + p1.y
  if fe_is_zero h then
    if fe_is_zero r then jge_dbl_var ec p1 else jge_zero
  else
    let r := r + r
    let i := h + h
    let z3 := p1.z * i
    let i := i * i
    let j := h * i
    let v := i * p1.x
    let x3 := r * r
    let x3 := x3 - j
    let x3 := x3 - v
    let x3 := x3 - v
    let v := if sign then v - x3 else x3 - v
    let j := j * p1.y
    let y3 := r * v
    let y3 := y3 - j
    let y3 := y3 - j
    ⟨x3, y3, z3, false, false⟩

/-- src/ecc.c:3917-3927 `jge_set_wge`. -/
def jge_set_wge (p : Wge F) : Jge F :=
  ⟨fe_select p.x 1 p.inf, fe_select p.y 1 p.inf, fe_select 1 0 p.inf, p.inf, !p.inf⟩

/-- src/ecc.c:3294-3315 `jge_add_var`. -/
def jge_add_var (ec : Curve F) (p1 p2 : Jge F) : Jge F :=
  if p1.inf then p2
  else if p2.inf then p1
  else if p2.aff then jge_mixed_addsub_var ec p1 p2.x p2.y true
  else jge_addsub_var ec p1 p2 true

/-- src/ecc.c:3317-3338 `jge_sub_var`. -/
def jge_sub_var (ec : Curve F) (p1 p2 : Jge F) : Jge F :=
  if p1.inf then jge_neg p2
  else if p2.inf then p1
  else if p2.aff then jge_mixed_addsub_var ec p1 p2.x p2.y false
  else jge_addsub_var ec p1 p2 false

/-- src/ecc.c:3434-3450 `jge_mixed_add_var`. -/
def jge_mixed_add_var (ec : Curve F) (p1 : Jge F) (p2 : Wge F) : Jge F :=
  if p1.inf then jge_set_wge p2
  else if p2.inf then p1
  else jge_mixed_addsub_var ec p1 p2.x p2.y true

/-- src/ecc.c:3452-3469 `jge_mixed_sub_var`. -/
def jge_mixed_sub_var (ec : Curve F) (p1 : Jge F) (p2 : Wge F) : Jge F :=
  if p1.inf then jge_neg (jge_set_wge p2)
  else if p2.inf then p1
  else jge_mixed_addsub_var ec p1 p2.x p2.y false

/-- src/ecc.c:3471-3502 `jge_dbl`. -/
def jge_dbl (ec : Curve F) (p1 : Jge F) : Jge F :=
  let inf := p1.inf || (ec.h > 1 && fe_is_zero p1.y)
  let r := if ec.zero_a then jge_dbl0 p1 else if ec.three_a then jge_dbl3 p1 else jge_dblj ec p1
  if ec.h > 1 then
    ⟨fe_select r.1 1 inf, fe_select r.2.1 1 inf, fe_select r.2.2 0 inf, inf, false⟩
  else ⟨r.1, r.2.1, r.2.2, inf, false⟩

/-- src/ecc.c:3561-3579, the end of `jge_add` and `jge_mixed_add`: from `T`, `M`, `R`, the differences
`U1 - U2` and `2 S1` taken in the degenerate case, and the product of the denominators to the new
coordinates. The same statements occur in both functions. -/
def jge_unified (z0 t m r du ds : F) : F × F × F :=
  let degenerate := fe_is_zero m && fe_is_zero r
  let m := fe_select m du degenerate
  let r := fe_select r ds degenerate
  let f := z0 * m
  let l := m * m
  let g := t * l
  let w := r * r
  let w := w - g
  let ll := l * l
  let ll := fe_select ll 0 degenerate
  let x3 := 4 * w
  let y3 := g - w
  let y3 := y3 - w
  let y3 := y3 * r
  let y3 := y3 - ll
  let y3 := 4 * y3
  let z3 := f + f
  (x3, y3, z3)

/-- src/ecc.c:3504-3731 `jge_add`. -/
def jge_add (ec : Curve F) (p1 p2 : Jge F) : Jge F :=
  let z1z1 := p1.z * p1.z
  let z2z2 := p2.z * p2.z
  let u1 := p1.x * z2z2
  let u2 := p2.x * z1z1
  let s1 := p1.y * z2z2
  let s1 := s1 * p2.z
  let s2 := p2.y * z1z1
  let s2 := s2 * p1.z
  let z0 := p1.z * p2.z
  let t := u1 + u2
  let m := s1 + s2
  let r := t * t
  let l := u1 * u2
  let r := r - l
  let r := if !ec.zero_a then
      let l := z0 * z0
      let l := l * l
      let l := wei_mul_a ec l
      r + l
    else r
  let q := jge_unified z0 t m r (u1 - u2) (s1 + s1)
  let inf := fe_is_zero q.2.2 && !(p1.inf || p2.inf)
  let x3 := fe_select q.1 p2.x p1.inf
  let y3 := fe_select q.2.1 p2.y p1.inf
  let z3 := fe_select q.2.2 p2.z p1.inf
  let x3 := fe_select x3 p1.x p2.inf
  let y3 := fe_select y3 p1.y p2.inf
  let z3 := fe_select z3 p1.z p2.inf
  let x3 := fe_select x3 1 inf
  let y3 := fe_select y3 1 inf
  let z3 := fe_select z3 0 inf
  ⟨x3, y3, z3, inf || (p1.inf && p2.inf), false⟩

/-- src/ecc.c:3733-3738 `jge_sub`. -/
def jge_sub (ec : Curve F) (p1 p2 : Jge F) : Jge F := jge_add ec p1 (jge_neg p2)

/-- src/ecc.c:3740-3908 `jge_mixed_add`. -/
def jge_mixed_add (ec : Curve F) (p1 : Jge F) (p2 : Wge F) : Jge F :=
  let z1z1 := p1.z * p1.z
  let u2 := p2.x * z1z1
  let s2 := p2.y * z1z1
  let s2 := s2 * p1.z
  let t := p1.x + u2
  let m := p1.y + s2
  let r := t * t
  let l := p1.x * u2
  let r := r - l
  let r := if !ec.zero_a then
      let l := z1z1 * z1z1
      let l := wei_mul_a ec l
      r + l
    else r
  let q := jge_unified p1.z t m r (p1.x - u2) (p1.y + p1.y)
  let inf := fe_is_zero q.2.2 && !(p1.inf || p2.inf)
  let x3 := fe_select q.1 p2.x p1.inf
  let y3 := fe_select q.2.1 p2.y p1.inf
  let z3 := fe_select q.2.2 1 p1.inf
  let x3 := fe_select x3 p1.x p2.inf
  let y3 := fe_select y3 p1.y p2.inf
  let z3 := fe_select z3 p1.z p2.inf
  let x3 := fe_select x3 1 inf
  let y3 := fe_select y3 1 inf
  let z3 := fe_select z3 0 inf
  ⟨x3, y3, z3, inf || (p1.inf && p2.inf), false⟩

/-- src/ecc.c:3910-3915 `jge_mixed_sub`. -/
def jge_mixed_sub (ec : Curve F) (p1 : Jge F) (p2 : Wge F) : Jge F := jge_mixed_add ec p1 (wge_neg p2)

/-- src/ecc.c:3929-3951 `jge_validate`. -/
def jge_validate (ec : Curve F) (p : Jge F) : Bool :=
  let x3 := p.x * p.x
  let x3 := x3 * p.x
  let z2 := p.z * p.z
  let z4 := z2 * z2
  let z6 := z4 * z2
  let z6 := z6 * ec.b
  let lhs := p.y * p.y
  let rhs := wei_mul_a ec p.x
  let rhs := rhs * z4
  let rhs := rhs + x3
  let rhs := rhs + z6
  fe_equal lhs rhs

/-! ### Tables of multiples -/

/-- src/ecc.c:2690-2738, `wge_set_jge_all_var`, first loop: the product of the non-zero `z` so far is written
to each finite entry. The entries of points at infinity are not written (`0` here). -/
def set_all_prefix (acc : F) : List (Jge F) → List F × F
  | [] => ([], acc)
  | p :: ps =>
    if p.inf then
      let r := set_all_prefix acc ps
      (0 :: r.1, r.2)
    else
      let r := set_all_prefix (acc * p.z) ps
      (acc :: r.1, r.2)

/-- src/ecc.c:2690-2738, `wge_set_jge_all_var`, second loop: from the last entry to the first, the inverse of
each `z`. Returns the entries and the accumulator. -/
def set_all_invert (acc : F) : List (Jge F × F) → List F × F
  | [] => ([], acc)
  | (p, o) :: ps =>
    let r := set_all_invert acc ps
    if p.inf then (o :: r.1, r.2) else (o * r.2 :: r.1, r.2 * p.z)

/-- src/ecc.c:2690-2738, `wge_set_jge_all_var`, third loop. -/
def set_all_scale (p : Jge F) (o : F) : Wge F :=
  if p.inf then wge_zero
  else
    let z2 := o * o
    let z3 := z2 * o
    ⟨p.x * z2, p.y * z3, false⟩

/-- src/ecc.c:2708-2749 `wge_set_jge_all_var`. -/
def wge_set_jge_all_var (ps : List (Jge F)) : C (List (Wge F)) := do
  let pre := set_all_prefix 1 ps
  let acc ← fe_invert_var pre.2
  let inv := set_all_invert acc (ps.zip pre.1)
  return List.zipWith set_all_scale ps inv.1

/-- src/ecc.c:2740-2768, `wge_fixed_points_var`, one window: `0, g, 2g, ..., (n-1) g` by repeated addition. -/
def fixed_window (ec : Curve F) (g : Jge F) : Nat → Jge F → List (Jge F)
  | 0, _ => []
  | n + 1, p => p :: fixed_window ec g n (jge_add_var ec p g)

/-- src/ecc.c:2740-2768, `wge_fixed_points_var`, the windows; `g` is multiplied by 16 after each. -/
def fixed_windows (ec : Curve F) : Nat → Jge F → List (Jge F)
  | 0, _ => []
  | n + 1, g => fixed_window ec g 16 jge_zero ++ fixed_windows ec n ((jge_dbl_var ec)^[4] g)

/-- src/ecc.c:2751-2778 `wge_fixed_points_var`: `16 j` entries for `j` windows; the allocation is not modelled. -/
def wge_fixed_points_var (ec : Curve F) (bits : Nat) (p : Wge F) : C (List (Wge F)) :=
  wge_set_jge_all_var (fixed_windows ec ((bits + 3) / 4) (jge_set_wge p))

/-- src/ecc.c:3953-3964 `jge_naf_points_var`: the odd multiples `p, 3p, 5p, ...`. -/
def jge_naf_points_var (ec : Curve F) (p : Wge F) (width : Nat) : List (Jge F) :=
  let j := jge_set_wge p
  fixed_window ec (jge_dbl_var ec j) (2 ^ (width - 2)) j

/-- src/ecc.c:2780-2798 `wge_naf_points_var`. -/
def wge_naf_points_var (ec : Curve F) (p : Wge F) (width : Nat) : C (List (Wge F)) :=
  wge_set_jge_all_var (jge_naf_points_var ec p width)

/-- src/ecc.c:3966-3974 `jge_jsf_points_var`. -/
def jge_jsf_points_var (ec : Curve F) (p1 p2 : Wge F) : List (Jge F) :=
  let o0 := jge_set_wge p1
  [o0, jge_mixed_add_var ec o0 p2, jge_mixed_sub_var ec o0 p2, jge_set_wge p2]

/-- src/ecc.c:2800-2808 `wge_endo_beta`. -/
def wge_endo_beta (beta : F) (p : Wge F) : Wge F := ⟨p.x * beta, p.y, p.inf⟩

/-- src/ecc.c:3993-4006 `jge_endo_beta`. -/
def jge_endo_beta (beta : F) (p : Jge F) : Jge F := ⟨fe_select (p.x * beta) 1 p.inf, p.y, p.z, p.inf, p.aff⟩

/-- src/ecc.c:3976-3991 `jge_jsf_points_endo_var`. -/
def jge_jsf_points_endo_var (ec : Curve F) (beta : F) (p1 : Wge F) : C (List (Jge F)) := do
  let p2 := wge_endo_beta beta p1
  let p3 ← wge_add_var ec p1 p2
  let o0 := jge_set_wge p1
  return [o0, jge_set_wge p3, jge_mixed_sub_var ec o0 p2, jge_set_wge p2]

end
end Torsion
