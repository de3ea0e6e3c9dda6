import Verif.Mpi.MpzBit

/-!
# Model of src/mpi.c: greatest common divisors, inverses and the Jacobi symbol

The loops have no counter. They are modelled with a bound on the number of rounds, and a loop that would go
on after that many rounds is `ub`; a result proved to be `ok` includes that the loop ends within the bound.
Scratch vectors are locals.
-/
namespace Torsion

/-- src/mpi.c:805-826, `MPN_SHIFT_ZEROES(z, xp, xn)`: the number of bits and the shifted vector. Running off
the end of the vector is `ub`. -/
def mpn_shift_zeroes : List Limb → C (Nat × List Limb)
  | [] => .ub
  | x :: xs =>
    if x = 0 then do
      let t ← mpn_shift_zeroes xs
      .ok (t.1 + 64, t.2)
    else if mp_ctz x > 0 then do
      let up ← trimTop (mpn_rshift (x :: xs) (mp_ctz x)).1
      .ok (mp_ctz x, up)
    else .ok (0, x :: xs)

/-! ### Greatest common divisor -/

/-- The first loop of src/mpi.c:3719-3796 `mpn_gcd`: the common zero limbs. -/
def mpn_gcd_zeros : List Limb → List Limb → C (Nat × List Limb × List Limb)
  | u :: up, v :: vp =>
    if u ||| v = 0 then do
      let t ← mpn_gcd_zeros up vp
      .ok (t.1 + 1, t.2)
    else .ok (0, u :: up, v :: vp)
  | _, _ => .ub

/-- The main loop of src/mpi.c:3719-3796 `mpn_gcd`. -/
def mpn_gcd_loop : Nat → List Limb → List Limb → C (List Limb)
  | 0, _, _ => .ub
  | n + 1, up, vp =>
    if up.length = 0 then .ok vp
    else do
      let u ← mpn_shift_zeroes up
      let v ← mpn_shift_zeroes vp
      if mpn_cmp2 u.2 v.2 ≥ 0 then do
        let t ← mpn_sub u.2 v.2
        mpn_gcd_loop n (mpn_strip t.1) v.2
      else do
        let t ← mpn_sub v.2 u.2
        mpn_gcd_loop n u.2 (mpn_strip t.1)

/-- `mpn_rshift(up, up, un, r); un -= (up[un - 1] == 0)` if `r > 0`, src/mpi.c:3762-3768. -/
def mpn_rshift_trim (up : List Limb) (r : Nat) : C (List Limb) :=
  if r > 0 then trimTop (mpn_rshift up r).1 else .ok up

/-- The end of src/mpi.c:3719-3796 `mpn_gcd`: the `yn` limbs of `zp` and the number of limbs `zn` in use. -/
def mpn_gcd_finish (s r yn : Nat) (vp : List Limb) : C (List Limb × Nat) :=
  let zp := if r > 0 then
      let t := mpn_lshift vp r
      if t.2 ≠ 0 then mpn_zero s ++ t.1 ++ [t.2] else mpn_zero s ++ t.1
    else mpn_zero s ++ vp
  if zp.length > yn then .ub else .ok (zp ++ mpn_zero (yn - zp.length), zp.length)

/-- The middle of src/mpi.c:3719-3796 `mpn_gcd` with the shift `r`. -/
def mpn_gcd_shift (s r yn : Nat) (up vp : List Limb) : C (List Limb × Nat) := do
  let u ← mpn_rshift_trim up r
  let v ← mpn_rshift_trim vp r
  let z ← mpn_gcd_loop (64 * (u.length + v.length) + 1) u v
  mpn_gcd_finish s r yn z

/-- src/mpi.c:3719-3796 `mpn_gcd`. -/
def mpn_gcd (xp yp : List Limb) : C (List Limb × Nat) := do
  C.check (xp.length ≠ 0 ∧ xp.getLast? ≠ some 0)
  C.check (yp.length ≠ 0 ∧ yp.getLast? ≠ some 0)
  C.check (yp.length ≤ xp.length)
  let t ← mpn_gcd_zeros xp yp
  let u0 ← C.rd t.2.1 0
  let v0 ← C.rd t.2.2 0
  mpn_gcd_shift t.1 (mp_ctz (u0 ||| v0)) yp.length t.2.1 t.2.2

/-- `v >>= mp_ctz(v)`, src/mpi.c:3824. -/
def mp_odd_part (v : Limb) : C Limb := if v = 0 then .ub else .ok (v >>> mp_ctz v)

/-- The loop of src/mpi.c:3798-3837 `mpn_gcd_1`. -/
def mpn_gcd_1_loop : Nat → List Limb → Limb → C Limb
  | 0, _, _ => .ub
  | n + 1, up, v =>
    if up.length = 0 then .ok v
    else do
      let u ← mpn_shift_zeroes up
      let v ← mp_odd_part v
      let u0 ← C.rd u.2 0
      if u.2.length > 1 ∨ u0 ≥ v then do
        let up ← trimTop (mpn_sub_1 u.2 v).1
        mpn_gcd_1_loop n up v
      else mpn_gcd_1_loop n u.2 (v - u0)

/-- The rest of src/mpi.c:3798-3837 `mpn_gcd_1` with the shift `s`. -/
def mpn_gcd_1_shift (xp : List Limb) (y : Limb) (s : Nat) : C Limb := do
  let u ← mpn_rshift_trim xp s
  let v ← mpn_gcd_1_loop (64 * (u.length + 1) + 1) u (y >>> s)
  .ok (v <<< s)

/-- src/mpi.c:3798-3837 `mpn_gcd_1`. -/
def mpn_gcd_1 (xp : List Limb) (y : Limb) : C Limb := do
  C.check (xp.length ≠ 0 ∧ xp.getLast? ≠ some 0 ∧ y ≠ 0)
  let x0 ← C.rd xp 0
  mpn_gcd_1_shift xp y (mp_ctz (x0 ||| y))

/-- src/mpi.c:7375-7409 `mpz_gcd` after the operands have been sorted by length. -/
def mpz_gcd_sorted (z : Dest) (x y : Mpz) : C Mpz := do
  mpz_grow z y.mag.length
  let t ← mpn_gcd x.mag y.mag
  .ok ⟨false, t.1.take t.2⟩

/-- src/mpi.c:7375-7409 `mpz_gcd`. -/
def mpz_gcd (z : Dest) (x y : Mpz) : C Mpz :=
  if x.size = 0 then mpz_abs z y
  else if y.size = 0 then mpz_abs z x
  else if x.mag.length < y.mag.length then mpz_gcd_sorted z y x
  else mpz_gcd_sorted z x y

/-- src/mpi.c:7411-7447 `mpz_gcd_ui`: the integer and the returned limb. -/
def mpz_gcd_ui (z : Option Dest) (x : Mpz) (y : Limb) : C (Mpz × Limb) :=
  if x.size = 0 then .ok (mpz_set_ui y, y)
  else if y = 0 then do
    let t ← ifDest z x fun z => mpz_abs z x
    if x.mag.length ≠ 1 then .ok (t, 0)
    else do
      let x0 ← limb0 x
      .ok (t, x0)
  else do
    let g ← mpn_gcd_1 x.mag y
    .ok (mpz_set_ui g, g)

/-- src/mpi.c:7449-7466 `mpz_lcm`. -/
def mpz_lcm (z : Dest) (x y : Mpz) : C Mpz :=
  if x.size = 0 ∨ y.size = 0 then .ok ⟨false, []⟩
  else do
    let tv := mpz_init_vla (mpz_add_size x y)
    let t ← mpz_gcd tv x y
    let t ← mpz_quo tv x t
    let w ← mpz_mul z y t
    mpz_abs z w

/-- src/mpi.c:7468-7477 `mpz_lcm_ui`. -/
def mpz_lcm_ui (z : Dest) (x : Mpz) (y : Limb) : C Mpz :=
  if x.size = 0 ∨ y = 0 then .ok ⟨false, []⟩
  else do
    let g ← mpz_gcd_ui none x y
    if g.2 = 0 then .ub
    else do
      let w ← mpz_mul_ui z x (y / g.2)
      mpz_abs z w

/-! ### Extended greatest common divisor -/

/-- The loops `while (uz--)` and `while (vz--)` of src/mpi.c:7479-7606 `mpz_gcdext`. -/
def mpz_gcdext_halves (up vp : Mpz) : Nat → Mpz → Mpz → C (Mpz × Mpz)
  | 0, A, B => .ok (A, B)
  | n + 1, A, B => do
    let oa ← mpz_odd_p A
    let ob ← mpz_odd_p B
    let a ← (if oa || ob then mpz_add .heap A vp else .ok A)
    let b ← (if oa || ob then mpz_sub .heap B up else .ok B)
    let a ← mpz_quo_2exp .heap a 1
    let b ← mpz_quo_2exp .heap b 1
    mpz_gcdext_halves up vp n a b

/-- The main loop of src/mpi.c:7479-7606 `mpz_gcdext`: `v`, `C` and `D`. -/
def mpz_gcdext_loop (up vp : Mpz) : Nat → Mpz → Mpz → Mpz × Mpz → Mpz × Mpz → C (Mpz × Mpz × Mpz)
  | 0, _, _, _, _ => .ub
  | n + 1, u, v, ab, cd =>
    if u.size = 0 then .ok (v, cd)
    else do
      let uz := mpz_ctz u
      let vz := mpz_ctz v
      let u ← mpz_quo_2exp .heap u uz
      let v ← mpz_quo_2exp .heap v vz
      let ab ← mpz_gcdext_halves up vp uz ab.1 ab.2
      let cd ← mpz_gcdext_halves up vp vz cd.1 cd.2
      if mpz_cmpabs u v ≥ 0 then do
        let u ← mpz_sub .heap u v
        let a ← mpz_sub .heap ab.1 cd.1
        let b ← mpz_sub .heap ab.2 cd.2
        mpz_gcdext_loop up vp n u v (a, b) cd
      else do
        let v ← mpz_sub .heap v u
        let c ← mpz_sub .heap cd.1 ab.1
        let d ← mpz_sub .heap cd.2 ab.2
        mpz_gcdext_loop up vp n u v ab (c, d)

/-- src/mpi.c:7479-7606 `mpz_gcdext` into heap integers: `(g, s, t)`. Outputs passed as `NULL` are dropped. -/
def mpz_gcdext (x y : Mpz) : C (Mpz × Mpz × Mpz) :=
  if x.size = 0 then do
    let g ← mpz_abs .heap y
    .ok (g, ⟨false, []⟩, mpz_set_si (BitVec.ofInt 64 (mpz_sgn y)))
  else if y.size = 0 then do
    let g ← mpz_abs .heap x
    .ok (g, mpz_set_si (BitVec.ofInt 64 (mpz_sgn x)), ⟨false, []⟩)
  else do
    let u ← mpz_abs .heap x
    let v ← mpz_abs .heap y
    let shift := min (mpz_ctz u) (mpz_ctz v)
    let u ← mpz_quo_2exp .heap u shift
    let v ← mpz_quo_2exp .heap v shift
    let r ← mpz_gcdext_loop u v (64 * (u.mag.length + v.mag.length) + 1) u v
      (mpz_set_ui 1, mpz_set_ui 0) (mpz_set_ui 0, mpz_set_ui 1)
    let c ← (if x.size < 0 then mpz_neg .heap r.2.1 else .ok r.2.1)
    let d ← (if y.size < 0 then mpz_neg .heap r.2.2 else .ok r.2.2)
    let g ← mpz_mul_2exp .heap r.1 shift
    .ok (g, c, d)

/-! ### Modular inverse -/

/-- One round of the loop `while (uz--)` of src/mpi.c:3885-3962 `mpn_invert`; `ap` has `yn + 1` limbs. -/
def mpn_invert_half (yp ap : List Limb) : C (List Limb) := do
  let yn := yp.length
  let a0 ← C.rd ap 0
  let ap := if a0 &&& 1 ≠ 0 then
      let t := mpn_add_n (ap.take yn) yp
      t.1 ++ [t.2]
    else ap
  let c ← C.rd ap yn
  let m := yn + c.toNat
  if m > ap.length then .ub
  else .ok ((mpn_rshift (ap.take m) 1).1 ++ ap.drop m)

/-- The loops `while (uz--)` and `while (vz--)` of src/mpi.c:3885-3962 `mpn_invert`. -/
def mpn_invert_halves (yp : List Limb) : Nat → List Limb → C (List Limb)
  | 0, ap => .ok ap
  | n + 1, ap => do
    let ap ← mpn_invert_half yp ap
    mpn_invert_halves yp n ap

/-- `mpn_sub_mod(ap, ap, bp, yp, yn)` on vectors of `yn + 1` limbs, src/mpi.c:3944. -/
def mpn_invert_sub (yp ap bp : List Limb) : List Limb :=
  mpn_sub_mod (ap.take yp.length) (bp.take yp.length) yp ++ ap.drop yp.length

/-- The main loop of src/mpi.c:3885-3962 `mpn_invert`: `vp` and `bp`. -/
def mpn_invert_loop (yp : List Limb) :
    Nat → List Limb → List Limb → List Limb → List Limb → C (List Limb × List Limb)
  | 0, _, _, _, _ => .ub
  | n + 1, up, vp, ap, bp =>
    if up.length = 0 then .ok (vp, bp)
    else do
      let u ← mpn_shift_zeroes up
      let v ← mpn_shift_zeroes vp
      let ap ← mpn_invert_halves yp u.1 ap
      let bp ← mpn_invert_halves yp v.1 bp
      if mpn_cmp2 u.2 v.2 ≥ 0 then do
        let t ← mpn_sub u.2 v.2
        mpn_invert_loop yp n (mpn_strip t.1) v.2 (mpn_invert_sub yp ap bp) bp
      else do
        let t ← mpn_sub v.2 u.2
        mpn_invert_loop yp n u.2 (mpn_strip t.1) ap (mpn_invert_sub yp bp ap)

/-- src/mpi.c:3885-3962 `mpn_invert`: `zp` and the return value. -/
def mpn_invert (xp yp : List Limb) : C (List Limb × Bool) := do
  C.check (¬ (xp.length > 0 ∧ xp.getLast? = some 0))
  C.check (yp.length ≠ 0 ∧ yp.getLast? ≠ some 0)
  let y0 ← C.rd yp 0
  C.check (y0 &&& 1 ≠ 0)
  C.check (xp.length ≤ yp.length)
  if yp.length = 1 ∧ y0 = 1 then .ok (mpn_zero yp.length, false)
  else do
    let t ← mpn_invert_loop yp (64 * (xp.length + yp.length) + 1) xp yp
      (mpn_set_1 (yp.length + 1) 1) (mpn_set_1 (yp.length + 1) 0)
    let v0 ← C.rd t.1 0
    if t.1.length ≠ 1 ∨ v0 ≠ 1 then .ok (mpn_zero yp.length, false)
    else .ok (t.2.take yp.length, true)

/-- src/mpi.c:3964-3973 `mpn_invert_n`. -/
def mpn_invert_n (xp yp : List Limb) : C (List Limb × Bool) := mpn_invert (mpn_strip xp) yp

/-- src/mpi.c:7608-7626 `mpz_invert_inner`. -/
def mpz_invert_inner (z : Dest) (x y : Mpz) : C (Mpz × Bool) := do
  mpz_grow z y.mag.length
  let t ← mpn_invert x.mag y.mag
  .ok (⟨false, mpn_strip t.1⟩, t.2)

/-- src/mpi.c:7628-7674 `mpz_invert`; in the even case the result is swapped with a heap integer, so that `z` must
be one. -/
def mpz_invert (z : Dest) (x y : Mpz) : C (Mpz × Bool) :=
  if x.size = 0 ∨ y.size = 0 then .ok (⟨false, []⟩, false)
  else if mpz_cmpabs_ui y 1 = 0 then .ok (⟨false, []⟩, false)
  else do
    let odd ← mpz_odd_p y
    if odd then
      if x.size < 0 ∨ mpz_cmpabs x y ≥ 0 then do
        let t ← mpz_mod (mpz_init_vla (y.mag.length + 1)) x y
        mpz_invert_inner z t y
      else mpz_invert_inner z x y
    else do
      let r ← mpz_gcdext x y
      if mpz_cmp_ui r.1 1 = 0 then do
        let s ← mpz_mod .heap r.2.1 y
        .ok (s, true)
      else .ok (⟨false, []⟩, false)

/-! ### Jacobi symbol -/

/-- `(vp[0] & 7) == 3 || (vp[0] & 7) == 5`, src/mpi.c:4044. -/
def mp_flip2 (v0 : Limb) : Bool := v0 &&& 7 = 3 ∨ v0 &&& 7 = 5

/-- One round of src/mpi.c:4008-4069 `mpn_jacobi` after the operands have been put in order: `u ≥ v`. -/
def mpn_jacobi_step (up vp : List Limb) : C (List Limb) := do
  let t ← mpn_sub up vp
  let up := mpn_strip t.1
  if up.length > 0 then trimTop (mpn_rshift up 1).1 else .ok up

/-- The loop of src/mpi.c:4008-4069 `mpn_jacobi`: `vp` and `j`. -/
def mpn_jacobi_loop : Nat → List Limb → List Limb → Int → C (List Limb × Int)
  | 0, _, _, _ => .ub
  | n + 1, up, vp, j =>
    if up.length = 0 then .ok (vp, j)
    else do
      let u ← mpn_shift_zeroes up
      let v0 ← C.rd vp 0
      let j := if u.1 % 2 = 1 ∧ mp_flip2 v0 then -j else j
      if mpn_cmp2 u.2 vp < 0 then do
        let u0 ← C.rd u.2 0
        let j := if v0 &&& 3 = 3 ∧ u0 &&& 3 = 3 then -j else j
        let w ← mpn_jacobi_step vp u.2
        let j := if mp_flip2 u0 then -j else j
        mpn_jacobi_loop n w u.2 j
      else do
        let w ← mpn_jacobi_step u.2 vp
        let j := if mp_flip2 v0 then -j else j
        mpn_jacobi_loop n w vp j

/-- src/mpi.c:4008-4069 `mpn_jacobi`. -/
def mpn_jacobi (xp yp : List Limb) : C Int := do
  C.check (¬ (xp.length > 0 ∧ xp.getLast? = some 0))
  C.check (yp.length ≠ 0 ∧ yp.getLast? ≠ some 0)
  let y0 ← C.rd yp 0
  C.check (y0 &&& 1 ≠ 0)
  C.check (xp.length ≤ yp.length)
  let t ← mpn_jacobi_loop (64 * (xp.length + yp.length) + 1) xp yp 1
  let v0 ← C.rd t.1 0
  if t.1.length ≠ 1 ∨ v0 ≠ 1 then .ok 0 else .ok t.2

/-- src/mpi.c:4071-4080 `mpn_jacobi_n`. -/
def mpn_jacobi_n (xp yp : List Limb) : C Int := mpn_jacobi (mpn_strip xp) yp

/-- src/mpi.c:7699-7722 `mpz_jacobi`, with src/mpi.c:7684-7697 `mpz_jacobi_inner`. -/
def mpz_jacobi (x y : Mpz) : C Int :=
  if y.size = 0 then .abort
  else do
    let y0 ← limb0 y
    C.check (y0 &&& 1 ≠ 0)
    let j ← (if x.size < 0 ∨ mpz_cmpabs x y ≥ 0 then do
        let t ← mpz_mod (mpz_init_vla (y.mag.length + 1)) x y
        mpn_jacobi t.mag y.mag
      else mpn_jacobi x.mag y.mag)
    .ok (if x.size < 0 ∧ y.size < 0 then -j else j)

/-- src/mpi.c:7676-7682 `mpz_legendre`. -/
def mpz_legendre (x p : Mpz) : C Int := if p.size < 0 then .abort else mpz_jacobi x p

/-- The table of src/mpi.c:7724-7757 `mpz_kronecker`. -/
def mpz_kronecker_table : List Int := [0, 1, 0, -1, 0, -1, 0, 1]

/-- src/mpi.c:7724-7757 `mpz_kronecker`. -/
def mpz_kronecker (x y : Mpz) : C Int :=
  if x.size = 0 then .ok (if mpz_cmpabs_ui y 1 = 0 then 1 else 0)
  else if y.size = 0 then .ok (if mpz_cmpabs_ui x 1 = 0 then 1 else 0)
  else do
    let x0 ← limb0 x
    let y0 ← limb0 y
    if (x0 ||| y0) &&& 1 = 0 then .ok 0
    else if mpz_ctz y > 0 then do
      let t ← mpz_quo_2exp (mpz_init_vla y.mag.length) y (mpz_ctz y)
      let k ← mpz_jacobi x t
      let w ← C.rd mpz_kronecker_table (x0 &&& 7).toNat
      .ok (if mpz_ctz y % 2 = 1 then k * w else k)
    else mpz_jacobi x y

/-- src/mpi.c:7759-7766 `mpz_kronecker_ui`. -/
def mpz_kronecker_ui (x : Mpz) (y : Limb) : C Int := mpz_kronecker x (mpz_set_ui y)

/-- src/mpi.c:7768-7775 `mpz_kronecker_si`. -/
def mpz_kronecker_si (x : Mpz) (y : BitVec 64) : C Int := mpz_kronecker x (mpz_set_si y)

/-- src/mpi.c:7777-7784 `mpz_ui_kronecker`. -/
def mpz_ui_kronecker (x : Limb) (y : Mpz) : C Int := mpz_kronecker (mpz_set_ui x) y

/-- src/mpi.c:7786-7793 `mpz_si_kronecker`. -/
def mpz_si_kronecker (x : BitVec 64) (y : Mpz) : C Int := mpz_kronecker (mpz_set_si x) y

end Torsion
