import Verif.Mpi.Gcd

/-!
# Model: Barrett and Montgomery reduction, modular exponentiation of src/mpi.c

Scratch memory is not modelled. The division and the Montgomery exponentiation run the same window code on
different multiplications: it is written once below, with the multiplication `mul` and the squaring `sqr`
as parameters.
-/
namespace Torsion

/-! ### Barrett reduction -/

/-- src/mpi.c:3535-3564 `mpn_barrett`. -/
def mpn_barrett (np : List Limb) (shift : Nat) : C (List Limb) := do
  C.check (np.length > 0)
  C.check (shift ≥ np.length * 2)
  let xp ← mpn_div (mpn_zero shift ++ [1]) np
  C.check ((mpn_strip xp).length = shift - np.length + 1)
  .ok (xp.take (shift - np.length + 1))

/-- src/mpi.c:3566-3601 `mpn_reduce`; `xp` has `shift` limbs. -/
def mpn_reduce (xp mp np : List Limb) : C (List Limb) := do
  let shift := xp.length
  let hp := (mpn_mul xp mp).drop shift
  let qp := mpn_mul hp np
  let qp := (mpn_sub_n xp (qp.take shift)).1
  let hi ← C.rd qp np.length
  .ok (mpn_reduce_weak (qp.take np.length) np hi).1

/-! ### Montgomery multiplication -/

/-- src/mpi.c:3607-3633 `mpn_mont`: `k` and `r`. -/
def mpn_mont (mp : List Limb) : C (Limb × List Limb) := do
  C.check (mp.length > 0)
  let m0 ← C.rd mp 0
  let rp ← mpn_mod (mpn_zero (mp.length * 2) ++ [1]) mp
  .ok (-(mp_inv_mod m0), rp)

/-- The second half of a round of src/mpi.c:3635-3672 `mpn_montmul_inner`, after `x * y[i]` was added to the
window `w = tp[i .. i + n - 1]`: `c3` and the limbs above the lowest one, which is not read again. -/
def mpn_mont_fold (mp w : List Limb) (k : Limb) : C (List Limb × Limb) := do
  let t0 ← C.rd w 0
  let b := mpn_addmul_1 w mp (t0 * k)
  .ok (b.1.drop 1, b.2)

/-- The rounds `i ≥ 1` of src/mpi.c:3635-3672 `mpn_montmul_inner` on the window `w = tp[i .. i + n - 1]` and the
carry `c1`. -/
def mpn_mont_rows (xp mp : List Limb) (k : Limb) : List Limb → Limb → List Limb → C (List Limb × Limb)
  | w, c1, [] => .ok (w, c1)
  | w, c1, y :: ys => do
    let a := mpn_addmul_1 w xp y
    let b ← mpn_mont_fold mp a.1 k
    let cx := mp_add c1 a.2
    let cy := mp_add cx.1 b.2
    mpn_mont_rows xp mp k (b.1 ++ [cy.1]) (cx.2 ||| cy.2) ys

/-- src/mpi.c:3635-3672 `mpn_montmul_inner`: `tp[n .. 2 * n - 1]` and the carry. -/
def mpn_montmul_inner (xp yp mp : List Limb) (k : Limb) : C (List Limb × Limb) :=
  match yp with
  | [] => .ub
  | y :: ys => do
    let a := mpn_mul_1 xp y
    let b ← mpn_mont_fold mp a.1 k
    let s := mp_add a.2 b.2
    mpn_mont_rows xp mp k (b.1 ++ [s.1]) s.2 ys

/-- src/mpi.c:3674-3692 `mpn_montmul`. -/
def mpn_montmul (xp yp mp : List Limb) (k : Limb) : C (List Limb) := do
  let t ← mpn_montmul_inner xp yp mp k
  .ok (if t.2 ≠ 0 then (mpn_sub_n t.1 mp).1 else t.1)

/-- src/mpi.c:3694-3713 `mpn_sec_montmul`. -/
def mpn_sec_montmul (xp yp mp : List Limb) (k : Limb) : C (List Limb) := do
  let t ← mpn_montmul_inner xp yp mp k
  .ok (mpn_reduce_weak t.1 mp t.2).1

/-! ### Sliding windows -/

/-- The odd powers `WND(0), WND(1), …`: the loop of src/mpi.c:4175-4261 `mpn_mont_powm` from `WND(i)` on, with `n`
entries to follow. -/
def mpn_slide_table (mul : List Limb → List Limb → C (List Limb)) (rp : List Limb) :
    Nat → List Limb → C (List (List Limb))
  | 0, w => .ok [w]
  | n + 1, w => do
    let t ← mul w rp
    let ts ← mpn_slide_table mul rp n t
    .ok (w :: ts)

/-- The loop `for (j = 0; j < width; j++)` of src/mpi.c:4175-4261 `mpn_mont_powm`. -/
def mpn_slide_sqrs (sqr : List Limb → C (List Limb)) : Nat → List Limb → C (List Limb)
  | 0, rp => .ok rp
  | n + 1, rp => do
    let rp ← sqr rp
    mpn_slide_sqrs sqr n rp

/-- A non-zero window of src/mpi.c:4175-4261 `mpn_mont_powm`, after its trailing zeros have been removed: `bits`
of `width` bits; `first` is `i == len`. -/
def mpn_slide_window (mul : List Limb → List Limb → C (List Limb)) (sqr : List Limb → C (List Limb))
    (tab : List (List Limb)) (first : Bool) (bits : Limb) (width : Nat) (rp : List Limb) : C (List Limb) := do
  let w ← C.rd tab (bits >>> 1).toNat
  if first then .ok w
  else do
    let rp ← mpn_slide_sqrs sqr width rp
    mul rp w

/-- The loop `while (i >= MP_SLIDE_WIDTH)` of src/mpi.c:4175-4261 `mpn_mont_powm`, with `MP_SLIDE_WIDTH = 4` and
`MP_SLIDE_SIZE = 8`: the final `i` and `rp`. The first parameter bounds the rounds. -/
def mpn_slide_loop (mul : List Limb → List Limb → C (List Limb)) (sqr : List Limb → C (List Limb))
    (tab : List (List Limb)) (yp : List Limb) (len : Nat) : Nat → Nat → List Limb → C (Nat × List Limb)
  | 0, _, _ => .ub
  | n + 1, i, rp =>
    if i ≥ 4 then
      let bits := mpn_getbits yp (i - 4) 4
      if bits < 8 then do
        let rp ← sqr rp
        mpn_slide_loop mul sqr tab yp len n (i - 1) rp
      else do
        let rp ← mpn_slide_window mul sqr tab (i = len) (bits >>> mp_ctz bits) (4 - mp_ctz bits) rp
        mpn_slide_loop mul sqr tab yp len n (i - (4 - mp_ctz bits)) rp
    else .ok (i, rp)

/-- The final loop `for (i -= 1; i >= 0; i--)` of src/mpi.c:4175-4261 `mpn_mont_powm`. -/
def mpn_slide_bits (mul : List Limb → List Limb → C (List Limb)) (sqr : List Limb → C (List Limb))
    (yp ap : List Limb) : Nat → List Limb → C (List Limb)
  | 0, rp => .ok rp
  | i + 1, rp => do
    let rp ← sqr rp
    let b ← mpn_tstbit yp i
    let rp ← (if b ≠ 0 then mul rp ap else .ok rp)
    mpn_slide_bits mul sqr yp ap i rp

/-- The exponentiation of src/mpi.c:4175-4261 `mpn_mont_powm` and src/mpi.c:4082-4173 `mpn_div_powm`, with the bit length
of the exponent. -/
def mpn_slide_len (mul : List Limb → List Limb → C (List Limb)) (sqr : List Limb → C (List Limb))
    (ap yp : List Limb) (len : Nat) : C (List Limb) :=
  if yp.length > 2 then do
    let rp ← sqr ap
    let tab ← mpn_slide_table mul rp 7 ap
    let t ← mpn_slide_loop mul sqr tab yp len (len + 1) len rp
    mpn_slide_bits mul sqr yp ap t.1 t.2
  else mpn_slide_bits mul sqr yp ap (len - 1) ap

/-- The exponentiation of src/mpi.c:4175-4261 `mpn_mont_powm` and src/mpi.c:4082-4173 `mpn_div_powm`. -/
def mpn_slide (mul : List Limb → List Limb → C (List Limb)) (sqr : List Limb → C (List Limb))
    (ap yp : List Limb) : C (List Limb) := do
  let top ← C.rd yp (yp.length - 1)
  mpn_slide_len mul sqr ap yp (yp.length * 64 - mp_clz top)

/-- src/mpi.c:2997-3002 `mpn_mod_inner`. -/
def mpn_mod_inner (np : List Limb) (den : Divisor) : C (List Limb) := do
  let t ← mpn_divmod_inner np den
  .ok t.2

/-- src/mpi.c:4082-4173 `mpn_div_powm`. -/
def mpn_div_powm (xp yp mp : List Limb) : C (List Limb) := do
  let ap := xp ++ mpn_zero (mp.length - xp.length)
  let den ← mpn_divmod_precomp mp
  let rp ← mpn_slide (fun a b => mpn_mod_inner (mpn_mul_n a b) den) (fun a => mpn_mod_inner (mpn_sqr a) den) ap yp
  if mpn_cmp rp mp ≥ 0 then mpn_mod_inner rp den else .ok rp

/-- The final reduction of src/mpi.c:4175-4261 `mpn_mont_powm`. -/
def mpn_mont_final (rp mp : List Limb) : C (List Limb) :=
  if mpn_cmp rp mp ≥ 0 then
    let rp := (mpn_sub_n rp mp).1
    if mpn_cmp rp mp ≥ 0 then mpn_mod rp mp else .ok rp
  else .ok rp

/-- src/mpi.c:4175-4261 `mpn_mont_powm`. -/
def mpn_mont_powm (xp yp mp : List Limb) : C (List Limb) := do
  let ap := xp ++ mpn_zero (mp.length - xp.length)
  let kr ← mpn_mont mp
  let ap ← mpn_montmul ap kr.2 mp kr.1
  let rp ← mpn_slide (fun a b => mpn_montmul a b mp kr.1) (fun a => mpn_montmul a a mp kr.1) ap yp
  let rp ← mpn_montmul rp (mpn_set_1 mp.length 1) mp kr.1
  mpn_mont_final rp mp

/-- src/mpi.c:4263-4304 `mpn_powm`. -/
def mpn_powm (xp yp mp : List Limb) : C (List Limb) := do
  C.check (mp.length ≠ 0 ∧ mp.getLast? ≠ some 0)
  C.check (xp.length ≤ mp.length)
  let m0 ← C.rd mp 0
  if mp.length = 1 ∧ m0 = 1 then .ok (mpn_zero mp.length)
  else
    let yp := mpn_strip yp
    if yp.length = 0 then .ok (mpn_set_1 mp.length 1)
    else if xp.length = 0 then .ok (mpn_zero mp.length)
    else if yp.length > 1 ∧ m0 &&& 1 ≠ 0 then mpn_mont_powm xp yp mp
    else mpn_div_powm xp yp mp

/-! ### Fixed windows -/

/-- The loop `for (i = 2; i < MP_FIXED_SIZE; i++)` of src/mpi.c:4306-4365 `mpn_sec_powm` from `WND(i - 1)` on. -/
def mpn_fixed_table (mul : List Limb → List Limb → C (List Limb)) (w1 : List Limb) :
    Nat → List Limb → C (List (List Limb))
  | 0, w => .ok [w]
  | n + 1, w => do
    let t ← mul w w1
    let ts ← mpn_fixed_table mul w1 n t
    .ok (w :: ts)

/-- The loop over the windows of src/mpi.c:4306-4365 `mpn_sec_powm`, with `MP_FIXED_WIDTH = 4` and
`MP_FIXED_SIZE = 16`: `i` windows are left of `steps`. The loop over `mpn_cnd_select` is the one of
`mpn_sec_tabselect`. -/
def mpn_fixed_loop (mul : List Limb → List Limb → C (List Limb)) (tab : List (List Limb)) (yp : List Limb)
    (steps : Nat) : Nat → List Limb → List Limb → C (List Limb)
  | 0, rp, _ => .ok rp
  | i + 1, rp, sp => do
    let b := mpn_getbits yp (i * 4) 4
    let sp := mpn_sec_tabselect sp tab b.toNat
    let rp ← (if i + 1 = steps then .ok sp else do
      let rp ← mpn_slide_sqrs (fun a => mul a a) 4 rp
      mul rp sp)
    mpn_fixed_loop mul tab yp steps i rp sp

/-- src/mpi.c:4306-4365 `mpn_sec_powm`. -/
def mpn_sec_powm (xp yp mp : List Limb) : C (List Limb) := do
  C.check (mp.length ≠ 0 ∧ mp.getLast? ≠ some 0)
  let m0 ← C.rd mp 0
  C.check (m0 &&& 1 ≠ 0)
  C.check (xp.length ≤ mp.length)
  let rp := xp ++ mpn_zero (mp.length - xp.length)
  let kr ← mpn_mont mp
  let w0 ← mpn_sec_montmul (mpn_set_1 mp.length 1) kr.2 mp kr.1
  let w1 ← mpn_sec_montmul rp kr.2 mp kr.1
  let ts ← mpn_fixed_table (fun a b => mpn_sec_montmul a b mp kr.1) w1 14 w1
  let steps := (yp.length * 64 + 4 - 1) / 4
  let rp ← mpn_fixed_loop (fun a b => mpn_sec_montmul a b mp kr.1) (w0 :: ts) yp steps steps w0 (mpn_zero mp.length)
  mpn_sec_montmul rp (mpn_set_1 mp.length 1) mp kr.1

/-- src/mpi.c:3975-3998 `mpn_sec_invert`: `zp` and the return value. -/
def mpn_sec_invert (xp mp : List Limb) : C (List Limb × Limb) := do
  C.check (mp.length ≠ 0 ∧ mp.getLast? ≠ some 0)
  let m0 ← C.rd mp 0
  C.check (m0 &&& 1 ≠ 0)
  if mp.length = 1 ∧ m0 = 1 then .ok (mpn_zero mp.length, 0)
  else do
    let yp := (mpn_sub_1 mp 2).1
    let top ← C.rd yp (mp.length - 1)
    let zp ← mpn_sec_powm xp (yp.take (mp.length - (flag (top = 0)).toNat)) mp
    .ok (zp, mpn_sec_zero_p zp ^^^ 1)

/-! ### Signed integers -/

/-- src/mpi.c:7795-7812 `mpz_powm_inner`. -/
def mpz_powm_inner (z : Dest) (x y m : Mpz) : C Mpz := do
  mpz_grow z m.mag.length
  let t ← mpn_powm x.mag y.mag m.mag
  .ok ⟨false, mpn_strip t⟩

/-- src/mpi.c:7814-7837 `mpz_powm`. -/
def mpz_powm (z : Dest) (x y m : Mpz) : C Mpz :=
  if m.size = 0 then .abort
  else if y.size < 0 then do
    let t ← mpz_invert .heap x m
    C.check t.2
    mpz_powm_inner z t.1 y m
  else if x.size < 0 ∨ mpz_cmpabs x m ≥ 0 then do
    let t ← mpz_mod (mpz_init_vla (m.mag.length + 1)) x m
    mpz_powm_inner z t y m
  else mpz_powm_inner z x y m

/-- src/mpi.c:7839-7845 `mpz_powm_ui`. -/
def mpz_powm_ui (z : Dest) (x : Mpz) (y : Limb) (m : Mpz) : C Mpz := mpz_powm z x (mpz_set_ui y) m

/-- src/mpi.c:7847-7864 `mpz_powm_sec_inner`. -/
def mpz_powm_sec_inner (z : Dest) (x y m : Mpz) : C Mpz := do
  mpz_grow z m.mag.length
  let t ← mpn_sec_powm x.mag y.mag m.mag
  .ok ⟨false, mpn_strip t⟩

/-- src/mpi.c:7866-7881 `mpz_powm_sec`. -/
def mpz_powm_sec (z : Dest) (x y m : Mpz) : C Mpz :=
  if y.size < 0 ∨ m.size = 0 then .abort
  else do
    let m0 ← limb0 m
    C.check (m0 &&& 1 ≠ 0)
    if x.size < 0 ∨ mpz_cmpabs x m ≥ 0 then do
      let t ← mpz_mod (mpz_init_vla (m.mag.length + 1)) x m
      mpz_powm_sec_inner z t y m
    else mpz_powm_sec_inner z x y m

end Torsion
