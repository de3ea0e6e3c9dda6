import Verif.Mpi.Mpn

/-!
# Model of src/mpi.c: division of limb vectors

The default configuration: `MP_USE_DIV_3BY2` is not defined, so that the 2-by-1 reciprocal is used for
divisors of every length. The scratch vector `den->up` is a local of the functions that fill it. Quotient
and remainder are always returned; callers that pass `NULL` ignore them.
-/
namespace Torsion

/-- src/mpi.c:846-853, `mp_divisor_t` without its scratch memory. -/
structure Divisor where
  vp : List Limb
  inv : Limb
  shift : Nat
  size : Nat

/-- src/mpi.c:2480-2493 `mpn_divmod_init_1` with its shift. -/
def mpn_divmod_init_1s (d : Limb) (shift : Nat) : C Divisor := do
  let inv ← mp_inv_2by1 (d <<< shift)
  .ok ⟨[d <<< shift], inv, shift, 1⟩

/-- src/mpi.c:2480-2493 `mpn_divmod_init_1`. -/
def mpn_divmod_init_1 (d : Limb) : C Divisor :=
  if d = 0 then .abort else mpn_divmod_init_1s d (mp_clz d)

/-- src/mpi.c:2506-2537 `mpn_divmod_precomp` with its shift. -/
def mpn_divmod_precomp_s (dp : List Limb) (top : Limb) (shift : Nat) : C Divisor := do
  let dn := dp.length
  let vp := if dn = 1 then [top <<< shift]
    else if shift ≠ 0 then (mpn_lshift dp shift).1
    else dp
  let vtop ← C.rd vp (dn - 1)
  let inv ← mp_inv_2by1 vtop
  .ok ⟨vp, inv, shift, dn⟩

/-- src/mpi.c:2506-2537 `mpn_divmod_precomp`. -/
def mpn_divmod_precomp (dp : List Limb) : C Divisor :=
  match dp.getLast? with
  | none => .abort
  | some top => if top = 0 then .abort else mpn_divmod_precomp_s dp top (mp_clz top)

/-- The loop of src/mpi.c:2539-2571 `mpn_divmod_small_2by1` over the limbs `np`, the upper limbs first:
quotient and running remainder. -/
def mpn_divmod_small_loop (d m : Limb) (s : Nat) : List Limb → List Limb × Limb
  | [] => ([], 0)
  | n0 :: np =>
    let t := mpn_divmod_small_loop d m s np
    let n1 := t.2
    let u := if s ≠ 0 then ((n1 <<< s) ||| (n0 >>> (64 - s)), n0 <<< s) else (n1, n0)
    let z := mp_div_2by1 u.1 u.2 d m
    (z.1 :: t.1, z.2 >>> s)

/-- src/mpi.c:2539-2571 `mpn_divmod_small_2by1`. -/
def mpn_divmod_small_2by1 (np : List Limb) (den : Divisor) : C (List Limb × Limb) := do
  let d ← C.rd den.vp 0
  .ok (mpn_divmod_small_loop d den.inv den.shift np)

/-- The estimation loop of src/mpi.c:2621-2780 `mpn_divmod_large_2by1` with a bound on its rounds; running out
of the bound is `ub`. -/
def mpn_divmod_est (v1 v0 u0 : Limb) : Nat → Limb → Limb → C Limb
  | 0, _, _ => .ub
  | n + 1, qhat, rhat =>
    if mp_mul_gt_2 qhat v0 rhat u0 then
      let qhat := qhat - 1
      let rhat := rhat + v1
      if rhat < v1 then .ok qhat else mpn_divmod_est v1 v0 u0 n qhat rhat
    else .ok qhat

/-- One round of src/mpi.c:2621-2780 `mpn_divmod_large_2by1`, steps D3 to D6, on the window
`w = up[j .. j + dn]`. -/
def mpn_divmod_round (vp : List Limb) (m : Limb) (dn : Nat) (w : List Limb) : C (Limb × List Limb) := do
  let u2 ← C.rd w dn
  let v1 ← C.rd vp (dn - 1)
  let qhat ← (if u2 = v1 then .ok (BitVec.allOnes 64) else do
    let u1 ← C.rd w (dn - 1)
    let v0 ← C.rd vp (dn - 2)
    let u0 ← C.rd w (dn - 2)
    let t := mp_div_2by1 u2 u1 v1 m
    mpn_divmod_est v1 v0 u0 3 t.1 t.2)
  let s := mpn_submul_1 (w.take dn) vp qhat
  let t := mp_sub u2 s.2
  if t.2 ≠ 0 then
    let a := mpn_add_n s.1 vp
    .ok (qhat - 1, a.1 ++ [t.1 + a.2])
  else .ok (qhat, s.1 ++ [t.1])

/-- The loop of src/mpi.c:2621-2780 `mpn_divmod_large_2by1`. The list `lo` is `up[0 .. j]`, `hi` the `dn` limbs
above; the rounds for the upper limbs come first. The top limb of a window is not read again. -/
def mpn_divmod_large_loop (vp : List Limb) (m : Limb) (dn : Nat) (hi : List Limb) :
    List Limb → C (List Limb × List Limb)
  | [] => .ok ([], hi)
  | u :: lo => do
    let t ← mpn_divmod_large_loop vp m dn hi lo
    let r ← mpn_divmod_round vp m dn (u :: t.2)
    .ok (r.1 :: t.1, r.2.take dn)

/-- src/mpi.c:2621-2780 `mpn_divmod_large_2by1`. -/
def mpn_divmod_large_2by1 (np : List Limb) (den : Divisor) : C (List Limb × List Limb) := do
  let dn := den.size
  let up := if den.shift ≠ 0 then
      let t := mpn_lshift np den.shift
      t.1 ++ [t.2]
    else np ++ [0]
  let k := np.length - dn + 1
  let t ← mpn_divmod_large_loop den.vp den.inv dn (up.drop k) (up.take k)
  let rp := if den.shift ≠ 0 then (mpn_rshift t.2 den.shift).1 else t.2
  .ok (t.1, rp)

/-- src/mpi.c:2973-2995 `mpn_divmod_inner`. -/
def mpn_divmod_inner (np : List Limb) (den : Divisor) : C (List Limb × List Limb) := do
  C.check (den.size ≤ np.length)
  if den.size = 1 then do
    let t ← mpn_divmod_small_2by1 np den
    .ok (t.1, [t.2])
  else mpn_divmod_large_2by1 np den

/-- src/mpi.c:3008-3032 `mpn_divmod_1`: quotient and remainder. -/
def mpn_divmod_1 (np : List Limb) (d : Limb) : C (List Limb × Limb) := do
  C.check (d ≠ 0)
  match np with
  | [] => .ok ([], 0)
  | [n] =>
    let q := n / d
    .ok ([q], n - q * d)
  | n0 :: n1 :: ns => do
    let den ← mpn_divmod_init_1 d
    mpn_divmod_small_2by1 (n0 :: n1 :: ns) den

/-- src/mpi.c:3034-3037 `mpn_div_1`. -/
def mpn_div_1 (np : List Limb) (d : Limb) : C (List Limb) := do
  let t ← mpn_divmod_1 np d
  .ok t.1

/-- src/mpi.c:3039-3042 `mpn_mod_1`. -/
def mpn_mod_1 (np : List Limb) (d : Limb) : C Limb := do
  let t ← mpn_divmod_1 np d
  .ok t.2

/-- src/mpi.c:3044-3056 `mpn_divmod`: quotient of `nn - dn + 1` limbs and remainder of `dn` limbs. -/
def mpn_divmod (np dp : List Limb) : C (List Limb × List Limb) := do
  C.check (dp.length ≠ 0 ∧ dp.length ≤ np.length)
  let den ← mpn_divmod_precomp dp
  mpn_divmod_inner np den

/-- src/mpi.c:3058-3062 `mpn_div`. -/
def mpn_div (np dp : List Limb) : C (List Limb) := do
  let t ← mpn_divmod np dp
  .ok t.1

/-- src/mpi.c:3064-3068 `mpn_mod`. -/
def mpn_mod (np dp : List Limb) : C (List Limb) := do
  let t ← mpn_divmod np dp
  .ok t.2

/-- src/mpi.c:3074-3077 `mpn_divexact_1`. -/
def mpn_divexact_1 (np : List Limb) (d : Limb) : C (List Limb) := do
  let t ← mpn_divmod_1 np d
  C.check (t.2 = 0)
  .ok t.1

/-- src/mpi.c:3079-3094 `mpn_divexact`. -/
def mpn_divexact (np dp : List Limb) : C (List Limb) := do
  C.check (dp.length ≠ 0)
  let t ← mpn_divmod np dp
  C.check ((mpn_strip t.2).length = 0)
  .ok t.1

end Torsion
