import Verif.Mpi.Random
import Verif.Mpi.Powm
import Verif.Mpi.Gcd

/-!
# Model: square roots modulo a prime (src/mpi.c)

The loops of Tonelli-Shanks end for a prime modulus only. Each of them gets `fuel` rounds; `R.spin` means that it is
still running. `none` is a return value of zero.
-/
namespace Torsion

/-- src/mpi.c:7883-7915 `mpz_sqrtm_3mod4`. -/
def mpz_sqrtm_3mod4 (x p : Mpz) : C (Option Mpz) := do
  let e ← mpz_add_ui .heap p 1
  let e ← mpz_quo_2exp .heap e 2
  let b ← mpz_powm .heap x e p
  let c ← mpz_sqr .heap b false
  let c ← mpz_mod .heap c p
  .ok (if mpz_cmp c x ≠ 0 then none else some b)

/-- src/mpi.c:7917-7967 `mpz_sqrtm_5mod8`. -/
def mpz_sqrtm_5mod8 (x p : Mpz) : C (Option Mpz) := do
  let t ← mpz_mul_2exp .heap x 1
  let t ← mpz_mod .heap t p
  let e ← mpz_quo_2exp .heap p 3
  let a ← mpz_powm .heap t e p
  let c ← mpz_sqr .heap a false
  let b ← mpz_mod .heap c p
  let c ← mpz_mul .heap b t
  let b ← mpz_mod .heap c p
  let b ← mpz_sub_ui .heap b 1
  let c ← mpz_mul .heap b x
  let b ← mpz_mod .heap c p
  let c ← mpz_mul .heap b a
  let b ← mpz_mod .heap c p
  let c ← mpz_sqr .heap b false
  let c ← mpz_mod .heap c p
  .ok (if mpz_cmp c x ≠ 0 then none else some b)

/-- src/mpi.c:7969-8088 `mpz_sqrtm_0`: the search for a non-residue. -/
def mpz_sqrtm_search (p : Mpz) : Nat → Mpz → R Mpz
  | 0, _ => .spin
  | f + 1, n => do
    let j ← mpz_jacobi n p
    if j ≠ -1 then do
      let n ← mpz_add_ui .heap n 1
      mpz_sqrtm_search p f n
    else .ok n

/-- src/mpi.c:7969-8088 `mpz_sqrtm_0`: the loop which squares `t` until it is one and counts in `m`. -/
def mpz_sqrtm_order (p : Mpz) : Nat → Mpz → Nat → R Nat
  | 0, _, _ => .spin
  | f + 1, t, m =>
    if mpz_cmp_ui t 1 ≠ 0 then do
      let s ← mpz_sqr .heap t false
      let t ← mpz_mod .heap s p
      mpz_sqrtm_order p f t (m + 1)
    else .ok m

/-- src/mpi.c:7969-8088 `mpz_sqrtm_0`: the loop which squares `t` a given number of times. -/
def mpz_sqrtm_pow (p : Mpz) : Nat → Mpz → C Mpz
  | 0, t => .ok t
  | c + 1, t => do
    let s ← mpz_sqr .heap t false
    let t ← mpz_mod .heap s p
    mpz_sqrtm_pow p c t

/-- src/mpi.c:7969-8088 `mpz_sqrtm_0`: the outer loop on `y`, `b`, `g` and `k`. -/
def mpz_sqrtm_loop (p : Mpz) (fuel : Nat) : Nat → Mpz → Mpz → Mpz → Nat → R (Option Mpz)
  | 0, _, _, _, _ => .spin
  | f + 1, y, b, g, k => do
    let t ← mpz_set .heap b
    let m ← mpz_sqrtm_order p fuel t 0
    if m = 0 then .ok (some y)
    else if m ≥ k then .ok none
    else do
      let t ← mpz_sqrtm_pow p (k - m - 1) g
      let s ← mpz_sqr .heap t false
      let g ← mpz_mod .heap s p
      let s ← mpz_mul .heap y t
      let y ← mpz_mod .heap s p
      let s ← mpz_mul .heap b g
      let b ← mpz_mod .heap s p
      mpz_sqrtm_loop p fuel f y b g m

/-- src/mpi.c:7969-8088 `mpz_sqrtm_0`. -/
def mpz_sqrtm_0 (fuel : Nat) (x p : Mpz) : R (Option Mpz) :=
  if mpz_cmp_ui p 1 = 0 then .ok none
  else do
    let j ← mpz_jacobi x p
    if j = -1 then .ok none
    else if j = 0 then .ok (some ⟨false, []⟩)
    else do
      let s ← mpz_sub_ui .heap p 1
      let e := mpz_ctz s
      let s ← mpz_quo_2exp .heap s e
      let n ← mpz_sqrtm_search p fuel (mpz_set_ui 2)
      let t ← mpz_add_ui .heap s 1
      let t ← mpz_quo_2exp .heap t 1
      let y ← mpz_powm .heap x t p
      let b ← mpz_powm .heap x s p
      let g ← mpz_powm .heap n s p
      mpz_sqrtm_loop p fuel fuel y b g e

/-- src/mpi.c:8090-8117 `mpz_sqrtm`: the output `z` and the return value. -/
def mpz_sqrtm (fuel : Nat) (x p : Mpz) : R (Mpz × Bool) := do
  let even ← mpz_even_p p
  if p.size ≤ 0 ∨ even then .ok (⟨false, []⟩, false)
  else do
    let t ← mpz_mod .heap x p
    let p0 ← limb0 p
    let z ← (if p0 &&& 3 = 3 then R.lift (mpz_sqrtm_3mod4 t p)
      else if p0 &&& 7 = 5 then R.lift (mpz_sqrtm_5mod8 t p)
      else mpz_sqrtm_0 fuel t p : R (Option Mpz))
    .ok (match z with
      | some z => (z, true)
      | none => (⟨false, []⟩, false))

/-- src/mpi.c:8119-8175 `mpz_sqrtpq`; a failure leaves the output alone. -/
def mpz_sqrtpq (fuel : Nat) (x p q : Mpz) : R (Option Mpz) := do
  let sp ← mpz_sqrtm fuel x p
  if sp.2 = false then .ok none
  else do
    let sq ← mpz_sqrtm fuel x q
    if sq.2 = false then .ok none
    else do
      let g ← mpz_gcdext p q
      let n ← mpz_mul .heap p q
      let t ← mpz_mul .heap sq.1 g.2.1
      let u ← mpz_mod .heap t n
      let t ← mpz_mul .heap u p
      let u ← mpz_mod .heap t n
      let t ← mpz_mul .heap sp.1 g.2.2
      let v ← mpz_mod .heap t n
      let t ← mpz_mul .heap v q
      let v ← mpz_mod .heap t n
      let t ← mpz_add .heap u v
      let z ← mpz_mod .heap t n
      .ok (some z)

end Torsion
