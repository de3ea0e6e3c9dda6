import Verif.Mpi.Root

/-!
# Model: factorials, binomials, Fibonacci and Lucas numbers, removing a factor (src/mpi.c)

Loops whose number of rounds is known recurse on it. `mpz_swap` with a number which is then overwritten or freed is the
passing on of the other number.
-/
namespace Torsion

/-- The loop of src/mpi.c:8251-8267 `mpz_mfac_uiui`: `n > m` can hold for at most `n` rounds. -/
def mpz_mfac_loop (m : Limb) : Nat → Limb → Mpz → C Mpz
  | 0, _, _ => .ub
  | f + 1, n, z =>
    if m < n then do
      let z ← mpz_mul_ui .heap z (n - m)
      mpz_mfac_loop m f (n - m) z
    else .ok z

/-- src/mpi.c:8251-8267 `mpz_mfac_uiui`. -/
def mpz_mfac_uiui (n m : Limb) : C Mpz :=
  if n = 0 then .ok (mpz_set_ui 1)
  else if m = 0 then .ok (mpz_set_ui n)
  else mpz_mfac_loop m (n.toNat + 1) n (mpz_set_ui n)

/-- src/mpi.c:8241-8244 `mpz_fac_ui`. -/
def mpz_fac_ui (n : Limb) : C Mpz := mpz_mfac_uiui n 1

/-- src/mpi.c:8246-8249 `mpz_2fac_ui`. -/
def mpz_2fac_ui (n : Limb) : C Mpz := mpz_mfac_uiui n 2

/-- The loop of src/mpi.c:8295-8340 `mpz_bin_ui`: rounds left, `i`, `z`, `m`. -/
def mpz_bin_loop : Nat → Limb → Mpz → Mpz → C Mpz
  | 0, _, z, _ => .ok z
  | c + 1, i, z, m => do
    let t ← mpz_mul .heap z m
    let q ← mpz_quo_ui (some .heap) t (i + 1)
    let m ← mpz_sub_ui .heap m 1
    mpz_bin_loop c (i + 1) q.1 m

/-- src/mpi.c:8295-8340 `mpz_bin_ui`. -/
def mpz_bin_ui (n : Mpz) (k : Limb) : C Mpz := do
  let m ← (if n.size < 0 then do
      let m ← mpz_neg .heap n
      let m ← mpz_add_ui .heap m k
      mpz_sub_ui .heap m 1
    else mpz_set .heap n : C Mpz)
  let neg := decide (n.size < 0) && k &&& 1 ≠ 0
  if mpz_cmp_ui m k < 0 then .ok ⟨false, []⟩
  else do
    let t ← mpz_sub_ui .heap m k
    let k ← (if mpz_cmp_ui t k < 0 then mpz_get_ui t else .ok k : C Limb)
    let z ← mpz_bin_loop k.toNat 0 (mpz_set_ui 1) m
    if neg then mpz_neg .heap z else .ok z

/-- The loop of src/mpi.c:8342-8362 `mpz_bin_uiui`: rounds left, `i`, `z`. -/
def mpz_bin_uiui_loop (n : Limb) : Nat → Limb → Mpz → C Mpz
  | 0, _, z => .ok z
  | c + 1, i, z => do
    let z ← mpz_mul_ui .heap z (n - i)
    let q ← mpz_quo_ui (some .heap) z (i + 1)
    mpz_bin_uiui_loop n c (i + 1) q.1

/-- src/mpi.c:8342-8362 `mpz_bin_uiui`. -/
def mpz_bin_uiui (n k : Limb) : C Mpz :=
  if n < k then .ok ⟨false, []⟩
  else mpz_bin_uiui_loop n (if n - k < k then n - k else k).toNat 0 (mpz_set_ui 1)

/-- src/mpi.c:8364-8383 `mpz_bin_siui`. -/
def mpz_bin_siui (n : BitVec 64) (k : Limb) : C Mpz :=
  if n.slt 0 then
    if mp_limb_cast n + k < k then mpz_bin_ui ⟨true, [mp_limb_cast n]⟩ k
    else do
      let z ← mpz_bin_uiui (mp_limb_cast n + k - 1) k
      if k &&& 1 ≠ 0 then mpz_neg .heap z else .ok z
  else mpz_bin_uiui n k

/-- One round of src/mpi.c:8390-8443 `mpz_fib2_ui`. -/
def mpz_fib_step (bit : Bool) (a b : Mpz) : C (Mpz × Mpz) := do
  let t ← mpz_add .heap b b
  let t ← mpz_sub .heap t a
  let c ← mpz_mul .heap a t
  let d ← mpz_sqr .heap a false
  let t ← mpz_sqr .heap b false
  let d ← mpz_add .heap d t
  if bit then do
    let b ← mpz_add .heap c d
    .ok (d, b)
  else .ok (c, d)

/-- The loop of src/mpi.c:8390-8443 `mpz_fib2_ui`, over the bits below the given number. -/
def mpz_fib_loop (n : Limb) : Nat → Mpz → Mpz → C (Mpz × Mpz)
  | 0, a, b => .ok (a, b)
  | i + 1, a, b => do
    let ab ← mpz_fib_step ((n >>> i) &&& 1 ≠ 0) a b
    mpz_fib_loop n i ab.1 ab.2

/-- src/mpi.c:8390-8443 `mpz_fib2_ui`: the outputs `fn` and `fn1`. -/
def mpz_fib2_ui (n : Limb) : C (Mpz × Mpz) :=
  if n = 0 then .ok (⟨false, []⟩, ⟨false, []⟩)
  else do
    let ab ← mpz_fib_loop (n - 1) (mp_bitlen (n - 1)) (mpz_set_ui 0) (mpz_set_ui 1)
    .ok (ab.2, ab.1)

/-- src/mpi.c:8385-8388 `mpz_fib_ui`. -/
def mpz_fib_ui (n : Limb) : C Mpz := do
  let f ← mpz_fib2_ui n
  .ok f.1

/-- src/mpi.c:8450-8480 `mpz_lucnum2_ui`: the outputs `ln` and `ln1`. -/
def mpz_lucnum2_ui (n : Limb) : C (Mpz × Mpz) :=
  if n = 0 then .ok (mpz_set_ui 2, ⟨false, []⟩)
  else do
    let f ← mpz_fib2_ui n
    let l1 ← mpz_add .heap f.1 f.1
    let l1 ← mpz_sub .heap l1 f.2
    let l ← mpz_add .heap f.2 f.2
    let l ← mpz_add .heap l f.1
    .ok (l, l1)

/-- src/mpi.c:8445-8448 `mpz_lucnum_ui`. -/
def mpz_lucnum_ui (n : Limb) : C Mpz := do
  let l ← mpz_lucnum2_ui n
  .ok l.1

/-- The loop of src/mpi.c:8177-8239 `mpz_remove`: `n` and the count. The numbers `n` and `q` have room for the limbs of
`x`, `r` for those of `y`; `n` shrinks in every round. -/
def mpz_remove_loop (xn : Nat) (y : Mpz) : Nat → Mpz → Nat → C (Mpz × Nat)
  | 0, _, _ => .ub
  | f + 1, n, c =>
    if n.size = 0 then .ok (n, c)
    else do
      let qr ← mpz_quorem (some (mpz_init_vla xn)) (some (mpz_init_vla y.mag.length)) n y
      if qr.2.size ≠ 0 then .ok (n, c) else mpz_remove_loop xn y f qr.1 (c + 1)

/-- src/mpi.c:8177-8239 `mpz_remove`: the output (if there is one) and the count. -/
def mpz_remove (z : Option Dest) (x y : Mpz) : C (Mpz × Nat) :=
  if y.mag.length = 0 then .abort
  else do
    let w ← limb0 y
    if x.mag.length = 0 ∨ (y.mag.length = 1 ∧ w = 1) then do
      let r ← ifDest z x (fun d => mpz_set d x)
      .ok (r, 0)
    else if y.mag.length = 1 ∧ w &&& (w - 1) = 0 then do
      let b := mp_bitlen (w - 1)
      let c := mpz_ctz x / b
      let r ← ifDest z x (fun d => do
        let r ← mpz_quo_2exp d x (c * b)
        if c % 2 = 1 ∧ y.size < 0 then mpz_neg d r else .ok r)
      .ok (r, c)
    else do
      let n ← mpz_set (mpz_init_vla x.mag.length) x
      let nc ← mpz_remove_loop x.mag.length y (64 * x.mag.length + 1) n 0
      let r ← ifDest z x (fun d => mpz_set d nc.1)
      .ok (r, nc.2)

end Torsion
