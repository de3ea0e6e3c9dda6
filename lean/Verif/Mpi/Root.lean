import Verif.Mpi.MpzBit

/-!
# Model of src/mpi.c: integer roots, perfect powers and the sieve

The Newton loops take a number of steps that running out of is `ub`; the integers they work on are heap
integers. Both outputs of `mpz_sqrtrem` and `mpz_rootrem` are always computed (the C code skips those that are
`NULL`). The sieve counts with natural numbers: the checks of `mpn_sieve_size`, which every caller runs
first, keep `p * p` and `i + p` below `2^64`.
-/
namespace Torsion

/-- src/mpi.c:6574-6631 `mpz_sqrtrem`: the Newton loop, from `u` to the final `s`. -/
def mpz_sqrt_loop (x : Mpz) : Nat → Mpz → C Mpz
  | 0, _ => .ub
  | n + 1, s => do
    let t ← mpz_quo .heap x s
    let t ← mpz_add .heap s t
    let u ← mpz_quo_2exp .heap t 1
    if mpz_cmpabs u s < 0 then mpz_sqrt_loop x n u else .ok s

/-- src/mpi.c:6574-6631 `mpz_sqrtrem`: root and remainder. -/
def mpz_sqrtrem (x : Mpz) : C (Mpz × Mpz) :=
  if x.size < 0 then .abort
  else if x.size = 0 then .ok (⟨false, []⟩, ⟨false, []⟩)
  else do
    let bits ← mpz_bitlen x
    let u ← mpz_setbit ⟨false, []⟩ ((bits + 1) / 2 + 1)
    let s ← mpz_sqrt_loop x (2 ^ (64 * u.mag.length)) u
    let t ← mpz_sqr .heap s
    let r ← mpz_sub .heap x t
    .ok (s, r)

/-- src/mpi.c:6633-6636 `mpz_sqrt`. -/
def mpz_sqrt (x : Mpz) : C Mpz := do
  let sr ← mpz_sqrtrem x
  .ok sr.1

/-- src/mpi.c:6638-6654 `mpz_perfect_square_p`. -/
def mpz_perfect_square_p (x : Mpz) : C Bool :=
  if x.size < 0 then .ok false
  else do
    let sr ← mpz_sqrtrem x
    .ok (sr.2.size = 0)

/-- src/mpi.c:3100-3137 `mpn_sqrtrem`: the root in `(xn + 1) / 2` limbs, the remainder in `xn` limbs and the number
of limbs of the remainder (the test for overlapping operands is left out). -/
def mpn_sqrtrem (xp : List Limb) : C (List Limb × List Limb × Nat) :=
  if xp.getLast? = none ∨ xp.getLast? = some 0 then .abort
  else do
    let sr ← mpz_sqrtrem ⟨false, xp⟩
    C.check (sr.1.mag.length ≤ (xp.length + 1) / 2)
    C.check (sr.2.mag.length ≤ xp.length)
    .ok (sr.1.mag ++ mpn_zero ((xp.length + 1) / 2 - sr.1.mag.length),
      sr.2.mag ++ mpn_zero (xp.length - sr.2.mag.length), sr.2.mag.length)

/-- src/mpi.c:3139-3149 `mpn_perfect_square_p`. -/
def mpn_perfect_square_p (xp : List Limb) : C Bool :=
  if xp.getLast? = none ∨ xp.getLast? = some 0 then .abort
  else mpz_perfect_square_p ⟨false, xp⟩

/-- src/mpi.c:6451-6516 `mpz_rootrem`: the Newton loop, from `u` to the final `s`. -/
def mpz_root_loop (x : Mpz) (k : Limb) : Nat → Mpz → C Mpz
  | 0, _ => .ub
  | n + 1, s => do
    let t ← mpz_pow_ui s (k - 1)
    let u ← mpz_quo .heap x t
    let t ← mpz_mul_ui .heap s (k - 1)
    let t ← mpz_add .heap t u
    let u ← mpz_quo_ui (some .heap) t k
    if mpz_cmpabs u.1 s < 0 then mpz_root_loop x k n u.1 else .ok s

/-- src/mpi.c:6451-6516 `mpz_rootrem`: the bit the first estimate has, computed with words. -/
def mpz_root_bit (bits : Nat) (k : Limb) : Nat := ((BitVec.ofNat 64 bits + k - 1) / k + 1).toNat

/-- src/mpi.c:6451-6516 `mpz_rootrem`: root and remainder. -/
def mpz_rootrem (x : Mpz) (k : Limb) : C (Mpz × Mpz) :=
  if k = 0 then .abort
  else if x.size < 0 ∧ k &&& 1 = 0 then .abort
  else if x.size = 0 then .ok (⟨false, []⟩, ⟨false, []⟩)
  else do
    let bits ← mpz_bitlen x
    let u ← mpz_setbit ⟨false, []⟩ (mpz_root_bit bits k)
    let u ← (if x.size < 0 then mpz_neg .heap u else .ok u)
    let s ← mpz_root_loop x k (2 ^ (64 * u.mag.length)) u
    let t ← mpz_pow_ui s k
    let r ← mpz_sub .heap x t
    .ok (s, r)

/-- src/mpi.c:6518-6539 `mpz_root`: root and exactness; `z` tells whether there is an output for the root. -/
def mpz_root (z : Bool) (x : Mpz) (k : Limb) : C (Mpz × Bool) :=
  if z = false ∧ (k = 0 ∨ (x.size < 0 ∧ k &&& 1 = 0)) then .ok (⟨false, []⟩, false)
  else do
    let sr ← mpz_rootrem x k
    .ok (sr.1, sr.2.size = 0)

/-- src/mpi.c:4369-4408, `mp_primes` (64 bit limbs): bit `i` is set for a prime `i`, `i < 1024`. -/
def mp_primes : List Limb := [
  0x28208a20a08a28ac, 0x800228a202088288, 0x8028208820a00a08, 0x08028228800800a2,
  0x228800200a20a082, 0x8820808228020800, 0x0882802802022020, 0x208808808008a202,
  0x0a08200820000a00, 0x00800a2082820802, 0x200808220028208a, 0x0220808820808020,
  0x28a00a0020080022, 0x008a20008a200080, 0x0208220200808800, 0x2822002080820880]

/-- src/mpi.c:4410-4424 `mpn_sieve_size`. -/
def mpn_sieve_size (n : Nat) : C Nat := do
  C.check (n < 0xffffffff * 0xffffffff)
  C.check (n ≤ 0xffffffffffffffff - 64)
  C.check (n ≤ mp_bits_max)
  C.check ((n + 64) / 64 ≤ 2 ^ 63 - 1)
  .ok ((n + 64) / 64)

/-- src/mpi.c:4426-4452 `mpn_sieve`: the inner loop, which strikes out `i`, `i + p`, ... up to `n`. -/
def mpn_sieve_mark (n p : Nat) : Nat → Nat → List Limb → C (List Limb)
  | 0, _, _ => .ub
  | f + 1, i, zp =>
    if i ≤ n then do
      let zp ← mpn_clrbit zp i
      mpn_sieve_mark n p f (i + p) zp
    else .ok zp

/-- src/mpi.c:4426-4452 `mpn_sieve`: the outer loop. -/
def mpn_sieve_loop (n : Nat) : Nat → Nat → List Limb → C (List Limb)
  | 0, _, _ => .ub
  | f + 1, p, zp =>
    if p * p ≤ n then do
      let b ← mpn_tstbit zp p
      let zp ← (if b ≠ 0 then mpn_sieve_mark n p (n + 1) (p * p) zp else .ok zp)
      mpn_sieve_loop n f (p + 1) zp
    else .ok zp

/-- src/mpi.c:4426-4452 `mpn_sieve`. -/
def mpn_sieve (n : Nat) : C (List Limb) :=
  if n < 1024 then (if (n + 64) / 64 ≤ mp_primes.length then .ok (mp_primes.take ((n + 64) / 64)) else .ub)
  else do
    let zp ← mpn_sieve_loop n (n + 1) 2 (List.replicate ((n + 64) / 64) (-1))
    let z0 ← C.rd zp 0
    let zp ← C.wr zp 0 (z0 &&& ~~~3)
    if (n + 1) % 64 ≠ 0 then do
      let t ← C.rd zp ((n + 64) / 64 - 1)
      C.wr zp ((n + 64) / 64 - 1) (t &&& mpMask ((n + 1) % 64))
    else .ok zp

/-- src/mpi.c:6541-6572 `mpz_perfect_power_p`: the loop over the odd primes `p` up to `n`. -/
def mpz_power_loop (x : Mpz) (n : Nat) (sp : List Limb) : Nat → Nat → C Bool
  | 0, _ => .ub
  | f + 1, p =>
    if p ≤ n then do
      let b ← mpn_tstbit sp p
      let zr ← (if b ≠ 0 then mpz_root false x (BitVec.ofNat 64 p) else .ok (⟨false, []⟩, false))
      if zr.2 then .ok true else mpz_power_loop x n sp f (p + 2)
    else .ok false

/-- src/mpi.c:6541-6572 `mpz_perfect_power_p`. -/
def mpz_perfect_power_p (x : Mpz) : C Bool := do
  let n ← mpz_bitlen x
  if n ≤ 1 then .ok true
  else do
    let sq ← mpz_perfect_square_p x
    if sq then .ok true
    else do
      let _ ← mpn_sieve_size n
      let sp ← mpn_sieve n
      mpz_power_loop x n sp (n + 1) 3

/-- src/mpi.c:8269-8293 `mpz_primorial_ui`: the loop over the odd `p` up to `n`. -/
def mpz_primorial_loop (n : Nat) (sp : List Limb) : Nat → Nat → Mpz → C Mpz
  | 0, _, _ => .ub
  | f + 1, p, z =>
    if p ≤ n then do
      let b ← mpn_tstbit sp p
      let z ← (if b ≠ 0 then mpz_mul_ui .heap z (BitVec.ofNat 64 p) else .ok z)
      mpz_primorial_loop n sp f (p + 2) z
    else .ok z

/-- src/mpi.c:8269-8293 `mpz_primorial_ui`. -/
def mpz_primorial_ui (n : Limb) : C Mpz :=
  if n.toNat < 2 then .ok (mpz_set_ui 1)
  else do
    let _ ← mpn_sieve_size n.toNat
    let sp ← mpn_sieve n.toNat
    mpz_primorial_loop n.toNat sp (n.toNat + 1) 3 (mpz_set_ui 2)

end Torsion
