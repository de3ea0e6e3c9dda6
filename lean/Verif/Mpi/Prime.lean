import Verif.Mpi.Random
import Verif.Mpi.Powm
import Verif.Mpi.Gcd
import Verif.Mpi.Root

/-!
# Model: primality tests and the search for primes (src/mpi.c)

The random generator is an argument, as in the C code. Loops whose length depends on it have `fuel`; `R.spin` means that the
fuel did not suffice.
-/
namespace Torsion

/-! ### Miller-Rabin -/

/-- src/mpi.c:8486-8577 `mpz_mr_prime_p`: the loop on `j`, with the number of rounds left; true is `goto next`. -/
def mpz_mr_chain (n nm1 : Mpz) : Nat → Mpz → C Bool
  | 0, _ => .ok false
  | c + 1, y => do
    let t ← mpz_sqr .heap y false
    let y ← mpz_mod .heap t n
    if mpz_cmp y nm1 = 0 then .ok true
    else if mpz_cmp_ui y 1 = 0 then .ok false
    else mpz_mr_chain n nm1 c y

/-- src/mpi.c:8486-8577 `mpz_mr_prime_p`: one round, for the base `x`. -/
def mpz_mr_base (n nm1 q : Mpz) (k : Nat) (x : Mpz) : C Bool := do
  let y ← mpz_powm .heap x q n
  if mpz_cmp_ui y 1 = 0 ∨ mpz_cmp y nm1 = 0 then .ok true
  else mpz_mr_chain n nm1 (k - 1) y

/-- src/mpi.c:8486-8577 `mpz_mr_prime_p`: the loop on `i`, with the number of rounds left. -/
def mpz_mr_rounds {S : Type} (rng : ByteGen S) (fuel : Nat) (n nm1 nm3 q : Mpz) (k : Nat) (force2 : Bool) :
    Nat → S → R (Bool × S)
  | 0, s => .ok (true, s)
  | c + 1, s => do
    let xs ← (if c = 0 ∧ force2 = true then .ok (mpz_set_ui 2, s) else do
        let xs ← mpz_urandomm rng fuel s nm3
        let x ← mpz_add_ui .heap xs.1 2
        .ok (x, xs.2) : R (Mpz × S))
    let b ← mpz_mr_base n nm1 q k xs.1
    if b then mpz_mr_rounds rng fuel n nm1 nm3 q k force2 c xs.2 else .ok (false, xs.2)

/-- src/mpi.c:8486-8577 `mpz_mr_prime_p`; a negative `reps` is like zero. -/
def mpz_mr_prime_p {S : Type} (rng : ByteGen S) (fuel : Nat) (s : S) (n : Mpz) (reps : Int) (force2 : Bool) : R (Bool × S) :=
  if mpz_cmp_ui n 2 < 0 then .ok (false, s)
  else do
    let even ← mpz_even_p n
    if even then .ok (decide (mpz_cmp_ui n 2 = 0), s)
    else if mpz_cmp_ui n 7 ≤ 0 then .ok (true, s)
    else do
      let nm1 ← mpz_sub_ui .heap n 1
      let nm3 ← mpz_sub_ui .heap nm1 2
      let k := mpz_ctz nm1
      let q ← mpz_quo_2exp .heap nm1 k
      mpz_mr_rounds rng fuel n nm1 nm3 q k force2 reps.toNat s

/-! ### Lucas -/

/-- src/mpi.c:8579-8737 `mpz_lucas_prime_p`: the search for the parameter; `none` is the `break`, `some` a jump to `succeed` or
`fail`. The loop has at most 9999 rounds. -/
def mpz_lucas_param (n : Mpz) (limit : Limb) : Nat → Limb → C (Limb × Option Bool)
  | 0, _ => .ub
  | f + 1, p =>
    if p > 10000 then .ok (p, some false)
    else if limit ≠ 0 ∧ p > limit then .ok (p, some false)
    else do
      let j ← mpz_jacobi (mpz_set_ui (p * p - 4)) n
      if j = -1 then .ok (p, none)
      else if j = 0 then .ok (p, some (decide (mpz_cmp_ui n (p + 2) = 0)))
      else do
        let sq ← (if p = 40 then mpz_perfect_square_p n else .ok false : C Bool)
        if sq then .ok (p, some false) else mpz_lucas_param n limit f (p + 1)

/-- src/mpi.c:8579-8737 `mpz_lucas_prime_p`: the loop on the bits of `s` from position `i - 1` down. -/
def mpz_lucas_ladder (n s : Mpz) (p : Limb) : Nat → Mpz → Mpz → C (Mpz × Mpz)
  | 0, vk, vk1 => .ok (vk, vk1)
  | i + 1, vk, vk1 => do
    let b ← mpz_tstbit s i
    if b then do
      let t1 ← mpz_mul .heap vk vk1
      let t1 ← mpz_sub_ui .heap t1 p
      let vk ← mpz_mod .heap t1 n
      let t1 ← mpz_sqr .heap vk1 false
      let t1 ← mpz_sub_ui .heap t1 2
      let vk1 ← mpz_mod .heap t1 n
      mpz_lucas_ladder n s p i vk vk1
    else do
      let t1 ← mpz_mul .heap vk1 vk
      let t1 ← mpz_sub_ui .heap t1 p
      let vk1 ← mpz_mod .heap t1 n
      let t1 ← mpz_sqr .heap vk false
      let t1 ← mpz_sub_ui .heap t1 2
      let vk ← mpz_mod .heap t1 n
      mpz_lucas_ladder n s p i vk vk1

/-- src/mpi.c:8579-8737 `mpz_lucas_prime_p`: the loop on `t`, with the number of rounds left. -/
def mpz_lucas_zero (n : Mpz) : Nat → Mpz → C Bool
  | 0, _ => .ok false
  | t + 1, vk =>
    if vk.size = 0 then .ok true
    else if mpz_cmp_ui vk 2 = 0 then .ok false
    else do
      let t1 ← mpz_sqr .heap vk false
      let t1 ← mpz_sub_ui .heap t1 2
      let vk ← mpz_mod .heap t1 n
      mpz_lucas_zero n t vk

/-- src/mpi.c:8579-8737 `mpz_lucas_prime_p`: the part after the search. -/
def mpz_lucas_check (n : Mpz) (p : Limb) : C Bool := do
  let s ← mpz_add_ui .heap n 1
  let r := mpz_ctz s
  let s ← mpz_quo_2exp .heap s r
  let nm2 ← mpz_sub_ui .heap n 2
  let len ← mpz_bitlen s
  let v ← mpz_lucas_ladder n s p (len + 1) (mpz_set_ui 2) (mpz_set_ui p)
  let hit ← (if mpz_cmp_ui v.1 2 = 0 ∨ mpz_cmp v.1 nm2 = 0 then do
      let t1 ← mpz_mul_ui .heap v.1 p
      let t2 ← mpz_mul_2exp .heap v.2 1
      let t1 ← mpz_sub .heap t1 t2
      let t1 ← mpz_mod .heap t1 n
      .ok (decide (t1.size = 0))
    else .ok false : C Bool)
  if hit then .ok true else mpz_lucas_zero n (r - 1) v.1

/-- src/mpi.c:8579-8737 `mpz_lucas_prime_p`. -/
def mpz_lucas_prime_p (n : Mpz) (limit : Limb) : C Bool :=
  if mpz_cmp_ui n 2 < 0 then .ok false
  else do
    let even ← mpz_even_p n
    if even then .ok (decide (mpz_cmp_ui n 2 = 0))
    else if mpz_cmp_ui n 7 ≤ 0 then .ok true
    else do
      let po ← mpz_lucas_param n limit 9999 3
      match po.2 with
      | some b => .ok b
      | none => mpz_lucas_check n po.1

/-! ### Trial division and the whole test -/

/-- src/mpi.c:6133-6156 `mpz_mod_2by1`: the loop from the top limb. -/
def mpz_mod_2by1_loop (d m : Limb) : List Limb → Limb → Limb
  | [], r => r
  | x :: xs, r => mpz_mod_2by1_loop d m xs (mp_div_2by1 r x d m).2

/-- src/mpi.c:6133-6156 `mpz_mod_2by1`; the assertion on `d` is left out, it is true for the only caller. -/
def mpz_mod_2by1 (x : Mpz) (d m : Limb) : Limb :=
  match x.mag with
  | [] => 0
  | xs =>
    let r := if xs.length = 1 ∧ xs.headD 0 < d then xs.headD 0 else mpz_mod_2by1_loop d m xs.reverse 0
    if x.size < 0 ∧ r ≠ 0 then d - r else r

/-- src/mpi.c:8739-8772 `mpz_mod_primorial`. -/
def mpz_mod_primorial (x : Mpz) : Limb × Limb :=
  let r := mpz_mod_2by1 x 16294579238595022365 2436419703539282795
  (r % 4127218095, r % 3948078067)

/-- src/mpi.c:8774-8824 `mpz_probab_prime_p`: the divisions of `ra`. -/
def trial_a (ra : Limb) : Bool :=
  ra % 3 = 0 ∨ ra % 5 = 0 ∨ ra % 7 = 0 ∨ ra % 11 = 0 ∨ ra % 13 = 0 ∨ ra % 17 = 0 ∨ ra % 19 = 0 ∨ ra % 23 = 0 ∨ ra % 37 = 0

/-- src/mpi.c:8774-8824 `mpz_probab_prime_p`: the divisions of `rb`. -/
def trial_b (rb : Limb) : Bool :=
  rb % 29 = 0 ∨ rb % 31 = 0 ∨ rb % 41 = 0 ∨ rb % 43 = 0 ∨ rb % 47 = 0 ∨ rb % 53 = 0

/-- src/mpi.c:8774-8824 `mpz_probab_prime_p`; `rounds + 1` must not overflow an `int`. -/
def mpz_probab_prime_p {S : Type} (rng : ByteGen S) (fuel : Nat) (s : S) (x : Mpz) (rounds : Int) : R (Bool × S) :=
  if x.size ≤ 0 then .ok (false, s)
  else do
    let x0 ← limb0 x
    if x.size = 1 ∧ x0 < 1024 then do
      let b ← mpn_tstbit mp_primes x0.toNat
      .ok (decide (b ≠ 0), s)
    else if x0 &&& 1 = 0 then .ok (false, s)
    else
      let r := mpz_mod_primorial x
      if trial_a r.1 || trial_b r.2 then .ok (false, s)
      else if rounds + 1 ≥ 2 ^ 31 then .ub
      else do
        let bs ← mpz_mr_prime_p rng fuel s x (rounds + 1) true
        if bs.1 = false then .ok (false, bs.2)
        else do
          let b ← mpz_lucas_prime_p x 0
          .ok (b, bs.2)

/-! ### Searching -/

/-- src/mpi.c:8826-8883 `mpz_randprime`: the loop on `delta`, with the number of rounds left. -/
def mpz_randprime_delta (ra rb : Limb) : Nat → Limb → Option Limb
  | 0, _ => none
  | c + 1, delta =>
    if trial_a (ra + delta) then mpz_randprime_delta ra rb c (delta + 2)
    else if trial_b (rb + delta) then mpz_randprime_delta ra rb c (delta + 2)
    else some delta

/-- src/mpi.c:8826-8883 `mpz_randprime`: one round of the outer loop up to the test: the candidate, or `none` for the first
`continue`. -/
def mpz_randprime_candidate {S : Type} (rng : ByteGen S) (s : S) (bits : Nat) : C (Option Mpz × S) := do
  let zs ← mpz_urandomb rng s bits
  let z ← mpz_setbit zs.1 (bits - 1)
  let z ← mpz_setbit z (bits - 2)
  let z ← mpz_setbit z 0
  if bits > 6 then do
    let r := mpz_mod_primorial z
    let z ← (match mpz_randprime_delta r.1 r.2 (2 ^ 19) 0 with
      | some delta => mpz_add_ui .heap z delta
      | none => .ok z : C Mpz)
    let len ← mpz_bitlen z
    .ok (if len ≠ bits then none else some z, zs.2)
  else .ok (some z, zs.2)

/-- src/mpi.c:8826-8883 `mpz_randprime`: the outer loop. -/
def mpz_randprime_loop {S : Type} (rng : ByteGen S) (fuel : Nat) (bits : Nat) : Nat → S → R (Mpz × S)
  | 0, _ => .spin
  | f + 1, s => do
    let zs ← mpz_randprime_candidate rng s bits
    match zs.1 with
    | none => mpz_randprime_loop rng fuel bits f zs.2
    | some z => do
      let bs ← mpz_probab_prime_p rng fuel zs.2 z 20
      if bs.1 then .ok (z, bs.2) else mpz_randprime_loop rng fuel bits f bs.2

/-- src/mpi.c:8826-8883 `mpz_randprime`. -/
def mpz_randprime {S : Type} (rng : ByteGen S) (fuel : Nat) (s : S) (bits : Nat) : R (Mpz × S) :=
  if ¬ bits > 1 then .abort else mpz_randprime_loop rng fuel bits fuel s

/-- src/mpi.c:8885-8896 `mpz_nextprime`: the loop. -/
def mpz_nextprime_loop {S : Type} (rng : ByteGen S) (fuel : Nat) : Nat → S → Mpz → R (Mpz × S)
  | 0, _, _ => .spin
  | f + 1, s, z => do
    let bs ← mpz_probab_prime_p rng fuel s z 20
    if bs.1 then .ok (z, bs.2)
    else do
      let z ← mpz_add_ui .heap z 2
      mpz_nextprime_loop rng fuel f bs.2 z

/-- src/mpi.c:8885-8896 `mpz_nextprime`. -/
def mpz_nextprime {S : Type} (rng : ByteGen S) (fuel : Nat) (s : S) (x : Mpz) : R (Mpz × S) :=
  if mpz_cmp_ui x 2 < 0 then .ok (mpz_set_ui 2, s)
  else do
    let odd ← mpz_odd_p x
    let z ← mpz_add_ui .heap x (1 + (if odd then 1 else 0))
    mpz_nextprime_loop rng fuel fuel s z

/-- src/mpi.c:8898-8923 `mpz_findprime`: the loop, with the number of rounds left; the output and the return value. -/
def mpz_findprime_loop {S : Type} (rng : ByteGen S) (fuel : Nat) : Nat → S → Mpz → R (Mpz × Bool × S)
  | 0, s, z => .ok (z, false, s)
  | c + 1, s, z => do
    let bs ← mpz_probab_prime_p rng fuel s z 20
    if bs.1 then .ok (z, true, bs.2)
    else do
      let z ← mpz_add_ui .heap z 2
      mpz_findprime_loop rng fuel c bs.2 z

/-- src/mpi.c:8898-8923 `mpz_findprime`. -/
def mpz_findprime {S : Type} (rng : ByteGen S) (fuel : Nat) (s : S) (x : Mpz) (m : Limb) : R (Mpz × Bool × S) := do
  let z ← mpz_set .heap x
  let even ← mpz_even_p z
  if even then do
    let z ← mpz_add_ui .heap z 1
    if m = 0 then .ok (z, false, s)
    else mpz_findprime_loop rng fuel ((m - 1) / 2 + 1).toNat s z
  else mpz_findprime_loop rng fuel (m / 2 + 1).toNat s z

end Torsion
