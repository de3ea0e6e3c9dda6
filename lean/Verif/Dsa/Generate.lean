import Verif.Dsa.Model
import Verif.Mpi.Prime

/-!
# Model: generation of DSA groups and keys (src/dsa.c)

Conventions as in the model of DSA.
-/
namespace Torsion

/-- The start of both loops of src/dsa.c:167-259 `dsa_group_generate`: a random odd number of `n` bits. -/
def dsa_candidate {S : Type} (rng : Source S) (n : Nat) (st : S) : C (Mpz × S) := do
  let r ← mpz_urandomb rng.toByteGen st n
  let z ← mpz_setbit r.1 0
  let z ← mpz_setbit z (n - 1)
  .ok (z, r.2)

/-- The loop on `i` of src/dsa.c:167-259 `dsa_group_generate`, with the number of rounds left; `some` is `goto done`. -/
def dsa_generate_p {S : Type} (rng : Source S) (fuel : Nat) (q : Mpz) (L : Nat) : Nat → S → R (Option Mpz × S)
  | 0, st => .ok (none, st)
  | i + 1, st => do
    let r ← dsa_candidate rng L st
    let t ← mpz_mod .heap r.1 q
    let t ← mpz_sub_ui .heap t 1
    let p ← mpz_sub .heap r.1 t
    let b ← mpz_bitlen p
    if b < L ∨ b > DSA_MAX_BITS then dsa_generate_p rng fuel q L i r.2
    else do
      let ok ← mpz_probab_prime_p rng.toByteGen fuel r.2 p 64
      if ok.1 = false then dsa_generate_p rng fuel q L i ok.2
      else .ok (some p, ok.2)

/-- The outer loop of src/dsa.c:167-259 `dsa_group_generate`: `p` and `q`. -/
def dsa_generate_pq {S : Type} (rng : Source S) (fuel : Nat) (L N : Nat) : Nat → S → R (Mpz × Mpz)
  | 0, _ => .spin
  | f + 1, st => do
    let r ← dsa_candidate rng N st
    let ok ← mpz_probab_prime_p rng.toByteGen fuel r.2 r.1 64
    if ok.1 = false then dsa_generate_pq rng fuel L N f ok.2
    else do
      let p ← dsa_generate_p rng fuel r.1 L (4 * L) ok.2
      match p.1 with
      | some x => .ok (x, r.1)
      | none => dsa_generate_pq rng fuel L N f p.2

/-- The last loop of src/dsa.c:167-259 `dsa_group_generate`. -/
def dsa_generate_g (p e : Mpz) : Nat → Mpz → R Mpz
  | 0, _ => .spin
  | f + 1, h => do
    let g ← mpz_powm .heap h e p
    if mpz_cmp_ui g 1 = 0 then do
      let h ← mpz_add_ui .heap h 1
      dsa_generate_g p e f h
    else .ok g

/-- src/dsa.c:167-259 `dsa_group_generate`. -/
def dsa_group_generate {S : Type} (rng : Source S) (fuel : Nat) (bits : Nat) (entropy : List Byte) : R DsaGroup :=
  let L := bits
  let N := if bits < 2048 then 160 else 256
  if ¬ (L = 1024 ∧ N = 160) ∧ ¬ (L = 2048 ∧ N = 224) ∧ ¬ (L = 2048 ∧ N = 256) ∧ ¬ (L = 3072 ∧ N = 256) then .fail
  else do
    let pq ← dsa_generate_pq rng fuel L N fuel (rng.init entropy)
    let pm1 ← mpz_sub_ui .heap pq.1 1
    let e ← mpz_quo .heap pm1 pq.2
    let g ← dsa_generate_g pq.1 e fuel (mpz_set_ui 2)
    let p ← mpz_set .heap pq.1
    let q ← mpz_set .heap pq.2
    let g ← mpz_set .heap g
    .ok ⟨p, q, g⟩

/-- src/dsa.c:627-651 `dsa_priv_generate`. -/
def dsa_priv_generate {S : Type} (rng : Source S) (fuel : Nat) (bits : Nat) (entropy : List Byte) : R DsaPriv := do
  let s1 := rng.gen (rng.init entropy) 32
  let group ← dsa_group_generate rng fuel bits s1.1
  let s2 := rng.gen s1.2 32
  dsa_priv_create rng fuel group s2.1

/-- src/dsa.c:793-814 `dsa_params_generate`. -/
def dsa_params_generate {S : Type} (rng : Source S) (fuel : Nat) (bits : Nat) (entropy : List Byte) : R (List Byte) := do
  R.need (¬ bits > DSA_MAX_BITS)
  let group ← dsa_group_generate rng fuel bits entropy
  let out ← dsa_group_export group
  .ok out

/-- src/dsa.c:941-962 `dsa_privkey_generate`. -/
def dsa_privkey_generate {S : Type} (rng : Source S) (fuel : Nat) (bits : Nat) (entropy : List Byte) : R (List Byte) := do
  R.need (¬ bits > DSA_MAX_BITS)
  let k ← dsa_priv_generate rng fuel bits entropy
  let out ← dsa_priv_export k
  .ok out

end Torsion
