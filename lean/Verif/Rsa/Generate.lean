import Verif.Rsa.Model
import Verif.Mpi.Prime

/-!
# Model: generation of RSA keys (src/rsa.c)

Conventions as in the model of RSA.
-/
namespace Torsion

/-- include/torsion/rsa.h:58, `RSA_MAX_EXP`. -/
def RSA_MAX_EXP : Limb := 0x1ffffffff

/-- The loop of src/rsa.c:419-533 `rsa_priv_generate`; `none` is a `continue`. -/
def rsa_generate_round {S : Type} (rng : Source S) (fuel : Nat) (bits : Nat) (e : Mpz) (st : S) : R (Option RsaPriv × S) := do
  let p ← mpz_randprime rng.toByteGen fuel st (bits / 2 + bits % 2)
  let q ← mpz_randprime rng.toByteGen fuel p.2 (bits / 2)
  let st := q.2
  if mpz_cmp p.1 q.1 = 0 then .ok (none, st)
  else do
    let swap := mpz_cmp p.1 q.1 < 0
    let p1 := if swap then q.1 else p.1
    let q1 := if swap then p.1 else q.1
    let tmp ← mpz_sub .heap p1 q1
    let len ← mpz_bitlen tmp
    if len ≤ bits / 2 - 99 then .ok (none, st)
    else do
      let n ← mpz_mul .heap p1 q1
      let len ← mpz_bitlen n
      if len ≠ bits then .ok (none, st)
      else do
        let pm1 ← mpz_sub_ui .heap p1 1
        let qm1 ← mpz_sub_ui .heap q1 1
        let phi ← mpz_mul .heap pm1 qm1
        let tmp ← mpz_gcd .heap e phi
        if mpz_cmp_ui tmp 1 ≠ 0 then .ok (none, st)
        else do
          let tmp ← mpz_gcd .heap pm1 qm1
          let lam ← mpz_divexact .heap phi tmp
          let d ← mpz_invert .heap e lam
          if d.2 = false then .ok (none, st)
          else do
            let len ← mpz_bitlen d.1
            if len ≤ (bits + 1) / 2 then .ok (none, st)
            else do
              let dp ← mpz_mod .heap d.1 pm1
              let dq ← mpz_mod .heap d.1 qm1
              let qi ← mpz_invert .heap q1 p1
              C.check qi.2
              .ok (some ⟨n, e, d.1, p1, q1, dp, dq, qi.1⟩, st)

/-- The loop of src/rsa.c:419-533 `rsa_priv_generate`. -/
def rsa_generate_loop {S : Type} (rng : Source S) (fuel : Nat) (bits : Nat) (e : Mpz) : Nat → S → R RsaPriv
  | 0, _ => .spin
  | f + 1, st => do
    let r ← rsa_generate_round rng fuel bits e st
    match r.1 with
    | some k => .ok k
    | none => rsa_generate_loop rng fuel bits e f r.2

/-- src/rsa.c:419-533 `rsa_priv_generate`. -/
def rsa_priv_generate {S : Type} (rng : Source S) (fuel : Nat) (bits : Nat) (exp : Limb) (entropy : List Byte) : R RsaPriv :=
  if bits < RSA_MIN_MOD_BITS ∨ bits > RSA_MAX_MOD_BITS ∨ exp < RSA_MIN_EXP ∨ exp > RSA_MAX_EXP ∨ exp &&& 1 = 0 then .fail
  else rsa_generate_loop rng fuel bits (mpz_set_ui exp) fuel (rng.init entropy)

/-- src/rsa.c:1438-1460 `rsa_privkey_generate`. -/
def rsa_privkey_generate {S : Type} (rng : Source S) (fuel : Nat) (bits : Nat) (exp : Limb) (entropy : List Byte) :
    R (List Byte) := do
  R.need (¬ bits > RSA_MAX_MOD_BITS)
  let k ← rsa_priv_generate rng fuel bits exp entropy
  let out ← rsa_priv_export k
  .ok out

end Torsion
