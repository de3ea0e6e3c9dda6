import Verif.Ecc.Schnorr
import Verif.Ecc.Mont
import Verif.Ecc.Ristretto

/-!
# Model: generating private keys and searching for keys (src/ecc.c)

The generator (`drbg_init`, `drbg_generate`) is a `Source`, the callback a function of the public key, and every loop has fuel.
A failed `CHECK` is `abort`; the result 0 is `fail`. Words are 64 bits long. The clearing of secrets is not modelled.
-/
namespace Torsion

open Spec (leVal)

section
variable {fe : FieldCode} [Fact fe.p.Prime]

/-- src/ecc.c:10546-10561 `ecdsa_privkey_generate`. -/
def ecdsa_privkey_generate {S : Type} (rng : Source S) (fuel : Nat) (ec : WeiT fe) (entropy : List Byte) : R (List Byte) := do
  let a ← num_random rng.toByteGen ec.n fuel (rng.init entropy)
  return num_export ec.n a.1

/-- The loop of src/ecc.c:10739-10783 `ecdsa_pubkey_grind` and of src/ecc.c:12103-12143 `bip340_pubkey_grind`, which differ in the
encoding `enc`: the point, the counter and the sum so far. -/
def pubkey_grind_loop (ec : WeiT fe) (enc : Wge (ZMod fe.p) → List Byte × Bool) (check : List Byte → Bool) :
    Nat → Wge (ZMod fe.p) → Nat → Nat → R (Nat × Nat)
  | 0, _, _, _ => .spin
  | fuel + 1, A, counter, t => do
    let A ← R.lift (wge_add_var ec.toCurve A ec.g)
    let counter := (counter + 1) % 2 ^ 64
    let (t, counter) := if counter = 2 ^ 64 - 1 then ((t + counter) % ec.n, 0) else (t, counter)
    let tmp := enc A
    if tmp.2 && check tmp.1 then return (counter, t)
    pubkey_grind_loop ec enc check fuel A counter t

/-- src/ecc.c:10739-10783 `ecdsa_pubkey_grind`. -/
def ecdsa_pubkey_grind (ec : WeiT fe) (fuel : Nat) (pub : List Byte) (check : List Byte → Bool) : R (List Byte) := do
  let compact := decide (pub.length = 1 + feSize fe)
  let A ← R.lift (wge_import ec pub)
  if !A.2 then .fail
  else
    let r ← pubkey_grind_loop ec (fun A => wge_export ec A compact) check fuel A.1 0 0
    return num_export ec.n ((r.2 + r.1) % ec.n)

/-- src/ecc.c:10563-10581 `ecdsa_privkey_grind`. The first fuel is for the random number. -/
def ecdsa_privkey_grind {S : Type} (rng : Source S) (fuel1 fuel : Nat) (ec : WeiT fe) (entropy : List Byte) (compact : Bool)
    (check : List Byte → Bool) : R (List Byte) := do
  let priv ← ecdsa_privkey_generate rng fuel1 ec entropy
  let pub ← R.lift (ecdsa_pubkey_create ec priv compact)
  R.lift (C.check pub.2)
  match ecdsa_pubkey_grind ec fuel pub.1 check with
  | .fail => .abort
  | .ok tweak => do
    let out ← R.lift (ecdsa_privkey_tweak_add ec priv tweak)
    R.lift (C.check out.2)
    return out.1
  | r => r

/-- src/ecc.c:11962-11967 `bip340_privkey_generate`. -/
def bip340_privkey_generate {S : Type} (rng : Source S) (fuel : Nat) (ec : WeiT fe) (entropy : List Byte) : R (List Byte) :=
  ecdsa_privkey_generate rng fuel ec entropy

/-- src/ecc.c:12103-12143 `bip340_pubkey_grind`. -/
def bip340_pubkey_grind (ec : WeiT fe) (fuel : Nat) (pub : List Byte) (check : List Byte → Bool) : R (List Byte) := do
  let A ← R.lift (wge_import_even ec pub)
  if !A.2 then .fail
  else
    let r ← pubkey_grind_loop ec (wge_export_x ec) check fuel A.1 0 0
    return num_export ec.n ((r.2 + r.1) % ec.n)

/-- src/ecc.c:11969-11984 `bip340_privkey_grind`. The first fuel is for the random number. -/
def bip340_privkey_grind {S : Type} (rng : Source S) (fuel1 fuel : Nat) (ec : WeiT fe) (entropy : List Byte)
    (check : List Byte → Bool) : R (List Byte) := do
  let priv ← bip340_privkey_generate rng fuel1 ec entropy
  let pub ← R.lift (bip340_pubkey_create ec priv)
  R.lift (C.check pub.2)
  match bip340_pubkey_grind ec fuel pub.1 check with
  | .fail => .abort
  | .ok tweak => do
    let out ← R.lift (bip340_privkey_tweak_add ec priv tweak)
    R.lift (C.check out.2)
    return out.1
  | r => r

/-- src/ecc.c:12933-12958, `ecdh_privkey_grind`: the loop. -/
def ecdh_privkey_grind_loop {S : Type} (gen : ByteGen S) (ec : Mont (ZMod fe.p)) (check : List Byte → Bool) : Nat → S → R (List Byte)
  | 0, _ => .spin
  | fuel + 1, s => do
    let r := gen.gen s (scSize ec.n)
    let priv ← R.lift (mont_clamp ec r.1)
    let a := leVal priv
    let A := mont_mul_g ec a
    let pub := pge_export A
    R.lift (C.check pub.2)
    if check pub.1 then return priv else ecdh_privkey_grind_loop gen ec check fuel r.2

/-- src/ecc.c:12932-12958 `ecdh_privkey_grind`. -/
def ecdh_privkey_grind {S : Type} (rng : Source S) (fuel : Nat) (ec : Mont (ZMod fe.p)) (entropy : List Byte)
    (check : List Byte → Bool) : R (List Byte) :=
  ecdh_privkey_grind_loop rng.toByteGen ec check fuel (rng.init entropy)

/-- src/ecc.c:14404-14419 `ristretto_privkey_generate`. -/
def ristretto_privkey_generate {S : Type} (rng : Source S) (fuel : Nat) (ec : Edwards (ZMod fe.p)) (entropy : List Byte) :
    R (List Byte) := do
  let a ← num_random rng.toByteGen ec.n fuel (rng.init entropy)
  return num_export_le ec.n a.1

/-- src/ecc.c:14421-14436 `ristretto_privkey_grind`. The first fuel is for the random number. -/
def ristretto_privkey_grind {S : Type} (rng : Source S) (fuel1 fuel : Nat) (ec : Edwards (ZMod fe.p)) (rs : Ristretto (ZMod fe.p))
    (entropy : List Byte) (check : List Byte → Bool) : R (List Byte) := do
  let priv ← ristretto_privkey_generate rng fuel1 ec entropy
  let pub ← R.lift (ristretto_pubkey_create ec rs priv)
  R.lift (C.check pub.2)
  match ristretto_pubkey_grind ec rs fuel pub.1 check with
  | .fail => .abort
  | .ok tweak => do
    let out ← R.lift (ristretto_privkey_tweak_add ec priv tweak)
    R.lift (C.check out.2)
    return out.1
  | r => r

end

end Torsion
