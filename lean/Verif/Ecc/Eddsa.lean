import Verif.Ecc.Edwards
import Verif.Ecc.Schnorr
import Verif.Hash.Dispatch

/-!
# Model: EdDSA

The scalars are numbers; that the limbs hold them is shown with the scalar field (`sc_import_exact` and the others). The scalars and the field
elements are in little-endian order. The wiping of memory is left out. The generator of the code is HMAC-DRBG with SHA-256; here it
is any `Source`.
-/
namespace Torsion

open Torsion.Spec (leVal leBytes beVal)

/-! ### Scalars as numbers, in little-endian order -/

/-- src/ecc.c:943-946 `sc_import_raw` on numbers. -/
def num_import_raw_le (n : Nat) (xp : List Byte) : C Nat := do
  let b ← C.slice xp 0 (scSize n)
  return leVal b

/-- src/ecc.c:948-959 `sc_import` on numbers (`sc_import_exact` for the limbs). -/
def num_import_le (n : Nat) (xp : List Byte) : C (Nat × Bool) := do
  let b ← C.slice xp 0 (scSize n)
  return (if leVal b < n then leVal b else 0, decide (leVal b < n))

/-- src/ecc.c:995-1001 `sc_import_reduce` on numbers (`sc_import_exact` for the limbs). -/
def num_import_reduce_le (n : Nat) (xp : List Byte) : C Nat := do
  let b ← C.slice xp 0 (scSize n)
  return leVal b % n

/-- src/ecc.c:961-981 `sc_import_wide` on numbers (`sc_import_exact` for the limbs). -/
def num_import_wide_le (n : Nat) (xp : List Byte) : C Nat := do
  C.check (decide (xp.length * 8 ≤ ((n.size + 63) / 64 * 2 + 2) * 64))
  return leVal xp % n

/-- src/ecc.c:1039-1042 `sc_export` on numbers (`sc_export_exact` for the limbs). -/
def num_export_le (n a : Nat) : List Byte := leBytes (scSize n) a

/-- src/ecc.c:2014, `prime_field_init`: `fe->adj_size`. -/
def feAdj (fe : FieldCode) : Nat := feSize fe + (if feBits fe % 8 = 0 then 1 else 0)

section
variable {fe : FieldCode} [Fact fe.p.Prime]

/-! ### Private keys -/

/-- src/ecc.c:13239-13242 `eddsa_privkey_size`. -/
def eddsa_privkey_size (_ec : Edwards (ZMod fe.p)) : Nat := feAdj fe

/-- src/ecc.c:13244-13247 `eddsa_pubkey_size`. -/
def eddsa_pubkey_size (_ec : Edwards (ZMod fe.p)) : Nat := feAdj fe

/-- src/ecc.c:13249-13252 `eddsa_sig_size`. -/
def eddsa_sig_size (_ec : Edwards (ZMod fe.p)) : Nat := feAdj fe * 2

/-- src/ecc.c:13254-13266 `eddsa_privkey_hash`. The first bytes of the output are clamped in place. -/
def eddsa_privkey_hash (junk : Nat → Byte) (ec : Edwards (ZMod fe.p)) (priv : List Byte) : C (List Byte) := do
  let h ← hash_init junk ec.hash
  let priv ← C.slice priv 0 (feAdj fe)
  let h ← hash_update h priv
  let out ← hash_final junk h (feAdj fe * 2)
  let s ← edwards_clamp ec out
  return s ++ out.drop (scSize ec.n)

/-- src/ecc.c:13268-13279 `eddsa_privkey_generate`. -/
def eddsa_privkey_generate {S : Type} (rng : Source S) (_ec : Edwards (ZMod fe.p)) (entropy : List Byte) : List Byte :=
  (rng.gen (rng.init entropy) (feAdj fe)).1

/-- src/ecc.c:13312-13325 `eddsa_scalar_generate`. -/
def eddsa_scalar_generate {S : Type} (rng : Source S) (ec : Edwards (ZMod fe.p)) (entropy : List Byte) : C (List Byte) :=
  edwards_clamp ec (rng.gen (rng.init entropy) (scSize ec.n)).1

/-- src/ecc.c:13343-13361 `eddsa_privkey_expand`: the scalar and the prefix. -/
def eddsa_privkey_expand (junk : Nat → Byte) (ec : Edwards (ZMod fe.p)) (priv : List Byte) : C (List Byte × List Byte) := do
  C.check (decide (scSize ec.n ≤ feAdj fe))
  let bytes ← eddsa_privkey_hash junk ec priv
  let scalar ← C.slice bytes 0 (scSize ec.n)
  let pre ← C.slice bytes (feAdj fe) (feAdj fe)
  return (scalar, pre)

/-- src/ecc.c:13363-13376 `eddsa_privkey_convert`. -/
def eddsa_privkey_convert (junk : Nat → Byte) (ec : Edwards (ZMod fe.p)) (priv : List Byte) : C (List Byte) := do
  let bytes ← eddsa_privkey_hash junk ec priv
  C.slice bytes 0 (scSize ec.n)

/-- src/ecc.c:13378-13383 `eddsa_privkey_verify`. -/
def eddsa_privkey_verify (_ec : Edwards (ZMod fe.p)) (_priv : List Byte) : Bool := true

/-- src/ecc.c:13385-13396 `eddsa_privkey_export`. -/
def eddsa_privkey_export (_ec : Edwards (ZMod fe.p)) (priv : List Byte) : C (List Byte × Bool) := do
  let out ← C.slice priv 0 (feAdj fe)
  return (out, true)

/-- src/ecc.c:13398-13415 `eddsa_privkey_import`; `len` is the length of the list. -/
def eddsa_privkey_import (_ec : Edwards (ZMod fe.p)) (bytes : List Byte) : C (List Byte × Bool) := do
  if bytes.length ≠ feAdj fe then return (List.replicate (feAdj fe) 0, false)
  let out ← C.slice bytes 0 (feAdj fe)
  return (out, true)

/-! ### Scalars -/

/-- src/ecc.c:13417-13422 `eddsa_scalar_verify`. -/
def eddsa_scalar_verify (_ec : Edwards (ZMod fe.p)) (_scalar : List Byte) : Bool := true

/-- src/ecc.c:13424-13437 `eddsa_scalar_is_zero`. -/
def eddsa_scalar_is_zero (ec : Edwards (ZMod fe.p)) (scalar : List Byte) : C Bool := do
  let a ← num_import_reduce_le ec.n scalar
  return a == 0

/-- src/ecc.c:13439-13444 `eddsa_scalar_clamp`. -/
def eddsa_scalar_clamp (ec : Edwards (ZMod fe.p)) (scalar : List Byte) : C (List Byte) := edwards_clamp ec scalar

/-- src/ecc.c:13446-13459 `eddsa_scalar_tweak_add`. -/
def eddsa_scalar_tweak_add (ec : Edwards (ZMod fe.p)) (scalar tweak : List Byte) : C (List Byte) := do
  let a ← num_import_reduce_le ec.n scalar
  let t ← num_import_reduce_le ec.n tweak
  return num_export_le ec.n ((a + t) % ec.n)

/-- src/ecc.c:13461-13474 `eddsa_scalar_tweak_mul`. -/
def eddsa_scalar_tweak_mul (ec : Edwards (ZMod fe.p)) (scalar tweak : List Byte) : C (List Byte) := do
  let a ← num_import_reduce_le ec.n scalar
  let t ← num_import_reduce_le ec.n tweak
  return num_export_le ec.n (a * t % ec.n)

/-- src/ecc.c:13476-13486 `eddsa_scalar_reduce`. -/
def eddsa_scalar_reduce (ec : Edwards (ZMod fe.p)) (scalar : List Byte) : C (List Byte) := do
  let a ← num_import_reduce_le ec.n scalar
  return num_export_le ec.n a

/-- src/ecc.c:13488-13499 `eddsa_scalar_negate`. -/
def eddsa_scalar_negate (ec : Edwards (ZMod fe.p)) (scalar : List Byte) : C (List Byte) := do
  let a ← num_import_reduce_le ec.n scalar
  return num_export_le ec.n (num_neg ec.n a)

/-- src/ecc.c:13501-13512 `eddsa_scalar_invert`. -/
def eddsa_scalar_invert (ec : Edwards (ZMod fe.p)) (scalar : List Byte) : C (List Byte) := do
  let a ← num_import_reduce_le ec.n scalar
  return num_export_le ec.n (num_invert ec.n a).1

/-! ### Public keys -/

/-- src/ecc.c:13514-13531 `eddsa_pubkey_from_scalar`. -/
def eddsa_pubkey_from_scalar (ec : Edwards (ZMod fe.p)) (scalar : List Byte) : C (List Byte) := do
  let a ← num_import_reduce_le ec.n scalar
  let A ← edwards_mul_g ec a
  xge_export A

/-- src/ecc.c:13533-13544 `eddsa_pubkey_create`. -/
def eddsa_pubkey_create (junk : Nat → Byte) (ec : Edwards (ZMod fe.p)) (priv : List Byte) : C (List Byte) := do
  let scalar ← eddsa_privkey_convert junk ec priv
  eddsa_pubkey_from_scalar ec scalar

/-- src/ecc.c:13281-13310 `eddsa_privkey_grind`: the loop. The first argument is the fuel. -/
def eddsa_privkey_grind_loop {S : Type} (gen : ByteGen S) (junk : Nat → Byte) (ec : Edwards (ZMod fe.p)) (check : List Byte → Bool) :
    Nat → S → R (List Byte)
  | 0, _ => .spin
  | fuel + 1, s => do
    let r := gen.gen s (feAdj fe)
    let scalar ← R.lift (eddsa_privkey_hash junk ec r.1)
    let a ← R.lift (num_import_reduce_le ec.n scalar)
    let A ← R.lift (edwards_mul_g ec a)
    let pub ← R.lift (xge_export A)
    if check pub then return r.1 else eddsa_privkey_grind_loop gen junk ec check fuel r.2

/-- src/ecc.c:13281-13310 `eddsa_privkey_grind`; the callback is a function of the public key. -/
def eddsa_privkey_grind {S : Type} (rng : Source S) (fuel : Nat) (junk : Nat → Byte) (ec : Edwards (ZMod fe.p)) (entropy : List Byte)
    (check : List Byte → Bool) : R (List Byte) :=
  eddsa_privkey_grind_loop rng.toByteGen junk ec check fuel (rng.init entropy)

/-- src/ecc.c:13327-13341 `eddsa_scalar_grind`. -/
def eddsa_scalar_grind {S : Type} (rng : Source S) (fuel : Nat) (junk : Nat → Byte) (ec : Edwards (ZMod fe.p)) (entropy : List Byte)
    (check : List Byte → Bool) : R (List Byte) := do
  let priv ← eddsa_privkey_grind rng fuel junk ec entropy check
  R.lift (eddsa_privkey_convert junk ec priv)

/-- src/ecc.c:13546-13564 `eddsa_pubkey_convert`. -/
def eddsa_pubkey_convert (ec : Edwards (ZMod fe.p)) (pub : List Byte) : C (List Byte × Bool) := do
  let A ← xge_import ec pub
  let p := xge_export_mge ec A.1
  return (fe_export_le fe p.x, A.2 && !p.inf)

/-- src/ecc.c:13566-13575 `eddsa_pubkey_from_uniform`. -/
def eddsa_pubkey_from_uniform (ec : Edwards (ZMod fe.p)) (bytes : List Byte) : C (List Byte) := do
  let A ← edwards_point_from_uniform ec bytes
  xge_export A

/-- src/ecc.c:13577-13589 `eddsa_pubkey_to_uniform`. -/
def eddsa_pubkey_to_uniform (ec : Edwards (ZMod fe.p)) (pub : List Byte) (hint : BitVec 32) : C (List Byte × Bool) := do
  let A ← xge_import ec pub
  let r ← edwards_point_to_uniform ec A.1 hint
  return (r.1, A.2 && r.2)

/-- src/ecc.c:13591-13604 `eddsa_pubkey_from_hash`. -/
def eddsa_pubkey_from_hash (ec : Edwards (ZMod fe.p)) (bytes : List Byte) (pake : Bool) : C (List Byte) := do
  let A ← edwards_point_from_hash ec bytes
  let A ← if pake then xge_mulh ec A else .ok A
  xge_export A

/-- src/ecc.c:13606-13620 `eddsa_pubkey_to_hash`. -/
def eddsa_pubkey_to_hash {S : Type} (rng : Source S) (fuel : Nat) (ec : Edwards (ZMod fe.p)) (pub : List Byte) (subgroup : BitVec 32)
    (entropy : List Byte) : R (List Byte × Bool) := do
  let A ← R.lift (xge_import ec pub)
  let out ← edwards_point_to_hash rng fuel ec A.1 subgroup entropy
  return (out, A.2)

/-- src/ecc.c:13622-13627 `eddsa_pubkey_verify`. -/
def eddsa_pubkey_verify (ec : Edwards (ZMod fe.p)) (pub : List Byte) : C Bool := do
  let A ← xge_import ec pub
  return A.2

/-- src/ecc.c:13629-13644 `eddsa_pubkey_export`: the two coordinates. -/
def eddsa_pubkey_export (ec : Edwards (ZMod fe.p)) (pub : List Byte) : C (List Byte × List Byte × Bool) := do
  let A ← xge_import ec pub
  return (fe_export_le fe A.1.x, fe_export_le fe A.1.y, A.2)

/-- src/ecc.c:13646-13675 `eddsa_pubkey_import`; `sign` is `none` for -1. -/
def eddsa_pubkey_import (ec : Edwards (ZMod fe.p)) (x_raw y_raw : List Byte) (sign : Option Bool) : C (List Byte × Bool) := do
  let has_x := decide (x_raw.length > 0)
  let has_y := decide (y_raw.length > 0)
  let x ← fe_import_pad_le fe x_raw
  let y ← fe_import_pad_le fe y_raw
  let A ← if has_x && has_y then .ok (xge_set_xy ec x.1 y.1)
    else if has_x then xge_set_x ec x.1 sign
    else xge_set_y ec y.1 sign
  let out ← xge_export A.1
  return (out, (has_x || has_y) && x.2 && y.2 && A.2)

/-- src/ecc.c:13677-13683 `eddsa_pubkey_is_infinity`. -/
def eddsa_pubkey_is_infinity (_ec : Edwards (ZMod fe.p)) (pub : List Byte) : C Bool := do
  let pub ← C.slice pub 0 (feAdj fe)
  return pub == 1 :: List.replicate (feAdj fe - 1) 0

/-- src/ecc.c:13685-13694 `eddsa_pubkey_is_small`. -/
def eddsa_pubkey_is_small (ec : Edwards (ZMod fe.p)) (pub : List Byte) : C Bool := do
  let A ← xge_import ec pub
  let r ← xge_is_small ec A.1
  return A.2 && r

/-- src/ecc.c:13696-13705 `eddsa_pubkey_has_torsion`. -/
def eddsa_pubkey_has_torsion (ec : Edwards (ZMod fe.p)) (pub : List Byte) : C Bool := do
  let A ← xge_import ec pub
  let r ← xge_has_torsion ec A.1
  return A.2 && r

/-- src/ecc.c:13707-13729 `eddsa_pubkey_tweak_add`. -/
def eddsa_pubkey_tweak_add (ec : Edwards (ZMod fe.p)) (pub tweak : List Byte) : C (List Byte × Bool) := do
  let A ← xge_import ec pub
  let t ← num_import_reduce_le ec.n tweak
  let T ← edwards_mul_g ec t
  let out ← xge_export (xge_add ec A.1 T)
  return (out, A.2)

/-- src/ecc.c:13731-13752 `eddsa_pubkey_tweak_mul`. -/
def eddsa_pubkey_tweak_mul (ec : Edwards (ZMod fe.p)) (pub tweak : List Byte) : C (List Byte × Bool) := do
  let A ← xge_import ec pub
  let t ← num_import_raw_le ec.n tweak
  let T ← edwards_mul ec A.1 t
  let out ← xge_export T
  return (out, A.2)

/-- src/ecc.c:13754-13770 `eddsa_pubkey_add`. -/
def eddsa_pubkey_add (ec : Edwards (ZMod fe.p)) (pub1 pub2 : List Byte) : C (List Byte × Bool) := do
  let P ← xge_import ec pub1
  let Q ← xge_import ec pub2
  let out ← xge_export (xge_mixed_add ec P.1 Q.1)
  return (out, P.2 && Q.2)

/-- src/ecc.c:13772-13795 `eddsa_pubkey_combine`: the loop. -/
def eddsa_pubkey_combine_loop (ec : Edwards (ZMod fe.p)) : List (List Byte) → Xge (ZMod fe.p) → Bool → C (Xge (ZMod fe.p) × Bool)
  | [], P, ret => .ok (P, ret)
  | pub :: pubs, P, ret => do
    let A ← xge_import ec pub
    eddsa_pubkey_combine_loop ec pubs (xge_mixed_add ec P A.1) (ret && A.2)

/-- src/ecc.c:13772-13795 `eddsa_pubkey_combine`. -/
def eddsa_pubkey_combine (ec : Edwards (ZMod fe.p)) (pubs : List (List Byte)) : C (List Byte × Bool) := do
  let r ← match pubs with
    | [] => .ok (xge_zero, true)
    | pub :: pubs => do
      let P ← xge_import ec pub
      eddsa_pubkey_combine_loop ec pubs P.1 P.2
  let out ← xge_export r.1
  return (out, r.2)

/-- src/ecc.c:13797-13810 `eddsa_pubkey_negate`. -/
def eddsa_pubkey_negate (ec : Edwards (ZMod fe.p)) (pub : List Byte) : C (List Byte × Bool) := do
  let A ← xge_import ec pub
  let out ← xge_export (xge_neg A.1)
  return (out, A.2)

/-! ### Signatures -/

/-- src/ecc.c:13812-13832 `eddsa_hash_init`. -/
def eddsa_hash_init (junk : Nat → Byte) (ec : Edwards (ZMod fe.p)) (ph : Int) (ctx : List Byte) : C HashCtx := do
  let ctx := if ctx.length > 255 then ctx.take 255 else ctx
  let h ← hash_init junk ec.hash
  if ec.context || ph != -1 || decide (ctx.length > 0) then do
    let prehash : Byte := if ph > 0 then 1 else 0
    let length : Byte := BitVec.ofNat 8 ctx.length
    let h ← hash_update h ec.pfx
    let h ← hash_update h [prehash]
    let h ← hash_update h [length]
    hash_update h ctx
  else return h

/-- src/ecc.c:13834-13839 `eddsa_hash_update`. -/
def eddsa_hash_update (h : HashCtx) (data : List Byte) : C HashCtx := hash_update h data

/-- src/ecc.c:13841-13852 `eddsa_hash_final`. -/
def eddsa_hash_final (junk : Nat → Byte) (ec : Edwards (ZMod fe.p)) (h : HashCtx) : C Nat := do
  let bytes ← hash_final junk h (feAdj fe * 2)
  let bytes ← C.slice bytes 0 (feAdj fe * 2)
  num_import_wide_le ec.n bytes

/-- src/ecc.c:13854-13870 `eddsa_hash_nonce`. -/
def eddsa_hash_nonce (junk : Nat → Byte) (ec : Edwards (ZMod fe.p)) (pre msg : List Byte) (ph : Int) (ctx : List Byte) : C Nat := do
  let h ← eddsa_hash_init junk ec ph ctx
  let pre ← C.slice pre 0 (feAdj fe)
  let h ← eddsa_hash_update h pre
  let h ← eddsa_hash_update h msg
  eddsa_hash_final junk ec h

/-- src/ecc.c:13872-13890 `eddsa_hash_challenge`. -/
def eddsa_hash_challenge (junk : Nat → Byte) (ec : Edwards (ZMod fe.p)) (R A msg : List Byte) (ph : Int) (ctx : List Byte) : C Nat := do
  let h ← eddsa_hash_init junk ec ph ctx
  let R ← C.slice R 0 (feAdj fe)
  let A ← C.slice A 0 (feAdj fe)
  let h ← eddsa_hash_update h R
  let h ← eddsa_hash_update h A
  let h ← eddsa_hash_update h msg
  eddsa_hash_final junk ec h

/-- src/ecc.c:13892-13967 `eddsa_sign_with_scalar`. The bytes of `s` are at `adj_size`; `sig` is what the caller's buffer holds before. -/
def eddsa_sign_with_scalar (junk : Nat → Byte) (ec : Edwards (ZMod fe.p)) (sig msg scalar pre : List Byte) (ph : Int)
    (ctx : List Byte) : C (List Byte) := do
  let k ← eddsa_hash_nonce junk ec pre msg ph ctx
  let a ← num_import_reduce_le ec.n scalar
  let R ← edwards_mul_g ec k
  let A ← edwards_mul_g ec a
  let Rraw ← xge_export R
  let Araw ← xge_export A
  let sig ← C.blit sig 0 Rraw
  let e ← eddsa_hash_challenge junk ec Rraw Araw msg ph ctx
  let s := e * a % ec.n
  let s := (s + k) % ec.n
  let sig ← C.blit sig (feAdj fe) (num_export_le ec.n s)
  if feBits fe % 8 = 0 then C.wr sig (feAdj fe + feSize fe) 0 else return sig

/-- src/ecc.c:13969-13991 `eddsa_sign`. -/
def eddsa_sign (junk : Nat → Byte) (ec : Edwards (ZMod fe.p)) (sig msg priv : List Byte) (ph : Int) (ctx : List Byte) : C (List Byte) := do
  let x ← eddsa_privkey_expand junk ec priv
  eddsa_sign_with_scalar junk ec sig msg x.1 x.2 ph ctx

/-- The new prefix in src/ecc.c:13993-14024 `eddsa_sign_tweak_add` and src/ecc.c:14026-14057 `eddsa_sign_tweak_mul`. -/
def eddsa_tweak_prefix (junk : Nat → Byte) (ec : Edwards (ZMod fe.p)) (pre tweak : List Byte) : C (List Byte) := do
  let h ← hash_init junk ec.hash
  let pre ← C.slice pre 0 (feAdj fe)
  let tweak ← C.slice tweak 0 (scSize ec.n)
  let h ← hash_update h pre
  let h ← hash_update h tweak
  hash_final junk h (feAdj fe)

/-- src/ecc.c:13993-14024 `eddsa_sign_tweak_add`. -/
def eddsa_sign_tweak_add (junk : Nat → Byte) (ec : Edwards (ZMod fe.p)) (sig msg priv tweak : List Byte) (ph : Int) (ctx : List Byte) :
    C (List Byte) := do
  let x ← eddsa_privkey_expand junk ec priv
  let scalar ← eddsa_scalar_tweak_add ec x.1 tweak
  let pre ← eddsa_tweak_prefix junk ec x.2 tweak
  eddsa_sign_with_scalar junk ec sig msg scalar pre ph ctx

/-- src/ecc.c:14026-14057 `eddsa_sign_tweak_mul`. -/
def eddsa_sign_tweak_mul (junk : Nat → Byte) (ec : Edwards (ZMod fe.p)) (sig msg priv tweak : List Byte) (ph : Int) (ctx : List Byte) :
    C (List Byte) := do
  let x ← eddsa_privkey_expand junk ec priv
  let scalar ← eddsa_scalar_tweak_mul ec x.1 tweak
  let pre ← eddsa_tweak_prefix junk ec x.2 tweak
  eddsa_sign_with_scalar junk ec sig msg scalar pre ph ctx

/-- What src/ecc.c:14059-14121 `eddsa_verify`, src/ecc.c:14123-14190 `eddsa_verify_single` and the loop of src/ecc.c:14192-14337 `eddsa_verify_batch` read from a signature. -/
structure EdItem (F : Type) where
  s : Nat
  R : Xge F
  A : Xge F
  e : Nat

/-- src/ecc.c:14108-14111, `eddsa_verify`: a byte after the scalar which has to be zero. -/
def eddsa_sig_tail (fe : FieldCode) (sig : List Byte) : C Bool :=
  if feBits fe % 8 = 0 then do
    let b ← C.rd sig (feAdj fe + feSize fe)
    .ok (b != 0)
  else .ok false

/-- The first part of src/ecc.c:14059-14121 `eddsa_verify`, src/ecc.c:14123-14190 `eddsa_verify_single` and of the loop of src/ecc.c:14192-14337 `eddsa_verify_batch`, which is the same
in all of them: `none` is `return 0`. -/
def eddsa_item (junk : Nat → Byte) (ec : Edwards (ZMod fe.p)) (msg sig pub : List Byte) (ph : Int) (ctx : List Byte) :
    C (Option (EdItem (ZMod fe.p))) := do
  let R ← xge_import ec sig
  if !R.2 then return none
  let A ← xge_import ec pub
  if !A.2 then return none
  let s ← num_import_le ec.n (sig.drop (feAdj fe))
  if !s.2 then return none
  let bad ← eddsa_sig_tail fe sig
  if bad then return none
  let e ← eddsa_hash_challenge junk ec sig pub msg ph ctx
  return some ⟨s.1, R.1, A.1, e⟩

/-- src/ecc.c:14059-14121 `eddsa_verify`. -/
def eddsa_verify (junk : Nat → Byte) (ec : Edwards (ZMod fe.p)) (msg sig pub : List Byte) (ph : Int) (ctx : List Byte) : C Bool := do
  let v ← eddsa_item junk ec msg sig pub ph ctx
  match v with
  | none => return false
  | some v =>
    let A := xge_neg v.A
    let Re ← edwards_mul_double_var ec v.s A v.e
    return xge_equal v.R Re

/-- src/ecc.c:14123-14190 `eddsa_verify_single`. -/
def eddsa_verify_single (junk : Nat → Byte) (ec : Edwards (ZMod fe.p)) (msg sig pub : List Byte) (ph : Int) (ctx : List Byte) : C Bool := do
  let v ← eddsa_item junk ec msg sig pub ph ctx
  match v with
  | none => return false
  | some v =>
    let s := v.s * ec.h % ec.n
    let A ← xge_mulh ec v.A
    let R ← xge_mulh ec v.R
    let A := xge_neg A
    let Re ← edwards_mul_double_var ec s A v.e
    return xge_equal R Re

/-- The check in src/ecc.c:14192-14337 `eddsa_verify_batch`; the terms are the two arrays of the scratch. -/
def eddsa_batch_check (ec : Edwards (ZMod fe.p)) (size sum : Nat) (terms : List (Xge (ZMod fe.p) × Nat)) : C Bool := do
  let sum := sum * ec.h % ec.n
  let r ← edwards_mul_multi_var ec (num_neg ec.n sum) terms size
  return xge_is_zero r

/-- The loop of src/ecc.c:14192-14337 `eddsa_verify_batch`; `j` is the number of terms. -/
def eddsa_batch_loop {S : Type} (rng : ByteGen S) (fuel : Nat) (junk : Nat → Byte) (ec : Edwards (ZMod fe.p)) (size : Nat) (ph : Int)
    (ctx : List Byte) : List (List Byte × List Byte × List Byte) → Nat → List (Xge (ZMod fe.p) × Nat) → S → R Bool
  | [], sum, terms, _ => if terms.length > 0 then eddsa_batch_check ec size sum terms else .ok true
  | t :: ts, sum, terms, st => do
    let v ← R.lift (eddsa_item junk ec t.1 t.2.1 t.2.2 ph ctx)
    match v with
    | none => .ok false
    | some v => do
      let a ← if terms.length = 0 then .ok (1, st) else num_random rng ec.n fuel st
      let e := v.e * a.1 % ec.n
      let s := v.s * a.1 % ec.n
      let sum := (sum + s) % ec.n
      let R' ← R.lift (xge_mulh ec v.R)
      let A ← R.lift (xge_mulh ec v.A)
      let terms := terms ++ [(R', a.1), (A, e)]
      if terms.length = size - size % 2 then do
        let ok ← R.lift (eddsa_batch_check ec size sum terms)
        if !ok then .ok false else eddsa_batch_loop rng fuel junk ec size ph ctx ts 0 [] a.2
      else eddsa_batch_loop rng fuel junk ec size ph ctx ts sum terms a.2

/-- src/ecc.c:14192-14337 `eddsa_verify_batch`: what goes into the seed. -/
def eddsa_seed_args (ec : Edwards (ZMod fe.p)) : List (List Byte × List Byte × List Byte) → C (List (List Byte × List Byte × List Byte))
  | [] => .ok []
  | t :: ts => do
    let sig ← C.slice t.2.1 0 (feAdj fe * 2)
    let key ← C.slice t.2.2 0 (feAdj fe)
    let rest ← eddsa_seed_args ec ts
    .ok ((t.1, sig, key) :: rest)

/-- src/ecc.c:14192-14337 `eddsa_verify_batch`; `size` is `scratch->size`. The triples are the messages, signatures and keys. -/
def eddsa_verify_batch {S : Type} (rng : Source S) (fuel : Nat) (junk : Nat → Byte) (ec : Edwards (ZMod fe.p)) (size : Nat)
    (ts : List (List Byte × List Byte × List Byte)) (ph : Int) (ctx : List Byte) : R Bool := do
  R.lift (C.check (size ≥ 2))
  let args ← R.lift (eddsa_seed_args ec ts)
  let seed ← R.lift (batch_seed junk args)
  eddsa_batch_loop rng.toByteGen fuel junk ec size ph ctx ts 0 [] (rng.init seed)

/-! ### Shared secrets -/

/-- src/ecc.c:14339-14370 `eddsa_derive_with_scalar`. -/
def eddsa_derive_with_scalar (ec : Edwards (ZMod fe.p)) (pub scalar : List Byte) : C (List Byte × Bool) := do
  let clamped ← edwards_clamp ec scalar
  let a ← num_import_raw_le ec.n clamped
  let A ← xge_import ec pub
  let P ← edwards_mul ec A.1 a
  let secret ← xge_export P
  return (secret, A.2 && !xge_is_zero P)

/-- src/ecc.c:14372-14388 `eddsa_derive`. -/
def eddsa_derive (junk : Nat → Byte) (ec : Edwards (ZMod fe.p)) (pub priv : List Byte) : C (List Byte × Bool) := do
  let scalar ← eddsa_privkey_convert junk ec priv
  eddsa_derive_with_scalar ec pub scalar

end

end Torsion
