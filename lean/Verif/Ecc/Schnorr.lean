import Verif.Ecc.Ecdsa
import Verif.Hash.Dispatch
import Verif.Mpi.Gcd

/-!
# Model: Schnorr signatures (src/ecc.c), the older scheme `bipschnorr` and BIP 340

Scalars are numbers below the order, as in Ecdsa.lean. `xof` is the hash of the curve (`ec->xof`), and the hashes are those
of Hash/Dispatch.lean; `junk` gives the bytes of uninitialised memory.

Elsewhere: the functions which generate or search for keys (Grind.lean), the functions which hash to the curve
(WeiHash.lean). Not modelled: the clearing of secrets.
-/
namespace Torsion

open Spec (beVal leVal)

/-! ### Helpers -/

/-- src/ecc.c:1935-1997 `scalar_field_init`: `sc->mask`. -/
def scMask (n : Nat) : Byte := if n.size % 8 ≠ 0 then BitVec.ofNat 8 (2 ^ (n.size % 8) - 1) else 0xff

/-- src/ecc.c:983-988 `sc_import_weak` on numbers (`sc_import_weak_exact` for the limbs): one conditional subtraction. -/
def num_import_weak (n : Nat) (xp : List Byte) : C (Nat × Bool) := do
  let b ← C.slice xp 0 (scSize n)
  return (if beVal b < n then beVal b else beVal b - n, decide (beVal b < n))

/-- src/ecc.c:835-840 `sc_neg_cond` on numbers. -/
def num_neg_cond (n x : Nat) (flag : Bool) : Nat := if flag then num_neg n x else x

/-- src/ecc.c:1326-1344 `sc_random` on numbers (`sc_random_exact` for the limbs). -/
def num_random {S : Type} (rng : ByteGen S) (n : Nat) : Nat → S → R (Nat × S)
  | 0, _ => .spin
  | fuel + 1, st => do
    let b := rng.gen st ((n.size + 63) / 64 * 8)
    let z := leVal b.1 % 2 ^ n.size
    if 0 < z ∧ z < n then .ok (z, b.2) else num_random rng n fuel b.2

/-- The limbs of a number, at src/ecc.c:1470-1477 `fe_get_limbs`. -/
def limbsOf : Nat → Nat → List Limb
  | 0, _ => []
  | k + 1, v => BitVec.ofNat 64 v :: limbsOf k (v / 2 ^ 64)

section
variable {fe : FieldCode} [Fact fe.p.Prime]

/-- src/ecc.c:1470-1477 `fe_get_limbs`; the conversion of the field (`to_bytes`) is not modelled. -/
def fe_get_limbs (fe : FieldCode) (x : ZMod fe.p) : List Limb := limbsOf ((feBits fe + 63) / 64) x.val

/-- src/ecc.c:1813-1821 `fe_is_square_var`. -/
def fe_is_square_var (fe : FieldCode) (x : ZMod fe.p) : C Bool := do
  let j ← mpn_jacobi_n (fe_get_limbs fe x) (limbsOf ((feBits fe + 63) / 64) fe.p)
  return decide (j ≥ 0)

/-- src/ecc.c:2330-2333 `wge_is_square`. -/
def wge_is_square (_ec : WeiT fe) (p : Wge (ZMod fe.p)) : C Bool := do
  let s ← fe_is_square fe p.y
  return s && !p.inf

/-- src/ecc.c:2343-2346 `wge_is_even`. -/
def wge_is_even (_ec : WeiT fe) (p : Wge (ZMod fe.p)) : Bool := !fe_is_odd fe p.y && !p.inf

/-- src/ecc.c:2867-2871 `jge_is_zero`. -/
def jge_is_zero (p : Jge (ZMod fe.p)) : Bool := p.inf

/-- src/ecc.c:2912-2924 `jge_is_square_var`. -/
def jge_is_square_var (_ec : WeiT fe) (p : Jge (ZMod fe.p)) : C Bool := do
  if p.inf then return false
  fe_is_square_var fe (p.y * p.z)

/-- The end of src/ecc.c:11577-11599 `bipschnorr_hash_nonce`, src/ecc.c:11601-11626 `bipschnorr_hash_challenge`, src/ecc.c:12463-12521 `bip340_hash_nonce` and
src/ecc.c:12523-12574 `bip340_hash_challenge`: the digest, cut to the bits of the order, as a scalar. -/
def hash_scalar (junk : Nat → Byte) (n : Nat) (h : HashCtx) : C Nat := do
  let bytes ← hash_final junk h (scSize n)
  let b ← C.rd bytes 0
  let bytes ← C.wr bytes 0 (b &&& scMask n)
  let k ← num_import_weak n bytes
  return k.1

/-! ### Verification in batches -/

/-- What the loops of src/ecc.c:11788-11941 `bipschnorr_verify_batch` and src/ecc.c:12735-12875 `bip340_verify_batch` read from a signature. -/
structure BatchItem (F : Type) where
  s : Nat
  R : Wge F
  A : Wge F
  e : Nat

/-- The check in src/ecc.c:11788-11941 `bipschnorr_verify_batch` and src/ecc.c:12735-12875 `bip340_verify_batch`; the terms are the two arrays of the
scratch. -/
def batch_check (ec : WeiT fe) (size sum : Nat) (terms : List (Wge (ZMod fe.p) × Nat)) : C Bool := do
  let r ← wei_jmul_multi_var ec.toWei (num_neg ec.n sum) terms size
  return jge_is_zero r

/-- The loop of src/ecc.c:11788-11941 `bipschnorr_verify_batch` and src/ecc.c:12735-12875 `bip340_verify_batch`; `parse` is the part which differs and
`j` is the number of terms. -/
def batch_loop {S T : Type} (rng : ByteGen S) (fuel : Nat) (ec : WeiT fe) (size : Nat)
    (parse : T → C (Option (BatchItem (ZMod fe.p)))) : List T → Nat → List (Wge (ZMod fe.p) × Nat) → S → R Bool
  | [], sum, terms, _ => if terms.length > 0 then batch_check ec size sum terms else .ok true
  | t :: ts, sum, terms, st => do
    let v ← R.lift (parse t)
    match v with
    | none => .ok false
    | some v => do
      let a ← if terms.length = 0 then .ok (1, st) else num_random rng ec.n fuel st
      let e := v.e * a.1 % ec.n
      let s := v.s * a.1 % ec.n
      let sum := (sum + s) % ec.n
      let terms := terms ++ [(v.R, a.1), (v.A, e)]
      if terms.length = size - size % 2 then do
        let ok ← R.lift (batch_check ec size sum terms)
        if !ok then .ok false else batch_loop rng fuel ec size parse ts 0 [] a.2
      else batch_loop rng fuel ec size parse ts sum terms a.2

/-- The loop which seeds the generator in src/ecc.c:11788-11941 `bipschnorr_verify_batch` and src/ecc.c:12735-12875 `bip340_verify_batch`: for every
signature the message, and the bytes of the signature and the key. -/
def batch_seed_loop (junk : Nat → Byte) : List (List Byte × List Byte × List Byte) → MdCtx sha256Alg → C (MdCtx sha256Alg)
  | [], outer => .ok outer
  | (msg, sig, key) :: ts, outer => do
    let inner ← md_update sha256Alg (sha256_init junk) msg
    let bytes ← md_final sha256Alg inner
    let outer ← md_update sha256Alg outer bytes
    let outer ← md_update sha256Alg outer sig
    let outer ← md_update sha256Alg outer key
    batch_seed_loop junk ts outer

/-- The seed in src/ecc.c:11788-11941 `bipschnorr_verify_batch` and src/ecc.c:12735-12875 `bip340_verify_batch`. -/
def batch_seed (junk : Nat → Byte) (ts : List (List Byte × List Byte × List Byte)) : C (List Byte) := do
  let outer ← batch_seed_loop junk ts (sha256_init junk)
  md_final sha256Alg outer

/-! ### The older scheme -/

/-- src/ecc.c:11565-11570 `bipschnorr_support`. -/
def bipschnorr_support (fe : FieldCode) : Bool := fe.p % 2 ^ 64 % 4 == 3

/-- src/ecc.c:11572-11575 `bipschnorr_sig_size`. -/
def bipschnorr_sig_size (ec : WeiT fe) : Nat := feSize fe + scSize ec.n

/-- src/ecc.c:11577-11599 `bipschnorr_hash_nonce`. -/
def bipschnorr_hash_nonce (junk : Nat → Byte) (xof : HashId) (ec : WeiT fe) (scalar msg : List Byte) : C Nat := do
  let h ← hash_init junk xof
  let scalar ← C.slice scalar 0 (scSize ec.n)
  let h ← hash_update h scalar
  let h ← hash_update h msg
  hash_scalar junk ec.n h

/-- src/ecc.c:11601-11626 `bipschnorr_hash_challenge`. -/
def bipschnorr_hash_challenge (junk : Nat → Byte) (xof : HashId) (ec : WeiT fe) (R A msg : List Byte) : C Nat := do
  let h ← hash_init junk xof
  let R ← C.slice R 0 (feSize fe)
  let A ← C.slice A 0 (feSize fe + 1)
  let h ← hash_update h R
  let h ← hash_update h A
  let h ← hash_update h msg
  hash_scalar junk ec.n h

/-- src/ecc.c:11628-11705 `bipschnorr_sign`. -/
def bipschnorr_sign (junk : Nat → Byte) (xof : HashId) (ec : WeiT fe) (msg priv : List Byte) : C (List Byte × Bool) := do
  let a ← ecdsa_key ec priv
  let A ← wei_mul_g ec.toWei a.1
  let k ← bipschnorr_hash_nonce junk xof ec priv msg
  let nz := k != 0
  let R ← wei_mul_g ec.toWei k
  let sq ← wge_is_square ec R
  let k := num_neg_cond ec.n k (!sq)
  let Rraw := wge_export_x ec R
  let Araw := wge_export ec A true
  let e ← bipschnorr_hash_challenge junk xof ec Rraw.1 Araw.1 msg
  let s := e * a.1 % ec.n
  let s := (s + k) % ec.n
  return (Rraw.1 ++ num_export ec.n s, a.2 && nz && Rraw.2 && Araw.2)

/-- src/ecc.c:11707-11786 `bipschnorr_verify`. -/
def bipschnorr_verify (junk : Nat → Byte) (xof : HashId) (ec : WeiT fe) (msg sig pub : List Byte) : C Bool := do
  let r ← fe_import fe sig
  if !r.2 then return false
  let s ← num_import ec.n (sig.drop (feSize fe))
  if !s.2 then return false
  let A ← wge_import ec pub
  if !A.2 then return false
  let Araw := wge_export ec A.1 true
  C.check Araw.2
  let e ← bipschnorr_hash_challenge junk xof ec sig Araw.1 msg
  let e := num_neg ec.n e
  let R ← wei_jmul_double_var ec.toWei s.1 A.1 e
  let sq ← jge_is_square_var ec R
  if !sq then return false
  if !jge_equal_x R r.1 then return false
  return true

/-- src/ecc.c:11788-11941 `bipschnorr_verify_batch`: the part of the loop which reads a signature. The triple is the message, the signature
and the key. -/
def bipschnorr_item (junk : Nat → Byte) (xof : HashId) (ec : WeiT fe) (t : List Byte × List Byte × List Byte) :
    C (Option (BatchItem (ZMod fe.p))) := do
  let s ← num_import ec.n (t.2.1.drop (feSize fe))
  if !s.2 then return none
  let R ← wge_import_square ec t.2.1
  if !R.2 then return none
  let A ← wge_import ec t.2.2
  if !A.2 then return none
  let Araw := wge_export ec A.1 true
  C.check Araw.2
  let e ← bipschnorr_hash_challenge junk xof ec t.2.1 Araw.1 t.1
  return some ⟨s.1, R.1, A.1, e⟩

/-- src/ecc.c:11788-11941 `bipschnorr_verify_batch`: the quick reserialization of a key for the seed. -/
def bipschnorr_quick (fe : FieldCode) (pub : List Byte) : C (List Byte) :=
  if pub.length = feSize fe + 1 then .ok pub
  else if pub.length = feSize fe * 2 + 1 then do
    let b ← C.rd pub (pub.length - 1)
    let x ← C.slice pub 1 (feSize fe)
    .ok ((0x02 ||| (b &&& 1)) :: x)
  else .ok (List.replicate (feSize fe + 1) 0)

/-- src/ecc.c:11788-11941 `bipschnorr_verify_batch`: what goes into the seed. -/
def bipschnorr_seed_args (ec : WeiT fe) : List (List Byte × List Byte × List Byte) →
    C (List (List Byte × List Byte × List Byte))
  | [] => .ok []
  | t :: ts => do
    let key ← bipschnorr_quick fe t.2.2
    let sig ← C.slice t.2.1 0 (bipschnorr_sig_size ec)
    let rest ← bipschnorr_seed_args ec ts
    .ok ((t.1, sig, key) :: rest)

/-- src/ecc.c:11788-11941 `bipschnorr_verify_batch`; `size` is `scratch->size`. -/
def bipschnorr_verify_batch {S : Type} (rng : Source S) (fuel : Nat) (junk : Nat → Byte) (xof : HashId) (ec : WeiT fe)
    (size : Nat) (ts : List (List Byte × List Byte × List Byte)) : R Bool := do
  R.lift (C.check (size ≥ 2))
  let args ← R.lift (bipschnorr_seed_args ec ts)
  let seed ← R.lift (batch_seed junk args)
  batch_loop rng.toByteGen fuel ec size (bipschnorr_item junk xof ec) ts 0 [] (rng.init seed)

/-! ### BIP 340: keys -/

/-- src/ecc.c:11947-11950 `bip340_privkey_size`. -/
def bip340_privkey_size (ec : WeiT fe) : Nat := scSize ec.n

/-- src/ecc.c:11952-11955 `bip340_pubkey_size`. -/
def bip340_pubkey_size (_ec : WeiT fe) : Nat := feSize fe

/-- src/ecc.c:11957-11960 `bip340_sig_size`. -/
def bip340_sig_size (ec : WeiT fe) : Nat := feSize fe + scSize ec.n

/-- src/ecc.c:11986-11989 `bip340_privkey_verify`. -/
def bip340_privkey_verify (ec : WeiT fe) (priv : List Byte) : C Bool := ecdsa_privkey_verify ec priv

/-- src/ecc.c:11991-12024 `bip340_privkey_export`: the scalar, the two coordinates and the result. -/
def bip340_privkey_export (ec : WeiT fe) (priv : List Byte) : C (List Byte × List Byte × List Byte × Bool) := do
  let a ← ecdsa_key ec priv
  let A ← wei_mul_g ec.toWei a.1
  let ret := a.2 && !A.inf
  let k := num_neg_cond ec.n a.1 (!wge_is_even ec A)
  let A := wge_neg_cond A (!wge_is_even ec A)
  return (num_export ec.n k, fe_export fe A.x, fe_export fe A.y, ret)

/-- src/ecc.c:12026-12032 `bip340_privkey_import`. -/
def bip340_privkey_import (ec : WeiT fe) (bytes : List Byte) : List Byte × Bool := ecdsa_privkey_import ec bytes

/-- src/ecc.c:12034-12063 `bip340_privkey_tweak_add`. -/
def bip340_privkey_tweak_add (ec : WeiT fe) (priv tweak : List Byte) : C (List Byte × Bool) := do
  let a ← ecdsa_key ec priv
  let t ← num_import ec.n tweak
  let A ← wei_mul_g ec.toWei a.1
  let k := num_neg_cond ec.n a.1 (!wge_is_even ec A)
  let k := (k + t.1) % ec.n
  return (num_export ec.n k, a.2 && t.2 && k != 0)

/-- src/ecc.c:12065-12071 `bip340_privkey_tweak_mul`. -/
def bip340_privkey_tweak_mul (ec : WeiT fe) (priv tweak : List Byte) : C (List Byte × Bool) :=
  ecdsa_privkey_tweak_mul ec priv tweak

/-- src/ecc.c:12073-12078 `bip340_privkey_invert`. -/
def bip340_privkey_invert (ec : WeiT fe) (priv : List Byte) : C (List Byte × Bool) := ecdsa_privkey_invert ec priv

/-- src/ecc.c:12080-12101 `bip340_pubkey_create`. -/
def bip340_pubkey_create (ec : WeiT fe) (priv : List Byte) : C (List Byte × Bool) := do
  let a ← ecdsa_key ec priv
  let A ← wei_mul_g ec.toWei a.1
  let r := wge_export_x ec A
  return (r.1, a.2 && r.2)

/-- src/ecc.c:12197-12202 `bip340_pubkey_verify`. -/
def bip340_pubkey_verify (ec : WeiT fe) (pub : List Byte) : C Bool := do
  let A ← wge_import_even ec pub
  return A.2

/-- src/ecc.c:12204-12219 `bip340_pubkey_export`. -/
def bip340_pubkey_export (ec : WeiT fe) (pub : List Byte) : C (List Byte × List Byte × Bool) := do
  let A ← wge_import_even ec pub
  return (fe_export fe A.1.x, fe_export fe A.1.y, A.2)

/-- src/ecc.c:12221-12247 `bip340_pubkey_import`. -/
def bip340_pubkey_import (ec : WeiT fe) (x_raw y_raw : List Byte) : C (List Byte × Bool) := do
  let has_x := decide (x_raw.length > 0)
  let has_y := decide (y_raw.length > 0)
  let x ← fe_import_pad fe x_raw
  let y ← fe_import_pad fe y_raw
  let A ← if has_x && has_y then pure (wge_set_xy ec.toCurve x.1 y.1) else wge_set_x ec x.1 none
  let r := wge_export_x ec A.1
  return (r.1, has_x && x.2 && y.2 && A.2 && r.2)

/-- src/ecc.c:12249-12278 `bip340_pubkey_tweak_add`: the key, `*negated` and the result. -/
def bip340_pubkey_tweak_add (ec : WeiT fe) (pub tweak : List Byte) : C (List Byte × Bool × Bool) := do
  let A ← wge_import_even ec pub
  let t ← num_import ec.n tweak
  let T ← wei_jmul_g ec.toWei t.1
  let T := jge_mixed_add ec.toCurve T A.1
  let P := wge_set_jge T
  let r := wge_export_x ec P
  return (r.1, !wge_is_even ec P, A.2 && t.2 && r.2)

/-- src/ecc.c:12280-12296 `bip340_pubkey_tweak_add_check`. -/
def bip340_pubkey_tweak_add_check (ec : WeiT fe) (pub tweak expect : List Byte) (negated : Bool) : C Bool := do
  let r ← bip340_pubkey_tweak_add ec pub tweak
  let expect ← C.slice expect 0 (feSize fe)
  return r.2.2 && r.1 == expect && r.2.1 == negated

/-- src/ecc.c:12298-12322 `bip340_pubkey_tweak_mul`: the key, `*negated` and the result. -/
def bip340_pubkey_tweak_mul (ec : WeiT fe) (pub tweak : List Byte) : C (List Byte × Bool × Bool) := do
  let A ← wge_import_even ec pub
  let t ← num_import ec.n tweak
  let P ← wei_mul ec.toWei A.1 t.1
  let r := wge_export_x ec P
  return (r.1, !wge_is_even ec P, A.2 && t.2 && r.2)

/-- src/ecc.c:12324-12340 `bip340_pubkey_tweak_mul_check`. -/
def bip340_pubkey_tweak_mul_check (ec : WeiT fe) (pub tweak expect : List Byte) (negated : Bool) : C Bool := do
  let r ← bip340_pubkey_tweak_mul ec pub tweak
  let expect ← C.slice expect 0 (feSize fe)
  return r.2.2 && r.1 == expect && r.2.1 == negated

/-- src/ecc.c:12342-12358 `bip340_pubkey_add`. -/
def bip340_pubkey_add (ec : WeiT fe) (pub1 pub2 : List Byte) : C (List Byte × Bool) := do
  let P ← wge_import_even ec pub1
  let Q ← wge_import_even ec pub2
  let r := wge_export_x ec (wge_add ec.toCurve P.1 Q.1)
  return (r.1, P.2 && Q.2 && r.2)

/-- src/ecc.c:12360-12389 `bip340_pubkey_combine`, the loop. -/
def bip340_combine_loop (ec : WeiT fe) : List (List Byte) → Jge (ZMod fe.p) → Bool → C (Jge (ZMod fe.p) × Bool)
  | [], P, ret => return (P, ret)
  | pub :: pubs, P, ret => do
    let A ← wge_import_even ec pub
    bip340_combine_loop ec pubs (jge_mixed_add ec.toCurve P A.1) (ret && A.2)

/-- src/ecc.c:12360-12389 `bip340_pubkey_combine`, the sum. -/
def bip340_combine_sum (ec : WeiT fe) : List (List Byte) → C (Jge (ZMod fe.p) × Bool)
  | [] => return (jge_zero, true)
  | pub :: pubs => do
    let A ← wge_import_even ec pub
    bip340_combine_loop ec pubs (jge_set_wge A.1) A.2

/-- src/ecc.c:12360-12389 `bip340_pubkey_combine`. -/
def bip340_pubkey_combine (ec : WeiT fe) (pubs : List (List Byte)) : C (List Byte × Bool) := do
  let s ← bip340_combine_sum ec pubs
  let r := wge_export_x ec (wge_set_jge s.1)
  return (r.1, s.2 && r.2)

/-! ### BIP 340: hashes -/

/-- src/ecc.c:12391-12414 `bip340_hash_init`. -/
def bip340_hash_init (junk : Nat → Byte) (type : HashId) (tag : List Byte) : C HashCtx := do
  let hash_size := hash_output_size type
  let block_size := hash_block_size type
  let other := decide (hash_size ≠ block_size / 2)
  let h ← hash_init junk (if other then .SHAKE256 else type)
  let hash_size := if other then block_size / 2 else hash_size
  let h ← hash_update h tag
  let bytes ← hash_final junk h hash_size
  let bytes ← C.slice bytes 0 hash_size
  let h ← hash_init junk type
  let h ← hash_update h bytes
  hash_update h bytes

/-- src/ecc.c:12416-12461 `bip340_hash_aux`: the state for SHA-256. -/
def bip340_mid_aux : Vector (BitVec 32) 8 :=
  #v[0x24dd3219, 0x4eba7e70, 0xca0fabb9, 0x0fa3166d, 0x3afbe4b1, 0x4c44df97, 0x4aac2739, 0x249e850a]

/-- src/ecc.c:12463-12521 `bip340_hash_nonce`: the state for SHA-256. -/
def bip340_mid_nonce : Vector (BitVec 32) 8 :=
  #v[0x46615b35, 0xf4bfbff7, 0x9f8dc671, 0x83627ab3, 0x60217180, 0x57358661, 0x21a29e54, 0x68b07b4c]

/-- src/ecc.c:12523-12574 `bip340_hash_challenge`: the state for SHA-256. -/
def bip340_mid_challenge : Vector (BitVec 32) 8 :=
  #v[0x9cecba11, 0x23925381, 0x11679112, 0xd1627e0f, 0x97c87550, 0x003cc765, 0x90f61164, 0x33e9b66a]

/-- src/ecc.c:12416-12461 `bip340_hash_aux`: the tag. -/
def bip340_tag_aux : List Byte := [0x42, 0x49, 0x50, 0x30, 0x33, 0x34, 0x30, 0x2f, 0x61, 0x75, 0x78]

/-- src/ecc.c:12463-12521 `bip340_hash_nonce`: the tag. -/
def bip340_tag_nonce : List Byte :=
  [0x42, 0x49, 0x50, 0x30, 0x33, 0x34, 0x30, 0x2f, 0x6e, 0x6f, 0x6e, 0x63, 0x65]

/-- src/ecc.c:12523-12574 `bip340_hash_challenge`: the tag. -/
def bip340_tag_challenge : List Byte :=
  [0x42, 0x49, 0x50, 0x30, 0x33, 0x34, 0x30, 0x2f, 0x63, 0x68, 0x61, 0x6c, 0x6c, 0x65, 0x6e, 0x67, 0x65]

/-- The first part of src/ecc.c:12416-12461 `bip340_hash_aux`, src/ecc.c:12463-12521 `bip340_hash_nonce` and src/ecc.c:12523-12574 `bip340_hash_challenge`. -/
def bip340_hash_start (junk : Nat → Byte) (xof : HashId) (mid : Vector (BitVec 32) 8) (tag : List Byte) : C HashCtx :=
  if xof = .SHA256 then .ok ⟨.SHA256, .sha256 ⟨mid, rawBytes 64 junk, (64 : BitVec 64)⟩⟩
  else bip340_hash_init junk xof tag

/-- src/ecc.c:12416-12461 `bip340_hash_aux`. -/
def bip340_hash_aux (junk : Nat → Byte) (xof : HashId) (ec : WeiT fe) (scalar aux : List Byte) : C (List Byte) := do
  let h ← bip340_hash_start junk xof bip340_mid_aux bip340_tag_aux
  let aux ← C.slice aux 0 32
  let h ← hash_update h aux
  let bytes ← hash_final junk h (scSize ec.n)
  let bytes ← C.slice bytes 0 (scSize ec.n)
  return List.zipWith (· ^^^ ·) scalar bytes

/-- src/ecc.c:12463-12521 `bip340_hash_nonce`; `aux` is `none` for `NULL`. -/
def bip340_hash_nonce (junk : Nat → Byte) (xof : HashId) (ec : WeiT fe) (scalar point msg : List Byte)
    (aux : Option (List Byte)) : C Nat := do
  let secret ← match aux with
    | some aux => bip340_hash_aux junk xof ec scalar aux
    | none => .ok scalar
  let h ← bip340_hash_start junk xof bip340_mid_nonce bip340_tag_nonce
  let h ← hash_update h secret
  let h ← hash_update h point
  let h ← hash_update h msg
  hash_scalar junk ec.n h

/-- src/ecc.c:12523-12574 `bip340_hash_challenge`. -/
def bip340_hash_challenge (junk : Nat → Byte) (xof : HashId) (ec : WeiT fe) (R A msg : List Byte) : C Nat := do
  let h ← bip340_hash_start junk xof bip340_mid_challenge bip340_tag_challenge
  let R ← C.slice R 0 (feSize fe)
  let A ← C.slice A 0 (feSize fe)
  let h ← hash_update h R
  let h ← hash_update h A
  let h ← hash_update h msg
  hash_scalar junk ec.n h

/-! ### BIP 340: signatures -/

/-- src/ecc.c:12576-12663 `bip340_sign`. -/
def bip340_sign (junk : Nat → Byte) (xof : HashId) (ec : WeiT fe) (msg priv : List Byte) (aux : Option (List Byte)) :
    C (List Byte × Bool) := do
  let a ← ecdsa_key ec priv
  let A ← wei_mul_g ec.toWei a.1
  let d := num_neg_cond ec.n a.1 (!wge_is_even ec A)
  let araw := num_export ec.n d
  let Araw := wge_export_x ec A
  let k ← bip340_hash_nonce junk xof ec araw Araw.1 msg aux
  let nz := k != 0
  let R ← wei_mul_g ec.toWei k
  let k := num_neg_cond ec.n k (!wge_is_even ec R)
  let Rraw := wge_export_x ec R
  let e ← bip340_hash_challenge junk xof ec Rraw.1 Araw.1 msg
  let s := e * d % ec.n
  let s := (s + k) % ec.n
  return (Rraw.1 ++ num_export ec.n s, a.2 && Araw.2 && nz && Rraw.2)

/-- src/ecc.c:12665-12733 `bip340_verify`. -/
def bip340_verify (junk : Nat → Byte) (xof : HashId) (ec : WeiT fe) (msg sig pub : List Byte) : C Bool := do
  let r ← fe_import fe sig
  if !r.2 then return false
  let s ← num_import ec.n (sig.drop (feSize fe))
  if !s.2 then return false
  let A ← wge_import_even ec pub
  if !A.2 then return false
  let e ← bip340_hash_challenge junk xof ec sig pub msg
  let e := num_neg ec.n e
  let R ← wei_mul_double_var ec.toWei s.1 A.1 e
  if !wge_is_even ec R then return false
  if !wge_equal_x R r.1 then return false
  return true

/-- src/ecc.c:12735-12875 `bip340_verify_batch`: the part of the loop which reads a signature. The triple is the message, the signature and
the key. -/
def bip340_item (junk : Nat → Byte) (xof : HashId) (ec : WeiT fe) (t : List Byte × List Byte × List Byte) :
    C (Option (BatchItem (ZMod fe.p))) := do
  let s ← num_import ec.n (t.2.1.drop (feSize fe))
  if !s.2 then return none
  let R ← wge_import_even ec t.2.1
  if !R.2 then return none
  let A ← wge_import_even ec t.2.2
  if !A.2 then return none
  let e ← bip340_hash_challenge junk xof ec t.2.1 t.2.2 t.1
  return some ⟨s.1, R.1, A.1, e⟩

/-- src/ecc.c:12735-12875 `bip340_verify_batch`: what goes into the seed. -/
def bip340_seed_args (ec : WeiT fe) : List (List Byte × List Byte × List Byte) →
    C (List (List Byte × List Byte × List Byte))
  | [] => .ok []
  | t :: ts => do
    let sig ← C.slice t.2.1 0 (bip340_sig_size ec)
    let key ← C.slice t.2.2 0 (feSize fe)
    let rest ← bip340_seed_args ec ts
    .ok ((t.1, sig, key) :: rest)

/-- src/ecc.c:12735-12875 `bip340_verify_batch`; `size` is `scratch->size`. -/
def bip340_verify_batch {S : Type} (rng : Source S) (fuel : Nat) (junk : Nat → Byte) (xof : HashId) (ec : WeiT fe)
    (size : Nat) (ts : List (List Byte × List Byte × List Byte)) : R Bool := do
  R.lift (C.check (size ≥ 2))
  let args ← R.lift (bip340_seed_args ec ts)
  let seed ← R.lift (batch_seed junk args)
  batch_loop rng.toByteGen fuel ec size (bip340_item junk xof ec) ts 0 [] (rng.init seed)

/-- src/ecc.c:12877-12901 `bip340_derive`. -/
def bip340_derive (ec : WeiT fe) (pub priv : List Byte) : C (List Byte × Bool) := do
  let a ← ecdsa_key ec priv
  let A ← wge_import_even ec pub
  let P ← wei_mul ec.toWei A.1 a.1
  let r := wge_export_x ec P
  return (r.1, a.2 && A.2 && r.2)

end

end Torsion
