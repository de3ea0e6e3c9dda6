import Verif.Mac.Model
import Verif.Stream.Model

/-!
# Model: ChaCha20-Poly1305 (src/aead.c) and secretbox (src/ies.c)

Both take the Poly1305 back end as a parameter. Old contents of uninitialised memory are explicit
arguments (`stream`, `block`).
-/
namespace Torsion

/-- The `chachapoly_t` of include/torsion/aead.h:1. -/
structure ChachaPoly (S : Type) where
  chacha : StreamCtx
  poly : Buf S
  adlen : BitVec 64
  ctlen : BitVec 64

variable {S : Type} (I : PolyImpl S)

/-- src/aead.c:25-42 `chachapoly_init`. -/
def chachapoly_init (stream block : List Byte) (key iv : List Byte) : C (ChachaPoly S) := do
  let chacha ← chacha20_init stream key iv 0
  let (polykey, chacha) ← chacha20_crypt chacha (List.replicate 64 0)
  let k ← C.vec 32 polykey
  .ok ⟨chacha, poly1305_init I block k, 0, 0⟩

/-- src/aead.c:44-48 `chachapoly_aad`. -/
def chachapoly_aad (aead : ChachaPoly S) (aad : List Byte) : C (ChachaPoly S) := do
  let poly ← poly1305_update I aead.poly aad
  .ok { aead with poly := poly, adlen := aead.adlen + BitVec.ofNat 64 aad.length }

/-- The common start of src/aead.c:50-62 `chachapoly_encrypt`, src/aead.c:64-76 `chachapoly_decrypt` and
src/aead.c:78-86 `chachapoly_auth`: pad before the first data, count the length. -/
def chachapoly_begin (aead : ChachaPoly S) (len : Nat) : C (ChachaPoly S) := do
  let poly ← (if aead.ctlen = 0 then poly1305_pad I aead.poly else .ok aead.poly)
  .ok { aead with poly := poly, ctlen := aead.ctlen + BitVec.ofNat 64 len }

/-- src/aead.c:50-62 `chachapoly_encrypt`: the bytes stored to `dst` and the new context. -/
def chachapoly_encrypt (aead : ChachaPoly S) (src : List Byte) : C (List Byte × ChachaPoly S) := do
  let aead ← chachapoly_begin I aead src.length
  let (dst, chacha) ← chacha20_crypt aead.chacha src
  let poly ← poly1305_update I aead.poly dst
  .ok (dst, { aead with chacha := chacha, poly := poly })

/-- src/aead.c:64-76 `chachapoly_decrypt`. (`poly1305_update` reads `src` before `chacha20_crypt` stores,
so `dst = src` is allowed.) -/
def chachapoly_decrypt (aead : ChachaPoly S) (src : List Byte) : C (List Byte × ChachaPoly S) := do
  let aead ← chachapoly_begin I aead src.length
  let poly ← poly1305_update I aead.poly src
  let (dst, chacha) ← chacha20_crypt aead.chacha src
  .ok (dst, { aead with chacha := chacha, poly := poly })

/-- src/aead.c:78-86 `chachapoly_auth`. -/
def chachapoly_auth (aead : ChachaPoly S) (data : List Byte) : C (ChachaPoly S) := do
  let aead ← chachapoly_begin I aead data.length
  let poly ← poly1305_update I aead.poly data
  .ok { aead with poly := poly }

/-- src/aead.c:88-98 `chachapoly_final`: the 16 bytes of `tag`. -/
def chachapoly_final (aead : ChachaPoly S) : C (List Byte) := do
  let len := (write64le aead.adlen).toList ++ (write64le aead.ctlen).toList
  let poly ← poly1305_pad I aead.poly
  let poly ← poly1305_update I poly len
  poly1305_final I poly

/-- src/ies.c:26-47 `secretbox_seal`: the bytes stored to `sealed`. -/
def secretbox_seal (stream block : List Byte) (msg key nonce : List Byte) : C (List Byte) := do
  let salsa ← salsa20_init stream key nonce 0
  let (polykey, salsa) ← salsa20_crypt salsa (List.replicate 32 0)
  let (ct, _) ← salsa20_crypt salsa msg
  let k ← C.vec 32 polykey
  let poly ← poly1305_update I (poly1305_init I block k) ct
  let tag ← poly1305_final I poly
  .ok (tag ++ ct)

/-- src/ies.c:49-84 `secretbox_open`: the return value and the bytes stored to `msg`. -/
def secretbox_open (stream block : List Byte) (sealed key nonce : List Byte) :
    C (Int × List Byte) :=
  if sealed.length < 16 then .ok (0, [])
  else do
    let tag := sealed.take 16
    let ct := sealed.drop 16
    let salsa ← salsa20_init stream key nonce 0
    let (polykey, salsa) ← salsa20_crypt salsa (List.replicate 32 0)
    let k ← C.vec 32 polykey
    let poly ← poly1305_update I (poly1305_init I block k) ct
    let mac ← poly1305_final I poly
    let ret := torsion_memequal mac tag
    let (msg, _) ← salsa20_crypt salsa ct
    .ok (ret, msg)

/-- src/ies.c:86-89 `secretbox_derive`. -/
def secretbox_derive (secret : List Byte) : C (List Byte) :=
  salsa20_derive secret (List.replicate 32 0)

end Torsion
