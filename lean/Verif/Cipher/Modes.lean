import Verif.Util.Bio
import Verif.Stream.Model
import Verif.Common.Buffer

/-!
# Model of the block and stream modes of src/cipher.c

The modes are modelled over an arbitrary block cipher with `n`-byte blocks; the code only ever
reaches the cipher through `cipher_encrypt` and `cipher_decrypt`. The mode arrays are declared with
16 bytes; only their first `cipher->size` bytes are ever touched, so they are modelled with `n`
bytes and an access beyond them is `ub`. `dst` and `src` are disjoint or, where the code makes a
difference, equal. The clearing of temporaries is not modelled.
-/
namespace Torsion

/-- include/torsion/cipher.h:244-260, `cipher_t` (initialised with some key) as seen through
src/cipher.c:5842-5897 `cipher_encrypt` and src/cipher.c:5899-5954 `cipher_decrypt`; `n` is the field `size`. -/
structure Cipher (n : Nat) where
  enc : Vector Byte n → Vector Byte n
  dec : Vector Byte n → Vector Byte n

/-- The loop `for (i = 0; i < cipher->size; i++) a[i] ^= b[i];`, as in src/cipher.c:6191-6213 `xts_encrypt`. -/
def vxor {n : Nat} (a b : Vector Byte n) : Vector Byte n := Vector.zipWith (· ^^^ ·) a b

/-- `torsion_memxor(v + pos, data, len)`, src/util.c:115-122 `torsion_memxor`; leaving the array is `ub`. -/
def C.xorat {n : Nat} (v : Vector Byte n) (pos : Nat) (data : List Byte) : C (Vector Byte n) :=
  if pos + data.length ≤ n then
    .ok (Vector.ofFn fun i : Fin n =>
      if pos ≤ i.val ∧ i.val < pos + data.length then v[i.val] ^^^ data.getD (i.val - pos) 0
      else v[i.val])
  else .ub

/-- `memcpy(v + pos, data, len)`, as in src/cipher.c:6427-6432 `cfb_xor_enc`; leaving the array is `ub`. -/
def C.putat {n : Nat} (v : Vector Byte n) (pos : Nat) (data : List Byte) : C (Vector Byte n) :=
  if pos + data.length ≤ n then
    .ok (Vector.ofFn fun i : Fin n =>
      if pos ≤ i.val ∧ i.val < pos + data.length then data.getD (i.val - pos) 0 else v[i.val])
  else .ub

/-! ## PKCS7 -/

/-- src/cipher.c:5437-5452 `pkcs7_pad`: `src` is the `len` bytes at `src`. -/
def pkcs7_pad (src : List Byte) (size : Nat) : C (List Byte) := do
  C.check (src.length ≤ size)
  .ok (src ++ List.replicate (size - src.length) (BitVec.ofNat 8 (size - src.length)))

/-- The verification loop of src/cipher.c:5454-5488 `pkcs7_unpad`; first argument = rounds left. -/
def pkcs7_loop (src : List Byte) (lim left : BitVec 32) : Nat → BitVec 32 → BitVec 32 → C (BitVec 32)
  | 0, _, res => .ok res
  | k + 1, i, res => do
    let ch ← C.rd src i.toNat
    pkcs7_loop src lim left k (i + 1)
      (res &&& (((i - lim) >>> 31) ||| (((ch.zeroExtend 32 ^^^ left) - 1) >>> 31)))

/-- src/cipher.c:5454-5488 `pkcs7_unpad`: the return value, `*len` and the bytes written to `dst`; `src` is
the `size` bytes at `src`. -/
def pkcs7_unpad (src : List Byte) : C (BitVec 32 × Nat × List Byte) := do
  let bsize : BitVec 32 := BitVec.ofNat 32 src.length
  let lastb ← C.rd src (bsize - 1).toNat
  let left : BitVec 32 := lastb.zeroExtend 32
  let res : BitVec 32 := 1
  let res := res &&& (((left - 1) >>> 31) ^^^ 1)
  let res := res &&& ((left - bsize - 1) >>> 31)
  let left := left &&& -res
  let lim := bsize - left
  let res ← pkcs7_loop src lim left bsize.toNat 0 res
  .ok (res, (lim &&& -res).toNat, src)

/-! ## ECB -/

/-- The loop `while (len > 0) { ...; dst += size; src += size; len -= size; }` shared by
src/cipher.c:5960-5972 `ecb_encrypt`, src/cipher.c:6035-6054 `cbc_encrypt`, src/cipher.c:6191-6213 `xts_encrypt` and their
decrypting counterparts; `f` is the loop body, given the mode state, `len` and the block at `src`,
and returning the block stored at `dst`. First argument = an upper bound of the rounds. -/
def crypt_loop {S : Type} (n : Nat) (f : S → Nat → Vector Byte n → Vector Byte n × S) :
    Nat → S → List Byte → C (List Byte × S)
  | 0, st, src => if src.length > 0 then .ub else .ok ([], st)
  | k + 1, st, src =>
    if src.length > 0 then do
      let v ← C.vec n src
      let o := f st src.length v
      let r ← crypt_loop n f k o.2 (src.drop n)
      .ok (o.1.toList ++ r.1, r.2)
    else .ok ([], st)

/-- src/cipher.c:5960-5972 `ecb_encrypt`. -/
def ecb_encrypt {n : Nat} (c : Cipher n) (src : List Byte) : C (List Byte) := do
  C.check (src.length &&& (n - 1) = 0)
  let r ← crypt_loop n (fun (_ : Unit) _ v => (c.enc v, ())) src.length () src
  .ok r.1

/-- src/cipher.c:5974-5986 `ecb_decrypt`. -/
def ecb_decrypt {n : Nat} (c : Cipher n) (src : List Byte) : C (List Byte) := do
  C.check (src.length &&& (n - 1) = 0)
  let r ← crypt_loop n (fun (_ : Unit) _ v => (c.dec v, ())) src.length () src
  .ok r.1

/-- The swap loop of src/cipher.c:5988-6005 `ecb_steal`, src/cipher.c:6242-6269 `xts_steal` and
src/cipher.c:6271-6321 `xts_unsteal`: the first `len` bytes of `last` and `block` trade places. -/
def swap_bytes {n : Nat} (last : Vector Byte n) (block : List Byte) (len : Nat) :
    C (Vector Byte n × List Byte) := do
  let b ← C.slice block 0 len
  let l ← C.slice last.toList 0 len
  let block ← C.blit block 0 l
  let last ← C.putat last 0 b
  .ok (last, block)

/-- src/cipher.c:5988-6005 `ecb_steal`. -/
def ecb_steal {n : Nat} (c : Cipher n) (last : Vector Byte n) (block : List Byte) (len : Nat) :
    C (Vector Byte n × List Byte) := do
  C.check (len < n)
  let r ← swap_bytes last block len
  .ok (c.enc r.1, r.2)

/-- src/cipher.c:6007-6024 `ecb_unsteal`. -/
def ecb_unsteal {n : Nat} (c : Cipher n) (last : Vector Byte n) (block : List Byte) (len : Nat) :
    C (Vector Byte n × List Byte) := do
  C.check (len < n)
  let r ← swap_bytes last block len
  .ok (c.dec r.1, r.2)

/-! ## CBC -/

/-- src/cipher.c:6030-6033 `cbc_init`: the state is `mode->prev`. -/
def cbc_init (n : Nat) (iv : List Byte) : C (Vector Byte n) := C.vec n iv

/-- src/cipher.c:6035-6054 `cbc_encrypt`. -/
def cbc_encrypt {n : Nat} (c : Cipher n) (prev : Vector Byte n) (src : List Byte) :
    C (List Byte × Vector Byte n) := do
  C.check (src.length &&& (n - 1) = 0)
  crypt_loop n (fun prev _ v => (c.enc (vxor prev v), c.enc (vxor prev v))) src.length prev src

/-- src/cipher.c:6056-6095 `cbc_decrypt`; `same` tells `dst == src`. -/
def cbc_decrypt {n : Nat} (c : Cipher n) (same : Bool) (prev : Vector Byte n) (src : List Byte) :
    C (List Byte × Vector Byte n) :=
  if same then do
    C.check (src.length &&& (n - 1) = 0)
    crypt_loop n (fun prev _ v => (vxor (c.dec v) prev, v)) src.length prev src
  else if src.length > 0 then do
    let dst ← ecb_decrypt c src
    let d0 ← C.slice dst 0 n
    let last ← C.slice src (src.length - n) n
    let prev' ← C.vec n last
    .ok (memxor3 d0 prev.toList ++ memxor3 (dst.drop n) (src.take (src.length - n)), prev')
  else .ok ([], prev)

/-- src/cipher.c:6097-6114 `cbc_steal`: the new `last`, `block` and `mode->prev`. -/
def cbc_steal {n : Nat} (c : Cipher n) (prev last : Vector Byte n) (block : List Byte) (len : Nat) :
    C (Vector Byte n × List Byte × Vector Byte n) := do
  C.check (len < n)
  let b ← C.slice block 0 len
  let prev ← C.xorat prev 0 b
  let prev := c.enc prev
  let l ← C.slice last.toList 0 len
  let block ← C.blit block 0 l
  .ok (prev, block, prev)

/-- src/cipher.c:6116-6147 `cbc_unsteal`: the new `last`, `block` and `mode->prev`. -/
def cbc_unsteal {n : Nat} (c : Cipher n) (prev last : Vector Byte n) (block : List Byte) (len : Nat) :
    C (Vector Byte n × List Byte × Vector Byte n) := do
  C.check (len < n)
  let prev := c.dec prev
  let tmp := vxor last prev
  let b ← C.slice block 0 len
  let p ← C.slice prev.toList 0 len
  let last ← C.putat prev 0 b
  let block ← C.blit block 0 (memxor3 b p)
  .ok (vxor (c.dec last) tmp, block, prev)

/-! ## XTS -/

/-- src/cipher.c:44-54, `poly_table`. -/
def poly_table : List (BitVec 32) := [0x00001b, 0x000087, 0x000425, 0, 0x000125, 0, 0, 0, 0x080043]

/-- The part of a `block_mode_t` used by XTS, include/torsion/cipher.h:262-265, `block_mode_t`. -/
structure XtsMode (n : Nat) where
  tweak : Vector Byte n
  prev : Vector Byte n

/-- src/cipher.c:6153-6157 `xts_init`. -/
def xts_init (n : Nat) (iv : List Byte) : C (XtsMode n) := do
  let t ← C.vec n iv
  .ok ⟨t, Vector.replicate n 0⟩

/-- src/cipher.c:6159-6172 `xts_setup`: `c2` is the cipher initialised with the second key. -/
def xts_setup {n : Nat} (m : XtsMode n) (c2 : Cipher n) : XtsMode n :=
  { m with tweak := c2.enc m.tweak }

/-- src/cipher.c:6174-6189 `xts_shift` (with `dst = src`, as at every call). The three final updates touch
`dst[0..2]`. -/
def xts_shift {n : Nat} (src : Vector Byte n) : C (Vector Byte n) := do
  let poly ← C.rd poly_table (n >>> 4)
  let top ← C.rd src.toList (n - 1)
  let c := top >>> 7
  let sh := Vector.ofFn fun i : Fin n =>
    (src[i.val] <<< (1 : Nat)) ||| (if i.val = 0 then (0 : Byte) else src[i.val - 1] >>> (7 : Nat))
  C.xorat sh 0 [poly.truncate 8 &&& -c, (poly >>> 8).truncate 8 &&& -c, (poly >>> 16).truncate 8 &&& -c]

/-- The loop of src/cipher.c:6191-6213 `xts_encrypt` and src/cipher.c:6215-6240 `xts_decrypt` (`f` = the block
function, `keep` = the `mode->prev` update of decryption is present); first argument = an upper
bound of the rounds. -/
def xts_loop {n : Nat} (f : Vector Byte n → Vector Byte n) (keep : Bool) :
    Nat → XtsMode n → List Byte → C (List Byte × XtsMode n)
  | 0, m, src => if src.length > 0 then .ub else .ok ([], m)
  | k + 1, m, src =>
    if src.length > 0 then do
      let prev := if keep ∧ src.length = n then m.tweak else m.prev
      let v ← C.vec n src
      let o := vxor (f (vxor v m.tweak)) m.tweak
      let tweak ← xts_shift m.tweak
      let r ← xts_loop f keep k ⟨tweak, prev⟩ (src.drop n)
      .ok (o.toList ++ r.1, r.2)
    else .ok ([], m)

/-- src/cipher.c:6191-6213 `xts_encrypt`. -/
def xts_encrypt {n : Nat} (c : Cipher n) (m : XtsMode n) (src : List Byte) :
    C (List Byte × XtsMode n) := do
  C.check (src.length &&& (n - 1) = 0)
  xts_loop c.enc false src.length m src

/-- src/cipher.c:6215-6240 `xts_decrypt`. -/
def xts_decrypt {n : Nat} (c : Cipher n) (m : XtsMode n) (src : List Byte) :
    C (List Byte × XtsMode n) := do
  C.check (src.length &&& (n - 1) = 0)
  xts_loop c.dec true src.length m src

/-- src/cipher.c:6242-6269 `xts_steal`: the new `last` and `block`. -/
def xts_steal {n : Nat} (c : Cipher n) (m : XtsMode n) (last : Vector Byte n) (block : List Byte)
    (len : Nat) : C (Vector Byte n × List Byte) :=
  if len = 0 then .ok (last, block)
  else do
    C.check (len < n)
    let r ← swap_bytes last block len
    .ok (vxor (c.enc (vxor r.1 m.tweak)) m.tweak, r.2)

/-- src/cipher.c:6271-6321 `xts_unsteal`: the new `last` and `block`. -/
def xts_unsteal {n : Nat} (c : Cipher n) (m : XtsMode n) (last : Vector Byte n) (block : List Byte)
    (len : Nat) : C (Vector Byte n × List Byte) :=
  if len = 0 then .ok (last, block)
  else do
    C.check (len < n)
    let last := vxor (c.enc (vxor last m.prev)) m.prev
    let last := vxor (c.dec (vxor last m.tweak)) m.tweak
    let r ← swap_bytes last block len
    .ok (vxor (c.dec (vxor r.1 m.prev)) m.prev, r.2)

/-! ## Stream modes -/

/-- include/torsion/cipher.h:270-274, `stream_mode_t`. -/
structure StreamMode (n : Nat) where
  state : Vector Byte n
  iv : Vector Byte n
  pos : Nat
deriving DecidableEq

/-- The callback type src/cipher.c:6335, `xor_f`: position and bytes at `src` to the bytes stored. -/
abbrev XorF (n : Nat) := StreamMode n → Nat → List Byte → C (List Byte × StreamMode n)

/-- The loop of src/cipher.c:6329-6329 `stream_update` (renamed to `xstream_update` by a macro): the bytes stored, the
mode and the rest of the input. First argument = an upper bound of the rounds. -/
def xstream_loop {n : Nat} (stream : StreamMode n → C (StreamMode n)) (permute : XorF n) :
    Nat → StreamMode n → List Byte → C (List Byte × StreamMode n × List Byte)
  | 0, m, src => if src.length ≥ n then .ub else .ok ([], m, src)
  | k + 1, m, src =>
    if src.length ≥ n then do
      let m ← stream m
      let r ← permute m 0 (src.take n)
      let q ← xstream_loop stream permute k r.2 (src.drop n)
      .ok (r.1 ++ q.1, q.2)
    else .ok ([], m, src)

/-- src/cipher.c:6329-6329 `stream_update` (renamed to `xstream_update` by a macro). -/
def xstream_update {n : Nat} (stream : StreamMode n → C (StreamMode n)) (permute : XorF n)
    (m : StreamMode n) (src : List Byte) : C (List Byte × StreamMode n) := do
  let pos := m.pos
  let want := n - pos
  let a ←
    (if src.length ≥ want then do
      let a ←
        (if pos > 0 then do
          let r ← permute m pos (src.take want)
          .ok (r.1, r.2, src.drop want, 0)
        else .ok (([] : List Byte), m, src, pos))
      let q ← xstream_loop stream permute a.2.2.1.length a.2.1 a.2.2.1
      .ok (a.1 ++ q.1, q.2.1, q.2.2, a.2.2.2)
    else .ok (([] : List Byte), m, src, pos))
  if a.2.2.1.length > 0 then do
    let m ← (if a.2.2.2 = 0 then stream a.2.1 else .ok a.2.1)
    let r ← permute m a.2.2.2 a.2.2.1
    .ok (a.1 ++ r.1, { r.2 with pos := a.2.2.2 + a.2.2.1.length })
  else .ok (a.1, { a.2.1 with pos := a.2.2.2 })

/-- src/cipher.c:6384-6390 `ctr_init`; src/cipher.c:6414-6420 `cfb_init` is the same. -/
def ctr_init (n : Nat) (iv : List Byte) : C (StreamMode n) := do
  let iv ← C.vec n iv
  .ok ⟨Vector.replicate n 0, iv, 0⟩

/-- src/cipher.c:6392-6396 `ctr_stream`. -/
def ctr_stream {n : Nat} (c : Cipher n) (m : StreamMode n) : C (StreamMode n) := do
  let iv ← increment_be_var m.iv.toList
  let iv ← C.vec n iv
  .ok { m with state := c.enc m.iv, iv := iv }

/-- src/cipher.c:6398-6402 `ctr_xor`. -/
def ctr_xor {n : Nat} (m : StreamMode n) (pos : Nat) (src : List Byte) :
    C (List Byte × StreamMode n) := do
  let ks ← C.slice m.state.toList pos src.length
  .ok (memxor3 src ks, m)

/-- src/cipher.c:6404-6408 `ctr_crypt`. -/
def ctr_crypt {n : Nat} (c : Cipher n) (m : StreamMode n) (src : List Byte) :
    C (List Byte × StreamMode n) := xstream_update (ctr_stream c) ctr_xor m src

/-- src/cipher.c:6414-6420 `cfb_init`. -/
def cfb_init (n : Nat) (iv : List Byte) : C (StreamMode n) := ctr_init n iv

/-- src/cipher.c:6422-6425 `cfb_stream`. -/
def cfb_stream {n : Nat} (c : Cipher n) (m : StreamMode n) : C (StreamMode n) :=
  .ok { m with state := c.enc m.iv }

/-- src/cipher.c:6427-6432 `cfb_xor_enc`. -/
def cfb_xor_enc {n : Nat} (m : StreamMode n) (pos : Nat) (src : List Byte) :
    C (List Byte × StreamMode n) := do
  let ks ← C.slice m.state.toList pos src.length
  let iv ← C.putat m.iv pos (memxor3 src ks)
  .ok (memxor3 src ks, { m with iv := iv })

/-- src/cipher.c:6434-6439 `cfb_xor_dec`. -/
def cfb_xor_dec {n : Nat} (m : StreamMode n) (pos : Nat) (src : List Byte) :
    C (List Byte × StreamMode n) := do
  let iv ← C.putat m.iv pos src
  let ks ← C.slice m.state.toList pos src.length
  .ok (memxor3 src ks, { m with iv := iv })

/-- src/cipher.c:6441-6445 `cfb_encrypt`. -/
def cfb_encrypt {n : Nat} (c : Cipher n) (m : StreamMode n) (src : List Byte) :
    C (List Byte × StreamMode n) := xstream_update (cfb_stream c) cfb_xor_enc m src

/-- src/cipher.c:6447-6451 `cfb_decrypt`. -/
def cfb_decrypt {n : Nat} (c : Cipher n) (m : StreamMode n) (src : List Byte) :
    C (List Byte × StreamMode n) := xstream_update (cfb_stream c) cfb_xor_dec m src

/-- src/cipher.c:6457-6461 `ofb_init`; the unused field `iv` is not initialised by the code (here: zero). -/
def ofb_init (n : Nat) (iv : List Byte) : C (StreamMode n) := do
  let st ← C.vec n iv
  .ok ⟨st, Vector.replicate n 0, 0⟩

/-- src/cipher.c:6463-6466 `ofb_stream`. -/
def ofb_stream {n : Nat} (c : Cipher n) (m : StreamMode n) : C (StreamMode n) :=
  .ok { m with state := c.enc m.state }

/-- src/cipher.c:6468-6472 `ofb_crypt`. -/
def ofb_crypt {n : Nat} (c : Cipher n) (m : StreamMode n) (src : List Byte) :
    C (List Byte × StreamMode n) := xstream_update (ofb_stream c) ctr_xor m src

end Torsion
