import Verif.Cipher.StreamSpec
import Verif.Mac.Spec
import Verif.Drbg.Spec
import Mathlib.Data.Nat.Log

/-!
# Specification of GCM, CCM and EAX

From NIST SP 800-38B (CMAC), SP 800-38C (CCM), SP 800-38D (GCM) and the EAX paper, over an arbitrary
block function.
-/
namespace Torsion.Spec

/-! ## GCM -/

/-- SP 800-38D, 6.3: the block R, `11100001` and 120 zeros. -/
def gcmR : BitVec 128 := (0xe1 : BitVec 8) ++ (0 : BitVec 120)

/-- SP 800-38D, 6.3: multiplication of a block by `x` (bits are numbered from the left). -/
def gcmShift (v : BitVec 128) : BitVec 128 := if v.getLsbD 0 then (v >>> 1) ^^^ gcmR else v >>> 1

/-- SP 800-38D, algorithm 1: the product of two blocks. -/
def gcmMul (x y : BitVec 128) : BitVec 128 :=
  ((List.range 128).foldl (fun zv i => (if x.getMsbD i then zv.1 ^^^ zv.2 else zv.1, gcmShift zv.2))
    ((0 : BitVec 128), y)).1

/-- The bit string of a block. -/
def blockBits (b : Vector Byte 16) : BitVec 128 := BitVec.ofNat 128 (beVal b.toList)

/-- SP 800-38D, algorithm 2. -/
def gcmHash (h : BitVec 128) (bl : List (Vector Byte 16)) : BitVec 128 :=
  bl.foldl (fun y b => gcmMul (y ^^^ blockBits b) h) 0

/-- The hash of data `a` and ciphertext `c`: both filled up with zeros, then their lengths in bits,
64 bits each. -/
def gcmDigest (h : BitVec 128) (a c : List Byte) : Vector Byte 16 :=
  beBlock 16 (gcmHash h (blocks 16 (pad16 a ++ pad16 c ++
    (beBlock 8 (8 * a.length)).toList ++ (beBlock 8 (8 * c.length)).toList))).toNat

/-- The hash key. -/
def gcmKey (E : Vector Byte 16 → Vector Byte 16) : BitVec 128 := blockBits (E (Vector.replicate 16 0))

/-- SP 800-38D, 7.1: the pre-counter block. -/
def gcmStart (E : Vector Byte 16 → Vector Byte 16) (iv : List Byte) : Vector Byte 16 :=
  if iv.length = 12 then Vector.ofFn fun i => (iv ++ [0, 0, 0, 1]).getD i.val 0
  else gcmDigest (gcmKey E) [] iv

/-- SP 800-38D, 6.2: the counter block `k` steps after `v`: the last four bytes count. -/
def gcmCount (v : Vector Byte 16) (k : Nat) : Vector Byte 16 :=
  Vector.ofFn fun i => if i.val < 12 then v[i]
    else BitVec.ofNat 8 ((beVal (v.toList.drop 12) + k) / 256 ^ (15 - i.val))

/-- The key stream for the message. -/
def gcmStream (E : Vector Byte 16 → Vector Byte 16) (iv : List Byte) (i : Nat) : Byte :=
  (E (gcmCount (gcmStart E iv) (i / 16 + 1))).toList.getD (i % 16) 0

/-- The ciphertext of `m`, and the message of ciphertext `m`. -/
def gcmCrypt (E : Vector Byte 16 → Vector Byte 16) (iv m : List Byte) : List Byte := xorStream (gcmStream E iv) 0 m

/-- The tag of data `a` and ciphertext `c`. -/
def gcmTag (E : Vector Byte 16 → Vector Byte 16) (iv a c : List Byte) : List Byte :=
  (bxor (gcmDigest (gcmKey E) a c) (E (gcmStart E iv))).toList

/-! ## CMAC and CBC-MAC -/

/-- The chaining of CBC-MAC and CMAC. -/
def macChain {n : Nat} (E : Vector Byte n → Vector Byte n) (bl : List (Vector Byte n)) : Vector Byte n :=
  bl.foldl (fun x b => E (bxor x b)) (Vector.replicate n 0)

/-- Multiplication by `x` in the field, most significant byte first. -/
def cmacDouble {n : Nat} (v : Vector Byte n) : Vector Byte n := beBlock n (gfDouble n (beVal v.toList))

/-- SP 800-38B, 6.1: the first subkey. -/
def cmacKey {n : Nat} (E : Vector Byte n → Vector Byte n) : Vector Byte n := cmacDouble (E (Vector.replicate n 0))

/-- SP 800-38B, 6.2. -/
def cmac {n : Nat} (E : Vector Byte n → Vector Byte n) (m : List Byte) : Vector Byte n :=
  if m ≠ [] ∧ n ∣ m.length then
    let bl := blocks n m
    E (bxor (macChain E bl.dropLast) (bxor (lastBlock (Vector.replicate n 0) bl) (cmacKey E)))
  else
    let bl := blocks n (m ++ [0x80] ++ List.replicate (n - 1 - m.length % n) 0)
    E (bxor (macChain E bl.dropLast) (bxor (lastBlock (Vector.replicate n 0) bl) (cmacDouble (cmacKey E))))

/-! ## EAX -/

/-- CMAC with a number in front. -/
def omac {n : Nat} (E : Vector Byte n → Vector Byte n) (t : Nat) (m : List Byte) : Vector Byte n :=
  cmac E ((beBlock n t).toList ++ m)

/-- The ciphertext of `m`, and the message of ciphertext `m`. -/
def eaxCrypt {n : Nat} (E : Vector Byte n → Vector Byte n) (iv m : List Byte) : List Byte :=
  xorStream (ctrStream E (omac E 0 iv)) 0 m

/-- The tag of data `a` and ciphertext `c`. -/
def eaxTag {n : Nat} (E : Vector Byte n → Vector Byte n) (iv a c : List Byte) : List Byte :=
  (bxor (bxor (omac E 0 iv) (omac E 2 c)) (omac E 1 a)).toList

/-! ## CCM -/

/-- The number of bytes for the message length: as few as possible, but at least two. The library
fixes this parameter of CCM from the message length. -/
def ccmL (len : Nat) : Nat := max 2 (Nat.log 256 len + 1)

/-- The nonce: the library cuts it or extends it by zeros to the `15 - L` bytes CCM needs. -/
def ccmNonce (iv : List Byte) (len : Nat) : List Byte := fitTo (15 - ccmL len) iv

/-- SP 800-38C, A.2.2: the announcement of the associated data. -/
def ccmHead (a : Nat) : List Byte :=
  if a = 0 then []
  else if a < 0xff00 then (beBlock 2 a).toList
  else if a < 2 ^ 32 then [0xff, 0xfe] ++ (beBlock 4 a).toList
  else [0xff, 0xff] ++ (beBlock 8 a).toList

/-- SP 800-38C, A.2.1: the first block, for data of length `a`, message length `len` and tags of `t`
bytes. -/
def ccmFirst (nonce : List Byte) (a len t : Nat) : List Byte :=
  BitVec.ofNat 8 ((if a = 0 then 0 else 64) + 8 * ((t - 2) / 2) + (ccmL len - 1)) ::
    nonce ++ (beBlock (ccmL len) len).toList

/-- SP 800-38C, A.3: counter block `i`. -/
def ccmCount (nonce : List Byte) (len i : Nat) : Vector Byte 16 :=
  Vector.ofFn fun j => (BitVec.ofNat 8 (ccmL len - 1) :: nonce ++ (beBlock (ccmL len) i).toList).getD j.val 0

/-- The ciphertext of `m`, and the message of ciphertext `m`, both of `len` bytes. -/
def ccmCrypt (E : Vector Byte 16 → Vector Byte 16) (iv : List Byte) (len : Nat) (m : List Byte) : List Byte :=
  xorStream (fun i => (E (ccmCount (ccmNonce iv len) len (i / 16 + 1))).toList.getD (i % 16) 0) 0 m

/-- The tag of data `a` and message `m`, cut to `t` bytes. `len` is the length of `m`. -/
def ccmTag (E : Vector Byte 16 → Vector Byte 16) (iv : List Byte) (len t : Nat) (a m : List Byte) : List Byte :=
  (bxor (macChain E (blocks 16 (ccmFirst (ccmNonce iv len) a.length len t ++
    pad16 (ccmHead a.length ++ a) ++ pad16 m))) (E (ccmCount (ccmNonce iv len) len 0))).toList.take t

/-! ## Sessions -/

/-- Several calls of `cipher_stream_set_aad`: whether all returned 1, and the context. -/
def setAads {n : Nat} (aads : List (List Byte)) (ctx : CipherStream n) : C (Bool × CipherStream n) :=
  match aads with
  | [] => .ok (true, ctx)
  | a :: as => do
    let r ← cipher_stream_set_aad ctx a
    let q ← setAads as r.2
    .ok (r.1 && q.1, q.2)

/-- `cipher_stream_set_tag`, if there is a tag to set. -/
def setTag {n : Nat} (tag : Option (List Byte)) (ctx : CipherStream n) : C (Bool × CipherStream n) :=
  match tag with
  | none => .ok (true, ctx)
  | some t => cipher_stream_set_tag ctx t

/-- What a user sees of a session: the return values of the preparation, of `cipher_stream_set_tag` and of
`cipher_stream_final`, the output of the updates, and what `cipher_stream_get_tag` gives at the end. -/
structure AeadResult where
  prepared : Bool
  tagged : Bool
  ret : Bool
  out : List Byte
  tag : Option (List Byte)
deriving DecidableEq

/-- A session after `cipher_stream_init`: preparation (associated data), the expected tag, updates, the final
call, asking for the tag. -/
def aeadRun {n : Nat} (prep : CipherStream n → C (Bool × CipherStream n)) (tag : Option (List Byte))
    (same : Bool) (chunks : List (List Byte)) (ctx : CipherStream n) : C AeadResult := do
  let p ← prep ctx
  let q ← setTag tag p.2
  let r ← calls (streamUpdate same) q.2 chunks
  let f ← cipher_stream_final r.2
  let t ← cipher_stream_get_tag f.ctx
  .ok ⟨p.1, q.1, f.ret, r.1 ++ f.out, t⟩

/-- A whole session; `none` if `cipher_stream_init` returned 0. -/
def aeadSession (t : CipherType) (mode : ModeId) (encrypt : Bool) (key iv : List Byte)
    (prep : CipherStream t.size → C (Bool × CipherStream t.size)) (tag : Option (List Byte)) (same : Bool)
    (chunks : List (List Byte)) : C (Option AeadResult) := do
  let r ← cipher_stream_init t mode encrypt key iv
  match r with
  | none => .ok none
  | some ctx => do
    let x ← aeadRun prep tag same chunks ctx
    .ok (some x)

end Torsion.Spec
