import Verif.Block.Blowfish
import Verif.Common.Proto
import Verif.Encoding.Tables
import Verif.Hash.Model
import Verif.Kdf.Model

/-!
# Model of bcrypt, src/kdf.c

A C string is the memory from its first character on, at least to the NUL; a read past the end of the list is `ub`.
A function that returns 0 gives `fail`. Characters are ASCII (`torsion_ascii` of src/internal.h:562, without the table for
other character sets). The clearing of temporaries (`torsion_memzero`) is not modelled.
-/
namespace Torsion

/-- src/cipher.c:1800-1808 `blowfish_enc`, which leaves a last odd word alone. -/
def blowfish_enc (ctx : Blowfish) : List (BitVec 32) → List (BitVec 32)
  | a :: b :: r =>
    let x := blowfish_encipher ctx ⟨a, b⟩
    x.l :: x.r :: blowfish_enc ctx r
  | r => r

/-- src/kdf.c:49-54, `BCRYPT_CIPHERTEXT192`. -/
def bcrypt_ciphertext192 : List Byte :=
  [0x4f, 0x72, 0x70, 0x68, 0x65, 0x61, 0x6e, 0x42, 0x65, 0x68, 0x6f, 0x6c, 0x64, 0x65, 0x72, 0x53,
   0x63, 0x72, 0x79, 0x44, 0x6f, 0x75, 0x62, 0x74]

/-- src/kdf.c:60-66, `BCRYPT_CIPHERTEXT256`. -/
def bcrypt_ciphertext256 : List Byte :=
  [0x4f, 0x78, 0x79, 0x63, 0x68, 0x72, 0x6f, 0x6d, 0x61, 0x74, 0x69, 0x63, 0x42, 0x6c, 0x6f, 0x77,
   0x66, 0x69, 0x73, 0x68, 0x53, 0x77, 0x61, 0x74, 0x44, 0x79, 0x6e, 0x61, 0x6d, 0x69, 0x74, 0x65]

/-- src/kdf.c:70-71, `base64_charset`. -/
def bcrypt_charset : List Byte :=
  ['.', '/', 'A', 'B', 'C', 'D', 'E', 'F', 'G', 'H', 'I', 'J', 'K', 'L', 'M', 'N',
   'O', 'P', 'Q', 'R', 'S', 'T', 'U', 'V', 'W', 'X', 'Y', 'Z', 'a', 'b', 'c', 'd',
   'e', 'f', 'g', 'h', 'i', 'j', 'k', 'l', 'm', 'n', 'o', 'p', 'q', 'r', 's', 't',
   'u', 'v', 'w', 'x', 'y', 'z', '0', '1', '2', '3', '4', '5', '6', '7', '8', '9'].map ch

set_option maxRecDepth 8000 in
/-- src/kdf.c:73-106, `base64_table`; -1 is the byte 255. -/
def bcrypt_table : Vector Byte 256 := #v[
  255, 255, 255, 255, 255, 255, 255, 255, 255, 255, 255, 255, 255, 255, 255, 255,
  255, 255, 255, 255, 255, 255, 255, 255, 255, 255, 255, 255, 255, 255, 255, 255,
  255, 255, 255, 255, 255, 255, 255, 255, 255, 255, 255, 255, 255, 255,   0,   1,
   54,  55,  56,  57,  58,  59,  60,  61,  62,  63, 255, 255, 255, 255, 255, 255,
  255,   2,   3,   4,   5,   6,   7,   8,   9,  10,  11,  12,  13,  14,  15,  16,
   17,  18,  19,  20,  21,  22,  23,  24,  25,  26,  27, 255, 255, 255, 255, 255,
  255,  28,  29,  30,  31,  32,  33,  34,  35,  36,  37,  38,  39,  40,  41,  42,
   43,  44,  45,  46,  47,  48,  49,  50,  51,  52,  53, 255, 255, 255, 255, 255,
  255, 255, 255, 255, 255, 255, 255, 255, 255, 255, 255, 255, 255, 255, 255, 255,
  255, 255, 255, 255, 255, 255, 255, 255, 255, 255, 255, 255, 255, 255, 255, 255,
  255, 255, 255, 255, 255, 255, 255, 255, 255, 255, 255, 255, 255, 255, 255, 255,
  255, 255, 255, 255, 255, 255, 255, 255, 255, 255, 255, 255, 255, 255, 255, 255,
  255, 255, 255, 255, 255, 255, 255, 255, 255, 255, 255, 255, 255, 255, 255, 255,
  255, 255, 255, 255, 255, 255, 255, 255, 255, 255, 255, 255, 255, 255, 255, 255,
  255, 255, 255, 255, 255, 255, 255, 255, 255, 255, 255, 255, 255, 255, 255, 255,
  255, 255, 255, 255, 255, 255, 255, 255, 255, 255, 255, 255, 255, 255, 255, 255]

/-- src/kdf.c:108-143 `base64_encode`: the characters written before the NUL. The loop is a recursion on the bytes left. -/
def bcrypt_base64_encode : List Byte → C (List Byte)
  | [] => .ok []
  | [a] => do
    let w ← C.rd bcrypt_charset (a >>> 2).toNat
    let x ← C.rd bcrypt_charset ((a &&& 3) <<< 4).toNat
    .ok [w, x]
  | [a, b] => do
    let w ← C.rd bcrypt_charset (a >>> 2).toNat
    let x ← C.rd bcrypt_charset (((a &&& 3) <<< 4) ||| ((b >>> 4) &&& 15)).toNat
    let y ← C.rd bcrypt_charset ((b &&& 15) <<< 2).toNat
    .ok [w, x, y]
  | a :: b :: c :: r => do
    let w ← C.rd bcrypt_charset (a >>> 2).toNat
    let x ← C.rd bcrypt_charset (((a &&& 3) <<< 4) ||| ((b >>> 4) &&& 15)).toNat
    let y ← C.rd bcrypt_charset (((b &&& 15) <<< 2) ||| ((c >>> 6) &&& 3)).toNat
    let z ← C.rd bcrypt_charset (c &&& 63).toNat
    let r ← bcrypt_base64_encode r
    .ok (w :: x :: y :: z :: r)

/-- One `base64_table[torsion_ascii(src[i++])]` with its test, of src/kdf.c:145-186 `base64_decode`. -/
def bcrypt_sym (src : List Byte) (i : Nat) : R Byte := do
  let c ← C.rd src i
  let t := look bcrypt_table c
  R.need (t &&& 0x80 == 0)
  .ok t

/-- src/kdf.c:145-186 `base64_decode`, with `left` bytes to write and at character `i`: the bytes written and the number of the
next character. -/
def bcrypt_base64_decode (src : List Byte) : (left i : Nat) → R (List Byte × Nat)
  | 0, i => .ok ([], i)
  | 1, i => do
    let c1 ← bcrypt_sym src i
    let c2 ← bcrypt_sym src (i + 1)
    .ok ([(c1 <<< 2) ||| ((c2 &&& 48) >>> 4)], i + 2)
  | 2, i => do
    let c1 ← bcrypt_sym src i
    let c2 ← bcrypt_sym src (i + 1)
    let c3 ← bcrypt_sym src (i + 2)
    .ok ([(c1 <<< 2) ||| ((c2 &&& 48) >>> 4), ((c2 &&& 15) <<< 4) ||| ((c3 &&& 60) >>> 2)], i + 3)
  | left + 3, i => do
    let c1 ← bcrypt_sym src i
    let c2 ← bcrypt_sym src (i + 1)
    let c3 ← bcrypt_sym src (i + 2)
    let c4 ← bcrypt_sym src (i + 3)
    let (r, j) ← bcrypt_base64_decode src left (i + 4)
    .ok (((c1 <<< 2) ||| ((c2 &&& 48) >>> 4)) :: (((c2 &&& 15) <<< 4) ||| ((c3 &&& 60) >>> 2)) :: (((c3 &&& 3) <<< 6) ||| c4) :: r, j)

/-- src/kdf.c:188-206 `bcrypt_encode`: the string with its NUL. -/
def bcrypt_encode (minor : Byte) (rounds : Nat) (salt hash : List Byte) : C (List Byte) := do
  C.check (decide (rounds ≥ 4 ∧ rounds ≤ 31))
  let s ← bcrypt_base64_encode salt
  let h ← bcrypt_base64_encode hash
  .ok ([ch '$', ch '2', minor, ch '$', ch '0' + BitVec.ofNat 8 (rounds / 10), ch '0' + BitVec.ofNat 8 (rounds % 10), ch '$'] ++ s ++ h ++ [0])

/-- src/kdf.c:208-259 `bcrypt_decode`: minor, rounds, salt, hash. -/
def bcrypt_decode (str : List Byte) : R (Byte × Nat × List Byte × List Byte) := do
  let s0 ← C.rd str 0
  R.need (s0 == ch '$')
  let s1 ← C.rd str 1
  R.need (s1 == ch '2')
  let minor ← C.rd str 2
  R.need (minor == ch 'a' || minor == ch 'b')
  let s3 ← C.rd str 3
  R.need (s3 == ch '$')
  let s4 ← C.rd str 4
  R.need (s4 != 0)
  let s5 ← C.rd str 5
  R.need (s5 != 0)
  let hi : Int := s4.toInt - 48
  let lo : Int := s5.toInt - 48
  R.need (!(decide (hi < 0) || decide (hi > 9) || decide (lo < 0) || decide (lo > 9)))
  let rounds := (hi * 10 + lo).toNat
  R.need (!(decide (rounds < 4) || decide (rounds > 31)))
  let s6 ← C.rd str 6
  R.need (s6 == ch '$')
  let (salt, i) ← bcrypt_base64_decode str 16 7
  let (hash, i) ← bcrypt_base64_decode str 23 i
  let e ← C.rd str i
  R.need (e == 0)
  .ok (minor, rounds, salt, hash)

/-- src/kdf.c:261-277 `bcrypt_ascii_key`, with room for `room` more of the 255 bytes. -/
def bcrypt_ascii_loop (pass : List Byte) : (room len : Nat) → R (List Byte)
  | 0, len => do
    let _ ← C.rd pass len
    .ok []
  | room + 1, len => do
    let c ← C.rd pass len
    if c = 0 then .ok []
    else do
      R.need (!((decide (c.toNat < 7) || decide (c.toNat > 13)) && (decide (c.toNat < 32) || decide (c.toNat > 126))))
      let r ← bcrypt_ascii_loop pass room (len + 1)
      .ok (c :: r)

/-- src/kdf.c:261-277 `bcrypt_ascii_key`: the bytes of `key` that are set. -/
def bcrypt_ascii_key (pass : List Byte) : R (List Byte) := bcrypt_ascii_loop pass 255 0

/-- `blowfish_stream2word` of src/kdf.c:279-316 `bcrypt_hash192`, called `n` times. -/
def bcrypt_cdata (data : List Byte) : (n off : Nat) → List (BitVec 32)
  | 0, _ => []
  | n + 1, off =>
    let w := blowfish_stream2word data off
    w.1 :: bcrypt_cdata data n w.2

/-- The test of `rounds` at the start of src/kdf.c:279-316 `bcrypt_hash192`. -/
def bcrypt_clamp (rounds : Nat) : Nat := if rounds < 4 then 4 else if rounds > 31 then 31 else rounds

/-- src/kdf.c:279-316 `bcrypt_hash192`. -/
def bcrypt_hash192 (pass salt : List Byte) (rounds : Nat) : List Byte :=
  let rounds := bcrypt_clamp rounds
  let state := blowfish_init pass salt
  let state := (List.range (2 ^ rounds)).foldl
    (fun st _ => blowfish_expand0state (blowfish_expand0state st pass) salt) state
  let cdata := bcrypt_cdata bcrypt_ciphertext192 6 0
  let cdata := (List.range 64).foldl (fun cd _ => blowfish_enc state cd) cdata
  cdata.flatMap fun w => (write32be w).toList

/-- src/kdf.c:318-355 `bcrypt_hash256`. -/
def bcrypt_hash256 (pass salt : List Byte) (rounds : Nat) : List Byte :=
  let rounds := bcrypt_clamp rounds
  let state := blowfish_init pass salt
  let state := (List.range (2 ^ rounds)).foldl
    (fun st _ => blowfish_expand0state (blowfish_expand0state st salt) pass) state
  let cdata := bcrypt_cdata bcrypt_ciphertext256 8 0
  let cdata := (List.range 64).foldl (fun cd _ => blowfish_enc state cd) cdata
  cdata.flatMap fun w => (write32le w).toList

/-- src/kdf.c:357-402 `bcrypt_derive`; the bytes of `key` that are set are a list, and reading more of them is `ub`. -/
def bcrypt_derive (pass : List Byte) (salt : Vector Byte 16) (rounds : Nat) (minor : Byte) : R (List Byte) := do
  R.need (!(decide (rounds < 4) || decide (rounds > 31)))
  let key ← (if pass.length ≥ 255 then C.slice pass 0 255 else C.ok (pass ++ [0]) : C (List Byte))
  let key_len ← (if minor = ch 'a' then R.ok ((pass.length + 1) % 2 ^ 64 % 256)
    else if minor = ch 'b' then
      let key_len := pass.length
      let key_len := if key_len > 72 then 72 else key_len
      R.ok (key_len + 1)
    else R.fail : R Nat)
  let key ← C.slice key 0 key_len
  let tmp := bcrypt_hash192 key salt.toList rounds
  let out ← C.slice tmp 0 23
  .ok out

/-- src/kdf.c:404-419 `bcrypt_generate`: the string with its NUL. -/
def bcrypt_generate (pass : List Byte) (salt : Vector Byte 16) (rounds : Nat) (minor : Byte) : R (List Byte) := do
  let hash ← bcrypt_derive pass salt rounds minor
  let out ← bcrypt_encode minor rounds salt.toList hash
  .ok out

/-- src/kdf.c:421-436 `bcrypt_verify`; `ok` for 1. -/
def bcrypt_verify (pass record : List Byte) : R Unit := do
  let (minor, rounds, salt, expect) ← bcrypt_decode record
  let salt ← C.vec 16 salt
  let hash ← bcrypt_derive pass salt rounds minor
  R.need (torsion_memequal hash expect != 0)

/-- src/kdf.c:438-456 `bcrypt_hash`. -/
def bcrypt_hash (pass : List Byte) (salt : Vector Byte 16) (rounds : Nat) (minor : Byte) : R (List Byte) := do
  let key ← bcrypt_ascii_key pass
  bcrypt_generate key salt rounds minor

/-- src/kdf.c:458-472 `bcrypt_check`; `ok` for 1. -/
def bcrypt_check (pass record : List Byte) : R Unit := do
  let key ← bcrypt_ascii_key pass
  bcrypt_verify key record

/-- The three calls `sha512_init`, `sha512_update`, `sha512_final` of src/kdf.c:474-557 `bcrypt_pbkdf`. -/
def bcrypt_sha512 (junk : Nat → Byte) (m : List Byte) : C (List Byte) := do
  let h ← md_update sha512Alg (sha512_init junk) m
  md_final sha512Alg h

/-- The loop `for (i = 1; i < rounds; i++)` of src/kdf.c:474-557 `bcrypt_pbkdf`, with `n` rounds left. -/
def bcrypt_pbkdf_rounds (junk : Nat → Nat → Byte) (sha2pass : List Byte) : (n : Nat) → (tmpout out : List Byte) → C (List Byte)
  | 0, _, out => .ok out
  | n + 1, tmpout, out => do
    let sha2salt ← bcrypt_sha512 (junk n) tmpout
    let tmpout := bcrypt_hash256 sha2pass sha2salt 6
    bcrypt_pbkdf_rounds junk sha2pass n tmpout (List.zipWith (· ^^^ ·) out tmpout)

/-- The loop `for (i = 0; i < amt; i++)` of src/kdf.c:474-557 `bcrypt_pbkdf`, with `n` rounds left: the key and the final `i`. -/
def bcrypt_pbkdf_copy (out : List Byte) (size stride count : Nat) : (n i : Nat) → List Byte → C (List Byte × Nat)
  | 0, i, key => .ok (key, i)
  | n + 1, i, key =>
    let dest := i * stride + (count - 1)
    if dest ≥ size then .ok (key, i)
    else do
      let b ← C.rd out i
      let key ← C.wr key dest b
      bcrypt_pbkdf_copy out size stride count n (i + 1) key

/-- The loop `for (count = 1; keylen > 0; count++)` of src/kdf.c:474-557 `bcrypt_pbkdf`, with at most `fuel` rounds; more is
`ub`. -/
def bcrypt_pbkdf_loop (junk : Nat → Nat → Byte) (sha2pass : List Byte) (shash : MdCtx sha512Alg) (rounds size stride : Nat) :
    (fuel count keylen amt : Nat) → List Byte → C (List Byte)
  | 0, _, keylen, _, key => if keylen = 0 then .ok key else .ub
  | fuel + 1, count, keylen, amt, key =>
    if keylen = 0 then .ok key
    else do
      let hash ← md_update sha512Alg shash (write32be (BitVec.ofNat 32 count)).toList
      let sha2salt ← md_final sha512Alg hash
      let tmpout := bcrypt_hash256 sha2pass sha2salt 6
      let out ← bcrypt_pbkdf_rounds junk sha2pass (rounds - 1) tmpout tmpout
      let amt := if amt > keylen then keylen else amt
      let (key, i) ← bcrypt_pbkdf_copy out size stride count amt 0 key
      bcrypt_pbkdf_loop junk sha2pass shash rounds size stride fuel (count + 1) (keylen - i) amt key

/-- src/kdf.c:474-557 `bcrypt_pbkdf`; `key` is the memory of `size` bytes at the pointer. -/
def bcrypt_pbkdf (junk : Nat → Nat → Byte) (key pass salt : List Byte) (rounds : Nat) : R (List Byte) := do
  let size := key.length
  R.need (!(decide (rounds = 0) || decide (pass.length = 0) || decide (salt.length = 0) || decide (size = 0) ||
    decide (size > 32 * 32) || decide (salt.length > 2 ^ 20)))
  let stride := (size + 32 - 1) / 32
  let amount := (size + stride - 1) / stride
  let sha2pass ← bcrypt_sha512 (junk 0) pass
  let shash ← md_update sha512Alg (sha512_init (junk 1)) salt
  let key ← bcrypt_pbkdf_loop junk sha2pass shash rounds size stride size 1 size amount key
  .ok key

end Torsion
