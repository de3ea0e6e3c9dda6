import Verif.Mpi.Random
import Verif.Mpi.Gcd
import Verif.Mpi.Powm
import Verif.Asn1.Model
import Verif.Drbg.Model
import Verif.Util.Bio

/-!
# Model: RSA (src/rsa.c)

Calls which return 0 on a failure are in the monad `R`; the clearing of buffers is not modelled. `fuel` bounds the
rounds of the loops which draw random numbers. Every `malloc` succeeds. The random generator is a parameter. `junk`
stands for uninitialised memory (as in the model of src/hash.c).

Generation is in Verif/Rsa/Generate.lean.
-/
namespace Torsion

/-- src/rsa.c:41-231, `digest_info`. -/
def digest_info : List (List Byte) := [
  -- NONE
  [0x00, 0x00, 0x00, 0x00, 0x00, 0x00, 0x00, 0x00, 0x00, 0x00, 0x00, 0x00,
    0x00, 0x00, 0x00, 0x00, 0x00, 0x00, 0x00, 0x00, 0x00, 0x00, 0x00, 0x00],
  -- BLAKE2B160
  [0x15, 0x30, 0x27, 0x30, 0x0f, 0x06, 0x0b, 0x2b, 0x06, 0x01, 0x04, 0x01,
    0x8d, 0x3a, 0x0c, 0x02, 0x01, 0x05, 0x05, 0x00, 0x04, 0x14, 0x00, 0x00],
  -- BLAKE2B256
  [0x15, 0x30, 0x33, 0x30, 0x0f, 0x06, 0x0b, 0x2b, 0x06, 0x01, 0x04, 0x01,
    0x8d, 0x3a, 0x0c, 0x02, 0x01, 0x08, 0x05, 0x00, 0x04, 0x20, 0x00, 0x00],
  -- BLAKE2B384
  [0x15, 0x30, 0x43, 0x30, 0x0f, 0x06, 0x0b, 0x2b, 0x06, 0x01, 0x04, 0x01,
    0x8d, 0x3a, 0x0c, 0x02, 0x01, 0x0c, 0x05, 0x00, 0x04, 0x30, 0x00, 0x00],
  -- BLAKE2B512
  [0x15, 0x30, 0x53, 0x30, 0x0f, 0x06, 0x0b, 0x2b, 0x06, 0x01, 0x04, 0x01,
    0x8d, 0x3a, 0x0c, 0x02, 0x01, 0x10, 0x05, 0x00, 0x04, 0x40, 0x00, 0x00],
  -- BLAKE2S128
  [0x15, 0x30, 0x23, 0x30, 0x0f, 0x06, 0x0b, 0x2b, 0x06, 0x01, 0x04, 0x01,
    0x8d, 0x3a, 0x0c, 0x02, 0x02, 0x04, 0x05, 0x00, 0x04, 0x10, 0x00, 0x00],
  -- BLAKE2S160
  [0x15, 0x30, 0x27, 0x30, 0x0f, 0x06, 0x0b, 0x2b, 0x06, 0x01, 0x04, 0x01,
    0x8d, 0x3a, 0x0c, 0x02, 0x02, 0x05, 0x05, 0x00, 0x04, 0x14, 0x00, 0x00],
  -- BLAKE2S224
  [0x15, 0x30, 0x2f, 0x30, 0x0f, 0x06, 0x0b, 0x2b, 0x06, 0x01, 0x04, 0x01,
    0x8d, 0x3a, 0x0c, 0x02, 0x02, 0x07, 0x05, 0x00, 0x04, 0x1c, 0x00, 0x00],
  -- BLAKE2S256
  [0x15, 0x30, 0x33, 0x30, 0x0f, 0x06, 0x0b, 0x2b, 0x06, 0x01, 0x04, 0x01,
    0x8d, 0x3a, 0x0c, 0x02, 0x02, 0x08, 0x05, 0x00, 0x04, 0x20, 0x00, 0x00],
  -- GOST94
  [0x10, 0x30, 0x2e, 0x30, 0x0a, 0x06, 0x06, 0x2a, 0x85, 0x03, 0x02, 0x02,
    0x14, 0x05, 0x00, 0x04, 0x20, 0x00, 0x00, 0x00, 0x00, 0x00, 0x00, 0x00],
  -- HASH160
  [0x00, 0x00, 0x00, 0x00, 0x00, 0x00, 0x00, 0x00, 0x00, 0x00, 0x00, 0x00,
    0x00, 0x00, 0x00, 0x00, 0x00, 0x00, 0x00, 0x00, 0x00, 0x00, 0x00, 0x00],
  -- HASH256
  [0x00, 0x00, 0x00, 0x00, 0x00, 0x00, 0x00, 0x00, 0x00, 0x00, 0x00, 0x00,
    0x00, 0x00, 0x00, 0x00, 0x00, 0x00, 0x00, 0x00, 0x00, 0x00, 0x00, 0x00],
  -- KECCAK224
  [0x00, 0x00, 0x00, 0x00, 0x00, 0x00, 0x00, 0x00, 0x00, 0x00, 0x00, 0x00,
    0x00, 0x00, 0x00, 0x00, 0x00, 0x00, 0x00, 0x00, 0x00, 0x00, 0x00, 0x00],
  -- KECCAK256
  [0x00, 0x00, 0x00, 0x00, 0x00, 0x00, 0x00, 0x00, 0x00, 0x00, 0x00, 0x00,
    0x00, 0x00, 0x00, 0x00, 0x00, 0x00, 0x00, 0x00, 0x00, 0x00, 0x00, 0x00],
  -- KECCAK384
  [0x00, 0x00, 0x00, 0x00, 0x00, 0x00, 0x00, 0x00, 0x00, 0x00, 0x00, 0x00,
    0x00, 0x00, 0x00, 0x00, 0x00, 0x00, 0x00, 0x00, 0x00, 0x00, 0x00, 0x00],
  -- KECCAK512
  [0x00, 0x00, 0x00, 0x00, 0x00, 0x00, 0x00, 0x00, 0x00, 0x00, 0x00, 0x00,
    0x00, 0x00, 0x00, 0x00, 0x00, 0x00, 0x00, 0x00, 0x00, 0x00, 0x00, 0x00],
  -- MD2
  [0x12, 0x30, 0x20, 0x30, 0x0c, 0x06, 0x08, 0x2a, 0x86, 0x48, 0x86, 0xf7,
    0x0d, 0x02, 0x02, 0x05, 0x00, 0x04, 0x10, 0x00, 0x00, 0x00, 0x00, 0x00],
  -- MD4
  [0x12, 0x30, 0x20, 0x30, 0x0c, 0x06, 0x08, 0x2a, 0x86, 0x48, 0x86, 0xf7,
    0x0d, 0x02, 0x04, 0x05, 0x00, 0x04, 0x10, 0x00, 0x00, 0x00, 0x00, 0x00],
  -- MD5
  [0x12, 0x30, 0x20, 0x30, 0x0c, 0x06, 0x08, 0x2a, 0x86, 0x48, 0x86, 0xf7,
    0x0d, 0x02, 0x05, 0x05, 0x00, 0x04, 0x10, 0x00, 0x00, 0x00, 0x00, 0x00],
  -- MD5SHA1
  [0x00, 0x00, 0x00, 0x00, 0x00, 0x00, 0x00, 0x00, 0x00, 0x00, 0x00, 0x00,
    0x00, 0x00, 0x00, 0x00, 0x00, 0x00, 0x00, 0x00, 0x00, 0x00, 0x00, 0x00],
  -- RIPEMD160 (RFC4880)
  [0x0f, 0x30, 0x21, 0x30, 0x09, 0x06, 0x05, 0x2b, 0x24, 0x03, 0x02, 0x01,
    0x05, 0x00, 0x04, 0x14, 0x00, 0x00, 0x00, 0x00, 0x00, 0x00, 0x00, 0x00],
  -- SHA1
  [0x0f, 0x30, 0x21, 0x30, 0x09, 0x06, 0x05, 0x2b, 0x0e, 0x03, 0x02, 0x1a,
    0x05, 0x00, 0x04, 0x14, 0x00, 0x00, 0x00, 0x00, 0x00, 0x00, 0x00, 0x00],
  -- SHA224
  [0x13, 0x30, 0x2d, 0x30, 0x0d, 0x06, 0x09, 0x60, 0x86, 0x48, 0x01, 0x65,
    0x03, 0x04, 0x02, 0x04, 0x05, 0x00, 0x04, 0x1c, 0x00, 0x00, 0x00, 0x00],
  -- SHA256
  [0x13, 0x30, 0x31, 0x30, 0x0d, 0x06, 0x09, 0x60, 0x86, 0x48, 0x01, 0x65,
    0x03, 0x04, 0x02, 0x01, 0x05, 0x00, 0x04, 0x20, 0x00, 0x00, 0x00, 0x00],
  -- SHA384
  [0x13, 0x30, 0x41, 0x30, 0x0d, 0x06, 0x09, 0x60, 0x86, 0x48, 0x01, 0x65,
    0x03, 0x04, 0x02, 0x02, 0x05, 0x00, 0x04, 0x30, 0x00, 0x00, 0x00, 0x00],
  -- SHA512
  [0x13, 0x30, 0x51, 0x30, 0x0d, 0x06, 0x09, 0x60, 0x86, 0x48, 0x01, 0x65,
    0x03, 0x04, 0x02, 0x03, 0x05, 0x00, 0x04, 0x40, 0x00, 0x00, 0x00, 0x00],
  -- SHA3_224
  [0x13, 0x30, 0x2d, 0x30, 0x0d, 0x06, 0x09, 0x60, 0x86, 0x48, 0x01, 0x65,
    0x03, 0x04, 0x02, 0x07, 0x05, 0x00, 0x04, 0x1c, 0x00, 0x00, 0x00, 0x00],
  -- SHA3_256
  [0x13, 0x30, 0x31, 0x30, 0x0d, 0x06, 0x09, 0x60, 0x86, 0x48, 0x01, 0x65,
    0x03, 0x04, 0x02, 0x08, 0x05, 0x00, 0x04, 0x20, 0x00, 0x00, 0x00, 0x00],
  -- SHA3_384
  [0x13, 0x30, 0x41, 0x30, 0x0d, 0x06, 0x09, 0x60, 0x86, 0x48, 0x01, 0x65,
    0x03, 0x04, 0x02, 0x09, 0x05, 0x00, 0x04, 0x30, 0x00, 0x00, 0x00, 0x00],
  -- SHA3_512
  [0x13, 0x30, 0x51, 0x30, 0x0d, 0x06, 0x09, 0x60, 0x86, 0x48, 0x01, 0x65,
    0x03, 0x04, 0x02, 0x0a, 0x05, 0x00, 0x04, 0x40, 0x00, 0x00, 0x00, 0x00],
  -- SHAKE128
  [0x13, 0x30, 0x21, 0x30, 0x0d, 0x06, 0x09, 0x60, 0x86, 0x48, 0x01, 0x65,
    0x03, 0x04, 0x02, 0x0b, 0x05, 0x00, 0x04, 0x10, 0x00, 0x00, 0x00, 0x00],
  -- SHAKE256
  [0x13, 0x30, 0x31, 0x30, 0x0d, 0x06, 0x09, 0x60, 0x86, 0x48, 0x01, 0x65,
    0x03, 0x04, 0x02, 0x0c, 0x05, 0x00, 0x04, 0x20, 0x00, 0x00, 0x00, 0x00],
  -- WHIRLPOOL
  [0x10, 0x30, 0x4e, 0x30, 0x0a, 0x06, 0x06, 0x28, 0xcf, 0x06, 0x03, 0x00,
    0x37, 0x05, 0x00, 0x04, 0x40, 0x00, 0x00, 0x00, 0x00, 0x00, 0x00, 0x00]]

/-- The row of src/rsa.c:41-231, `digest_info` for a value of include/torsion/hash.h:148-182, `hash_id_t`. -/
def hash_index : HashId → Option Nat
  | .NONE => some 0 | .BLAKE2B_160 => some 1 | .BLAKE2B_256 => some 2 | .BLAKE2B_384 => some 3
  | .BLAKE2B_512 => some 4 | .BLAKE2S_128 => some 5 | .BLAKE2S_160 => some 6 | .BLAKE2S_224 => some 7
  | .BLAKE2S_256 => some 8 | .GOST94 => some 9 | .HASH160 => some 10 | .HASH256 => some 11
  | .KECCAK224 => some 12 | .KECCAK256 => some 13 | .KECCAK384 => some 14 | .KECCAK512 => some 15
  | .MD2 => some 16 | .MD4 => some 17 | .MD5 => some 18 | .MD5SHA1 => some 19 | .RIPEMD160 => some 20
  | .SHA1 => some 21 | .SHA224 => some 22 | .SHA256 => some 23 | .SHA384 => some 24 | .SHA512 => some 25
  | .SHA3_224 => some 26 | .SHA3_256 => some 27 | .SHA3_384 => some 28 | .SHA3_512 => some 29
  | .SHAKE128 => some 30 | .SHAKE256 => some 31 | .WHIRLPOOL => some 32
  | .other _ => none

/-- src/rsa.c:233, `pss_prefix`. -/
def pss_prefix : List Byte := [0, 0, 0, 0, 0, 0, 0, 0]

/-- include/torsion/rsa.h:54, `RSA_MIN_MOD_BITS`. -/
def RSA_MIN_MOD_BITS : Nat := 512
/-- include/torsion/rsa.h:55, `RSA_MAX_MOD_BITS`. -/
def RSA_MAX_MOD_BITS : Nat := 16384
/-- include/torsion/rsa.h:57, `RSA_MAX_MOD_SIZE`. -/
def RSA_MAX_MOD_SIZE : Nat := (RSA_MAX_MOD_BITS + 7) / 8
/-- include/torsion/rsa.h:58, `RSA_MIN_EXP`. -/
def RSA_MIN_EXP : Limb := 3
/-- include/torsion/rsa.h:61, `RSA_MAX_EXP_BITS`. -/
def RSA_MAX_EXP_BITS : Nat := 33
/-- include/torsion/rsa.h:64, `RSA_SALT_LENGTH_AUTO`. -/
def RSA_SALT_LENGTH_AUTO : Nat := 0
/-- include/torsion/rsa.h:65, `RSA_SALT_LENGTH_HASH` as a `size_t`. -/
def RSA_SALT_LENGTH_HASH : Nat := 2 ^ 64 - 1

/-- src/rsa.c:239-242, `rsa_pub_t`. -/
structure RsaPub where
  n : Mpz
  e : Mpz
deriving DecidableEq, Repr

/-- src/rsa.c:244-253, `rsa_priv_t`. -/
structure RsaPriv where
  n : Mpz
  e : Mpz
  d : Mpz
  p : Mpz
  q : Mpz
  dp : Mpz
  dq : Mpz
  qi : Mpz
deriving DecidableEq, Repr

/-! ## Constant time -/

/-- src/rsa.c:237-241 `cnd_select`. -/
def cnd_select (x y c : BitVec 32) : BitVec 32 :=
  let m : BitVec 32 := -(if c ≠ 0 then 1 else 0)
  (x &&& ~~~m) ||| (y &&& m)

/-- src/rsa.c:243-250 `cnd_memcpy`. -/
def cnd_memcpy (z x : List Byte) (c : BitVec 32) : List Byte :=
  let m : BitVec 32 := -(if c ≠ 0 then 1 else 0)
  List.zipWith (fun a b => ((a.setWidth 32 &&& ~~~m) ||| (b.setWidth 32 &&& m)).setWidth 8) z x

/-- src/rsa.c:252-255 `sec_equal`. -/
def sec_equal (x y : BitVec 32) : BitVec 32 := ((x ^^^ y) - 1) >>> 31

/-- src/rsa.c:257-260 `sec_lte`. -/
def sec_lte (x y : BitVec 32) : BitVec 32 := (x - y - 1) >>> 31

/-- src/rsa.c:262-265 `sec_memequal`. -/
def sec_memequal (x y : List Byte) : BitVec 32 := BitVec.ofInt 32 (torsion_memequal x y)

/-! ## Private key -/

/-- The value of a number, as src/asn1.c:378-403 `asn1_write_mpz` takes it. -/
def mpz_nat (x : Mpz) : Nat := x.mag.foldr (fun l v => l.toNat + 2 ^ 64 * v) 0

/-- `if (!asn1_read_mpz(.., 1)) return 0;` of src/rsa.c:307-343 `rsa_priv_import`. -/
def need_mpz (s : Asn1St) : R (Mpz × Asn1St) := do
  let r ← asn1_read_mpz s true
  R.need r.ret
  .ok (mpz_of r.n, r.st)

/-- `if (!asn1_read_dumb(..)) return 0;` of src/rsa.c:374-401 `rsa_priv_import_dumb`. -/
def need_dumb (s : Asn1St) : R (Mpz × Asn1St) := do
  let r ← asn1_read_dumb s
  R.need r.ret
  .ok (mpz_of r.n, r.st)

/-- src/rsa.c:307-343 `rsa_priv_import`. -/
def rsa_priv_import (data : List Byte) : R RsaPriv := do
  let s ← asn1_read_seq ⟨data, data.length⟩ true
  R.need s.2
  let s ← asn1_read_version s.1 0 true
  R.need s.2
  let n ← need_mpz s.1
  let e ← need_mpz n.2
  let d ← need_mpz e.2
  let p ← need_mpz d.2
  let q ← need_mpz p.2
  let dp ← need_mpz q.2
  let dq ← need_mpz dp.2
  let qi ← need_mpz dq.2
  R.need (qi.2.len = 0)
  .ok ⟨n.1, e.1, d.1, p.1, q.1, dp.1, dq.1, qi.1⟩

/-- src/rsa.c:345-372 `rsa_priv_export`. -/
def rsa_priv_export (k : RsaPriv) : C (List Byte) := do
  let size := asn1_size_version 0 + asn1_size_mpz (mpz_nat k.n) + asn1_size_mpz (mpz_nat k.e)
    + asn1_size_mpz (mpz_nat k.d) + asn1_size_mpz (mpz_nat k.p) + asn1_size_mpz (mpz_nat k.q)
    + asn1_size_mpz (mpz_nat k.dp) + asn1_size_mpz (mpz_nat k.dq) + asn1_size_mpz (mpz_nat k.qi)
  let sq ← asn1_write_seq size
  let vs ← asn1_write_version 0
  let n ← asn1_write_mpz (mpz_nat k.n)
  let e ← asn1_write_mpz (mpz_nat k.e)
  let d ← asn1_write_mpz (mpz_nat k.d)
  let p ← asn1_write_mpz (mpz_nat k.p)
  let q ← asn1_write_mpz (mpz_nat k.q)
  let dp ← asn1_write_mpz (mpz_nat k.dp)
  let dq ← asn1_write_mpz (mpz_nat k.dq)
  let qi ← asn1_write_mpz (mpz_nat k.qi)
  .ok (sq ++ (vs ++ (n ++ (e ++ (d ++ (p ++ (q ++ (dp ++ (dq ++ qi)))))))))

/-- src/rsa.c:374-401 `rsa_priv_import_dumb`. -/
def rsa_priv_import_dumb (data : List Byte) : R RsaPriv := do
  let n ← need_dumb ⟨data, data.length⟩
  let e ← need_dumb n.2
  let d ← need_dumb e.2
  let p ← need_dumb d.2
  let q ← need_dumb p.2
  let dp ← need_dumb q.2
  let dq ← need_dumb dp.2
  let qi ← need_dumb dq.2
  .ok ⟨n.1, e.1, d.1, p.1, q.1, dp.1, dq.1, qi.1⟩

/-- src/rsa.c:403-417 `rsa_priv_export_dumb`. -/
def rsa_priv_export_dumb (k : RsaPriv) : C (List Byte) := do
  let n ← asn1_write_dumb (mpz_nat k.n)
  let e ← asn1_write_dumb (mpz_nat k.e)
  let d ← asn1_write_dumb (mpz_nat k.d)
  let p ← asn1_write_dumb (mpz_nat k.p)
  let q ← asn1_write_dumb (mpz_nat k.q)
  let dp ← asn1_write_dumb (mpz_nat k.dp)
  let dq ← asn1_write_dumb (mpz_nat k.dq)
  let qi ← asn1_write_dumb (mpz_nat k.qi)
  .ok (n ++ (e ++ (d ++ (p ++ (q ++ (dp ++ (dq ++ qi)))))))

/-- src/rsa.c:535-554 `rsa_priv_is_sane`. -/
def rsa_priv_is_sane (k : RsaPriv) : R Unit := do
  R.need (mpz_sgn k.n > 0)
  R.need (mpz_sgn k.e > 0)
  R.need (mpz_sgn k.d > 0)
  R.need (mpz_sgn k.p > 0)
  R.need (mpz_sgn k.q > 0)
  R.need (mpz_sgn k.dp > 0)
  R.need (mpz_sgn k.dq > 0)
  R.need (mpz_sgn k.qi > 0)
  let bits ← mpz_bitlen k.n
  R.need (bits ≤ RSA_MAX_MOD_BITS)
  let bits ← mpz_bitlen k.e
  R.need (bits ≤ RSA_MAX_EXP_BITS)
  let bits ← mpz_bitlen k.d
  R.need (bits ≤ RSA_MAX_MOD_BITS)
  let bits ← mpz_bitlen k.p
  R.need (bits ≤ RSA_MAX_MOD_BITS)
  let bits ← mpz_bitlen k.q
  R.need (bits ≤ RSA_MAX_MOD_BITS)
  let bits ← mpz_bitlen k.dp
  R.need (bits ≤ RSA_MAX_MOD_BITS)
  let bits ← mpz_bitlen k.dq
  R.need (bits ≤ RSA_MAX_MOD_BITS)
  let bits ← mpz_bitlen k.qi
  R.need (bits ≤ RSA_MAX_MOD_BITS)

/-- src/rsa.c:556-656 `rsa_priv_verify`. -/
def rsa_priv_verify (k : RsaPriv) : R Unit := do
  rsa_priv_is_sane k
  let bits ← mpz_bitlen k.n
  R.need (¬ bits < RSA_MIN_MOD_BITS)
  let odd ← mpz_odd_p k.n
  R.need odd
  R.need (¬ mpz_cmp_ui k.e RSA_MIN_EXP < 0)
  let odd ← mpz_odd_p k.e
  R.need odd
  R.need (¬ mpz_cmp_ui k.p 3 < 0)
  let odd ← mpz_odd_p k.p
  R.need odd
  R.need (¬ mpz_cmp_ui k.q 3 < 0)
  let odd ← mpz_odd_p k.q
  R.need odd
  let pm1 ← mpz_sub_ui .heap k.p 1
  let qm1 ← mpz_sub_ui .heap k.q 1
  let phi ← mpz_mul .heap pm1 qm1
  R.need (¬ mpz_cmp_ui k.d 2 < 0)
  R.need (¬ mpz_cmp k.d phi ≥ 0)
  R.need (¬ mpz_sgn k.dp = 0)
  R.need (¬ mpz_cmp k.dp pm1 ≥ 0)
  R.need (¬ mpz_sgn k.dq = 0)
  R.need (¬ mpz_cmp k.dq qm1 ≥ 0)
  R.need (¬ mpz_cmp_ui k.qi 2 < 0)
  R.need (¬ mpz_cmp k.qi k.p ≥ 0)
  R.need (¬ mpz_cmp k.p k.q = 0)
  let tmp ← mpz_mul .heap k.p k.q
  R.need (mpz_cmp tmp k.n = 0)
  let tmp ← mpz_gcd .heap pm1 qm1
  let lam ← mpz_divexact .heap phi tmp
  let tmp ← mpz_mul .heap k.e k.d
  let tmp ← mpz_mod .heap tmp lam
  R.need (mpz_cmp_ui tmp 1 = 0)
  let tmp ← mpz_mod .heap k.d pm1
  R.need (mpz_cmp tmp k.dp = 0)
  let tmp ← mpz_mod .heap k.d qm1
  R.need (mpz_cmp tmp k.dq = 0)
  let tmp ← mpz_mul .heap k.q k.qi
  let tmp ← mpz_mod .heap tmp k.p
  R.need (mpz_cmp_ui tmp 1 = 0)

/-- src/rsa.c:658-736 `rsa_priv_set_pqe`. -/
def rsa_priv_set_pqe (p0 q0 e : Mpz) : R RsaPriv := do
  let p1 ← mpz_set .heap p0
  let q1 ← mpz_set .heap q0
  let swap := mpz_cmp p1 q1 < 0
  let p := if swap then q1 else p1
  let q := if swap then p1 else q1
  R.need (¬ mpz_cmp p q = 0)
  R.need (¬ mpz_cmp_ui p 3 < 0)
  let bits ← mpz_bitlen p
  R.need (¬ bits > RSA_MAX_MOD_BITS)
  R.need (¬ mpz_cmp_ui q 3 < 0)
  let bits ← mpz_bitlen q
  R.need (¬ bits > RSA_MAX_MOD_BITS)
  R.need (¬ mpz_cmp_ui e RSA_MIN_EXP < 0)
  let bits ← mpz_bitlen e
  R.need (¬ bits > RSA_MAX_EXP_BITS)
  let odd ← mpz_odd_p p
  R.need odd
  let odd ← mpz_odd_p q
  R.need odd
  let odd ← mpz_odd_p e
  R.need odd
  let n ← mpz_mul .heap p q
  let odd ← mpz_odd_p n
  C.check odd
  let bits ← mpz_bitlen n
  R.need (¬ bits < RSA_MIN_MOD_BITS)
  R.need (¬ bits > RSA_MAX_MOD_BITS)
  let pm1 ← mpz_sub_ui .heap p 1
  let qm1 ← mpz_sub_ui .heap q 1
  let lam ← mpz_lcm .heap pm1 qm1
  let d ← mpz_invert .heap e lam
  R.need d.2
  let dp ← mpz_mod .heap d.1 pm1
  let dq ← mpz_mod .heap d.1 qm1
  let qi ← mpz_invert .heap q p
  R.need qi.2
  .ok ⟨n, e, d.1, p, q, dp, dq, qi.1⟩

/-- src/rsa.c:738-783 `rsa_priv_set_pqd`. -/
def rsa_priv_set_pqd (p q d : Mpz) : R RsaPriv := do
  R.need (¬ mpz_cmp_ui p 3 < 0)
  let bits ← mpz_bitlen p
  R.need (¬ bits > RSA_MAX_MOD_BITS)
  R.need (¬ mpz_cmp_ui q 3 < 0)
  let bits ← mpz_bitlen q
  R.need (¬ bits > RSA_MAX_MOD_BITS)
  let odd ← mpz_odd_p p
  R.need odd
  let odd ← mpz_odd_p q
  R.need odd
  let pm1 ← mpz_sub_ui .heap p 1
  let qm1 ← mpz_sub_ui .heap q 1
  let phi ← mpz_mul .heap pm1 qm1
  R.need (¬ mpz_cmp_ui d 2 < 0)
  R.need (¬ mpz_cmp d phi ≥ 0)
  let tmp ← mpz_gcd .heap pm1 qm1
  let lam ← mpz_divexact .heap phi tmp
  let e ← mpz_invert .heap d lam
  R.need e.2
  rsa_priv_set_pqe p q e.1

/-- The inner loop of src/rsa.c:785-907 `rsa_priv_set_ned`, with `s - j` rounds left. Either the factors, or nothing. -/
def rsa_ned_inner (n nm1 : Mpz) : Nat → Mpz → C (Bool × Mpz × Mpz)
  | 0, b => .ok (false, b, b)
  | k + 1, b => do
    let c ← mpz_sqr .heap b false
    let c ← mpz_mod .heap c n
    if mpz_cmp_ui c 1 = 0 then do
      let c ← mpz_sub_ui .heap b 1
      let p ← mpz_gcd .heap n c
      let c ← mpz_add_ui .heap b 1
      let q ← mpz_gcd .heap n c
      .ok (true, p, q)
    else if mpz_cmp c nm1 = 0 then .ok (false, b, b)
    else rsa_ned_inner n nm1 k c

/-- The outer loop of src/rsa.c:785-907 `rsa_priv_set_ned`, with `128 - i` rounds left. -/
def rsa_ned_loop {S : Type} (rng : Source S) (fuel : Nat) (n nm1 nm3 g e : Mpz) (s : Nat) : Nat → S → R RsaPriv
  | 0, _ => .fail
  | i + 1, st => do
    let a ← mpz_urandomm rng.toByteGen fuel st nm3
    let a2 ← mpz_add_ui .heap a.1 2
    let b ← mpz_powm .heap a2 g n
    if mpz_cmp_ui b 1 = 0 ∨ mpz_cmp b nm1 = 0 then rsa_ned_loop rng fuel n nm1 nm3 g e s i a.2
    else do
      let r ← rsa_ned_inner n nm1 (s - 1) b
      if r.1 then rsa_priv_set_pqe r.2.1 r.2.2 e
      else rsa_ned_loop rng fuel n nm1 nm3 g e s i a.2

/-- src/rsa.c:785-907 `rsa_priv_set_ned`. With no entropy the limbs of the modulus seed the generator; they are read as
little-endian bytes. -/
def rsa_priv_set_ned {S : Type} (rng : Source S) (fuel : Nat) (n e d : Mpz) (entropy : Option (List Byte)) :
    R RsaPriv := do
  R.need (¬ mpz_sgn n < 0)
  let bits ← mpz_bitlen n
  R.need (¬ bits < RSA_MIN_MOD_BITS)
  R.need (¬ bits > RSA_MAX_MOD_BITS)
  R.need (¬ mpz_cmp_ui e RSA_MIN_EXP < 0)
  let bits ← mpz_bitlen e
  R.need (¬ bits > RSA_MAX_EXP_BITS)
  R.need (¬ mpz_cmp_ui d 2 < 0)
  let bits ← mpz_bitlen d
  R.need (¬ bits > RSA_MAX_MOD_BITS)
  let odd ← mpz_odd_p n
  R.need odd
  let odd ← mpz_odd_p e
  R.need odd
  let f ← mpz_mul .heap e d
  let f ← mpz_sub_ui .heap f 1
  let nm1 ← mpz_sub_ui .heap n 1
  let nm3 ← mpz_sub_ui .heap nm1 2
  let s := mpz_ctz f
  let g ← mpz_quo_2exp .heap f s
  let seed := entropy.getD (n.mag.flatMap (fun l => (write64le l).toList))
  rsa_ned_loop rng fuel n nm1 nm3 g e s 128 (rng.init seed)

/-- The loop of src/rsa.c:909-1011 `rsa_priv_decrypt` which draws the blinding factor; the factor and its inverse. -/
def rsa_blind {S : Type} (rng : Source S) (fuel : Nat) (n : Mpz) : Nat → S → R (Mpz × Mpz)
  | 0, _ => .spin
  | k + 1, st => do
    let s ← mpz_urandomm rng.toByteGen fuel st n
    let bi ← mpz_invert .heap s.1 n
    if bi.2 then .ok (s.1, bi.1) else rsa_blind rng fuel n k s.2

/-- src/rsa.c:909-1011 `rsa_priv_decrypt`; the bytes stored in `out`. -/
def rsa_priv_decrypt {S : Type} (rng : Source S) (fuel : Nat) (k : RsaPriv) (msg : List Byte) (use_crt : Bool)
    (entropy : List Byte) : R (List Byte) := do
  R.need (¬ mpz_sgn k.n ≤ 0)
  R.need (¬ mpz_sgn k.d ≤ 0)
  let odd ← mpz_odd_p k.n
  R.need odd
  R.need (¬ mpz_sgn k.dp ≤ 0)
  let odd ← mpz_odd_p k.p
  R.need odd
  R.need (¬ mpz_sgn k.dq ≤ 0)
  let odd ← mpz_odd_p k.q
  R.need odd
  let c ← mpz_import .heap msg 1
  R.need (¬ mpz_cmp c k.n ≥ 0)
  let s ← rsa_blind rng fuel k.n fuel (rng.init entropy)
  let b ← mpz_powm .heap s.1 k.e k.n
  let c ← mpz_mul .heap c b
  let c ← mpz_mod .heap c k.n
  let m ← (if use_crt then do
      let mp ← mpz_powm_sec .heap c k.dp k.p
      let mq ← mpz_powm_sec .heap c k.dq k.q
      let md ← mpz_sub .heap mp mq
      let md ← mpz_mul .heap md k.qi
      let md ← mpz_mod .heap md k.p
      let m ← mpz_mul .heap md k.q
      let m ← mpz_add .heap m mq
      let m ← mpz_mod .heap m k.n
      let mp ← mpz_powm .heap m k.e k.n
      R.need (mpz_cmp mp c = 0)
      .ok m
    else do
      let m ← mpz_powm_sec .heap c k.d k.n
      .ok m)
  let m ← mpz_mul .heap m s.2
  let m ← mpz_mod .heap m k.n
  let size ← mpz_bytelen k.n
  let out ← mpz_export m size 1
  .ok out

/-! ## Public key -/

/-- src/rsa.c:1035-1050 `rsa_pub_import`. -/
def rsa_pub_import (data : List Byte) : R RsaPub := do
  let s ← asn1_read_seq ⟨data, data.length⟩ true
  R.need s.2
  let n ← need_mpz s.1
  let e ← need_mpz n.2
  R.need (e.2.len = 0)
  .ok ⟨n.1, e.1⟩

/-- src/rsa.c:1052-1065 `rsa_pub_export`. -/
def rsa_pub_export (k : RsaPub) : C (List Byte) := do
  let size := asn1_size_mpz (mpz_nat k.n) + asn1_size_mpz (mpz_nat k.e)
  let sq ← asn1_write_seq size
  let n ← asn1_write_mpz (mpz_nat k.n)
  let e ← asn1_write_mpz (mpz_nat k.e)
  .ok (sq ++ (n ++ e))

/-- src/rsa.c:1067-1076 `rsa_pub_import_dumb`. -/
def rsa_pub_import_dumb (data : List Byte) : R RsaPub := do
  let n ← need_dumb ⟨data, data.length⟩
  let e ← need_dumb n.2
  .ok ⟨n.1, e.1⟩

/-- src/rsa.c:1078-1086 `rsa_pub_export_dumb`. -/
def rsa_pub_export_dumb (k : RsaPub) : C (List Byte) := do
  let n ← asn1_write_dumb (mpz_nat k.n)
  let e ← asn1_write_dumb (mpz_nat k.e)
  .ok (n ++ e)

/-- src/rsa.c:1088-1111 `rsa_pub_verify`. -/
def rsa_pub_verify (k : RsaPub) : R Unit := do
  let bits ← mpz_bitlen k.n
  R.need (¬ mpz_sgn k.n < 0)
  R.need (¬ bits < RSA_MIN_MOD_BITS)
  R.need (¬ bits > RSA_MAX_MOD_BITS)
  R.need (¬ mpz_cmp_ui k.e RSA_MIN_EXP < 0)
  let ebits ← mpz_bitlen k.e
  R.need (¬ ebits > RSA_MAX_EXP_BITS)
  let odd ← mpz_odd_p k.n
  R.need odd
  let odd ← mpz_odd_p k.e
  R.need odd

/-- src/rsa.c:1113-1142 `rsa_pub_encrypt`; the bytes stored in `out`. -/
def rsa_pub_encrypt (k : RsaPub) (msg : List Byte) : R (List Byte) := do
  R.need (¬ mpz_sgn k.n ≤ 0)
  R.need (¬ mpz_sgn k.e ≤ 0)
  let m ← mpz_import .heap msg 1
  R.need (¬ mpz_cmp m k.n ≥ 0)
  let m ← mpz_powm .heap m k.e k.n
  let size ← mpz_bytelen k.n
  let out ← mpz_export m size 1
  .ok out

/-- The loop of src/rsa.c:1144-1209 `rsa_pub_veil`. -/
def rsa_veil_loop {S : Type} (rng : Source S) (fuel : Nat) (n c vmax rmax : Mpz) : Nat → Mpz → S → R Mpz
  | 0, _, _ => .spin
  | k + 1, v, st =>
    if mpz_cmp v vmax ≥ 0 then do
      let r ← mpz_urandomm rng.toByteGen fuel st rmax
      let rn ← mpz_mul .heap r.1 n
      let v ← mpz_add .heap c rn
      rsa_veil_loop rng fuel n c vmax rmax k v r.2
    else .ok v

/-- src/rsa.c:1144-1209 `rsa_pub_veil`. -/
def rsa_pub_veil {S : Type} (rng : Source S) (fuel : Nat) (k : RsaPub) (msg : List Byte) (bits : Nat)
    (entropy : List Byte) : R (List Byte) := do
  let nbits ← mpz_bitlen k.n
  R.need (¬ bits < nbits)
  let c ← mpz_import .heap msg 1
  R.need (¬ mpz_cmp c k.n ≥ 0)
  let vmax ← mpz_setbit (mpz_set_ui 0) bits
  let rmax ← mpz_sub .heap vmax c
  let rmax ← mpz_add .heap rmax k.n
  let rmax ← mpz_sub_ui .heap rmax 1
  let rmax ← mpz_quo .heap rmax k.n
  C.check (decide (mpz_sgn rmax > 0))
  let v ← mpz_set .heap vmax
  let v ← rsa_veil_loop rng fuel k.n c vmax rmax fuel v (rng.init entropy)
  let r ← mpz_mod .heap v k.n
  C.check (decide (mpz_cmp r c = 0))
  let vbits ← mpz_bitlen v
  C.check (decide (vbits ≤ bits))
  let out ← mpz_export v ((bits + 7) / 8) 1
  .ok out

/-- src/rsa.c:1211-1234 `rsa_pub_unveil`. -/
def rsa_pub_unveil (k : RsaPub) (msg : List Byte) (bits : Nat) : R (List Byte) := do
  let v ← mpz_import .heap msg 1
  let vbits ← mpz_bitlen v
  R.need (¬ (bits ≠ 0 ∧ vbits > bits))
  let v ← mpz_mod .heap v k.n
  let size ← mpz_bytelen k.n
  let out ← mpz_export v size 1
  .ok out

/-! ## Digest info -/

/-- src/rsa.c:1240-1253 `get_digest_info`; the first byte of a row is the length of the prefix after it. -/
def get_digest_info (type : HashId) : R (List Byte) :=
  match hash_index type with
  | none => .fail
  | some i =>
    if h : i < digest_info.length then do
      let len ← C.rd digest_info[i] 0
      let data ← C.slice digest_info[i] 1 len.toNat
      .ok data
    else .fail

/-! ## MGF1 -/

/-- The loop of src/rsa.c:1259-1296 `mgf1xor`: `out` holds the bytes not yet masked; first argument: upper bound of the
rounds, enough when the digest is not empty (for an empty digest the loop of the code does not end). -/
def mgf1_loop (junk : Nat → Byte) (cache : HashCtx) (hash_size : Nat) : Nat → List Byte → List Byte → C (List Byte)
  | 0, out, _ => .ok out
  | k + 1, out, ctr =>
    if out = [] then .ok []
    else do
      let hash ← hash_update cache ctr
      let digest ← hash_final junk hash hash_size
      let digest ← C.fits 64 digest
      let digest ← C.slice digest 0 hash_size
      let ctr ← increment_be_var ctr
      let rest ← mgf1_loop junk cache hash_size k (out.drop hash_size) ctr
      .ok (List.zipWith (fun a b => a ^^^ b) out digest ++ rest)

/-- src/rsa.c:1259-1296 `mgf1xor`; the new contents of `out`. -/
def mgf1xor (junk : Nat → Nat → Byte) (type : HashId) (out seed : List Byte) : C (List Byte) := do
  let cache ← hash_init (junk 0) type
  let cache ← hash_update cache seed
  mgf1_loop (junk 1) cache (hash_output_size type) out.length out [0, 0, 0, 0]

/-! ## PSS -/

/-- The value `0xff >> (8 * emlen - embits)` of src/rsa.c:1302-1356 `pss_encode`. -/
def pss_mask (emlen embits : Nat) : BitVec 32 := (0xff : BitVec 32) >>> (8 * emlen - embits)

/-- src/rsa.c:1302-1356 `pss_encode` into the buffer `out`; the new contents of `out` and `emlen`. -/
def pss_encode (junk : Nat → Nat → Byte) (out : List Byte) (type : HashId) (msg : List Byte) (embits : Nat)
    (salt : List Byte) : R (List Byte × Nat) := do
  let hlen := hash_output_size type
  let slen := salt.length
  let emlen := (embits + 7) >>> 3
  let dlen := emlen - hlen - 1
  let mask := pss_mask emlen embits
  R.need (msg.length = hlen)
  R.need (¬ emlen < hlen + slen + 2)
  let h0 ← drbg_hash junk type hlen [pss_prefix, msg, salt]
  let em ← C.blit out 0 (List.replicate (emlen - slen - hlen - 2) 0x00)
  let em ← C.wr em (emlen - slen - hlen - 2) 0x01
  let em ← (if salt.length > 0 then C.blit em (emlen - slen - hlen - 1) salt else .ok em)
  let em ← C.blit em (emlen - hlen - 1) h0
  let em ← C.wr em (emlen - 1) 0xbc
  let db ← C.slice em 0 dlen
  let h ← C.slice em (emlen - hlen - 1) hlen
  let db ← mgf1xor junk type db h
  let em ← C.blit em 0 db
  let b ← C.rd em 0
  let em ← C.wr em 0 ((b.setWidth 32 &&& mask).setWidth 8)
  .ok (em, emlen)

/-- The first loop of src/rsa.c:1358-1432 `pss_verify`: the index of the 0x01 after zeroes, or a failure. First argument:
`dlen - i`. -/
def pss_find (db : List Byte) : Nat → Nat → R Nat
  | 0, _ => .fail
  | k + 1, i => do
    let b ← C.rd db i
    if b = 0x00 then pss_find db k (i + 1)
    else if b = 0x01 then .ok i
    else .fail

/-- The second loop of src/rsa.c:1358-1432 `pss_verify`. First argument: `len - i`. -/
def pss_zeroes (db : List Byte) : Nat → Nat → R Unit
  | 0, _ => .ok ()
  | k + 1, i => do
    let b ← C.rd db i
    R.need (b = 0x00)
    pss_zeroes db k (i + 1)

/-- src/rsa.c:1358-1432 `pss_verify`. -/
def pss_verify (junk : Nat → Nat → Byte) (type : HashId) (msg em : List Byte) (embits salt_len : Nat) : R Unit := do
  let hlen := hash_output_size type
  let emlen := (embits + 7) >>> 3
  let dlen := emlen - hlen - 1
  let mask := pss_mask emlen embits
  R.need (msg.length = hlen)
  R.need (¬ emlen < hlen + salt_len + 2)
  let t ← C.rd em (emlen - 1)
  R.need (t = 0xbc)
  let b ← C.rd em 0
  R.need (b.setWidth 32 &&& ~~~mask = 0)
  let db ← C.slice em 0 dlen
  let h ← C.slice em (emlen - hlen - 1) hlen
  let db ← mgf1xor junk type db h
  let b ← C.rd db 0
  let db ← C.wr db 0 ((b.setWidth 32 &&& mask).setWidth 8)
  let slen ← (if salt_len = 0 then do
      let i ← pss_find db dlen 0
      .ok (dlen - (i + 1))
    else do
      let len := dlen - salt_len - 1
      pss_zeroes db len 0
      let b ← C.rd db len
      R.need (b = 0x01)
      .ok salt_len)
  let salt ← C.slice db (dlen - slen) slen
  let h0 ← drbg_hash junk type hlen [pss_prefix, msg, salt]
  R.need (sec_memequal h0 h ≠ 0)

/-! ## RSA -/

/-- src/rsa.c:1462-1479 `rsa_privkey_bits`; 0 is a failure. -/
def rsa_privkey_bits (key : List Byte) : R Nat := do
  let k ← rsa_priv_import key
  rsa_priv_verify k
  let bits ← mpz_bitlen k.n
  .ok bits

/-- src/rsa.c:1481-1498 `rsa_privkey_verify`. -/
def rsa_privkey_verify (key : List Byte) : R Unit := do
  let k ← rsa_priv_import key
  rsa_priv_verify k

/-- src/rsa.c:1500-1533 `rsa_privkey_import`. -/
def rsa_privkey_import {S : Type} (rng : Source S) (fuel : Nat) (key : List Byte) (entropy : Option (List Byte)) :
    R (List Byte) := do
  let k ← rsa_priv_import_dumb key
  let v ← R.test (rsa_priv_verify k)
  let k ← (if v then .ok k
    else if mpz_sgn k.p > 0 ∧ mpz_sgn k.q > 0 then
      (if mpz_sgn k.e > 0 then rsa_priv_set_pqe k.p k.q k.e else rsa_priv_set_pqd k.p k.q k.d)
    else rsa_priv_set_ned rng fuel k.n k.e k.d entropy)
  let out ← rsa_priv_export k
  .ok out

/-- src/rsa.c:1535-1556 `rsa_privkey_export`. -/
def rsa_privkey_export (key : List Byte) : R (List Byte) := do
  let k ← rsa_priv_import key
  rsa_priv_verify k
  let out ← rsa_priv_export_dumb k
  .ok out

/-- src/rsa.c:1558-1583 `rsa_pubkey_create`. -/
def rsa_pubkey_create (key : List Byte) : R (List Byte) := do
  let k ← rsa_priv_import key
  rsa_priv_verify k
  let out ← rsa_pub_export ⟨k.n, k.e⟩
  .ok out

/-- src/rsa.c:1585-1602 `rsa_pubkey_bits`; 0 is a failure. -/
def rsa_pubkey_bits (key : List Byte) : R Nat := do
  let k ← rsa_pub_import key
  rsa_pub_verify k
  let bits ← mpz_bitlen k.n
  .ok bits

/-- src/rsa.c:1604-1621 `rsa_pubkey_verify`. -/
def rsa_pubkey_verify (key : List Byte) : R Unit := do
  let k ← rsa_pub_import key
  rsa_pub_verify k

/-- src/rsa.c:1623-1644 `rsa_pubkey_import`. -/
def rsa_pubkey_import (key : List Byte) : R (List Byte) := do
  let k ← rsa_pub_import_dumb key
  rsa_pub_verify k
  let out ← rsa_pub_export k
  .ok out

/-- src/rsa.c:1646-1667 `rsa_pubkey_export`. -/
def rsa_pubkey_export (key : List Byte) : R (List Byte) := do
  let k ← rsa_pub_import key
  rsa_pub_verify k
  let out ← rsa_pub_export_dumb k
  .ok out

/-- src/rsa.c:1669-1734 `rsa_sign`; `out` is the output buffer, in which the encoded message is built. The loop which stores
the 0xff bytes is one copy. -/
def rsa_sign {S : Type} (rng : Source S) (fuel : Nat) (out : List Byte) (type : HashId) (msg key entropy : List Byte) :
    R (List Byte) := do
  let hlen := hash_output_size type
  let pre ← get_digest_info type
  let hlen := if type = .NONE then msg.length else hlen
  R.need (msg.length = hlen)
  let k ← rsa_priv_import key
  rsa_priv_verify k
  let tlen := pre.length + hlen
  let klen ← mpz_bytelen k.n
  R.need (¬ klen < tlen + 11)
  let em ← C.wr out 0 0x00
  let em ← C.wr em 1 0x01
  let em ← C.blit em 2 (List.replicate (klen - tlen - 1 - 2) 0xff)
  let em ← C.wr em (klen - tlen - 1) 0x00
  let em ← (if pre.length > 0 then C.blit em (klen - tlen) pre else .ok em)
  let em ← (if msg.length > 0 then C.blit em (klen - hlen) msg else .ok em)
  let em ← C.slice em 0 klen
  rsa_priv_decrypt rng fuel k em true entropy

/-- The loop of src/rsa.c:1736-1806 `rsa_verify`. First argument: the rounds left. -/
def rsa_verify_ff (em : List Byte) : Nat → Nat → BitVec 32 → C (BitVec 32)
  | 0, _, ok => .ok ok
  | k + 1, i, ok => do
    let b ← C.rd em i
    rsa_verify_ff em k (i + 1) (ok &&& sec_equal (b.setWidth 32) 0xff)

/-- src/rsa.c:1736-1806 `rsa_verify`. -/
def rsa_verify (type : HashId) (msg sig key : List Byte) : R Unit := do
  let hlen := hash_output_size type
  let pre ← get_digest_info type
  let hlen := if type = .NONE then msg.length else hlen
  R.need (msg.length = hlen)
  let k ← rsa_pub_import key
  rsa_pub_verify k
  let tlen := pre.length + hlen
  let klen ← mpz_bytelen k.n
  R.need (sig.length = klen)
  R.need (¬ klen < tlen + 11)
  let em ← rsa_pub_encrypt k sig
  let b ← C.rd em 0
  let ok : BitVec 32 := 1 &&& sec_equal (b.setWidth 32) 0x00
  let b ← C.rd em 1
  let ok := ok &&& sec_equal (b.setWidth 32) 0x01
  let ok ← rsa_verify_ff em (klen - tlen - 1 - 2) 2 ok
  let b ← C.rd em (klen - tlen - 1)
  let ok := ok &&& sec_equal (b.setWidth 32) 0x00
  let t ← C.slice em (klen - tlen) pre.length
  let ok := ok &&& sec_memequal t pre
  let t ← C.slice em (klen - hlen) msg.length
  let ok := ok &&& sec_memequal t msg
  R.need (ok = 1)

/-- The inner loop of src/rsa.c:1808-1871 `rsa_encrypt`: `while (em[i] == 0x00) drbg_generate(&rng, &em[i], 1);`. -/
def rsa_redraw {S : Type} (rng : Source S) : Nat → Byte → S → R (Byte × S)
  | 0, b, st => if b = 0x00 then .spin else .ok (b, st)
  | k + 1, b, st =>
    if b = 0x00 then do
      let b ← C.rd (rng.gen st 1).1 0
      rsa_redraw rng k b (rng.gen st 1).2
    else .ok (b, st)

/-- The outer loop of src/rsa.c:1808-1871 `rsa_encrypt`. First argument: the rounds left. -/
def rsa_nonzero {S : Type} (rng : Source S) (fuel : Nat) : Nat → Nat → List Byte → S → R (List Byte)
  | 0, _, em, _ => .ok em
  | k + 1, i, em, st => do
    let b ← C.rd em i
    let r ← rsa_redraw rng fuel b st
    let em ← C.wr em i r.1
    rsa_nonzero rng fuel k (i + 1) em r.2

/-- src/rsa.c:1808-1871 `rsa_encrypt`; `out` is the output buffer, in which the encoded message is built. -/
def rsa_encrypt {S : Type} (rng : Source S) (fuel : Nat) (out msg key entropy : List Byte) : R (List Byte) := do
  let k ← rsa_pub_import key
  rsa_pub_verify k
  let klen ← mpz_bytelen k.n
  R.need (¬ klen < 11)
  R.need (¬ msg.length > klen - 11)
  let plen := klen - msg.length - 3
  let em ← C.wr out 0 0x00
  let em ← C.wr em 1 0x02
  let em ← C.blit em 2 (rng.gen (rng.init entropy) plen).1
  let em ← rsa_nonzero rng fuel plen 2 em (rng.gen (rng.init entropy) plen).2
  let em ← C.wr em (klen - msg.length - 1) 0x00
  let em ← (if msg.length > 0 then C.blit em (klen - msg.length) msg else .ok em)
  let em ← C.slice em 0 klen
  rsa_pub_encrypt k em

/-- The loop of src/rsa.c:1873-1899 `pkcs1v15_unpad`; `offset` and `looking`. First argument: the rounds left. -/
def unpad_loop (em : List Byte) : Nat → Nat → BitVec 32 → BitVec 32 → C (BitVec 32 × BitVec 32)
  | 0, _, offset, looking => .ok (offset, looking)
  | k + 1, i, offset, looking => do
    let b ← C.rd em i
    let equals0 := sec_equal (b.setWidth 32) 0x00
    unpad_loop em k (i + 1) (cnd_select offset (BitVec.ofNat 32 i) (looking &&& equals0))
      (cnd_select looking 0 equals0)

/-- src/rsa.c:1873-1899 `pkcs1v15_unpad`; `*off` and the result. -/
def pkcs1v15_unpad (em : List Byte) (len : Nat) : C (BitVec 32 × BitVec 32) := do
  let klen : BitVec 32 := BitVec.ofNat 32 len
  let b ← C.rd em 0
  let ok : BitVec 32 := 1 &&& sec_equal (b.setWidth 32) 0x00
  let b ← C.rd em 1
  let ok := ok &&& sec_equal (b.setWidth 32) 0x02
  let r ← unpad_loop em (klen.toNat - 2) 2 0 1
  let ok := ok &&& (r.2 ^^^ 1)
  let ok := ok &&& sec_lte (2 + 8) r.1
  .ok (cnd_select 0 (r.1 + 1) ok, ok)

/-- src/rsa.c:1901-1946 `rsa_decrypt`. -/
def rsa_decrypt {S : Type} (rng : Source S) (fuel : Nat) (msg key entropy : List Byte) : R (List Byte) := do
  let k ← rsa_priv_import key
  rsa_priv_verify k
  let klen ← mpz_bytelen k.n
  R.need (msg.length = klen)
  R.need (¬ klen < 11)
  let em ← rsa_priv_decrypt rng fuel k msg true entropy
  let r ← pkcs1v15_unpad em klen
  R.need (r.2 ≠ 0)
  let out ← C.slice em r.1.toNat (klen - r.1.toNat)
  .ok out

/-- src/rsa.c:1948-2022 `rsa_decrypt_key`; the `out_len` bytes stored in `out`. -/
def rsa_decrypt_key {S : Type} (rng : Source S) (fuel : Nat) (out_len : Nat) (msg key entropy : List Byte) :
    R (List Byte) := do
  R.need (¬ out_len > RSA_MAX_MOD_SIZE - 11)
  let k ← rsa_priv_import key
  rsa_priv_verify k
  let klen ← mpz_bytelen k.n
  R.need (msg.length = klen)
  R.need (¬ klen < out_len + 11)
  let blind := rng.gen (rng.init entropy) 32
  let em ← rsa_priv_decrypt rng fuel k msg true blind.1
  let out := (rng.gen blind.2 out_len).1
  let r ← pkcs1v15_unpad em klen
  let ok : BitVec 32 := 1 &&& r.2
  let ok := ok &&& sec_equal (BitVec.ofNat 32 (klen - r.1.toNat)) (BitVec.ofNat 32 out_len)
  let t ← C.slice em (klen - out_len) out_len
  .ok (cnd_memcpy out t ok)

/-- src/rsa.c:2024-2108 `rsa_sign_pss`; `out` is the output buffer, in which the encoded message is built. -/
def rsa_sign_pss {S : Type} (rng : Source S) (fuel : Nat) (junk : Nat → Nat → Byte) (out : List Byte) (type : HashId)
    (msg key : List Byte) (salt_len : Nat) (entropy : List Byte) : R (List Byte) := do
  let hlen := hash_output_size type
  R.need (hash_has_backend type)
  R.need (msg.length = hlen)
  let k ← rsa_priv_import key
  rsa_priv_verify k
  let bits ← mpz_bitlen k.n
  let klen := (bits + 7) / 8
  let emlen := (bits + 6) / 8
  R.need (¬ (salt_len = RSA_SALT_LENGTH_AUTO ∧ emlen < 2 + hlen))
  let slen := if salt_len = RSA_SALT_LENGTH_AUTO then emlen - 2 - hlen
    else if salt_len = RSA_SALT_LENGTH_HASH then hlen else salt_len
  R.need (¬ slen > klen)
  let salt := rng.gen (rng.init entropy) slen
  let em ← pss_encode junk out type msg (bits - 1) salt.1
  let blind := rng.gen salt.2 32
  let m ← C.slice em.1 0 em.2
  rsa_priv_decrypt rng fuel k m true blind.1

/-- src/rsa.c:2110-2185 `rsa_verify_pss`. -/
def rsa_verify_pss (junk : Nat → Nat → Byte) (type : HashId) (msg sig key : List Byte) (salt_len : Nat) : R Unit := do
  let hlen := hash_output_size type
  R.need (hash_has_backend type)
  R.need (msg.length = hlen)
  let k ← rsa_pub_import key
  rsa_pub_verify k
  let bits ← mpz_bitlen k.n
  let klen := (bits + 7) / 8
  R.need (sig.length = klen)
  let slen := if salt_len = RSA_SALT_LENGTH_AUTO then 0
    else if salt_len = RSA_SALT_LENGTH_HASH then hlen else salt_len
  R.need (¬ slen > klen)
  let em ← rsa_pub_encrypt k sig
  if (bits - 1) &&& 7 = 0 then do
    let b ← C.rd em 0
    R.need (b = 0x00)
    let em ← C.slice em 1 (klen - 1)
    pss_verify junk type msg em (bits - 1) slen
  else pss_verify junk type msg em (bits - 1) slen

/-- src/rsa.c:2187-2267 `rsa_encrypt_oaep`; `out` is the output buffer, in which the encoded message is built. -/
def rsa_encrypt_oaep {S : Type} (rng : Source S) (junk : Nat → Nat → Byte) (out : List Byte) (type : HashId)
    (msg key label entropy : List Byte) : R (List Byte) := do
  let hlen := hash_output_size type
  let mlen := msg.length
  R.need (hash_has_backend type)
  let k ← rsa_pub_import key
  rsa_pub_verify k
  let klen ← mpz_bytelen k.n
  R.need (¬ klen < 2 * hlen + 2)
  R.need (¬ mlen > klen - 2 * hlen - 2)
  let lhash ← drbg_hash junk type hlen [label]
  let dlen := klen - (1 + hlen)
  let em ← C.wr out 0 0x00
  let em ← C.blit em 1 (rng.gen (rng.init entropy) hlen).1
  let em ← C.blit em (1 + hlen) lhash
  let em ← C.blit em (1 + hlen + hlen) (List.replicate (dlen - mlen - 1 - hlen) 0x00)
  let em ← C.wr em (1 + hlen + (dlen - mlen - 1)) 0x01
  let em ← (if mlen > 0 then C.blit em (1 + hlen + (dlen - mlen)) msg else .ok em)
  let seed ← C.slice em 1 hlen
  let db ← C.slice em (1 + hlen) dlen
  let db ← mgf1xor junk type db seed
  let seed ← mgf1xor junk type seed db
  let em ← C.blit em (1 + hlen) db
  let em ← C.blit em 1 seed
  let em ← C.slice em 0 klen
  rsa_pub_encrypt k em

/-- The loop of src/rsa.c:2269-2362 `rsa_decrypt_oaep`; `offset`, `looking`, `invalid`. First argument: the rounds left. -/
def oaep_loop (rest : List Byte) :
    Nat → Nat → BitVec 32 → BitVec 32 → BitVec 32 → C (BitVec 32 × BitVec 32 × BitVec 32)
  | 0, _, offset, looking, invalid => .ok (offset, looking, invalid)
  | k + 1, i, offset, looking, invalid => do
    let b ← C.rd rest i
    let equals0 := sec_equal (b.setWidth 32) 0x00
    let equals1 := sec_equal (b.setWidth 32) 0x01
    let offset := cnd_select offset (BitVec.ofNat 32 i) (looking &&& equals1)
    let looking := cnd_select looking 0 equals1
    let invalid := cnd_select invalid 1 (looking &&& (equals0 ^^^ 1))
    oaep_loop rest k (i + 1) offset looking invalid

/-- src/rsa.c:2269-2362 `rsa_decrypt_oaep`. -/
def rsa_decrypt_oaep {S : Type} (rng : Source S) (fuel : Nat) (junk : Nat → Nat → Byte) (type : HashId)
    (msg key label entropy : List Byte) : R (List Byte) := do
  let hlen := hash_output_size type
  R.need (hash_has_backend type)
  let k ← rsa_priv_import key
  rsa_priv_verify k
  let klen ← mpz_bytelen k.n
  R.need (msg.length = klen)
  R.need (¬ klen < hlen * 2 + 2)
  let em ← rsa_priv_decrypt rng fuel k msg true entropy
  let expect ← drbg_hash junk type hlen [label]
  let b ← C.rd em 0
  let zero := sec_equal (b.setWidth 32) 0x00
  let dlen := klen - (hlen + 1)
  let seed ← C.slice em 1 hlen
  let db ← C.slice em (hlen + 1) dlen
  let seed ← mgf1xor junk type seed db
  let db ← mgf1xor junk type db seed
  let lhash ← C.slice db 0 hlen
  let lvalid := sec_memequal lhash expect
  let rlen := dlen - hlen
  let rest ← C.slice db hlen rlen
  let r ← oaep_loop rest rlen 0 0 1 0
  let valid := zero &&& lvalid &&& (r.2.2 ^^^ 1) &&& (r.2.1 ^^^ 1)
  R.need (valid ≠ 0)
  let offset := r.1 + 1
  let out ← C.slice rest offset.toNat (rlen - offset.toNat)
  .ok out

/-- src/rsa.c:2364-2400 `rsa_veil`. -/
def rsa_veil {S : Type} (rng : Source S) (fuel : Nat) (msg : List Byte) (bits : Nat) (key entropy : List Byte) :
    R (List Byte) := do
  let k ← rsa_pub_import key
  rsa_pub_verify k
  let klen ← mpz_bytelen k.n
  R.need (msg.length = klen)
  R.need (¬ bits > RSA_MAX_MOD_BITS + 8)
  rsa_pub_veil rng fuel k msg bits entropy

/-- src/rsa.c:2402-2441 `rsa_unveil`. -/
def rsa_unveil (msg : List Byte) (bits : Nat) (key : List Byte) : R (List Byte) := do
  let k ← rsa_pub_import key
  rsa_pub_verify k
  let klen ← mpz_bytelen k.n
  R.need (¬ msg.length < klen)
  R.need (¬ msg.length > RSA_MAX_MOD_SIZE + 1)
  R.need (¬ bits > RSA_MAX_MOD_BITS + 8)
  rsa_pub_unveil k msg bits

end Torsion
