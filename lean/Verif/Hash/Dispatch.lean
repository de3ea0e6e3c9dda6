import Verif.Hash.Model

/-!
# Model of the generic hash and HMAC interface of src/hash.c
-/
namespace Torsion

/-- include/torsion/hash.h:148-182 `hash_id_t`; `other` stands for a value outside of the enumeration. -/
inductive HashId where
  | NONE | BLAKE2B_160 | BLAKE2B_256 | BLAKE2B_384 | BLAKE2B_512 | BLAKE2S_128 | BLAKE2S_160
  | BLAKE2S_224 | BLAKE2S_256 | GOST94 | HASH160 | HASH256 | KECCAK224 | KECCAK256 | KECCAK384
  | KECCAK512 | MD2 | MD4 | MD5 | MD5SHA1 | RIPEMD160 | SHA1 | SHA224 | SHA256 | SHA384 | SHA512
  | SHA3_224 | SHA3_256 | SHA3_384 | SHA3_512 | SHAKE128 | SHAKE256 | WHIRLPOOL
  | other (n : Int)
deriving DecidableEq, Repr

/-- The union in include/torsion/hash.h:274-290 `hash_s`; `none` when nothing has been stored in it. -/
inductive HashU where
  | none
  | blake2b (c : B2Ctx 64)
  | blake2s (c : B2Ctx 32)
  | gost94 (c : GostCtx)
  | keccak (c : KecCtx)
  | md2 (c : Md2Ctx)
  | md4 (c : MdCtx md4Alg)
  | md5 (c : MdCtx md5Alg)
  | md5sha1 (c : Md5Sha1Ctx)
  | ripemd160 (c : MdCtx ripemd160Alg)
  | sha1 (c : MdCtx sha1Alg)
  | sha256 (c : MdCtx sha256Alg)
  | sha512 (c : MdCtx sha512Alg)
  | whirlpool (c : MdCtx whirlpoolAlg)

/-- include/torsion/hash.h:274-290 `hash_s`. -/
structure HashCtx where
  type : HashId
  ctx : HashU

/-- src/hash.c:4287-4327 `hash_has_backend`. -/
def hash_has_backend : HashId → Bool
  | .NONE => false
  | .BLAKE2B_160 | .BLAKE2B_256 | .BLAKE2B_384 | .BLAKE2B_512 | .BLAKE2S_128 | .BLAKE2S_160
    | .BLAKE2S_224 | .BLAKE2S_256 | .GOST94 | .HASH160 | .HASH256 | .KECCAK224 | .KECCAK256
    | .KECCAK384 | .KECCAK512 | .MD2 | .MD4 | .MD5 | .MD5SHA1 | .RIPEMD160 | .SHA1 | .SHA224
    | .SHA256 | .SHA384 | .SHA512 | .SHA3_224 | .SHA3_256 | .SHA3_384 | .SHA3_512 | .SHAKE128
    | .SHAKE256 | .WHIRLPOOL => true
  | .other _ => false

/-- src/hash.c:4329-4401 `hash_output_size`. -/
def hash_output_size : HashId → Nat
  | .NONE => 0
  | .BLAKE2B_160 => 20
  | .BLAKE2B_256 => 32
  | .BLAKE2B_384 => 48
  | .BLAKE2B_512 => 64
  | .BLAKE2S_128 => 16
  | .BLAKE2S_160 => 20
  | .BLAKE2S_224 => 28
  | .BLAKE2S_256 => 32
  | .GOST94 => 32
  | .HASH160 => 20
  | .HASH256 => 32
  | .KECCAK224 => 28
  | .KECCAK256 => 32
  | .KECCAK384 => 48
  | .KECCAK512 => 64
  | .MD2 => 16
  | .MD4 => 16
  | .MD5 => 16
  | .MD5SHA1 => 36
  | .RIPEMD160 => 20
  | .SHA1 => 20
  | .SHA224 => 28
  | .SHA256 => 32
  | .SHA384 => 48
  | .SHA512 => 64
  | .SHA3_224 => 28
  | .SHA3_256 => 32
  | .SHA3_384 => 48
  | .SHA3_512 => 64
  | .SHAKE128 => 16
  | .SHAKE256 => 32
  | .WHIRLPOOL => 64
  | .other _ => 0

/-- src/hash.c:4403-4475 `hash_block_size`. -/
def hash_block_size : HashId → Nat
  | .NONE => 0
  | .BLAKE2B_160 => 128
  | .BLAKE2B_256 => 128
  | .BLAKE2B_384 => 128
  | .BLAKE2B_512 => 128
  | .BLAKE2S_128 => 64
  | .BLAKE2S_160 => 64
  | .BLAKE2S_224 => 64
  | .BLAKE2S_256 => 64
  | .GOST94 => 32
  | .HASH160 => 64
  | .HASH256 => 64
  | .KECCAK224 => 144
  | .KECCAK256 => 136
  | .KECCAK384 => 104
  | .KECCAK512 => 72
  | .MD2 => 16
  | .MD4 => 64
  | .MD5 => 64
  | .MD5SHA1 => 64
  | .RIPEMD160 => 64
  | .SHA1 => 64
  | .SHA224 => 64
  | .SHA256 => 64
  | .SHA384 => 128
  | .SHA512 => 128
  | .SHA3_224 => 144
  | .SHA3_256 => 136
  | .SHA3_384 => 104
  | .SHA3_512 => 72
  | .SHAKE128 => 168
  | .SHAKE256 => 136
  | .WHIRLPOOL => 64
  | .other _ => 0

/-- src/hash.c:4027-4131 `hash_init`; `junk` gives the bytes of uninitialised arrays. -/
def hash_init (junk : Nat → Byte) (type : HashId) : C HashCtx :=
  match type with
  | .NONE => .ok ⟨type, .none⟩
  | .BLAKE2B_160 => do
    let c ← blake2_init blake2bAlg 64 junk 20 []
    .ok ⟨type, .blake2b c⟩
  | .BLAKE2B_256 => do
    let c ← blake2_init blake2bAlg 64 junk 32 []
    .ok ⟨type, .blake2b c⟩
  | .BLAKE2B_384 => do
    let c ← blake2_init blake2bAlg 64 junk 48 []
    .ok ⟨type, .blake2b c⟩
  | .BLAKE2B_512 => do
    let c ← blake2_init blake2bAlg 64 junk 64 []
    .ok ⟨type, .blake2b c⟩
  | .BLAKE2S_128 => do
    let c ← blake2_init blake2sAlg 32 junk 16 []
    .ok ⟨type, .blake2s c⟩
  | .BLAKE2S_160 => do
    let c ← blake2_init blake2sAlg 32 junk 20 []
    .ok ⟨type, .blake2s c⟩
  | .BLAKE2S_224 => do
    let c ← blake2_init blake2sAlg 32 junk 28 []
    .ok ⟨type, .blake2s c⟩
  | .BLAKE2S_256 => do
    let c ← blake2_init blake2sAlg 32 junk 32 []
    .ok ⟨type, .blake2s c⟩
  | .GOST94 => .ok ⟨type, .gost94 gost94_init⟩
  | .HASH160 | .HASH256 => .ok ⟨type, .sha256 (sha256_init junk)⟩
  | .KECCAK224 => do
    let c ← keccak_init junk 224
    .ok ⟨type, .keccak c⟩
  | .KECCAK256 => do
    let c ← keccak_init junk 256
    .ok ⟨type, .keccak c⟩
  | .KECCAK384 => do
    let c ← keccak_init junk 384
    .ok ⟨type, .keccak c⟩
  | .KECCAK512 => do
    let c ← keccak_init junk 512
    .ok ⟨type, .keccak c⟩
  | .MD2 => .ok ⟨type, .md2 md2_init⟩
  | .MD4 => .ok ⟨type, .md4 (md4_init junk)⟩
  | .MD5 => .ok ⟨type, .md5 (md5_init junk)⟩
  | .MD5SHA1 => .ok ⟨type, .md5sha1 (md5sha1_init junk fun i => junk (i + 64))⟩
  | .RIPEMD160 => .ok ⟨type, .ripemd160 (ripemd160_init junk)⟩
  | .SHA1 => .ok ⟨type, .sha1 (sha1_init junk)⟩
  | .SHA224 => .ok ⟨type, .sha256 (sha224_init junk)⟩
  | .SHA256 => .ok ⟨type, .sha256 (sha256_init junk)⟩
  | .SHA384 => .ok ⟨type, .sha512 (sha384_init junk)⟩
  | .SHA512 => .ok ⟨type, .sha512 (sha512_init junk)⟩
  | .SHA3_224 => do
    let c ← keccak_init junk 224
    .ok ⟨type, .keccak c⟩
  | .SHA3_256 => do
    let c ← keccak_init junk 256
    .ok ⟨type, .keccak c⟩
  | .SHA3_384 => do
    let c ← keccak_init junk 384
    .ok ⟨type, .keccak c⟩
  | .SHA3_512 => do
    let c ← keccak_init junk 512
    .ok ⟨type, .keccak c⟩
  | .SHAKE128 => do
    let c ← keccak_init junk 128
    .ok ⟨type, .keccak c⟩
  | .SHAKE256 => do
    let c ← keccak_init junk 256
    .ok ⟨type, .keccak c⟩
  | .WHIRLPOOL => .ok ⟨type, .whirlpool (whirlpool_init junk)⟩
  | .other _ => .abort

/-- src/hash.c:4133-4204 `hash_update`. A union member other than the one the type calls for is `ub`. -/
def hash_update (h : HashCtx) (data : List Byte) : C HashCtx :=
  match h.type with
  | .NONE => .ok h
  | .BLAKE2B_160 | .BLAKE2B_256 | .BLAKE2B_384 | .BLAKE2B_512 =>
    match h.ctx with
    | .blake2b c => do
      let c ← blake2_update blake2bAlg c data
      .ok ⟨h.type, .blake2b c⟩
    | _ => .ub
  | .BLAKE2S_128 | .BLAKE2S_160 | .BLAKE2S_224 | .BLAKE2S_256 =>
    match h.ctx with
    | .blake2s c => do
      let c ← blake2_update blake2sAlg c data
      .ok ⟨h.type, .blake2s c⟩
    | _ => .ub
  | .GOST94 =>
    match h.ctx with
    | .gost94 c => do
      let c ← gost94_update c data
      .ok ⟨h.type, .gost94 c⟩
    | _ => .ub
  | .HASH160 | .HASH256 =>
    match h.ctx with
    | .sha256 c => do
      let c ← md_update sha256Alg c data
      .ok ⟨h.type, .sha256 c⟩
    | _ => .ub
  | .KECCAK224 | .KECCAK256 | .KECCAK384 | .KECCAK512 =>
    match h.ctx with
    | .keccak c => do
      let c ← keccak_update c data
      .ok ⟨h.type, .keccak c⟩
    | _ => .ub
  | .MD2 =>
    match h.ctx with
    | .md2 c => do
      let c ← md2_update c data
      .ok ⟨h.type, .md2 c⟩
    | _ => .ub
  | .MD4 =>
    match h.ctx with
    | .md4 c => do
      let c ← md_update md4Alg c data
      .ok ⟨h.type, .md4 c⟩
    | _ => .ub
  | .MD5 =>
    match h.ctx with
    | .md5 c => do
      let c ← md_update md5Alg c data
      .ok ⟨h.type, .md5 c⟩
    | _ => .ub
  | .MD5SHA1 =>
    match h.ctx with
    | .md5sha1 c => do
      let c ← md5sha1_update c data
      .ok ⟨h.type, .md5sha1 c⟩
    | _ => .ub
  | .RIPEMD160 =>
    match h.ctx with
    | .ripemd160 c => do
      let c ← md_update ripemd160Alg c data
      .ok ⟨h.type, .ripemd160 c⟩
    | _ => .ub
  | .SHA1 =>
    match h.ctx with
    | .sha1 c => do
      let c ← md_update sha1Alg c data
      .ok ⟨h.type, .sha1 c⟩
    | _ => .ub
  | .SHA224 | .SHA256 =>
    match h.ctx with
    | .sha256 c => do
      let c ← md_update sha256Alg c data
      .ok ⟨h.type, .sha256 c⟩
    | _ => .ub
  | .SHA384 | .SHA512 =>
    match h.ctx with
    | .sha512 c => do
      let c ← md_update sha512Alg c data
      .ok ⟨h.type, .sha512 c⟩
    | _ => .ub
  | .SHA3_224 | .SHA3_256 | .SHA3_384 | .SHA3_512 | .SHAKE128 | .SHAKE256 =>
    match h.ctx with
    | .keccak c => do
      let c ← keccak_update c data
      .ok ⟨h.type, .keccak c⟩
    | _ => .ub
  | .WHIRLPOOL =>
    match h.ctx with
    | .whirlpool c => do
      let c ← md_update whirlpoolAlg c data
      .ok ⟨h.type, .whirlpool c⟩
    | _ => .ub
  | .other _ => .abort

/-- src/hash.c:4206-4285 `hash_final`: the bytes written to `out`. `junk` as in `hash160_final` and
`hash256_final`. -/
def hash_final (junk : Nat → Byte) (h : HashCtx) (len : Nat) : C (List Byte) :=
  match h.type with
  | .NONE => .ok []
  | .BLAKE2B_160 | .BLAKE2B_256 | .BLAKE2B_384 | .BLAKE2B_512 =>
    match h.ctx with
    | .blake2b c => blake2_final blake2bAlg c
    | _ => .ub
  | .BLAKE2S_128 | .BLAKE2S_160 | .BLAKE2S_224 | .BLAKE2S_256 =>
    match h.ctx with
    | .blake2s c => blake2_final blake2sAlg c
    | _ => .ub
  | .GOST94 =>
    match h.ctx with
    | .gost94 c => gost94_final c
    | _ => .ub
  | .HASH160 =>
    match h.ctx with
    | .sha256 c => hash160_final junk c
    | _ => .ub
  | .HASH256 =>
    match h.ctx with
    | .sha256 c => hash256_final junk c
    | _ => .ub
  | .KECCAK224 | .KECCAK256 | .KECCAK384 | .KECCAK512 =>
    match h.ctx with
    | .keccak c => keccak_final c 0x01 0
    | _ => .ub
  | .MD2 =>
    match h.ctx with
    | .md2 c => md2_final c
    | _ => .ub
  | .MD4 =>
    match h.ctx with
    | .md4 c => md_final md4Alg c
    | _ => .ub
  | .MD5 =>
    match h.ctx with
    | .md5 c => md_final md5Alg c
    | _ => .ub
  | .MD5SHA1 =>
    match h.ctx with
    | .md5sha1 c => md5sha1_final c
    | _ => .ub
  | .RIPEMD160 =>
    match h.ctx with
    | .ripemd160 c => md_final ripemd160Alg c
    | _ => .ub
  | .SHA1 =>
    match h.ctx with
    | .sha1 c => md_final sha1Alg c
    | _ => .ub
  | .SHA224 =>
    match h.ctx with
    | .sha256 c => sha224_final c
    | _ => .ub
  | .SHA256 =>
    match h.ctx with
    | .sha256 c => md_final sha256Alg c
    | _ => .ub
  | .SHA384 =>
    match h.ctx with
    | .sha512 c => sha384_final c
    | _ => .ub
  | .SHA512 =>
    match h.ctx with
    | .sha512 c => md_final sha512Alg c
    | _ => .ub
  | .SHA3_224 | .SHA3_256 | .SHA3_384 | .SHA3_512 =>
    match h.ctx with
    | .keccak c => keccak_final c 0x06 0
    | _ => .ub
  | .SHAKE128 | .SHAKE256 =>
    match h.ctx with
    | .keccak c => keccak_final c 0x1f len
    | _ => .ub
  | .WHIRLPOOL =>
    match h.ctx with
    | .whirlpool c => md_final whirlpoolAlg c
    | _ => .ub
  | .other _ => .abort

/-! ## HMAC -/

/-- include/torsion/hash.h:292-296 `hmac_s`. -/
structure HmacCtx where
  type : HashId
  inner : HashCtx
  outer : HashCtx

/-- `pad[i] = key[i] ^ b` for `i < len`, `pad[i] = b` for the rest of `pad[HASH_MAX_BLOCK_SIZE]` (168
bytes, include/torsion/hash.h:142-142 `HASH_MAX_BLOCK_SIZE`); src/hash.c:4486-4526 `hmac_init`. More than 168 bytes of
key is `ub`. -/
def hmac_pad (key : List Byte) (b : Byte) : C (List Byte) :=
  if key.length ≤ 168 then .ok (key.map (· ^^^ b) ++ List.replicate (168 - key.length) b) else .ub

/-- src/hash.c:4486-4526 `hmac_init`. The array `tmp` has HASH_MAX_OUTPUT_SIZE (64) bytes; writing more to it, or
reading more than was written, is `ub`. `junk k` gives uninitialised bytes. -/
def hmac_init (junk : Nat → Nat → Byte) (type : HashId) (key : List Byte) : C HmacCtx := do
  let hash_size := hash_output_size type
  let block_size := hash_block_size type
  let key ←
    (if key.length > block_size then do
      let h ← hash_init (junk 0) type
      let h ← hash_update h key
      let tmp ← hash_final (junk 1) h hash_size
      if tmp.length > 64 then .ub
      else C.slice tmp 0 hash_size
    else .ok key)
  C.check (decide (key.length ≤ block_size))
  let pad ← hmac_pad key 0x36
  let inner ← hash_init (junk 2) type
  let pad ← C.slice pad 0 block_size
  let inner ← hash_update inner pad
  let pad ← hmac_pad key 0x5c
  let outer ← hash_init (junk 3) type
  let pad ← C.slice pad 0 block_size
  let outer ← hash_update outer pad
  .ok ⟨type, inner, outer⟩

/-- src/hash.c:4528-4531 `hmac_update`. -/
def hmac_update (h : HmacCtx) (data : List Byte) : C HmacCtx := do
  let inner ← hash_update h.inner data
  .ok { h with inner := inner }

/-- src/hash.c:4533-4540 `hmac_final`. -/
def hmac_final (junk : Nat → Nat → Byte) (h : HmacCtx) : C (List Byte) := do
  let hash_size := hash_output_size h.type
  let out ← hash_final (junk 0) h.inner hash_size
  let out ← C.slice out 0 hash_size
  let outer ← hash_update h.outer out
  hash_final (junk 1) outer hash_size

end Torsion
