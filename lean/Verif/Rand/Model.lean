import Verif.Stream.Model
import Verif.Hash.Model

/-!
# Model of src/rand.c

The key and pool arrays are lists of `uint32_t`; where the code passes them to ChaCha20 or SHA-256
as bytes, the words are taken in little-endian order, as they lie in memory on a little-endian
machine. (On a big-endian machine the same computation is done on other bytes.)

The environment is an argument of each call (`Env`): the process id, the results of the entropy
sources and of RDRAND. The global state is passed to each call and returned. The lock is not modelled:
calls are atomic, which is what the lock or the thread-local state ensures. The clearing of
temporaries is not modelled.
-/
namespace Torsion

/-- The global `rng_t` of src/rand.c:47-55. -/
structure Rng where
  key : List (BitVec 32)
  nonce : BitVec 64
  pool : List (BitVec 32)
  pos : Nat
  rdrand : Bool
  started : Bool
  pid : Int
deriving Repr, DecidableEq

/-- What the operating system and the processor answer during one call: src/entropy/entropy.h:25-25
`torsion_has_sysrand`, `torsion_sysrand(seed, 64)`, `torsion_hwrand(seed, 64)` (`none` = failure),
`torsion_has_rdrand`, the successive `torsion_rdrand32()` and `torsion_getpid()`; `junk` is the
uninitialised stack memory. -/
structure Env where
  pid : Int
  hasSysrand : Bool
  sysrand : Option (Vector Byte 64)
  hwrand : Option (Vector Byte 64)
  hasRdrand : Bool
  rdrand32 : Nat → BitVec 32
  junk : Nat → Byte

/-- The memory set to zero: `memset(rng, 0, sizeof(*rng))`, src/rand.c:58-93 `rng_init`; also the initial
value of the static src/rand.c:275-279, `rng_state`. -/
def rng_zero : Rng :=
  ⟨List.replicate 8 0, 0, List.replicate 128 0, 0, false, false, 0⟩

/-- Bytes stored through the cast `(unsigned char *)rng->key`, read back as words (src/rand.c:60,
src/rand.c:95-108 `rng_crypt`). -/
def mem32le : List Byte → List (BitVec 32)
  | a :: b :: c :: d :: t => read32le #v[a, b, c, d] :: mem32le t
  | _ => []

/-- src/rand.c:58-93 `rng_init`: the return value and the new `*rng`. -/
def rng_init (env : Env) : C (Bool × Rng) := do
  let rng := rng_zero
  let hash := sha256_init env.junk
  if !env.hasSysrand then
    match env.hwrand with
    | none => .ok (false, rng)
    | some seed => do
      let hash ← md_update sha256Alg hash seed.toList
      let key ← md_final sha256Alg hash
      .ok (true, { rng with key := mem32le key, rdrand := env.hasRdrand })
  else
    match env.sysrand with
    | none => .ok (false, rng)
    | some seed => do
      let hash ← md_update sha256Alg hash seed.toList
      let hash ← (match env.hwrand with
        | none => .ok hash
        | some seed => md_update sha256Alg hash seed.toList)
      let key ← md_final sha256Alg hash
      .ok (true, { rng with key := mem32le key, rdrand := env.hasRdrand })

/-- src/rand.c:95-108 `rng_crypt`: the new contents of `data`. -/
def rng_crypt (env : Env) (rng : Rng) (data : List Byte) : C (List Byte) := do
  let ctx ← chacha20_init (rawBytes 64 env.junk) (bytes32le rng.key) (write64le rng.nonce).toList 0
  let (out, _) ← chacha20_crypt ctx data
  .ok out

/-- src/rand.c:110-116 `rng_read`: the bytes stored at `dst`. -/
def rng_read (env : Env) (rng : Rng) (size : Nat) : C (List Byte) :=
  rng_crypt env rng (List.replicate size 0)

/-- `rng->key[i] ^= x`, src/rand.c:118-143 `rng_generate`. -/
def key_xor (key : List (BitVec 32)) (i : Nat) (x : BitVec 32) : C (List (BitVec 32)) := do
  let k ← C.rd key i
  C.wr key i (k ^^^ x)

/-- src/rand.c:118-143 `rng_generate`: the bytes stored at `dst` and the new state. -/
def rng_generate (env : Env) (rng : Rng) (size : Nat) : C (List Byte × Rng) := do
  let dst ← rng_read env rng size
  let key ← key_xor rng.key 0 (BitVec.ofNat 32 size)
  let key ← (if rng.rdrand then key_xor key 7 (env.rdrand32 0) else .ok key)
  let rng := { rng with key := key, nonce := rng.nonce + 1 }
  let key ← rng_crypt env rng (bytes32le rng.key)
  .ok (dst, { rng with key := mem32le key })

/-- The loop `rng->key[i] ^= rng->pool[120 + i]` of src/rand.c:145-174 `rng_random` (first argument =
rounds left). -/
def rekey_loop : Nat → Nat → List (BitVec 32) → List (BitVec 32) → C (List (BitVec 32))
  | 0, _, _, key => .ok key
  | n + 1, i, pool, key => do
    let x ← C.rd pool (120 + i)
    let key ← key_xor key i x
    rekey_loop n (i + 1) pool key

/-- The loop `rng->pool[120 + i] = 0` of src/rand.c:145-174 `rng_random` (first argument = rounds left). -/
def wipe_loop : Nat → Nat → List (BitVec 32) → C (List (BitVec 32))
  | 0, _, pool => .ok pool
  | n + 1, i, pool => do
    let pool ← C.wr pool (120 + i) 0
    wipe_loop n (i + 1) pool

/-- src/rand.c:145-174 `rng_random`; `hw` is the value of `torsion_rdrand32()`, used if the pool is
refilled. -/
def rng_random (env : Env) (hw : BitVec 32) (rng : Rng) : C (BitVec 32 × Rng) := do
  let rng ← (if rng.pos = 0 then do
      let pool ← rng_read env rng 512
      let pool := mem32le pool
      let key ← (if rng.rdrand then key_xor rng.key 7 hw else .ok rng.key)
      let key ← rekey_loop 8 0 pool key
      let pool ← wipe_loop 8 0 pool
      .ok { rng with key := key, pool := pool, nonce := rng.nonce + 1, pos := 120 }
    else .ok rng)
  let pos := rng.pos - 1
  let x ← C.rd rng.pool pos
  let pool ← C.wr rng.pool pos 0
  .ok (x, { rng with pool := pool, pos := pos })

/-- The loop of src/rand.c:176-190 `rng_uniform`, at its round `i`; the first argument bounds the rounds,
and `none` means that the loop is still running. -/
def uniform_loop (env : Env) (max : BitVec 32) : Nat → Nat → Rng → C (Option (BitVec 32) × Rng)
  | 0, _, rng => .ok (none, rng)
  | n + 1, i, rng => do
    let (x, rng) ← rng_random env (env.rdrand32 i) rng
    let r := x % max
    if x - r > -max then uniform_loop env max n (i + 1) rng else .ok (some r, rng)

/-- src/rand.c:176-190 `rng_uniform`, with at most `fuel` rounds. -/
def rng_uniform (env : Env) (fuel : Nat) (rng : Rng) (max : BitVec 32) :
    C (Option (BitVec 32) × Rng) :=
  if max ≤ 1 then .ok (some 0, rng) else uniform_loop env max fuel 0 rng

/-- src/rand.c:288-301 `rng_global_init`. -/
def rng_global_init (env : Env) (rng : Rng) : C (Bool × Rng) :=
  let pid := env.pid
  if !rng.started ∨ rng.pid ≠ pid then do
    let (ok, rng) ← rng_init env
    if !ok then .ok (false, rng) else .ok (true, { rng with started := true, pid := pid })
  else .ok (true, rng)

/-- src/rand.c:314-333 `torsion_getrandom`: return value, output and new global state. -/
def torsion_getrandom (env : Env) (rng : Rng) (size : Nat) : C (Bool × List Byte × Rng) := do
  let (ok, rng) ← rng_global_init env rng
  if !ok then .ok (false, List.replicate size 0, rng)
  else do
    let (dst, rng) ← rng_generate env rng size
    .ok (true, dst, rng)

/-- src/rand.c:335-352 `torsion_random`: return value, `*num` and new global state. -/
def torsion_random (env : Env) (rng : Rng) : C (Bool × BitVec 32 × Rng) := do
  let (ok, rng) ← rng_global_init env rng
  if !ok then .ok (false, 0, rng)
  else do
    let (x, rng) ← rng_random env (env.rdrand32 0) rng
    .ok (true, x, rng)

/-- src/rand.c:354-371 `torsion_uniform`, with at most `fuel` draws (`none`: still drawing). -/
def torsion_uniform (env : Env) (fuel : Nat) (rng : Rng) (max : BitVec 32) :
    C (Bool × Option (BitVec 32) × Rng) := do
  let (ok, rng) ← rng_global_init env rng
  if !ok then .ok (false, some 0, rng)
  else do
    let (x, rng) ← rng_uniform env fuel rng max
    .ok (true, x, rng)

/-- src/rand.c:307-312 `torsion_getentropy` with the sources given as functions of the size. -/
def torsion_getentropy (hasSysrand : Bool) (sysrand hwrand : Nat → Option (List Byte)) (size : Nat) :
    Option (List Byte) :=
  if !hasSysrand then hwrand size else sysrand size

end Torsion
