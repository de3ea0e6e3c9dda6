import Verif.Util.Bio
import Verif.Common.Buffer

/-!
# Model of src/stream.c

A context's `stream` array is modelled as the 64 bytes that `chacha20_crypt` and `salsa20_crypt`
read through `(unsigned char *)ctx->stream`: the words in little-endian order, which is how they
lie in memory on a little-endian machine, and on a big-endian one after the `torsion_bswap32` loop.
`src` and `dst` are the same buffer or disjoint ones; the output is returned. The clearing of
temporaries (`torsion_memzero`) is not modelled.
-/
namespace Torsion

/-! ## ARC4 -/

/-- The `arc4_t` of include/torsion/stream.h:1; the array is indexed by a `uint8_t`, so always inside
it. -/
structure Arc4 where
  s : Vector Byte 256
  i : Byte
  j : Byte

/-- `s[i]` for a `uint8_t` index, src/stream.c:55-76 `arc4_crypt`. -/
def arc4_at (s : Vector Byte 256) (i : Byte) : Byte := s[i.toNat]

/-- The macro src/stream.c:27-31 `swap` applied to `s[i]`, `s[j]`. -/
def arc4_swap (s : Vector Byte 256) (i j : Byte) : Vector Byte 256 :=
  let x := arc4_at s i
  let s := s.set i.toNat (arc4_at s j)
  s.set j.toNat x

/-- The key loop of src/stream.c:33-53 `arc4_init`: rounds `i`, ..., 255 (first argument = rounds
left). -/
def arc4_key (key : List Byte) : Nat → Nat → Vector Byte 256 → Byte → C (Vector Byte 256)
  | 0, _, s, _ => .ok s
  | n + 1, i, s, j => do
    let k ← C.rd key (i % key.length)
    let j := j + arc4_at s (BitVec.ofNat 8 i) + k
    arc4_key key n (i + 1) (arc4_swap s (BitVec.ofNat 8 i) j) j

/-- src/stream.c:33-53 `arc4_init`. -/
def arc4_init (key : List Byte) : C Arc4 := do
  C.check (key.length ≥ 1 ∧ key.length ≤ 256)
  let s ← arc4_key key 256 0 (Vector.ofFn fun i : Fin 256 => BitVec.ofNat 8 i.val) 0
  .ok ⟨s, 0, 0⟩

/-- src/stream.c:55-76 `arc4_crypt`: the bytes stored to `dst` and the new context. -/
def arc4_crypt : Arc4 → List Byte → List Byte × Arc4
  | ctx, [] => ([], ctx)
  | ctx, c :: src =>
    let i := ctx.i + 1
    let j := ctx.j + arc4_at ctx.s i
    let s := arc4_swap ctx.s i j
    let d := c ^^^ arc4_at s (arc4_at s i + arc4_at s j)
    let r := arc4_crypt ⟨s, i, j⟩ src
    (d :: r.1, r.2)

/-! ## The shared block-buffered keystream code -/

/-- The `chacha20_t` / `salsa20_t` of include/torsion/stream.h:1. -/
structure StreamCtx where
  state : Vector (BitVec 32) 16
  stream : List Byte
  pos : Nat

/-- `torsion_memxor3(dst, src, key, n)`, src/util.c:124-132 `torsion_memxor3`: the bytes stored. The two
inputs have `n` bytes. -/
def memxor3 (src key : List Byte) : List Byte := List.zipWith (· ^^^ ·) src key

/-- The loop `while (len >= 64)` of src/stream.c:182-222 `chacha20_crypt` and src/stream.c:383-423 `salsa20_crypt`;
first argument = upper bound of the rounds. Returns the output, the context and the rest. -/
def stream_loop (blk : Vector (BitVec 32) 16 → List Byte × Vector (BitVec 32) 16) :
    Nat → StreamCtx → List Byte → C (List Byte × StreamCtx × List Byte)
  | 0, ctx, src => .ok ([], ctx, src)
  | k + 1, ctx, src =>
    if src.length ≥ 64 then do
      let b := blk ctx.state
      let ctx := { ctx with state := b.2, stream := b.1 }
      let ks ← C.slice ctx.stream 0 64
      let out := memxor3 (src.take 64) ks
      let (rest, ctx, src) ← stream_loop blk k ctx (src.drop 64)
      .ok (out ++ rest, ctx, src)
    else .ok ([], ctx, src)

/-- The body of src/stream.c:182-222 `chacha20_crypt` and src/stream.c:383-423 `salsa20_crypt`, which differ only in
the block function `blk` (it returns the key stream bytes and the new state). -/
def stream_crypt (blk : Vector (BitVec 32) 16 → List Byte × Vector (BitVec 32) 16)
    (ctx : StreamCtx) (src : List Byte) : C (List Byte × StreamCtx) := do
  let pos := ctx.pos
  let want := 64 - pos
  let (out, ctx, src, pos) ←
    (if src.length ≥ want then do
      let (out, src, pos) ←
        (if pos > 0 then do
          let ks ← C.slice ctx.stream pos want
          .ok (memxor3 (src.take want) ks, src.drop want, 0)
        else .ok ([], src, pos))
      let (out2, ctx, src) ← stream_loop blk src.length ctx src
      .ok (out ++ out2, ctx, src, pos)
    else .ok ([], ctx, src, pos))
  if src.length > 0 then do
    let ctx := if pos = 0 then
        let b := blk ctx.state
        { ctx with state := b.2, stream := b.1 }
      else ctx
    let ks ← C.slice ctx.stream pos src.length
    .ok (out ++ memxor3 src ks, { ctx with pos := pos + src.length })
  else .ok (out, { ctx with pos := pos })

/-- `read32le(p + off)`, src/bio.h:52-64 `read32le`; `ub` unless four bytes are there. -/
def rd32le (p : List Byte) (off : Nat) : C (BitVec 32) := do
  let v ← C.vec 4 (p.drop off)
  .ok (read32le v)

/-- The memory of a `uint32_t` array written with `write32le`, or stored as a key stream
(src/stream.c:152-180 `chacha20_block`). -/
def bytes32le (ws : List (BitVec 32)) : List Byte := ws.flatMap fun w => (write32le w).toList

/-- The macro src/stream.c:89-89 `ROTL32`. -/
def rotl32 (x : BitVec 32) (y : Nat) : BitVec 32 := (x <<< y) ||| (x >>> (32 - y))

/-! ## ChaCha20 -/

/-- The first macro src/stream.c:91-95 `QROUND`. -/
def chacha20_qround (x : Vector (BitVec 32) 16) (a b c d : Fin 16) : Vector (BitVec 32) 16 :=
  let x := x.set a (x[a] + x[b])
  let x := x.set d (rotl32 (x[d] ^^^ x[a]) 16)
  let x := x.set c (x[c] + x[d])
  let x := x.set b (rotl32 (x[b] ^^^ x[c]) 12)
  let x := x.set a (x[a] + x[b])
  let x := x.set d (rotl32 (x[d] ^^^ x[a]) 8)
  let x := x.set c (x[c] + x[d])
  x.set b (rotl32 (x[b] ^^^ x[c]) 7)

/-- `n` rounds of the loop of src/stream.c:152-180 `chacha20_block` (the same loop is in src/stream.c:224-272
`chacha20_derive`). -/
def chacha20_rounds : Nat → Vector (BitVec 32) 16 → Vector (BitVec 32) 16
  | 0, x => x
  | n + 1, x =>
    let x := chacha20_qround x 0 4 8 12
    let x := chacha20_qround x 1 5 9 13
    let x := chacha20_qround x 2 6 10 14
    let x := chacha20_qround x 3 7 11 15
    let x := chacha20_qround x 0 5 10 15
    let x := chacha20_qround x 1 6 11 12
    let x := chacha20_qround x 2 7 8 13
    let x := chacha20_qround x 3 4 9 14
    chacha20_rounds n x

/-- src/stream.c:152-180 `chacha20_block`: the key stream bytes and the new state. -/
def chacha20_block (state : Vector (BitVec 32) 16) : List Byte × Vector (BitVec 32) 16 :=
  let stream := chacha20_rounds 10 state
  let stream := Vector.ofFn fun i : Fin 16 => stream[i] + state[i]
  let state := state.set 12 (state[12] + 1)
  let state := state.set 13 (state[13] + if state[12] < 1 then 1 else 0)
  (bytes32le stream.toList, state)

/-- src/stream.c:182-222 `chacha20_crypt`. -/
def chacha20_crypt (ctx : StreamCtx) (src : List Byte) : C (List Byte × StreamCtx) :=
  stream_crypt chacha20_block ctx src

/-- src/stream.c:224-272 `chacha20_derive`: the 32 bytes of `out`. -/
def chacha20_derive (key nonce16 : List Byte) : C (List Byte) := do
  let n := key.length
  C.check (n = 16 ∨ n = 32)
  let x := Vector.replicate 16 (0 : BitVec 32)
  let x := x.set 0 0x61707865
  let x := x.set 1 (if n < 32 then 0x3120646e else 0x3320646e)
  let x := x.set 2 (if n < 32 then 0x79622d36 else 0x79622d32)
  let x := x.set 3 0x6b206574
  let x := x.set 4 (← rd32le key 0)
  let x := x.set 5 (← rd32le key 4)
  let x := x.set 6 (← rd32le key 8)
  let x := x.set 7 (← rd32le key 12)
  let x := x.set 8 (← rd32le key (16 % n))
  let x := x.set 9 (← rd32le key (20 % n))
  let x := x.set 10 (← rd32le key (24 % n))
  let x := x.set 11 (← rd32le key (28 % n))
  let x := x.set 12 (← rd32le nonce16 0)
  let x := x.set 13 (← rd32le nonce16 4)
  let x := x.set 14 (← rd32le nonce16 8)
  let x := x.set 15 (← rd32le nonce16 12)
  let x := chacha20_rounds 10 x
  .ok (bytes32le [x[0], x[1], x[2], x[3], x[12], x[13], x[14], x[15]])

/-- The part of src/stream.c:97-150 `chacha20_init` after the XChaCha step. The old contents of the context
(`old`, `stream`) are arbitrary memory; all of `state` is overwritten. -/
def chacha20_setup (stream : List Byte) (key nonce : List Byte) (counter : BitVec 64) :
    C StreamCtx := do
  let n := key.length
  let x := Vector.replicate 16 (0 : BitVec 32)
  let x := x.set 0 0x61707865
  let x := x.set 1 (if n < 32 then 0x3120646e else 0x3320646e)
  let x := x.set 2 (if n < 32 then 0x79622d36 else 0x79622d32)
  let x := x.set 3 0x6b206574
  let x := x.set 4 (← rd32le key 0)
  let x := x.set 5 (← rd32le key 4)
  let x := x.set 6 (← rd32le key 8)
  let x := x.set 7 (← rd32le key 12)
  let x := x.set 8 (← rd32le key (16 % n))
  let x := x.set 9 (← rd32le key (20 % n))
  let x := x.set 10 (← rd32le key (24 % n))
  let x := x.set 11 (← rd32le key (28 % n))
  let x := x.set 12 (counter.truncate 32)
  if nonce.length = 8 then
    let x := x.set 13 ((counter >>> 32).truncate 32)
    let x := x.set 14 (← rd32le nonce 0)
    let x := x.set 15 (← rd32le nonce 4)
    .ok ⟨x, stream, 0⟩
  else if nonce.length = 12 then
    let x := x.set 13 (← rd32le nonce 0)
    let x := x.set 14 (← rd32le nonce 4)
    let x := x.set 15 (← rd32le nonce 8)
    .ok ⟨x, stream, 0⟩
  else if nonce.length = 16 then
    let x := x.set 12 (← rd32le nonce 0)
    let x := x.set 13 (← rd32le nonce 4)
    let x := x.set 14 (← rd32le nonce 8)
    let x := x.set 15 (← rd32le nonce 12)
    .ok ⟨x, stream, 0⟩
  else .abort

/-- src/stream.c:97-150 `chacha20_init`; `stream` is the old (uninitialised) contents of the key stream
buffer. -/
def chacha20_init (stream : List Byte) (key nonce : List Byte) (counter : BitVec 64) :
    C StreamCtx := do
  C.check (key.length = 16 ∨ key.length = 32)
  if nonce.length ≥ 24 then do
    let tmp ← chacha20_derive key nonce
    chacha20_setup stream tmp (nonce.drop 16) counter
  else chacha20_setup stream key nonce counter

/-! ## Salsa20 -/

/-- The second macro `QROUND` of src/stream.c:290-294. -/
def salsa20_qround (x : Vector (BitVec 32) 16) (a b c d : Fin 16) : Vector (BitVec 32) 16 :=
  let x := x.set b (x[b] ^^^ rotl32 (x[a] + x[d]) 7)
  let x := x.set c (x[c] ^^^ rotl32 (x[b] + x[a]) 9)
  let x := x.set d (x[d] ^^^ rotl32 (x[c] + x[b]) 13)
  x.set a (x[a] ^^^ rotl32 (x[d] + x[c]) 18)

/-- `n` rounds of the loop of src/stream.c:353-381 `salsa20_block` (the same loop is in src/stream.c:425-473
`salsa20_derive`). -/
def salsa20_rounds : Nat → Vector (BitVec 32) 16 → Vector (BitVec 32) 16
  | 0, x => x
  | n + 1, x =>
    let x := salsa20_qround x 0 4 8 12
    let x := salsa20_qround x 5 9 13 1
    let x := salsa20_qround x 10 14 2 6
    let x := salsa20_qround x 15 3 7 11
    let x := salsa20_qround x 0 1 2 3
    let x := salsa20_qround x 5 6 7 4
    let x := salsa20_qround x 10 11 8 9
    let x := salsa20_qround x 15 12 13 14
    salsa20_rounds n x

/-- src/stream.c:353-381 `salsa20_block`: the key stream bytes and the new state. -/
def salsa20_block (state : Vector (BitVec 32) 16) : List Byte × Vector (BitVec 32) 16 :=
  let stream := salsa20_rounds 10 state
  let stream := Vector.ofFn fun i : Fin 16 => stream[i] + state[i]
  let state := state.set 8 (state[8] + 1)
  let state := state.set 9 (state[9] + if state[8] < 1 then 1 else 0)
  (bytes32le stream.toList, state)

/-- src/stream.c:383-423 `salsa20_crypt`. -/
def salsa20_crypt (ctx : StreamCtx) (src : List Byte) : C (List Byte × StreamCtx) :=
  stream_crypt salsa20_block ctx src

/-- src/stream.c:425-473 `salsa20_derive`: the 32 bytes of `out`. -/
def salsa20_derive (key nonce16 : List Byte) : C (List Byte) := do
  let n := key.length
  C.check (n = 16 ∨ n = 32)
  let x := Vector.replicate 16 (0 : BitVec 32)
  let x := x.set 0 0x61707865
  let x := x.set 1 (← rd32le key 0)
  let x := x.set 2 (← rd32le key 4)
  let x := x.set 3 (← rd32le key 8)
  let x := x.set 4 (← rd32le key 12)
  let x := x.set 5 (if n < 32 then 0x3120646e else 0x3320646e)
  let x := x.set 6 (← rd32le nonce16 0)
  let x := x.set 7 (← rd32le nonce16 4)
  let x := x.set 8 (← rd32le nonce16 8)
  let x := x.set 9 (← rd32le nonce16 12)
  let x := x.set 10 (if n < 32 then 0x79622d36 else 0x79622d32)
  let x := x.set 11 (← rd32le key (16 % n))
  let x := x.set 12 (← rd32le key (20 % n))
  let x := x.set 13 (← rd32le key (24 % n))
  let x := x.set 14 (← rd32le key (28 % n))
  let x := x.set 15 0x6b206574
  let x := salsa20_rounds 10 x
  .ok (bytes32le [x[0], x[5], x[10], x[15], x[6], x[7], x[8], x[9]])

/-- The nonce part of src/stream.c:296-351 `salsa20_init`: state words 6 to 9. -/
def salsa20_nonce (nonce : List Byte) (counter : BitVec 64) :
    C (BitVec 32 × BitVec 32 × BitVec 32 × BitVec 32) :=
  if nonce.length = 8 then do
    let a ← rd32le nonce 0
    let b ← rd32le nonce 4
    .ok (a, b, counter.truncate 32, (counter >>> 32).truncate 32)
  else if nonce.length = 12 then do
    let a ← rd32le nonce 0
    let b ← rd32le nonce 4
    let c ← rd32le nonce 8
    .ok (a, b, c, counter.truncate 32)
  else if nonce.length = 16 then do
    let a ← rd32le nonce 0
    let b ← rd32le nonce 4
    let c ← rd32le nonce 8
    let d ← rd32le nonce 12
    .ok (a, b, c, d)
  else .abort

/-- The part of src/stream.c:296-351 `salsa20_init` after the XSalsa step. -/
def salsa20_setup (stream : List Byte) (key nonce : List Byte) (counter : BitVec 64) :
    C StreamCtx := do
  let n := key.length
  let x := Vector.replicate 16 (0 : BitVec 32)
  let x := x.set 0 0x61707865
  let x := x.set 1 (← rd32le key 0)
  let x := x.set 2 (← rd32le key 4)
  let x := x.set 3 (← rd32le key 8)
  let x := x.set 4 (← rd32le key 12)
  let x := x.set 5 (if n < 32 then 0x3120646e else 0x3320646e)
  let w ← salsa20_nonce nonce counter
  let x := x.set 6 w.1
  let x := x.set 7 w.2.1
  let x := x.set 8 w.2.2.1
  let x := x.set 9 w.2.2.2
  let x := x.set 10 (if n < 32 then 0x79622d36 else 0x79622d32)
  let x := x.set 11 (← rd32le key (16 % n))
  let x := x.set 12 (← rd32le key (20 % n))
  let x := x.set 13 (← rd32le key (24 % n))
  let x := x.set 14 (← rd32le key (28 % n))
  let x := x.set 15 0x6b206574
  .ok ⟨x, stream, 0⟩

/-- src/stream.c:296-351 `salsa20_init`. -/
def salsa20_init (stream : List Byte) (key nonce : List Byte) (counter : BitVec 64) :
    C StreamCtx := do
  C.check (key.length = 16 ∨ key.length = 32)
  if nonce.length ≥ 24 then do
    let tmp ← salsa20_derive key nonce
    salsa20_setup stream tmp (nonce.drop 16) counter
  else salsa20_setup stream key nonce counter

end Torsion
