import Verif.Basic

/-!
# Model: buffered block processing

The pattern shared by `poly1305_update` (src/mac.c) and the `*_update` functions of src/hash.c: a
context holds a partial block of `pos` bytes; an update completes it, processes whole blocks
straight from the input and keeps the rest.
-/
namespace Torsion

/-- The part of a context touched by the update functions: chaining state, `block` array and `pos`
(for example include/torsion/hash.h:1, `md5_t`; include/torsion/mac.h:1, `poly1305_t`). -/
structure Buf (S : Type) where
  st : S
  block : List Byte
  pos : Nat
deriving Repr, DecidableEq

/-- `memcpy(block + pos, src, n)` into an array of `block.length` bytes, as in src/hash.c:1569-1597
`md5_update`; writing past the end is `ub`. -/
def C.blit (block : List Byte) (pos : Nat) (src : List Byte) : C (List Byte) :=
  if pos + src.length ≤ block.length then
    .ok (block.take pos ++ src ++ block.drop (pos + src.length))
  else .ub

/-- The `n` bytes starting at `xs + pos`, as passed by pointer in src/hash.c:1569-1597 `md5_update`;
reading past the end is `ub`. -/
def C.slice (xs : List Byte) (pos n : Nat) : C (List Byte) :=
  if pos + n ≤ xs.length then .ok ((xs.drop pos).take n) else .ub

/-- The block of `n` bytes at a pointer, as passed to src/hash.c:1464-1487 `md5_transform`; it is `ub` for
fewer than `n` bytes to be there. -/
def C.vec (n : Nat) (xs : List Byte) : C (Vector Byte n) :=
  if h : (xs.take n).length = n then .ok ⟨(xs.take n).toArray, by simpa using h⟩ else .ub

/-- The `k` bytes at `p + off` of an `n`-byte array, as in src/mac.c:99-146 `poly1305_init`; the access is
inside the array by its type. -/
def vsub {n : Nat} (v : Vector Byte n) (off k : Nat) (h : off + k ≤ n := by decide) : Vector Byte k :=
  Vector.ofFn fun i : Fin k => v[off + i.val]

/-- The loop `while (pos < lim) block[pos++] = 0;` of src/mac.c:350-360 `poly1305_pad`; first argument =
upper bound of the rounds. -/
def zero_loop : Nat → Nat → List Byte → Nat → C (List Byte × Nat)
  | 0, _, block, pos => .ok (block, pos)
  | k + 1, lim, block, pos =>
    if pos < lim then do
      let block ← C.wr block pos 0
      zero_loop k lim block (pos + 1)
    else .ok (block, pos)

/-- The loop `while (len >= bs) { transform(ctx, raw); raw += bs; len -= bs; }` of
src/hash.c:1569-1597 `md5_update` and its siblings; first argument = an upper bound of the rounds (the
length of the input). Returns the state and the rest of the input. -/
def blocks_loop {S : Type} (bs : Nat) (f : S → Vector Byte bs → S) :
    Nat → S → List Byte → C (S × List Byte)
  | 0, st, raw => .ok (st, raw)
  | k + 1, st, raw =>
    if raw.length ≥ bs then do
      let v ← C.vec bs raw
      blocks_loop bs f k (f st v) (raw.drop bs)
    else .ok (st, raw)

/-- The body common to src/hash.c:1569-1597 `md5_update`, src/hash.c:1390-1418 `md4_update`, src/hash.c:1914-1942
`ripemd160_update`, src/hash.c:2159-2187 `sha1_update`, src/hash.c:2430-2458 `sha256_update`, src/hash.c:2727-2755
`sha512_update`, src/hash.c:3963-3991 `whirlpool_update`, src/hash.c:652-680 `gost94_update`, src/hash.c:1055-1085
`keccak_update`, src/hash.c:1234-1264 `md2_update` and src/mac.c:315-348 `poly1305_update`: block size `bs`,
block function `f`. -/
def buf_update {S : Type} (bs : Nat) (f : S → Vector Byte bs → S) (ctx : Buf S)
    (data : List Byte) : C (Buf S) := do
  let pos := ctx.pos
  let want := bs - pos
  let (ctx, raw, pos) ←
    (if data.length ≥ want then do
      let (ctx, raw, pos) ←
        (if pos > 0 then do
          let head ← C.slice data 0 want
          let block ← C.blit ctx.block pos head
          let v ← C.vec bs block
          .ok (({ ctx with block := block, st := f ctx.st v } : Buf S), data.drop want, 0)
        else .ok (ctx, data, pos))
      let (st, raw) ← blocks_loop bs f raw.length ctx.st raw
      .ok ({ ctx with st := st }, raw, pos)
    else .ok (ctx, data, pos))
  if raw.length > 0 then do
    let block ← C.blit ctx.block pos raw
    .ok { ctx with block := block, pos := pos + raw.length }
  else .ok { ctx with pos := pos }

end Torsion
