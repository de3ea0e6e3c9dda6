import Verif.Util.Bio
import Verif.Common.Buffer

/-!
# Model of src/mac.c

Both back ends of Poly1305 are modelled: the 64-bit one (`POLY1305_HAVE_64BIT`; a
`poly1305_uint128_t` is a number below 2^128, whichever of the two representations of the source is
used) and the 32-bit one. Machine words are natural numbers with explicit wrapping. A key argument
is an array of the size the function reads.
-/
namespace Torsion

/-- `uint64_t` arithmetic, src/mac.c:1: reduce modulo 2^64. -/
def w64 (x : Nat) : Nat := x % 2 ^ 64

/-- `uint32_t` arithmetic, src/mac.c:1: reduce modulo 2^32. -/
def w32 (x : Nat) : Nat := x % 2 ^ 32

/-- `poly1305_uint128_t` arithmetic, src/mac.c:52: reduce modulo 2^128. -/
def w128 (x : Nat) : Nat := x % 2 ^ 128

/-- The parts of a Poly1305 back end, src/mac.c:1 (selected with `POLY1305_HAVE_64BIT`). -/
structure PolyImpl (S : Type) where
  init : Vector Byte 32 → S
  block : Bool → S → Vector Byte 16 → S
  out : S → List Byte

/-- The `struct poly1305_64_s` of include/torsion/mac.h:1. -/
structure Poly64 where
  r0 : Nat
  r1 : Nat
  r2 : Nat
  h0 : Nat
  h1 : Nat
  h2 : Nat
  pad0 : Nat
  pad1 : Nat

/-- The 64-bit branch of src/mac.c:99-146 `poly1305_init`. -/
def poly64_init (key : Vector Byte 32) : Poly64 :=
  let t0 := (read64le (vsub key 0 8)).toNat
  let t1 := (read64le (vsub key 8 8)).toNat
  { r0 := t0 &&& 0xffc0fffffff
    r1 := ((t0 >>> 44) ||| w64 (t1 <<< 20)) &&& 0xfffffc0ffff
    r2 := (t1 >>> 24) &&& 0x00ffffffc0f
    h0 := 0
    h1 := 0
    h2 := 0
    pad0 := (read64le (vsub key 16 8)).toNat
    pad1 := (read64le (vsub key 24 8)).toNat }

/-- One round of the loop of the 64-bit branch of src/mac.c:148-313 `poly1305_blocks`. -/
def poly64_block (final : Bool) (st : Poly64) (data : Vector Byte 16) : Poly64 :=
  let hibit := if final then 0 else 1 <<< 40
  let s1 := w64 (st.r1 * 20)
  let s2 := w64 (st.r2 * 20)
  let t0 := (read64le (vsub data 0 8)).toNat
  let t1 := (read64le (vsub data 8 8)).toNat
  let h0 := w64 (st.h0 + (t0 &&& 0xfffffffffff))
  let h1 := w64 (st.h1 + (((t0 >>> 44) ||| w64 (t1 <<< 20)) &&& 0xfffffffffff))
  let h2 := w64 (st.h2 + (((t1 >>> 24) &&& 0x3ffffffffff) ||| hibit))
  let d0 := w128 (h0 * st.r0)
  let d0 := w128 (d0 + w128 (h1 * s2))
  let d0 := w128 (d0 + w128 (h2 * s1))
  let d1 := w128 (h0 * st.r1)
  let d1 := w128 (d1 + w128 (h1 * st.r0))
  let d1 := w128 (d1 + w128 (h2 * s2))
  let d2 := w128 (h0 * st.r2)
  let d2 := w128 (d2 + w128 (h1 * st.r1))
  let d2 := w128 (d2 + w128 (h2 * st.r0))
  let c := w64 (d0 >>> 44)
  let h0 := w64 d0 &&& 0xfffffffffff
  let d1 := w128 (d1 + c)
  let c := w64 (d1 >>> 44)
  let h1 := w64 d1 &&& 0xfffffffffff
  let d2 := w128 (d2 + c)
  let c := w64 (d2 >>> 42)
  let h2 := w64 d2 &&& 0x3ffffffffff
  let h0 := w64 (h0 + w64 (c * 5))
  let c := h0 >>> 44
  let h0 := h0 &&& 0xfffffffffff
  let h1 := w64 (h1 + c)
  { st with h0 := h0, h1 := h1, h2 := h2 }

/-- The 64-bit branch of src/mac.c:362-555 `poly1305_final` after the last block, first part: carry `h`
completely and subtract the prime if `h` is not below it. -/
def poly64_reduce (st : Poly64) : Nat × Nat × Nat :=
  let h0 := st.h0
  let h1 := st.h1
  let h2 := st.h2
  let c := h1 >>> 44
  let h1 := h1 &&& 0xfffffffffff
  let h2 := w64 (h2 + c)
  let c := h2 >>> 42
  let h2 := h2 &&& 0x3ffffffffff
  let h0 := w64 (h0 + w64 (c * 5))
  let c := h0 >>> 44
  let h0 := h0 &&& 0xfffffffffff
  let h1 := w64 (h1 + c)
  let c := h1 >>> 44
  let h1 := h1 &&& 0xfffffffffff
  let h2 := w64 (h2 + c)
  let c := h2 >>> 42
  let h2 := h2 &&& 0x3ffffffffff
  let h0 := w64 (h0 + w64 (c * 5))
  let c := h0 >>> 44
  let h0 := h0 &&& 0xfffffffffff
  let h1 := w64 (h1 + c)
  let g0 := w64 (h0 + 5)
  let c := g0 >>> 44
  let g0 := g0 &&& 0xfffffffffff
  let g1 := w64 (h1 + c)
  let c := g1 >>> 44
  let g1 := g1 &&& 0xfffffffffff
  let g2 := w64 (h2 + c + (2 ^ 64 - 1 <<< 42))
  let c := w64 ((g2 >>> 63) + (2 ^ 64 - 1))
  let g0 := g0 &&& c
  let g1 := g1 &&& c
  let g2 := g2 &&& c
  let c := 2 ^ 64 - 1 - c
  ((h0 &&& c) ||| g0, (h1 &&& c) ||| g1, (h2 &&& c) ||| g2)

/-- The rest of the 64-bit branch of src/mac.c:362-555 `poly1305_final`: the 16 bytes of `mac`. -/
def poly64_out (st : Poly64) : List Byte :=
  let h := poly64_reduce st
  let t0 := st.pad0
  let t1 := st.pad1
  let h0 := w64 (h.1 + (t0 &&& 0xfffffffffff))
  let c := h0 >>> 44
  let h0 := h0 &&& 0xfffffffffff
  let h1 := w64 (h.2.1 + w64 ((((t0 >>> 44) ||| w64 (t1 <<< 20)) &&& 0xfffffffffff) + c))
  let c := h1 >>> 44
  let h1 := h1 &&& 0xfffffffffff
  let h2 := w64 (h.2.2 + w64 (((t1 >>> 24) &&& 0x3ffffffffff) + c))
  let h2 := h2 &&& 0x3ffffffffff
  let m0 := h0 ||| w64 (h1 <<< 44)
  let m1 := (h1 >>> 20) ||| w64 (h2 <<< 24)
  (write64le (BitVec.ofNat 64 m0)).toList ++ (write64le (BitVec.ofNat 64 m1)).toList

/-- The 64-bit back end of src/mac.c:99-146 `poly1305_init`. -/
def poly64 : PolyImpl Poly64 := ⟨poly64_init, poly64_block, poly64_out⟩

/-- The `struct poly1305_32_s` of include/torsion/mac.h:1. -/
structure Poly32 where
  r0 : Nat
  r1 : Nat
  r2 : Nat
  r3 : Nat
  r4 : Nat
  h0 : Nat
  h1 : Nat
  h2 : Nat
  h3 : Nat
  h4 : Nat
  pad0 : Nat
  pad1 : Nat
  pad2 : Nat
  pad3 : Nat

/-- The 32-bit branch of src/mac.c:99-146 `poly1305_init`. -/
def poly32_init (key : Vector Byte 32) : Poly32 :=
  { r0 := ((read32le (vsub key 0 4)).toNat >>> 0) &&& 0x3ffffff
    r1 := ((read32le (vsub key 3 4)).toNat >>> 2) &&& 0x3ffff03
    r2 := ((read32le (vsub key 6 4)).toNat >>> 4) &&& 0x3ffc0ff
    r3 := ((read32le (vsub key 9 4)).toNat >>> 6) &&& 0x3f03fff
    r4 := ((read32le (vsub key 12 4)).toNat >>> 8) &&& 0x00fffff
    h0 := 0
    h1 := 0
    h2 := 0
    h3 := 0
    h4 := 0
    pad0 := (read32le (vsub key 16 4)).toNat
    pad1 := (read32le (vsub key 20 4)).toNat
    pad2 := (read32le (vsub key 24 4)).toNat
    pad3 := (read32le (vsub key 28 4)).toNat }

/-- One round of the loop of the 32-bit branch of src/mac.c:148-313 `poly1305_blocks`. -/
def poly32_block (final : Bool) (st : Poly32) (data : Vector Byte 16) : Poly32 :=
  let hibit := if final then 0 else 1 <<< 24
  let s1 := w32 (st.r1 * 5)
  let s2 := w32 (st.r2 * 5)
  let s3 := w32 (st.r3 * 5)
  let s4 := w32 (st.r4 * 5)
  let h0 := w32 (st.h0 + (((read32le (vsub data 0 4)).toNat >>> 0) &&& 0x3ffffff))
  let h1 := w32 (st.h1 + (((read32le (vsub data 3 4)).toNat >>> 2) &&& 0x3ffffff))
  let h2 := w32 (st.h2 + (((read32le (vsub data 6 4)).toNat >>> 4) &&& 0x3ffffff))
  let h3 := w32 (st.h3 + (((read32le (vsub data 9 4)).toNat >>> 6) &&& 0x3ffffff))
  let h4 := w32 (st.h4 + (((read32le (vsub data 12 4)).toNat >>> 8) ||| hibit))
  let d0 := w64 (h0 * st.r0 + h1 * s4 + h2 * s3 + h3 * s2 + h4 * s1)
  let d1 := w64 (h0 * st.r1 + h1 * st.r0 + h2 * s4 + h3 * s3 + h4 * s2)
  let d2 := w64 (h0 * st.r2 + h1 * st.r1 + h2 * st.r0 + h3 * s4 + h4 * s3)
  let d3 := w64 (h0 * st.r3 + h1 * st.r2 + h2 * st.r1 + h3 * st.r0 + h4 * s4)
  let d4 := w64 (h0 * st.r4 + h1 * st.r3 + h2 * st.r2 + h3 * st.r1 + h4 * st.r0)
  let c := w32 (d0 >>> 26)
  let h0 := w32 d0 &&& 0x3ffffff
  let d1 := w64 (d1 + c)
  let c := w32 (d1 >>> 26)
  let h1 := w32 d1 &&& 0x3ffffff
  let d2 := w64 (d2 + c)
  let c := w32 (d2 >>> 26)
  let h2 := w32 d2 &&& 0x3ffffff
  let d3 := w64 (d3 + c)
  let c := w32 (d3 >>> 26)
  let h3 := w32 d3 &&& 0x3ffffff
  let d4 := w64 (d4 + c)
  let c := w32 (d4 >>> 26)
  let h4 := w32 d4 &&& 0x3ffffff
  let h0 := w32 (h0 + w32 (c * 5))
  let c := h0 >>> 26
  let h0 := h0 &&& 0x3ffffff
  let h1 := w32 (h1 + c)
  { st with h0 := h0, h1 := h1, h2 := h2, h3 := h3, h4 := h4 }

/-- The 32-bit branch of src/mac.c:362-555 `poly1305_final` after the last block, first part. -/
def poly32_reduce (st : Poly32) : Nat × Nat × Nat × Nat × Nat :=
  let h0 := st.h0
  let h1 := st.h1
  let h2 := st.h2
  let h3 := st.h3
  let h4 := st.h4
  let c := h1 >>> 26
  let h1 := h1 &&& 0x3ffffff
  let h2 := w32 (h2 + c)
  let c := h2 >>> 26
  let h2 := h2 &&& 0x3ffffff
  let h3 := w32 (h3 + c)
  let c := h3 >>> 26
  let h3 := h3 &&& 0x3ffffff
  let h4 := w32 (h4 + c)
  let c := h4 >>> 26
  let h4 := h4 &&& 0x3ffffff
  let h0 := w32 (h0 + w32 (c * 5))
  let c := h0 >>> 26
  let h0 := h0 &&& 0x3ffffff
  let h1 := w32 (h1 + c)
  let g0 := w32 (h0 + 5)
  let c := g0 >>> 26
  let g0 := g0 &&& 0x3ffffff
  let g1 := w32 (h1 + c)
  let c := g1 >>> 26
  let g1 := g1 &&& 0x3ffffff
  let g2 := w32 (h2 + c)
  let c := g2 >>> 26
  let g2 := g2 &&& 0x3ffffff
  let g3 := w32 (h3 + c)
  let c := g3 >>> 26
  let g3 := g3 &&& 0x3ffffff
  let g4 := w32 (h4 + c + (2 ^ 32 - 1 <<< 26))
  let mask := w32 ((g4 >>> 31) + (2 ^ 32 - 1))
  let g0 := g0 &&& mask
  let g1 := g1 &&& mask
  let g2 := g2 &&& mask
  let g3 := g3 &&& mask
  let g4 := g4 &&& mask
  let mask := 2 ^ 32 - 1 - mask
  ((h0 &&& mask) ||| g0, (h1 &&& mask) ||| g1, (h2 &&& mask) ||| g2, (h3 &&& mask) ||| g3,
    (h4 &&& mask) ||| g4)

/-- The rest of the 32-bit branch of src/mac.c:362-555 `poly1305_final`: the 16 bytes of `mac`. -/
def poly32_out (st : Poly32) : List Byte :=
  let h := poly32_reduce st
  let (h0, h1, h2, h3, h4) := h
  let m0 := (h0 ||| w32 (h1 <<< 26)) &&& 0xffffffff
  let m1 := ((h1 >>> 6) ||| w32 (h2 <<< 20)) &&& 0xffffffff
  let m2 := ((h2 >>> 12) ||| w32 (h3 <<< 14)) &&& 0xffffffff
  let m3 := ((h3 >>> 18) ||| w32 (h4 <<< 8)) &&& 0xffffffff
  let f := w64 (m0 + st.pad0)
  let m0 := w32 f
  let f := w64 (m1 + st.pad1 + (f >>> 32))
  let m1 := w32 f
  let f := w64 (m2 + st.pad2 + (f >>> 32))
  let m2 := w32 f
  let f := w64 (m3 + st.pad3 + (f >>> 32))
  let m3 := w32 f
  (write32le (BitVec.ofNat 32 m0)).toList ++ (write32le (BitVec.ofNat 32 m1)).toList ++
    (write32le (BitVec.ofNat 32 m2)).toList ++ (write32le (BitVec.ofNat 32 m3)).toList

/-- The 32-bit back end of src/mac.c:99-146 `poly1305_init`. -/
def poly32 : PolyImpl Poly32 := ⟨poly32_init, poly32_block, poly32_out⟩

/-- The state type of the compiled-in back end: `wide` says whether the compiler has 128-bit integers
(`TORSION_HAVE_INT128`, include/torsion/mac.h:1). -/
abbrev PolyState : Bool → Type
  | true => Poly64
  | false => Poly32

/-- The compiled-in back end of src/mac.c:99-146 `poly1305_init`. -/
def polyImpl : (wide : Bool) → PolyImpl (PolyState wide)
  | true => poly64
  | false => poly32

/-- src/mac.c:99-146 `poly1305_init`; `block` is the old contents of the block buffer. -/
def poly1305_init {S : Type} (I : PolyImpl S) (block : List Byte) (key : Vector Byte 32) : Buf S :=
  ⟨I.init key, block, 0⟩

/-- src/mac.c:315-348 `poly1305_update`. (The source hands all whole blocks to `poly1305_blocks` in one
call, whose loop takes them one by one.) -/
def poly1305_update {S : Type} (I : PolyImpl S) (ctx : Buf S) (data : List Byte) : C (Buf S) :=
  buf_update 16 (I.block false) ctx data

/-- src/mac.c:350-360 `poly1305_pad`. -/
def poly1305_pad {S : Type} (I : PolyImpl S) (ctx : Buf S) : C (Buf S) :=
  if ctx.pos > 0 then do
    let (block, _) ← zero_loop 16 16 ctx.block ctx.pos
    let v ← C.vec 16 block
    .ok ⟨I.block false ctx.st v, block, 0⟩
  else .ok ctx

/-- src/mac.c:362-555 `poly1305_final`: the 16 bytes of `mac`. -/
def poly1305_final {S : Type} (I : PolyImpl S) (ctx : Buf S) : C (List Byte) := do
  let st ←
    (if ctx.pos > 0 then do
      let block ← C.wr ctx.block ctx.pos 1
      let (block, _) ← zero_loop 16 16 block (ctx.pos + 1)
      let v ← C.vec 16 block
      .ok (I.block true ctx.st v)
    else .ok ctx.st)
  .ok (I.out st)

/-! ## SipHash -/

/-- The macro src/mac.c:567-567 `ROTL64`. -/
def rotl64 (x : BitVec 64) (y : Nat) : BitVec 64 := (x <<< y) ||| (x >>> (64 - y))

/-- The variables `v0`, ..., `v3` of src/mac.c:578-633 `siphash_sum`. -/
structure SipSt where
  v0 : BitVec 64
  v1 : BitVec 64
  v2 : BitVec 64
  v3 : BitVec 64

/-- The macro src/mac.c:569-576 `SIPROUND`. -/
def sipround (s : SipSt) : SipSt :=
  let v0 := s.v0 + s.v1
  let v1 := rotl64 s.v1 13
  let v1 := v1 ^^^ v0
  let v0 := rotl64 v0 32
  let v2 := s.v2 + s.v3
  let v3 := rotl64 s.v3 16
  let v3 := v3 ^^^ v2
  let v0 := v0 + v3
  let v3 := rotl64 v3 21
  let v3 := v3 ^^^ v0
  let v2 := v2 + v1
  let v1 := rotl64 v1 17
  let v1 := v1 ^^^ v2
  let v2 := rotl64 v2 32
  ⟨v0, v1, v2, v3⟩

/-- The body of the loop of src/mac.c:578-633 `siphash_sum`. -/
def sip_word (s : SipSt) (w : BitVec 64) : SipSt :=
  let s := { s with v3 := s.v3 ^^^ w }
  let s := sipround s
  let s := sipround s
  { s with v0 := s.v0 ^^^ w }

/-- The end of src/mac.c:578-633 `siphash_sum` (from `v2 ^= f1` on), with `f1 = 0xff`. -/
def sip_end (s : SipSt) : BitVec 64 :=
  let s := { s with v2 := s.v2 ^^^ 0xff }
  let s := sipround s
  let s := sipround s
  let s := sipround s
  let s := sipround s
  s.v0 ^^^ s.v1 ^^^ s.v2 ^^^ s.v3

/-- The loop `while (len >= 8)` of src/mac.c:578-633 `siphash_sum`; first argument = upper bound of the
rounds. -/
def sip_loop : Nat → SipSt → List Byte → C (SipSt × List Byte)
  | 0, s, data => .ok (s, data)
  | k + 1, s, data =>
    if data.length ≥ 8 then do
      let v ← C.vec 8 data
      sip_loop k (sip_word s (read64le v)) (data.drop 8)
    else .ok (s, data)

/-- One case of the `switch` of src/mac.c:578-633 `siphash_sum`: `f0 |= (uint64_t)data[i] << (8 * i)` if
the switch was entered at or above it. -/
def sip_case (data : List Byte) (i : Nat) (f0 : BitVec 64) : C (BitVec 64) :=
  if i < data.length then do
    let b ← C.rd data i
    .ok (f0 ||| (b.zeroExtend 64 <<< (8 * i)))
  else .ok f0

/-- The initial variables of src/mac.c:578-633 `siphash_sum`. -/
def sip_init (key : Vector Byte 16) : SipSt :=
  let k0 := read64le (vsub key 0 8)
  let k1 := read64le (vsub key 8 8)
  ⟨k0 ^^^ 0x736f6d6570736575, k1 ^^^ 0x646f72616e646f6d, k0 ^^^ 0x6c7967656e657261,
    k1 ^^^ 0x7465646279746573⟩

/-- src/mac.c:578-633 `siphash_sum`. -/
def siphash_sum (data : List Byte) (key : Vector Byte 16) : C (BitVec 64) := do
  let f0 : BitVec 64 := BitVec.ofNat 64 data.length <<< 56
  let (s, data) ← sip_loop data.length (sip_init key) data
  let f0 ← sip_case data 6 f0
  let f0 ← sip_case data 5 f0
  let f0 ← sip_case data 4 f0
  let f0 ← sip_case data 3 f0
  let f0 ← sip_case data 2 f0
  let f0 ← sip_case data 1 f0
  let f0 ← sip_case data 0 f0
  .ok (sip_end (sip_word s f0))

/-- The 128-bit product branch of src/mac.c:635-661 `siphash_mod` (`__umulh` is the same function). -/
def sip_mulhi (a b : BitVec 64) : BitVec 64 := BitVec.ofNat 64 ((a.toNat * b.toNat) >>> 64)

/-- The portable branch of src/mac.c:635-661 `siphash_mod`. -/
def sip_mulhi_portable (a b : BitVec 64) : BitVec 64 :=
  let m : BitVec 64 := 0xffffffff
  let ahi := a >>> 32
  let alo := a &&& m
  let bhi := b >>> 32
  let blo := b &&& m
  let axbhi := ahi * bhi
  let axbmid := ahi * blo
  let bxamid := bhi * alo
  let axblo := alo * blo
  let c := (axbmid &&& m) + (bxamid &&& m) + (axblo >>> 32)
  axbhi + (axbmid >>> 32) + (bxamid >>> 32) + (c >>> 32)

/-- src/mac.c:635-661 `siphash_mod`; `mulhi` is the compiled-in branch. -/
def siphash_mod (mulhi : BitVec 64 → BitVec 64 → BitVec 64) (data : List Byte)
    (key : Vector Byte 16) (mod : BitVec 64) : C (BitVec 64) := do
  let a ← siphash_sum data key
  .ok (mulhi a mod)

/-- src/mac.c:663-688 `siphash128_sum`. -/
def siphash128_sum (num : BitVec 64) (key : Vector Byte 16) : BitVec 64 :=
  sip_end (sip_word (sip_init key) num)

/-- src/mac.c:690-713 `siphash256_sum`. -/
def siphash256_sum (num : BitVec 64) (key : Vector Byte 32) : BitVec 64 :=
  sip_end (sip_word ⟨read64le (vsub key 0 8), read64le (vsub key 8 8), read64le (vsub key 16 8),
    read64le (vsub key 24 8)⟩ num)

end Torsion
