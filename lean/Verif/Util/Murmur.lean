import Verif.Util.Bio

/-!
# Model: MurmurHash3 (src/util.c)

`data` is the memory at the pointer; reading beyond it is undefined behaviour. `size_t` has 64 bits.
-/
namespace Torsion

/-- src/util.c:150-150 `ROTL32` in `murmur3_sum`. -/
def murmurRotl (w : BitVec 32) (b : Nat) : BitVec 32 := (w <<< b) ||| (w >>> (32 - b))

/-- src/util.c:153-166, `murmur3_sum`: the loop over whole words. The result is the pointer, what is left and the state. -/
def murmur3_loop (data : List Byte) (pos left : Nat) (h1 : BitVec 32) : C (Nat × Nat × BitVec 32) :=
  if 4 ≤ left then do
    let b0 ← C.rd data pos
    let b1 ← C.rd data (pos + 1)
    let b2 ← C.rd data (pos + 2)
    let b3 ← C.rd data (pos + 3)
    let k1 := read32le #v[b0, b1, b2, b3]
    let k1 := k1 * 0xcc9e2d51
    let k1 := murmurRotl k1 15
    let k1 := k1 * 0x1b873593
    let h1 := h1 ^^^ k1
    let h1 := murmurRotl h1 13
    let h1 := h1 * 5 + 0xe6546b64
    murmur3_loop data (pos + 4) (left - 4) h1
  else return (pos, left, h1)
termination_by left

/-- src/util.c:168-182, `murmur3_sum`: the switch, which falls through from each case to the next. -/
def murmur3_tail (data : List Byte) (pos left : Nat) (h1 : BitVec 32) : C (BitVec 32) := do
  let k1 : BitVec 32 := 0
  let k1 ← if left = 3 then do let b ← C.rd data (pos + 2); pure (k1 ^^^ (b.zeroExtend 32 <<< 16)) else pure k1
  let k1 ← if left = 3 ∨ left = 2 then do let b ← C.rd data (pos + 1); pure (k1 ^^^ (b.zeroExtend 32 <<< 8)) else pure k1
  if left = 3 ∨ left = 2 ∨ left = 1 then
    let b ← C.rd data pos
    let k1 := k1 ^^^ (b.zeroExtend 32 <<< 0)
    let k1 := k1 * 0xcc9e2d51
    let k1 := murmurRotl k1 15
    let k1 := k1 * 0x1b873593
    return h1 ^^^ k1
  else return h1

/-- src/util.c:142-192 `murmur3_sum`. -/
def murmur3_sum (data : List Byte) (len : BitVec 64) (seed : BitVec 32) : C (BitVec 32) := do
  let (pos, left, h1) ← murmur3_loop data 0 len.toNat seed
  let h1 ← murmur3_tail data pos left h1
  let h1 := (h1.zeroExtend 64 ^^^ len).truncate 32
  let h1 := h1 ^^^ (h1 >>> 16)
  let h1 := h1 * 0x85ebca6b
  let h1 := h1 ^^^ (h1 >>> 13)
  let h1 := h1 * 0xc2b2ae35
  let h1 := h1 ^^^ (h1 >>> 16)
  return h1

/-- src/util.c:194-199 `murmur3_tweak`. -/
def murmur3_tweak (data : List Byte) (len : BitVec 64) (n tweak : BitVec 32) : C (BitVec 32) :=
  let seed := (n * 0xfba4c795) + tweak
  murmur3_sum data len seed

end Torsion
