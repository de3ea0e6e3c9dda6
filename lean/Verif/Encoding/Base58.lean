import Verif.Encoding.Base16

/-!
# Model of base58 (src/encoding.c)

The heap workspace is a list of bytes of the allocated size, every access to it is checked, and
`ASSERT(carry == 0)` aborts. `malloc` is assumed to succeed (on failure the functions return 0
without touching `dst`).
-/
namespace Torsion

/-- The inner carry loop of src/encoding.c:658-722 `base58_encode` (`mul = 256`, `base = 58`)
and of src/encoding.c:724-794 `base58_decode` (`mul = 58`, `base = 256`, where the `uint8_t`
store is `carry % 256` and `carry >>= 8` is `carry / 256`). First argument: `size - j`.
`carry` is `unsigned long`; it stays below `2^16` here, so no wrap-around is modelled. -/
def base58_inner (mul base size length : Nat) :
    Nat → Nat → Nat → List Byte → C (List Byte × Nat × Nat)
  | 0, j, carry, buf => .ok (buf, carry, j)
  | r + 1, j, carry, buf =>
    if carry = 0 ∧ j ≥ length then .ok (buf, carry, j)
    else do
      let x ← C.rd buf (size - 1 - j)
      let carry := carry + x.toNat * mul
      let buf ← C.wr buf (size - 1 - j) (BitVec.ofNat 8 (carry % base))
      base58_inner mul base size length r (j + 1) (carry / base) buf

/-- The outer loop of src/encoding.c:658-722 `base58_encode`; state `(buf, length)`. -/
def base58_encode_loop (size : Nat) : List Byte → Nat → List Byte → C (List Byte × Nat)
  | buf, length, [] => .ok (buf, length)
  | buf, length, c :: src => do
    let (buf, carry, j) ← base58_inner 256 58 size length size 0 c.toNat buf
    C.check (carry == 0)
    base58_encode_loop size buf j src

/-- The mapping loop of src/encoding.c:658-722 `base58_encode`. -/
def base58_chars : List Byte → C (List Byte)
  | [] => .ok []
  | d :: ds => do
    let a ← C.rd base58_charset d.toNat
    let r ← base58_chars ds
    .ok (a :: r)

/-- src/encoding.c:658-722 `base58_encode`. -/
def base58_encode (src : List Byte) : C (Option (List Byte)) :=
  if src.length > 0x7fffffff then .ok none
  else do
    let rest := src.dropWhile (· == 0)
    let zeroes := (src.takeWhile (· == 0)).length
    let size := (src.length - zeroes) * 138 / 100 + 1
    let (buf, length) ← base58_encode_loop size (List.replicate size 0) 0 rest
    let ds := (buf.drop (size - length)).dropWhile (· == 0)
    let t ← base58_chars ds
    .ok (some (List.replicate zeroes (ch '1') ++ t))

/-- The outer loop of src/encoding.c:724-794 `base58_decode`: `none` when a bad character is
met (`return 0`). -/
def base58_decode_loop (size : Nat) : List Byte → Nat → List Byte → C (Option (List Byte × Nat))
  | buf, length, [] => .ok (some (buf, length))
  | buf, length, c :: src =>
    let val := look base58_table c
    if val &&& 0x80 ≠ 0 then .ok none
    else do
      let (buf, carry, j) ← base58_inner 58 256 size length size 0 val.toNat buf
      C.check (carry == 0)
      base58_decode_loop size buf j src

/-- src/encoding.c:724-794 `base58_decode` (64-bit `size_t`). -/
def base58_decode (src : List Byte) : C DecOut :=
  if src.length > 0xffffffff then .ok ⟨[], false⟩
  else do
    let rest := src.dropWhile (· == ch '1')
    let zeroes := (src.takeWhile (· == ch '1')).length
    let size := src.length * 733 / 1000 + 1
    match ← base58_decode_loop size (List.replicate size 0) 0 rest with
    | none => .ok ⟨[], false⟩
    | some (buf, length) =>
      .ok ⟨List.replicate zeroes 0 ++ buf.drop (size - length), true⟩

/-- src/encoding.c:796-804 `base58_test` (the scan order does not matter). -/
def base58_test (str : List Byte) : Bool := str.all fun c => look base58_table c != 255

end Torsion
