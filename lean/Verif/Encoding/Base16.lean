import Verif.Encoding.Tables

/-!
# Model of the base16 codec (src/encoding.c)

`dst` buffers are append-only in this code; the encoders' model returns the text stored in
`dst` before the terminating NUL, the decoders' model returns the bytes stored in `dst` (even
when the call is finally rejected) together with the `int` result.
-/
namespace Torsion

/-- Result of a decoder of src/encoding.c: everything stored in `dst` and the `int` returned (`dstlen` is
`dst.length`, and is only written when `ret`). -/
structure DecOut where
  dst : List Byte
  ret : Bool
deriving Repr, DecidableEq

/-- src/encoding.c:71-74 `base16_encode_size0`. -/
def base16_encode_size (len : Nat) : Nat := len * 2

/-- src/encoding.c:76-79 `base16_decode_size0`. -/
def base16_decode_size (len : Nat) : Nat := len / 2

/-- The `while (len--)` loop of src/encoding.c:81-92 `base16_test0`, scanning from the end;
argument = remaining length. -/
def base16_test_loop (str : List Byte) : Nat → C Bool
  | 0 => .ok true
  | n + 1 => do
    let c ← C.rd str n
    if look base16_table c = 255 then .ok false else base16_test_loop str n

/-- src/encoding.c:81-92 `base16_test0`. -/
def base16_test (str : List Byte) : C Bool :=
  if str.length % 2 = 1 then .ok false else base16_test_loop str str.length

/-- src/encoding.c:103-120 `base16_encode`. -/
def base16_encode : List Byte → C (List Byte)
  | [] => .ok []
  | c :: src => do
    let a ← C.rd base16_charset (c >>> 4).toNat
    let b ← C.rd base16_charset (c &&& 15).toNat
    let r ← base16_encode src
    .ok (a :: b :: r)

/-- Loop of src/encoding.c:127-156 `base16_decode`; accumulates `z`. The count is `srclen >> 1`, so the loop
consumes characters in pairs. -/
def base16_decode_loop : Byte → List Byte → Byte × List Byte
  | z, c1 :: c2 :: src =>
    let hi := look base16_table c1
    let lo := look base16_table c2
    let (z', r) := base16_decode_loop (z ||| (hi ||| lo)) src
    (z', ((hi <<< 4) ||| lo) :: r)
  | z, _ => (z, [])

/-- src/encoding.c:127-156 `base16_decode`. -/
def base16_decode (src : List Byte) : DecOut :=
  if src.length % 2 = 1 then ⟨[], false⟩
  else
    let (z, dst) := base16_decode_loop 0 src
    if z &&& 0x80 ≠ 0 then ⟨dst, false⟩ else ⟨dst, true⟩

/-- Loop of src/encoding.c:172-189 `base16le_encode`; argument is `i`. -/
def base16le_encode_loop (src : List Byte) : Nat → C (List Byte)
  | 0 => .ok []
  | i + 1 => do
    let c ← C.rd src i
    let a ← C.rd base16_charset (c >>> 4).toNat
    let b ← C.rd base16_charset (c &&& 15).toNat
    let r ← base16le_encode_loop src i
    .ok (a :: b :: r)

/-- src/encoding.c:172-189 `base16le_encode`. -/
def base16le_encode (src : List Byte) : C (List Byte) :=
  base16le_encode_loop src src.length

/-- Loop of src/encoding.c:196-225 `base16le_decode`; first argument is the remaining count, `i = 2 * count`. -/
def base16le_decode_loop (src : List Byte) : Nat → Byte → C (Byte × List Byte)
  | 0, z => .ok (z, [])
  | n + 1, z => do
    let c2 ← C.rd src (2 * n + 1)
    let c1 ← C.rd src (2 * n)
    let lo := look base16_table c2
    let hi := look base16_table c1
    let (z', r) ← base16le_decode_loop src n (z ||| (hi ||| lo))
    .ok (z', ((hi <<< 4) ||| lo) :: r)

/-- src/encoding.c:196-225 `base16le_decode`. -/
def base16le_decode (src : List Byte) : C DecOut :=
  if src.length % 2 = 1 then .ok ⟨[], false⟩
  else do
    let (z, dst) ← base16le_decode_loop src (src.length / 2) 0
    if z &&& 0x80 ≠ 0 then .ok ⟨dst, false⟩ else .ok ⟨dst, true⟩

end Torsion
