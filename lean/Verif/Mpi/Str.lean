import Verif.Mpi.MpzBit
import Verif.Common.Buffer

/-!
# Model of src/mpi.c: import, export and strings

Bytes and characters are `Byte`; a C string is the list of its characters, read as ended by the first zero
or by the end of the list. `base` and `endian` are `int`. The host is little-endian.
-/
namespace Torsion
set_option maxRecDepth 10000

/-- src/mpi.c:1152-1156 `mp_host_endian` on a little-endian machine. -/
def mp_host_endian : Int := -1

/-- src/mpi.c:1158-1175 `mp_import_le` at `xp + p`. -/
def mp_import_le (xp : List Byte) (p : Nat) : C Limb := do
  let x0 ← C.rd xp p
  let x1 ← C.rd xp (p + 1)
  let x2 ← C.rd xp (p + 2)
  let x3 ← C.rd xp (p + 3)
  let x4 ← C.rd xp (p + 4)
  let x5 ← C.rd xp (p + 5)
  let x6 ← C.rd xp (p + 6)
  let x7 ← C.rd xp (p + 7)
  .ok ((x7.setWidth 64 <<< 56) ||| (x6.setWidth 64 <<< 48) ||| (x5.setWidth 64 <<< 40) |||
    (x4.setWidth 64 <<< 32) ||| (x3.setWidth 64 <<< 24) ||| (x2.setWidth 64 <<< 16) |||
    (x1.setWidth 64 <<< 8) ||| (x0.setWidth 64 <<< 0))

/-- src/mpi.c:1177-1194 `mp_import_be` at `xp + p`. -/
def mp_import_be (xp : List Byte) (p : Nat) : C Limb := do
  let x0 ← C.rd xp p
  let x1 ← C.rd xp (p + 1)
  let x2 ← C.rd xp (p + 2)
  let x3 ← C.rd xp (p + 3)
  let x4 ← C.rd xp (p + 4)
  let x5 ← C.rd xp (p + 5)
  let x6 ← C.rd xp (p + 6)
  let x7 ← C.rd xp (p + 7)
  .ok ((x0.setWidth 64 <<< 56) ||| (x1.setWidth 64 <<< 48) ||| (x2.setWidth 64 <<< 40) |||
    (x3.setWidth 64 <<< 32) ||| (x4.setWidth 64 <<< 24) ||| (x5.setWidth 64 <<< 16) |||
    (x6.setWidth 64 <<< 8) ||| (x7.setWidth 64 <<< 0))

/-- src/mpi.c:1196-1213 `mp_export_le`: the eight bytes, in the order of memory. -/
def mp_export_le (x : Limb) : List Byte :=
  [(x >>> 0).setWidth 8, (x >>> 8).setWidth 8, (x >>> 16).setWidth 8, (x >>> 24).setWidth 8,
    (x >>> 32).setWidth 8, (x >>> 40).setWidth 8, (x >>> 48).setWidth 8, (x >>> 56).setWidth 8]

/-- src/mpi.c:1215-1232 `mp_export_be`: the eight bytes, in the order of memory. -/
def mp_export_be (x : Limb) : List Byte :=
  [(x >>> 56).setWidth 8, (x >>> 48).setWidth 8, (x >>> 40).setWidth 8, (x >>> 32).setWidth 8,
    (x >>> 24).setWidth 8, (x >>> 16).setWidth 8, (x >>> 8).setWidth 8, (x >>> 0).setWidth 8]

/-- The inner loops `z <<= 8; z |= *xp` of src/mpi.c:4731-4785 `mpn_import`, over the bytes in the order they are read. -/
def mpn_import_tail (bs : List Byte) : Limb :=
  bs.foldl (fun z b => (z <<< 8) ||| b.setWidth 64) (0 : Limb)

/-- The big-endian branch of src/mpi.c:4731-4785 `mpn_import`: `zn` limbs are still to be written and the first `xn` bytes
still to be read. -/
def mpn_import_be (xp : List Byte) : Nat → Nat → C (List Limb)
  | 0, _ => .ok []
  | zn + 1, xn =>
    if 8 ≤ xn then do
      let z ← mp_import_be xp (xn - 8)
      let zp ← mpn_import_be xp zn (xn - 8)
      .ok (z :: zp)
    else if 0 < xn then do
      let bs ← C.slice xp 0 xn
      .ok (mpn_import_tail bs :: mpn_zero zn)
    else .ok (mpn_zero (zn + 1))

/-- The little-endian branch of src/mpi.c:4731-4785 `mpn_import`: `zn` limbs are still to be written and the bytes from
position `p` on are still to be read. -/
def mpn_import_le (xp : List Byte) : Nat → Nat → C (List Limb)
  | 0, _ => .ok []
  | zn + 1, p =>
    if 8 ≤ xp.length - p then do
      let z ← mp_import_le xp p
      let zp ← mpn_import_le xp zn (p + 8)
      .ok (z :: zp)
    else if 0 < xp.length - p then do
      let bs ← C.slice xp p (xp.length - p)
      .ok (mpn_import_tail bs.reverse :: mpn_zero zn)
    else .ok (mpn_zero (zn + 1))

/-- src/mpi.c:4731-4785 `mpn_import` into `zn` limbs. -/
def mpn_import (zn : Nat) (xp : List Byte) (endian : Int) : C (List Limb) :=
  let endian := if endian = 0 then mp_host_endian else endian
  if endian = 1 then mpn_import_be xp zn xp.length
  else if endian = -1 then mpn_import_le xp zn 0
  else .abort

/-- The inner loops `x & 0xff; x >>= 8` of src/mpi.c:4791-4842 `mpn_export`: `n` bytes in the order they are written. -/
def mpn_export_tail : Nat → Limb → List Byte
  | 0, _ => []
  | n + 1, x => x.setWidth 8 :: mpn_export_tail n (x >>> 8)

/-- The big-endian branch of src/mpi.c:4791-4842 `mpn_export`: the first `zn` bytes of the output are still to be
written, from the limbs `xp`. -/
def mpn_export_be : List Limb → Nat → List Byte
  | [], zn => List.replicate zn 0
  | x :: xp, zn =>
    if 8 ≤ zn then mpn_export_be xp (zn - 8) ++ mp_export_be x
    else (mpn_export_tail zn x).reverse

/-- The little-endian branch of src/mpi.c:4791-4842 `mpn_export`: `zn` bytes are still to be written, from the limbs `xp`. -/
def mpn_export_le : List Limb → Nat → List Byte
  | [], zn => List.replicate zn 0
  | x :: xp, zn =>
    if 8 ≤ zn then mp_export_le x ++ mpn_export_le xp (zn - 8)
    else mpn_export_tail zn x

/-- src/mpi.c:4791-4842 `mpn_export` into `zn` bytes. -/
def mpn_export (zn : Nat) (xp : List Limb) (endian : Int) : C (List Byte) :=
  let endian := if endian = 0 then mp_host_endian else endian
  if endian = 1 then .ok (mpn_export_be xp zn)
  else if endian = -1 then .ok (mpn_export_le xp zn)
  else .abort

/-- src/mpi.c:9075-9090 `mpz_import`; the check of `mp_size_cast` against `MP_SIZE_MAX` is left out. -/
def mpz_import (z : Dest) (raw : List Byte) (endian : Int) : C Mpz := do
  let zn := (raw.length + 7) / 8
  if zn = 0 then .ok ⟨false, []⟩
  else do
    mpz_grow z zn
    let zp ← mpn_import zn raw endian
    .ok ⟨false, mpn_strip zp⟩

/-- src/mpi.c:9096-9100 `mpz_export` into `size` bytes. -/
def mpz_export (x : Mpz) (size : Nat) (endian : Int) : C (List Byte) := do
  let n ← mpz_bytelen x
  C.check (size ≥ n)
  mpn_export size x.mag endian

/-! ### Strings -/

/-- The array of src/mpi.c:1110-1118, `spaces`; its further entries are zero. -/
def mp_spaces : List Nat :=
  [0, 0, 0, 0, 0, 0, 0, 0, 0, 1, 1, 1,
    1, 1, 0, 0, 0, 0, 0, 0, 0, 0, 0, 0,
    0, 0, 0, 0, 0, 0, 0, 0, 1, 0]

/-- src/mpi.c:1109-1118 `mp_isspace`. -/
def mp_isspace (ch : Byte) : Bool := mp_spaces.getD ch.toNat 0 ≠ 0

/-- src/mpi.c:4851-4884, `mp_table_36`. -/
def mp_table_36 : Vector Nat 256 := #v[
  36, 36, 36, 36, 36, 36, 36, 36, 36, 36, 36, 36, 36, 36, 36, 36, 36, 36, 36, 36, 36, 36, 36, 36,
  36, 36, 36, 36, 36, 36, 36, 36, 36, 36, 36, 36, 36, 36, 36, 36, 36, 36, 36, 36, 36, 36, 36, 36,
  0, 1, 2, 3, 4, 5, 6, 7, 8, 9, 36, 36, 36, 36, 36, 36, 36, 10, 11, 12, 13, 14, 15, 16,
  17, 18, 19, 20, 21, 22, 23, 24, 25, 26, 27, 28, 29, 30, 31, 32, 33, 34, 35, 36, 36, 36, 36, 36,
  36, 10, 11, 12, 13, 14, 15, 16, 17, 18, 19, 20, 21, 22, 23, 24, 25, 26, 27, 28, 29, 30, 31, 32,
  33, 34, 35, 36, 36, 36, 36, 36, 36, 36, 36, 36, 36, 36, 36, 36, 36, 36, 36, 36, 36, 36, 36, 36,
  36, 36, 36, 36, 36, 36, 36, 36, 36, 36, 36, 36, 36, 36, 36, 36, 36, 36, 36, 36, 36, 36, 36, 36,
  36, 36, 36, 36, 36, 36, 36, 36, 36, 36, 36, 36, 36, 36, 36, 36, 36, 36, 36, 36, 36, 36, 36, 36,
  36, 36, 36, 36, 36, 36, 36, 36, 36, 36, 36, 36, 36, 36, 36, 36, 36, 36, 36, 36, 36, 36, 36, 36,
  36, 36, 36, 36, 36, 36, 36, 36, 36, 36, 36, 36, 36, 36, 36, 36, 36, 36, 36, 36, 36, 36, 36, 36,
  36, 36, 36, 36, 36, 36, 36, 36, 36, 36, 36, 36, 36, 36, 36, 36]

/-- src/mpi.c:4886-4919, `mp_table_62`. -/
def mp_table_62 : Vector Nat 256 := #v[
  62, 62, 62, 62, 62, 62, 62, 62, 62, 62, 62, 62, 62, 62, 62, 62, 62, 62, 62, 62, 62, 62, 62, 62,
  62, 62, 62, 62, 62, 62, 62, 62, 62, 62, 62, 62, 62, 62, 62, 62, 62, 62, 62, 62, 62, 62, 62, 62,
  0, 1, 2, 3, 4, 5, 6, 7, 8, 9, 62, 62, 62, 62, 62, 62, 62, 10, 11, 12, 13, 14, 15, 16,
  17, 18, 19, 20, 21, 22, 23, 24, 25, 26, 27, 28, 29, 30, 31, 32, 33, 34, 35, 62, 62, 62, 62, 62,
  62, 36, 37, 38, 39, 40, 41, 42, 43, 44, 45, 46, 47, 48, 49, 50, 51, 52, 53, 54, 55, 56, 57, 58,
  59, 60, 61, 62, 62, 62, 62, 62, 62, 62, 62, 62, 62, 62, 62, 62, 62, 62, 62, 62, 62, 62, 62, 62,
  62, 62, 62, 62, 62, 62, 62, 62, 62, 62, 62, 62, 62, 62, 62, 62, 62, 62, 62, 62, 62, 62, 62, 62,
  62, 62, 62, 62, 62, 62, 62, 62, 62, 62, 62, 62, 62, 62, 62, 62, 62, 62, 62, 62, 62, 62, 62, 62,
  62, 62, 62, 62, 62, 62, 62, 62, 62, 62, 62, 62, 62, 62, 62, 62, 62, 62, 62, 62, 62, 62, 62, 62,
  62, 62, 62, 62, 62, 62, 62, 62, 62, 62, 62, 62, 62, 62, 62, 62, 62, 62, 62, 62, 62, 62, 62, 62,
  62, 62, 62, 62, 62, 62, 62, 62, 62, 62, 62, 62, 62, 62, 62, 62]

/-- The loop of src/mpi.c:4918-4970 `mpn_set_str` with the `n` limbs `zp` written so far; `none` is the jump to `fail`. -/
def mpn_set_str_loop (zn : Nat) (table : Vector Nat 256) (base shift : Nat) : List Byte → List Limb → Option (List Limb)
  | [], zp => some zp
  | ch :: str, zp =>
    if ch = 0 then some zp
    else if mp_isspace ch then mpn_set_str_loop zn table base shift str zp
    else if (table[ch.toNat]'(ch.isLt)) ≥ base then none
    else
      let ch : Limb := BitVec.ofNat 64 (table[ch.toNat]'(ch.isLt))
      let r : List Limb × Limb :=
        if zp.length = 0 then (zp, ch)
        else if shift > 0 then
          let s := mpn_lshift zp shift
          (s.1.modifyHead (· ||| ch), s.2)
        else
          let s := mpn_mul_1 zp (BitVec.ofNat 64 base)
          let t := mpn_add_1 s.1 ch
          (t.1, s.2 + t.2)
      if r.2 ≠ 0 then
        if zp.length = zn then none
        else mpn_set_str_loop zn table base shift str (r.1 ++ [r.2])
      else mpn_set_str_loop zn table base shift str r.1

/-- src/mpi.c:4918-4970 `mpn_set_str` into `zn` limbs: the limbs and the return value. -/
def mpn_set_str (zn : Nat) (str : List Byte) (base : Int) : List Limb × Bool :=
  if base < 2 ∨ base > 62 then (mpn_zero zn, false)
  else
    let table := if base ≤ 36 then mp_table_36 else mp_table_62
    let base := base.toNat
    let shift := if base &&& (base - 1) = 0 then mp_bitlen (BitVec.ofNat 64 (base - 1)) else 0
    match mpn_set_str_loop zn table base shift str [] with
    | some zp => (zp ++ mpn_zero (zn - zp.length), true)
    | none => (mpn_zero zn, false)

/-- The loop of src/mpi.c:1120-1150 `mp_str_limbs` counting characters. -/
def mp_str_count : List Byte → Nat → Nat
  | [], len => len
  | ch :: str, len => if ch = 0 then len else mp_str_count str (if mp_isspace ch then len else len + 1)

/-- The loop of src/mpi.c:1120-1150 `mp_str_limbs` for the largest power below `2^64`; `limb_pow` at least doubles, so
64 rounds suffice and running out of them is `ub`. -/
def mp_str_pow (max base : Limb) : Nat → Limb → Nat → C Nat
  | 0, _, _ => .ub
  | n + 1, limb_pow, limb_len =>
    if limb_pow ≤ max then mp_str_pow max base n (limb_pow * base) (limb_len + 1)
    else .ok limb_len

/-- src/mpi.c:1120-1150 `mp_str_limbs`; lengths are not bounded by `int`. -/
def mp_str_limbs (str : List Byte) (base : Int) : C Nat := do
  let len := mp_str_count str 0
  let len := if len = 0 then 1 else len
  let base := if base < 2 then 2 else if base > 62 then 62 else base.toNat
  if base &&& (base - 1) = 0 then
    .ok ((len * mp_bitlen (BitVec.ofNat 64 (base - 1)) + 64 - 1) / 64)
  else do
    let b : Limb := BitVec.ofNat 64 base
    let limb_len ← mp_str_pow ((-1 : Limb) / b) b 64 b 1
    .ok ((len + limb_len - 1) / limb_len)

/-- The prefix of src/mpi.c:9106-9165 `mpz_set_str` if `base` is 0: the base and the rest of the string. -/
def mpz_set_str_base (str : List Byte) : Int × List Byte :=
  if str.getD 0 0 = 48#8 then
    let c := str.getD 1 0
    if c = 98#8 ∨ c = 66#8 then (2, str.drop 2)
    else if c = 111#8 ∨ c = 79#8 then (8, str.drop 2)
    else if c = 120#8 ∨ c = 88#8 then (16, str.drop 2)
    else (8, str)
  else (10, str)

/-- src/mpi.c:9106-9165 `mpz_set_str`: the integer and the return value. -/
def mpz_set_str (z : Dest) (str : List Byte) (base : Int) : C (Mpz × Bool) := do
  let str := str.dropWhile mp_isspace
  let neg := str.getD 0 0 = 45#8
  let str := if str.getD 0 0 = 43#8 ∨ str.getD 0 0 = 45#8 then str.drop 1 else str
  let bs := if base = 0 then mpz_set_str_base str else (base, str)
  let zn ← mp_str_limbs bs.2 bs.1
  mpz_grow z zn
  let r := mpn_set_str zn bs.2 bs.1
  if !r.2 then .ok (⟨false, []⟩, false)
  else .ok (mpz_make neg (mpn_strip r.1), true)

/-- The do-while loop of src/mpi.c:4487-4523 `mpn_sizeinbase` and src/mpi.c:4976-5066 `mpn_get_str` dividing by the base: the
remainders in the order they are found. Running out of the bound on the rounds is `ub`. -/
def mpn_digits_loop (den : Divisor) : Nat → List Limb → C (List Limb)
  | 0, _ => .ub
  | n + 1, tp => do
    let t ← mpn_divmod_small_2by1 tp den
    let tp ← trimTop t.1
    if tp.length = 0 then .ok [t.2]
    else do
      let r ← mpn_digits_loop den n tp
      .ok (t.2 :: r)

/-- src/mpi.c:4487-4523 `mpn_sizeinbase`. -/
def mpn_sizeinbase (xp : List Limb) (base : Int) : C Nat := do
  C.check (2 ≤ base)
  let base := base.toNat
  let xp := mpn_strip xp
  if xp.length = 0 then .ok 1
  else if base &&& (base - 1) = 0 then do
    let top ← C.rd xp (xp.length - 1)
    let bits := xp.length * 64 - mp_clz top
    let width := mp_bitlen (BitVec.ofNat 64 (base - 1))
    .ok ((bits + width - 1) / width)
  else do
    let den ← mpn_divmod_init_1 (BitVec.ofNat 64 base)
    let ds ← mpn_digits_loop den (64 * xp.length + 1) xp
    .ok ds.length

/-- src/mpi.c:8981-8984 `mpz_sizeinbase`. -/
def mpz_sizeinbase (x : Mpz) (base : Int) : C Nat := mpn_sizeinbase x.mag base

/-- `charset` in src/mpi.c:4976-5066 `mpn_get_str`: the string constants and their terminating zero. -/
def mp_charset (base : Nat) : List Byte :=
  if base ≤ 36 then
    [48, 49, 50, 51, 52, 53, 54, 55, 56, 57, 97, 98, 99, 100, 101, 102, 103, 104, 105, 106, 107, 108, 109,
      110, 111, 112, 113, 114, 115, 116, 117, 118, 119, 120, 121, 122, 0]
  else
    [48, 49, 50, 51, 52, 53, 54, 55, 56, 57, 65, 66, 67, 68, 69, 70, 71, 72, 73, 74, 75, 76, 77,
      78, 79, 80, 81, 82, 83, 84, 85, 86, 87, 88, 89, 90, 97, 98, 99, 100, 101, 102, 103, 104, 105, 106,
      107, 108, 109, 110, 111, 112, 113, 114, 115, 116, 117, 118, 119, 120, 121, 122, 0]

/-- The inner loop of src/mpi.c:4976-5066 `mpn_get_str` over the digits of a full limb. -/
def mpn_limb_digits (mask : Limb) (shift : Nat) : Nat → Limb → List Limb
  | 0, _ => []
  | n + 1, x => (x &&& mask) :: mpn_limb_digits mask shift n (x >>> shift)

/-- The do-while loop of src/mpi.c:4976-5066 `mpn_get_str` over the top limb; `shift` is at least 1, so 64 rounds
suffice and running out of them is `ub`. -/
def mpn_top_digits (mask : Limb) (shift : Nat) : Nat → Limb → C (List Limb)
  | 0, _ => .ub
  | n + 1, x =>
    if x >>> shift ≠ 0 then do
      let r ← mpn_top_digits mask shift n (x >>> shift)
      .ok ((x &&& mask) :: r)
    else .ok [x &&& mask]

/-- The first branch of src/mpi.c:4976-5066 `mpn_get_str`, for bases whose digits fill limbs: all limbs but the top one in
full. -/
def mpn_pow_digits (mask : Limb) (shift : Nat) : List Limb → C (List Limb)
  | [] => .ub
  | [x] => mpn_top_digits mask shift 64 x
  | x :: y :: xp => do
    let r ← mpn_pow_digits mask shift (y :: xp)
    .ok (mpn_limb_digits mask shift (64 / shift) x ++ r)

/-- The second branch of src/mpi.c:4976-5066 `mpn_get_str`, for the other powers of two; running out of the bound on the
rounds is `ub`. -/
def mpn_bits_digits (xp : List Limb) (bits width : Nat) : Nat → Nat → C (List Limb)
  | 0, _ => .ub
  | n + 1, pos =>
    let ch := mpn_getbits xp pos width
    if pos + width < bits then do
      let r ← mpn_bits_digits xp bits width n (pos + width)
      .ok (ch :: r)
    else .ok [ch]

/-- The loop of src/mpi.c:4976-5066 `mpn_get_str` that reverses the string. -/
def mp_str_swap : Nat → Nat → Nat → List Byte → C (List Byte)
  | 0, _, _, str => .ok str
  | k + 1, i, j, str => do
    let ch ← C.rd str i
    let cj ← C.rd str j
    let str ← C.wr str i cj
    let str ← C.wr str j ch
    mp_str_swap k (i + 1) (j - 1) str

/-- `charset[ch]` for every digit, src/mpi.c:5015-5046. -/
def mp_str_chars (charset : List Byte) : List Limb → C (List Byte)
  | [] => .ok []
  | d :: ds => do
    let ch ← C.rd charset d.toNat
    let r ← mp_str_chars charset ds
    .ok (ch :: r)

/-- src/mpi.c:4976-5066 `mpn_get_str`: the characters without the terminating zero; the return value is their number. -/
def mpn_get_str (xp : List Limb) (base : Int) : C (List Byte) := do
  C.check (2 ≤ base ∧ base ≤ 62)
  let base := base.toNat
  let xp := mpn_strip xp
  if xp.length = 0 then .ok [48]
  else do
    let charset := mp_charset base
    let ds ← (if base = 2 ∨ base = 4 ∨ base = 16 then
        mpn_pow_digits (BitVec.ofNat 64 (base - 1)) (mp_bitlen (BitVec.ofNat 64 (base - 1))) xp
      else if base &&& (base - 1) = 0 then do
        let top ← C.rd xp (xp.length - 1)
        let bits := xp.length * 64 - mp_clz top
        mpn_bits_digits xp bits (mp_bitlen (BitVec.ofNat 64 (base - 1))) bits 0
      else do
        let den ← mpn_divmod_init_1 (BitVec.ofNat 64 base)
        mpn_digits_loop den (64 * xp.length + 1) xp)
    let str ← mp_str_chars charset ds
    mp_str_swap (str.length >>> 1) 0 (str.length - 1) str

/-- src/mpi.c:9171-9183 `mpz_get_str`: the characters without the terminating zero; writing past the `neg + len + 1`
allocated characters is `ub`. -/
def mpz_get_str (x : Mpz) (base : Int) : C (List Byte) := do
  let len ← mpz_sizeinbase x base
  let str ← mpn_get_str x.mag base
  if str.length + 1 > len + 1 then .ub
  else .ok (if x.size < 0 then 45#8 :: str else str)

end Torsion
