import Verif.Encoding.Base16

/-!
# Model of the base32 engine (src/encoding.c)
-/
namespace Torsion

/-- src/encoding.c:313-313 `base32_padding`. -/
def base32_padding : List Nat := [0, 6, 4, 3, 1]

/-- The fall-through `switch` of src/encoding.c:315-339 `base32_encode_size0`. -/
def base32_encode_extra (mode : Nat) : Nat :=
  match mode with
  | 4 => 2 + 1 + 2 + 1
  | 3 => 1 + 2 + 1
  | 2 => 2 + 1
  | 1 => 1
  | _ => 0

/-- src/encoding.c:315-339 `base32_encode_size0`. -/
def base32_encode_size (len : Nat) (pad : Bool) : C Nat :=
  let size := (len / 5) * 8
  let mode := len % 5
  let size := size + base32_encode_extra mode
  if mode > 0 then
    let size := size + 1
    if pad then do
      let p ← C.rd base32_padding mode
      .ok (size + p)
    else .ok size
  else .ok size

/-- src/encoding.c:341-397 `base32_encode0`: the loop over `src` (state `mode`, `left`) followed
by its tail. Modes above 4 do not occur (`switch` without default); they are
given the C behaviour of doing nothing. -/
def base32_encode_loop (charset : List Byte) (pad : Bool) :
    Nat → Byte → List Byte → C (List Byte)
  | mode, left, [] =>
    if mode > 0 then do
      let a ← C.rd charset left.toNat
      if pad then do
        let p ← C.rd base32_padding mode
        .ok (a :: List.replicate p (ch '='))
      else .ok [a]
    else .ok []
  | mode, left, c :: src =>
    match mode with
    | 0 => do
      let a ← C.rd charset (c >>> 3).toNat
      let r ← base32_encode_loop charset pad 1 ((c &&& 7) <<< 2) src
      .ok (a :: r)
    | 1 => do
      let a ← C.rd charset (left ||| (c >>> 6)).toNat
      let b ← C.rd charset ((c >>> 1) &&& 31).toNat
      let r ← base32_encode_loop charset pad 2 ((c &&& 1) <<< 4) src
      .ok (a :: b :: r)
    | 2 => do
      let a ← C.rd charset (left ||| (c >>> 4)).toNat
      let r ← base32_encode_loop charset pad 3 ((c &&& 15) <<< 1) src
      .ok (a :: r)
    | 3 => do
      let a ← C.rd charset (left ||| (c >>> 7)).toNat
      let b ← C.rd charset ((c >>> 2) &&& 31).toNat
      let r ← base32_encode_loop charset pad 4 ((c &&& 3) <<< 3) src
      .ok (a :: b :: r)
    | 4 => do
      let a ← C.rd charset (left ||| (c >>> 5)).toNat
      let b ← C.rd charset (c &&& 31).toNat
      let r ← base32_encode_loop charset pad 0 left src
      .ok (a :: b :: r)
    | m => base32_encode_loop charset pad m left src

/-- src/encoding.c:341-397 `base32_encode0`. -/
def base32_encode0 (src : List Byte) (charset : List Byte) (pad : Bool) : C (List Byte) :=
  base32_encode_loop charset pad 0 0 src

/-- The loop of src/encoding.c:399-425 `base32_decode_size0`: six rounds, each dropping one trailing `=` if present.
Arguments: rounds left and current `len`. -/
def base32_strip (str : List Byte) : Nat → Nat → C Nat
  | 0, len => .ok len
  | k + 1, len =>
    if len > 0 then do
      let c ← C.rd str (len - 1)
      base32_strip str k (if c = ch '=' then len - 1 else len)
    else .ok len

/-- The fall-through `switch` of src/encoding.c:399-425 `base32_decode_size0`. -/
def base32_decode_extra (mode : Nat) : Nat :=
  match mode with
  | 7 => 1 + 1 + 1 + 1
  | 6 => 1 + 1 + 1
  | 5 => 1 + 1 + 1
  | 4 => 1 + 1
  | 3 => 1
  | 2 => 1
  | _ => 0

/-- src/encoding.c:399-425 `base32_decode_size0`. -/
def base32_decode_size (str : List Byte) : C Nat := do
  let len ← base32_strip str 6 str.length
  .ok ((len / 8) * 5 + base32_decode_extra (len % 8))

/-- State of the decoder (src/encoding.c:427-501 `base32_decode0`) when its main loop ends. -/
structure B32St where
  /-- characters consumed -/
  i : Nat
  mode : Nat
  left : Byte
  dst : List Byte

/-- The main loop of src/encoding.c:427-501 `base32_decode0`. -/
def base32_decode_loop (table : Vector Byte 256) : Nat → Nat → Byte → List Byte → B32St
  | i, mode, left, [] => ⟨i, mode, left, []⟩
  | i, mode, left, c :: src =>
    let val := look table c
    if val &&& 0x80 ≠ 0 then ⟨i, mode, left, []⟩
    else
      let emit (b : Byte) (s : B32St) : B32St := { s with dst := b :: s.dst }
      match mode with
      | 0 => base32_decode_loop table (i + 1) 1 val src
      | 1 => emit ((left <<< 3) ||| (val >>> 2))
          (base32_decode_loop table (i + 1) 2 (val &&& 3) src)
      | 2 => base32_decode_loop table (i + 1) 3 ((left <<< 5) ||| val) src
      | 3 => emit ((left <<< 1) ||| (val >>> 4))
          (base32_decode_loop table (i + 1) 4 (val &&& 15) src)
      | 4 => emit ((left <<< 4) ||| (val >>> 1))
          (base32_decode_loop table (i + 1) 5 (val &&& 1) src)
      | 5 => base32_decode_loop table (i + 1) 6 ((left <<< 5) ||| val) src
      | 6 => emit ((left <<< 2) ||| (val >>> 3))
          (base32_decode_loop table (i + 1) 7 (val &&& 7) src)
      | 7 => emit ((left <<< 5) ||| val) (base32_decode_loop table (i + 1) 0 0 src)
      | m => base32_decode_loop table (i + 1) m left src

/-- src/encoding.c:427-501 `base32_decode0`. `unpad` is the 0/1 flag of the API; `-mode & 7` on
`size_t` is `(8 - mode) % 8` for `mode < 8`. -/
def base32_decode0 (src : List Byte) (table : Vector Byte 256) (unpad : Bool) : DecOut :=
  let s := base32_decode_loop table 0 0 0 src
  if s.mode = 1 ∨ s.mode = 3 ∨ s.mode = 6 then ⟨s.dst, false⟩
  else if s.left > 0 then ⟨s.dst, false⟩
  else if src.length ≠ s.i + ((8 - s.mode) % 8) * unpad.toNat then ⟨s.dst, false⟩
  else if (src.drop s.i).any (fun c => c != ch '=') then ⟨s.dst, false⟩
  else ⟨s.dst, true⟩

/-- The scan of src/encoding.c:503-549 `base32_test0`: number of leading valid characters. -/
def base32_test_scan (table : Vector Byte 256) : List Byte → Nat
  | [] => 0
  | c :: src => if look table c = 255 then 0 else base32_test_scan table src + 1

/-- `table[torsion_ascii(src[i - 1])] & m` is zero (src/encoding.c:503-549 `base32_test0`). -/
def base32_test_last (table : Vector Byte 256) (src : List Byte) (i : Nat) (m : Byte) : C Bool := do
  let c ← C.rd src (i - 1)
  .ok (look table c &&& m == 0)

/-- src/encoding.c:503-549 `base32_test0`. -/
def base32_test0 (src : List Byte) (table : Vector Byte 256) (unpad : Bool) : C Bool := do
  let i := base32_test_scan table src
  let mode := i % 8
  let good ← match mode with
    | 1 => .ok false
    | 2 => base32_test_last table src i 3
    | 3 => .ok false
    | 4 => base32_test_last table src i 15
    | 5 => base32_test_last table src i 1
    | 6 => .ok false
    | 7 => base32_test_last table src i 7
    | _ => .ok true
  if !good then .ok false
  else if src.length ≠ i + ((8 - mode) % 8) * unpad.toNat then .ok false
  else .ok (!(src.drop i).any (fun c => c != ch '='))

/-- src/encoding.c:560-564 `base32_encode`. -/
def base32_encode (src : List Byte) (pad : Bool) : C (List Byte) :=
  base32_encode0 src base32_charset pad
/-- src/encoding.c:571-575 `base32_decode`. -/
def base32_decode (src : List Byte) (unpad : Bool) : DecOut :=
  base32_decode0 src base32_table unpad
/-- src/encoding.c:577-580 `base32_test`. -/
def base32_test (src : List Byte) (unpad : Bool) : C Bool := base32_test0 src base32_table unpad
/-- src/encoding.c:591-595 `base32hex_encode`. -/
def base32hex_encode (src : List Byte) (pad : Bool) : C (List Byte) :=
  base32_encode0 src base32hex_charset pad
/-- src/encoding.c:602-606 `base32hex_decode`. -/
def base32hex_decode (src : List Byte) (unpad : Bool) : DecOut :=
  base32_decode0 src base32hex_table unpad
/-- src/encoding.c:608-611 `base32hex_test`. -/
def base32hex_test (src : List Byte) (unpad : Bool) : C Bool :=
  base32_test0 src base32hex_table unpad

end Torsion
