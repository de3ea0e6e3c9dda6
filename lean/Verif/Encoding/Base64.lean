import Verif.Encoding.Base16

/-!
# Model of the base64 engine (src/encoding.c)
-/
namespace Torsion

/-- src/encoding.c:889-907 `base64_encode_size0`. -/
def base64_encode_size0 (len : Nat) (pad : Bool) : Nat :=
  let size := (len / 3) * 4
  match len % 3 with
  | 1 => size + 2 + (if pad then 2 else 0)
  | 2 => size + 3 + (if pad then 1 else 0)
  | _ => size

/-- src/encoding.c:909-964 `base64_encode0`; `src` is consumed from the front, so the
`while (left >= 3)` loop and the final `switch` are one recursion on the remaining bytes. -/
def base64_encode0 (charset : List Byte) (pad : Bool) : List Byte → C (List Byte)
  | c1 :: c2 :: c3 :: src => do
    let a ← C.rd charset (c1 >>> 2).toNat
    let b ← C.rd charset (((c1 &&& 3) <<< 4) ||| (c2 >>> 4)).toNat
    let c ← C.rd charset (((c2 &&& 15) <<< 2) ||| (c3 >>> 6)).toNat
    let d ← C.rd charset (c3 &&& 63).toNat
    let r ← base64_encode0 charset pad src
    .ok (a :: b :: c :: d :: r)
  | [c1] => do
    let a ← C.rd charset (c1 >>> 2).toNat
    let b ← C.rd charset ((c1 &&& 3) <<< 4).toNat
    .ok (a :: b :: (if pad then [ch '=', ch '='] else []))
  | [c1, c2] => do
    let a ← C.rd charset (c1 >>> 2).toNat
    let b ← C.rd charset (((c1 &&& 3) <<< 4) ||| (c2 >>> 4)).toNat
    let c ← C.rd charset ((c2 &&& 15) <<< 2).toNat
    .ok (a :: b :: c :: (if pad then [ch '='] else []))
  | [] => .ok []

/-- One `if (len > 0 && str[len - 1] == '=') len -= 1;`
(twice in each of src/encoding.c:966-983 `base64_decode_size0`, src/encoding.c:985-1060 `base64_decode0`,
src/encoding.c:1062-1090 `base64_test0`). -/
def base64_strip1 (str : List Byte) (len : Nat) : C Nat :=
  if len > 0 then do
    let c ← C.rd str (len - 1)
    .ok (if c = ch '=' then len - 1 else len)
  else .ok len

/-- src/encoding.c:966-983 `base64_decode_size0`. -/
def base64_decode_size (str : List Byte) : C Nat := do
  let len ← base64_strip1 str str.length
  let len ← base64_strip1 str len
  let size := (len / 4) * 3
  let rem := len % 4
  .ok (if rem ≠ 0 then size + (rem - 1) else size)

/-- src/encoding.c:985-1060 `base64_decode0`: the loop on full quartets and the final `switch`, on the
characters `src[0 .. left)`. -/
def base64_decode_loop (table : Vector Byte 256) : List Byte → DecOut
  | c1 :: c2 :: c3 :: c4 :: src =>
    let t1 := look table c1
    let t2 := look table c2
    let t3 := look table c3
    let t4 := look table c4
    if (t1 ||| t2 ||| t3 ||| t4) &&& 0x80 ≠ 0 then ⟨[], false⟩
    else
      let r := base64_decode_loop table src
      ⟨((t1 <<< 2) ||| (t2 >>> 4)) :: ((t2 <<< 4) ||| (t3 >>> 2)) :: ((t3 <<< 6) ||| (t4 >>> 0))
        :: r.dst, r.ret⟩
  | [_] => ⟨[], false⟩
  | [c1, c2] =>
    let t1 := look table c1
    let t2 := look table c2
    if (t1 ||| t2) &&& 0x80 ≠ 0 then ⟨[], false⟩
    else if t2 &&& 15 ≠ 0 then ⟨[(t1 <<< 2) ||| (t2 >>> 4)], false⟩
    else ⟨[(t1 <<< 2) ||| (t2 >>> 4)], true⟩
  | [c1, c2, c3] =>
    let t1 := look table c1
    let t2 := look table c2
    let t3 := look table c3
    if (t1 ||| t2 ||| t3) &&& 0x80 ≠ 0 then ⟨[], false⟩
    else if t3 &&& 3 ≠ 0 then
      ⟨[(t1 <<< 2) ||| (t2 >>> 4), (t2 <<< 4) ||| (t3 >>> 2)], false⟩
    else ⟨[(t1 <<< 2) ||| (t2 >>> 4), (t2 <<< 4) ||| (t3 >>> 2)], true⟩
  | [] => ⟨[], true⟩

/-- src/encoding.c:985-1060 `base64_decode0`. -/
def base64_decode0 (src : List Byte) (table : Vector Byte 256) : C DecOut := do
  let left ← base64_strip1 src src.length
  let left ← base64_strip1 src left
  if left % 4 = 1 then .ok ⟨[], false⟩
  else .ok (base64_decode_loop table (src.take left))

/-- src/encoding.c:1062-1090 `base64_test0`. -/
def base64_test0 (str : List Byte) (table : Vector Byte 256) : C Bool := do
  let len ← base64_strip1 str str.length
  let len ← base64_strip1 str len
  if len % 4 = 1 then .ok false
  else if (str.take len).any (fun c => look table c == 255) then .ok false
  else match len % 4 with
    | 1 => .ok false
    | 2 => do
      let c ← C.rd str (len - 1)
      .ok (look table c &&& 15 == 0)
    | 3 => do
      let c ← C.rd str (len - 1)
      .ok (look table c &&& 3 == 0)
    | _ => .ok true

/-- src/encoding.c:1092-1122 `base64_check_padding`. -/
def base64_check_padding (str : List Byte) (size : Nat) : C Bool :=
  let len := str.length
  match size % 3 with
  | 0 =>
    if len = 0 then .ok true
    else if len = 1 then do
      let a ← C.rd str 0
      .ok (a != ch '=')
    else do
      let a ← C.rd str (len - 2)
      if a != ch '=' then do
        let b ← C.rd str (len - 1)
        .ok (b != ch '=')
      else .ok false
  | 1 =>
    if len ≥ 4 then do
      let a ← C.rd str (len - 2)
      if a == ch '=' then do
        let b ← C.rd str (len - 1)
        .ok (b == ch '=')
      else .ok false
    else .ok false
  | _ =>
    if len ≥ 4 then do
      let a ← C.rd str (len - 2)
      if a != ch '=' then do
        let b ← C.rd str (len - 1)
        .ok (b == ch '=')
      else .ok false
    else .ok false

/-- src/encoding.c:1128-1131 `base64_encode_size`. -/
def base64_encode_size (len : Nat) : Nat := base64_encode_size0 len true
/-- src/encoding.c:1133-1137 `base64_encode`. -/
def base64_encode (src : List Byte) : C (List Byte) := base64_encode0 base64_charset true src
/-- src/encoding.c:1144-1153 `base64_decode`. -/
def base64_decode (src : List Byte) : C DecOut := do
  let size ← base64_decode_size src
  let good ← base64_check_padding src size
  if !good then .ok ⟨[], false⟩ else base64_decode0 src base64_table
/-- src/encoding.c:1155-1163 `base64_test`. -/
def base64_test (src : List Byte) : C Bool := do
  let size ← base64_decode_size src
  let good ← base64_check_padding src size
  if !good then .ok false else base64_test0 src base64_table
/-- src/encoding.c:1169-1172 `base64url_encode_size`. -/
def base64url_encode_size (len : Nat) : Nat := base64_encode_size0 len false
/-- src/encoding.c:1174-1178 `base64url_encode`. -/
def base64url_encode (src : List Byte) : C (List Byte) :=
  base64_encode0 base64url_charset false src
/-- src/encoding.c:1185-1192 `base64url_decode`. -/
def base64url_decode (src : List Byte) : C DecOut := do
  let good ← base64_check_padding src 0
  if !good then .ok ⟨[], false⟩ else base64_decode0 src base64url_table
/-- src/encoding.c:1194-1200 `base64url_test`. -/
def base64url_test (src : List Byte) : C Bool := do
  let good ← base64_check_padding src 0
  if !good then .ok false else base64_test0 src base64url_table

end Torsion
