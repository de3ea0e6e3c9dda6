import Verif.Encoding.Base16

/-!
# Model of bech32 and cash32 (src/encoding.c)

A `const char *` argument is the list of bytes from the pointer to the end of the memory object
it points into; running off that list is `ub`. Output buffers are append-only; the result records
everything stored in them, also when the call returns 0.
-/
namespace Torsion

/-- Look-up in one of the 128-entry tables of src/encoding.c:1213-1230 `bech32_table`,
src/encoding.c:1526-1543 `cash32_table`; an index above 127 is out of range. -/
def look128 (t : Vector Byte 128) (c : Byte) : C Byte :=
  if h : c.toNat < 128 then .ok t[c.toNat] else .ub

/-- src/encoding.c:1232-1242 `bech32_polymod`. -/
def bech32_polymod (c : BitVec 32) : BitVec 32 :=
  let b := c >>> 25
  ((c &&& 0x1ffffff#32) <<< 5)
    ^^^ (0x3b6a57b2#32 &&& -((b >>> 0) &&& 1#32))
    ^^^ (0x26508e6d#32 &&& -((b >>> 1) &&& 1#32))
    ^^^ (0x1ea119fa#32 &&& -((b >>> 2) &&& 1#32))
    ^^^ (0x3d4233dd#32 &&& -((b >>> 3) &&& 1#32))
    ^^^ (0x2a1462b3#32 &&& -((b >>> 4) &&& 1#32))

/-- Result of src/encoding.c:1244-1309 `bech32_serialize`, src/encoding.c:1557-1616 `cash32_serialize` and the
encoders: the characters stored in `str` and the return value. -/
structure SerOut where
  str : List Byte
  ret : Bool
deriving Repr, DecidableEq

/-- First loop of src/encoding.c:1244-1309 `bech32_serialize`: `none` is `return 0`; otherwise `hlen`, the
memory from `hrp + hlen` on, and `chk`. First argument: iterations left. -/
def bech32_hrp_scan : Nat → List Byte → Nat → BitVec 32 →
    C (Option (Nat × List Byte × BitVec 32))
  | 0, m, hlen, chk => .ok (some (hlen, m, chk))
  | _ + 1, [], _, _ => .ub
  | n + 1, c :: m, hlen, chk =>
    if c = 0 then .ok (some (hlen, c :: m, chk))
    else if c.toNat < 33 ∨ c.toNat > 126 then .ok none
    else if c.toNat ≥ 65 ∧ c.toNat ≤ 90 then .ok none
    else bech32_hrp_scan n m (hlen + 1) (bech32_polymod chk ^^^ (c >>> 5).zeroExtend 32)

/-- Data loop of src/encoding.c:1244-1309 `bech32_serialize`: characters stored, and `chk` unless the
function returned 0. -/
def bech32_data_loop : BitVec 32 → List Byte → C (List Byte × Option (BitVec 32))
  | chk, [] => .ok ([], some chk)
  | chk, d :: ds =>
    if d >>> 5 ≠ 0 then .ok ([], none)
    else do
      let a ← C.rd bech32_charset d.toNat
      let (r, c) ← bech32_data_loop (bech32_polymod chk ^^^ d.zeroExtend 32) ds
      .ok (a :: r, c)

/-- `bech32_charset[(chk >> sh) & 0x1f]` (src/encoding.c:1244-1309 `bech32_serialize`). -/
def bech32_chk_char (chk : BitVec 32) (sh : Nat) : C Byte :=
  C.rd bech32_charset ((chk >>> sh) &&& 0x1f#32).toNat

/-- src/encoding.c:1244-1309 `bech32_serialize`. The bytes `hrp[0..hlen)` read again by the second loop
are those the first loop has already read. -/
def bech32_serialize (hrp data : List Byte) (checksum : BitVec 32) : C SerOut := do
  match ← bech32_hrp_scan 83 hrp 0 1 with
  | none => .ok ⟨[], false⟩
  | some (hlen, rest, chk) =>
    if hlen = 0 then .ok ⟨[], false⟩
    else do
      let t ← C.rd rest 0
      if t ≠ 0 then .ok ⟨[], false⟩
      else if hlen + 1 + data.length + 6 > 90 then .ok ⟨[], false⟩
      else do
        let chk := bech32_polymod chk
        let chk := (hrp.take hlen).foldl
          (fun chk c => bech32_polymod chk ^^^ (c &&& 0x1f).zeroExtend 32) chk
        let out := hrp.take hlen ++ [ch '1']
        let (dstr, chk) ← bech32_data_loop chk data
        match chk with
        | none => .ok ⟨out ++ dstr, false⟩
        | some chk => do
          let chk := bech32_polymod (bech32_polymod (bech32_polymod (bech32_polymod
            (bech32_polymod (bech32_polymod chk)))))
          let chk := chk ^^^ checksum
          let a0 ← bech32_chk_char chk 25
          let a1 ← bech32_chk_char chk 20
          let a2 ← bech32_chk_char chk 15
          let a3 ← bech32_chk_char chk 10
          let a4 ← bech32_chk_char chk 5
          let a5 ← bech32_chk_char chk 0
          .ok ⟨out ++ dstr ++ [a0, a1, a2, a3, a4, a5] ++ [0], true⟩

/-- State of the first loop of src/encoding.c:1311-1389 `bech32_deserialize`. -/
structure Bech32Scan where
  slen : Nat
  lower : Bool
  upper : Bool
  hlen : Nat

/-- First loop of src/encoding.c:1311-1389 `bech32_deserialize`: `none` is `return 0`; otherwise the loop
state and the memory from `str + slen` on. First argument: iterations left. -/
def bech32_str_scan : Nat → List Byte → Bech32Scan → C (Option (Bech32Scan × List Byte))
  | 0, m, st => .ok (some (st, m))
  | _ + 1, [], _ => .ub
  | n + 1, c :: m, st =>
    if c = 0 then .ok (some (st, c :: m))
    else if c.toNat < 33 ∨ c.toNat > 126 then .ok none
    else
      let st :=
        if c.toNat ≥ 97 ∧ c.toNat ≤ 122 then { st with lower := true }
        else if c.toNat ≥ 65 ∧ c.toNat ≤ 90 then { st with upper := true }
        else if c.toNat = 49 then { st with hlen := st.slen }
        else st
      bech32_str_scan n m { st with slen := st.slen + 1 }

/-- `if (ch >= 65 && ch <= 90) ch += 32` (src/encoding.c:1311-1389 `bech32_deserialize`). -/
def bech32_lower (c : Byte) : Byte := if c.toNat ≥ 65 ∧ c.toNat ≤ 90 then c + 32 else c

/-- Last loop of src/encoding.c:1311-1389 `bech32_deserialize` over `str[i..slen)`: bytes stored in `data`
and `chk` unless the function returned 0. -/
def bech32_value_loop (slen : Nat) : Nat → BitVec 32 → List Byte →
    C (List Byte × Option (BitVec 32))
  | _, chk, [] => .ok ([], some chk)
  | i, chk, c :: s => do
    let val ← look128 bech32_table c
    if val &&& 0x80 ≠ 0 then .ok ([], none)
    else do
      let (r, k) ← bech32_value_loop slen (i + 1) (bech32_polymod chk ^^^ val.zeroExtend 32) s
      .ok (if i < slen - 6 then val :: r else r, k)

/-- Result of src/encoding.c:1311-1389 `bech32_deserialize`, src/encoding.c:1618-1732 `cash32_deserialize`:
everything stored in the prefix buffer (with its NUL) and in `data`, and the return value. -/
structure DesOut where
  hrp : List Byte
  data : List Byte
  ret : Bool
deriving Repr, DecidableEq

/-- src/encoding.c:1311-1389 `bech32_deserialize`. -/
def bech32_deserialize (str : List Byte) (checksum : BitVec 32) : C DesOut := do
  match ← bech32_str_scan 90 str ⟨0, false, false, 0⟩ with
  | none => .ok ⟨[], [], false⟩
  | some (st, rest) =>
    if st.slen < 8 then .ok ⟨[], [], false⟩
    else do
      let t ← C.rd rest 0
      if t ≠ 0 then .ok ⟨[], [], false⟩
      else if st.hlen = 0 then .ok ⟨[], [], false⟩
      else if st.slen - (st.hlen + 1) < 6 then .ok ⟨[], [], false⟩
      else if st.lower && st.upper then .ok ⟨[], [], false⟩
      else do
        let pre := str.take st.hlen
        let chk := pre.foldl
          (fun chk c => bech32_polymod chk ^^^ (bech32_lower c >>> 5).zeroExtend 32) 1
        let hrp := pre.map bech32_lower ++ [0]
        let chk := bech32_polymod chk
        let chk := pre.foldl (fun chk c => bech32_polymod chk ^^^ (c &&& 0x1f).zeroExtend 32) chk
        let (data, chk) ← bech32_value_loop st.slen (st.hlen + 1) chk
          ((str.take st.slen).drop (st.hlen + 1))
        match chk with
        | none => .ok ⟨hrp, data, false⟩
        | some chk => if chk ≠ checksum then .ok ⟨hrp, data, false⟩ else .ok ⟨hrp, data, true⟩

/-- src/encoding.c:1391-1398 `bech32_is`. -/
def bech32_is (str : List Byte) (checksum : BitVec 32) : C Bool := do
  let r ← bech32_deserialize str checksum
  .ok r.ret

/-- Inner `while (bits >= dstbits)` of src/encoding.c:1400-1438 `bech32_convert_bits` and
src/encoding.c:1743-1782 `cash32_convert_bits`: bytes stored and the final `bits`. First argument: bound
on the number of iterations (`bits`, enough when `dstbits > 0`). -/
def convert_emit (dstbits acc : Nat) : Nat → Nat → List Byte × Nat
  | 0, bits => ([], bits)
  | n + 1, bits =>
    if bits ≥ dstbits then
      let bits := bits - dstbits
      let (r, b) := convert_emit dstbits acc n bits
      (BitVec.ofNat 8 ((acc >>> bits) &&& (2 ^ dstbits - 1)) :: r, b)
    else ([], bits)

/-- Outer loop of src/encoding.c:1400-1438 `bech32_convert_bits` and src/encoding.c:1743-1782
`cash32_convert_bits`: bytes stored, `acc`, `bits`. `w` is the width of `acc`: 32 (`uint32_t`)
in the first, `srcbits + dstbits - 1` (`& maxacc`) in the second. -/
def convert_loop (w srcbits dstbits : Nat) : Nat → Nat → List Byte → List Byte × Nat × Nat
  | acc, bits, [] => ([], acc, bits)
  | acc, bits, x :: src =>
    let acc := ((acc <<< srcbits) ||| x.toNat) % 2 ^ w
    let bits := bits + srcbits
    let (o, bits) := convert_emit dstbits acc bits bits
    let (r, acc, bits) := convert_loop w srcbits dstbits acc bits src
    (o ++ r, acc, bits)

/-- src/encoding.c:1400-1438 `bech32_convert_bits` (`w = 32`) and src/encoding.c:1743-1782 `cash32_convert_bits`
(`w = srcbits + dstbits - 1`). Both are only called with `dstbits`, `srcbits` in `{5, 8}`; the
shift counts are in range when `1 ≤ srcbits, dstbits ≤ 31`. -/
def convert_bits (w dstbits : Nat) (src : List Byte) (srcbits : Nat) (pad : Bool) : DecOut :=
  let (dst, acc, bits) := convert_loop w srcbits dstbits 0 0 src
  let left := dstbits - bits
  let last := (acc <<< left) &&& (2 ^ dstbits - 1)
  if pad then
    if bits ≠ 0 then ⟨dst ++ [BitVec.ofNat 8 last], true⟩ else ⟨dst, true⟩
  else if last ≠ 0 ∨ bits ≥ srcbits then ⟨dst, false⟩
  else ⟨dst, true⟩

/-- src/encoding.c:1440-1468 `bech32_encode`. `data[65]` is checked: storing more is `ub`. -/
def bech32_encode (hrp : List Byte) (version : Nat) (hash : List Byte) (checksum : BitVec 32) :
    C SerOut :=
  if version > 31 then .ok ⟨[], false⟩
  else if hash.length < 2 ∨ hash.length > 40 then .ok ⟨[], false⟩
  else
    let conv := convert_bits 32 5 hash 8 true
    if conv.dst.length > 64 then .ub
    else if !conv.ret then .ok ⟨[], false⟩
    else bech32_serialize hrp (BitVec.ofNat 8 version :: conv.dst) checksum

/-- Result of src/encoding.c:1470-1502 `bech32_decode`: stores into `hrp` and `hash`, `*version`, return
value. -/
structure BechAddr where
  hrp : List Byte
  version : Nat
  hash : List Byte
  ret : Bool
deriving Repr, DecidableEq

/-- src/encoding.c:1470-1502 `bech32_decode`. The local `data[83]` is checked. `version` is reported as 0
when it is not written. -/
def bech32_decode (addr : List Byte) (checksum : BitVec 32) : C BechAddr := do
  let d ← bech32_deserialize addr checksum
  if d.data.length > 83 then .ub
  else if !d.ret then .ok ⟨d.hrp, 0, [], false⟩
  else if d.data.length = 0 ∨ d.data.length > 65 then .ok ⟨d.hrp, 0, [], false⟩
  else do
    let v ← C.rd d.data 0
    if v.toNat > 31 then .ok ⟨d.hrp, 0, [], false⟩
    else
      let conv := convert_bits 32 8 (d.data.drop 1) 5 false
      if !conv.ret then .ok ⟨d.hrp, 0, conv.dst, false⟩
      else if conv.dst.length < 2 ∨ conv.dst.length > 40 then .ok ⟨d.hrp, 0, conv.dst, false⟩
      else .ok ⟨d.hrp, v.toNat, conv.dst, true⟩

/-- src/encoding.c:1504-1512 `bech32_test`; its local buffers `hrp[84]`, `hash[40]` are checked. -/
def bech32_test (addr : List Byte) (checksum : BitVec 32) : C Bool := do
  let r ← bech32_decode addr checksum
  if r.hrp.length > 84 ∨ r.hash.length > 40 then .ub else .ok r.ret

/-! ## cash32 -/

/-- src/encoding.c:1545-1555 `cash32_polymod`. -/
def cash32_polymod (c : BitVec 64) : BitVec 64 :=
  let b := c >>> 35
  ((c &&& 0x07ffffffff#64) <<< 5)
    ^^^ (0x98f2bc8e61#64 &&& -((b >>> 0) &&& 1#64))
    ^^^ (0x79b76d99e2#64 &&& -((b >>> 1) &&& 1#64))
    ^^^ (0xf33e5fb3c4#64 &&& -((b >>> 2) &&& 1#64))
    ^^^ (0xae2eabe2a8#64 &&& -((b >>> 3) &&& 1#64))
    ^^^ (0x1e4f43e470#64 &&& -((b >>> 4) &&& 1#64))

/-- First loop of src/encoding.c:1557-1616 `cash32_serialize`: `none` is `return 0`; otherwise `plen` and
the memory from `prefix + plen` on. -/
def cash32_prefix_scan : Nat → List Byte → Nat → C (Option (Nat × List Byte))
  | 0, m, plen => .ok (some (plen, m))
  | _ + 1, [], _ => .ub
  | n + 1, c :: m, plen =>
    if c = 0 then .ok (some (plen, c :: m))
    else if c.toNat < 97 ∨ c.toNat > 122 then .ok none
    else cash32_prefix_scan n m (plen + 1)

/-- Data loop of src/encoding.c:1557-1616 `cash32_serialize`. -/
def cash32_data_loop : BitVec 64 → List Byte → C (List Byte × Option (BitVec 64))
  | chk, [] => .ok ([], some chk)
  | chk, d :: ds =>
    if d >>> 5 ≠ 0 then .ok ([], none)
    else do
      let a ← C.rd cash32_charset d.toNat
      let (r, c) ← cash32_data_loop (cash32_polymod chk ^^^ d.zeroExtend 64) ds
      .ok (a :: r, c)

/-- `cash32_charset[(chk >> sh) & 0x1f]` (src/encoding.c:1557-1616 `cash32_serialize`). -/
def cash32_chk_char (chk : BitVec 64) (sh : Nat) : C Byte :=
  C.rd cash32_charset ((chk >>> sh) &&& 0x1f#64).toNat

/-- src/encoding.c:1557-1616 `cash32_serialize`. -/
def cash32_serialize (pfx data : List Byte) : C SerOut :=
  if data.length > 104 then .ok ⟨[], false⟩
  else do
  match ← cash32_prefix_scan 83 pfx 0 with
  | none => .ok ⟨[], false⟩
  | some (plen, rest) =>
    if plen = 0 then .ok ⟨[], false⟩
    else do
      let t ← C.rd rest 0
      if t ≠ 0 then .ok ⟨[], false⟩
      else do
        let chk := (pfx.take plen).foldl
          (fun chk c => cash32_polymod chk ^^^ (c &&& 0x1f).zeroExtend 64) 1
        let chk := cash32_polymod chk
        let out := pfx.take plen ++ [ch ':']
        let (dstr, chk) ← cash32_data_loop chk data
        match chk with
        | none => .ok ⟨out ++ dstr, false⟩
        | some chk => do
          let chk := cash32_polymod (cash32_polymod (cash32_polymod (cash32_polymod
            (cash32_polymod (cash32_polymod (cash32_polymod (cash32_polymod chk)))))))
          let chk := chk ^^^ 1
          let a0 ← cash32_chk_char chk 35
          let a1 ← cash32_chk_char chk 30
          let a2 ← cash32_chk_char chk 25
          let a3 ← cash32_chk_char chk 20
          let a4 ← cash32_chk_char chk 15
          let a5 ← cash32_chk_char chk 10
          let a6 ← cash32_chk_char chk 5
          let a7 ← cash32_chk_char chk 0
          .ok ⟨out ++ dstr ++ [a0, a1, a2, a3, a4, a5, a6, a7] ++ [0], true⟩

/-- State of the first loop of src/encoding.c:1618-1732 `cash32_deserialize`. -/
structure Cash32Scan where
  slen : Nat
  lower : Bool
  upper : Bool
  number : Bool
  plen : Nat

/-- First loop of src/encoding.c:1618-1732 `cash32_deserialize`. -/
def cash32_str_scan : Nat → List Byte → Cash32Scan → C (Option (Cash32Scan × List Byte))
  | 0, m, st => .ok (some (st, m))
  | _ + 1, [], _ => .ub
  | n + 1, c :: m, st =>
    if c = 0 then .ok (some (st, c :: m))
    else if c.toNat ≥ 97 ∧ c.toNat ≤ 122 then
      cash32_str_scan n m { st with lower := true, slen := st.slen + 1 }
    else if c.toNat ≥ 65 ∧ c.toNat ≤ 90 then
      cash32_str_scan n m { st with upper := true, slen := st.slen + 1 }
    else if c.toNat ≥ 48 ∧ c.toNat ≤ 57 then
      cash32_str_scan n m { st with number := true, slen := st.slen + 1 }
    else if c.toNat = 58 then
      if st.number ∨ st.slen = 0 ∨ st.plen ≠ 0 then .ok none
      else cash32_str_scan n m { st with plen := st.slen, slen := st.slen + 1 }
    else .ok none

/-- The `fallback` loop of src/encoding.c:1618-1732 `cash32_deserialize`: characters stored in `prefix`
(without NUL) and `none` if the function returned 0, else `chk` and the memory from
`fallback + i` on. -/
def cash32_fallback_loop : Nat → List Byte → BitVec 64 →
    C (List Byte × Option (BitVec 64 × List Byte))
  | 0, m, chk => .ok ([], some (chk, m))
  | _ + 1, [], _ => .ub
  | n + 1, c :: m, chk =>
    if c = 0 then .ok ([], some (chk, c :: m))
    else if c.toNat < 97 ∨ c.toNat > 122 then .ok ([], none)
    else do
      let (r, k) ← cash32_fallback_loop n m (cash32_polymod chk ^^^ (c &&& 0x1f).zeroExtend 64)
      .ok (c :: r, k)

/-- Last loop of src/encoding.c:1618-1732 `cash32_deserialize` over `str[i..slen)`. -/
def cash32_value_loop (slen : Nat) : Nat → BitVec 64 → List Byte →
    C (List Byte × Option (BitVec 64))
  | _, chk, [] => .ok ([], some chk)
  | i, chk, c :: s => do
    let val ← look128 cash32_table c
    if val &&& 0x80 ≠ 0 then .ok ([], none)
    else do
      let (r, k) ← cash32_value_loop slen (i + 1) (cash32_polymod chk ^^^ val.zeroExtend 64) s
      .ok (if i < slen - 8 then val :: r else r, k)

/-- The part of src/encoding.c:1618-1732 `cash32_deserialize` from the `dlen` check on. -/
def cash32_finish (str pfx : List Byte) (slen dlen : Nat) (chk : BitVec 64) : C DesOut :=
  if dlen < 8 ∨ dlen > 112 then .ok ⟨pfx, [], false⟩
  else do
    let chk := cash32_polymod chk
    let (data, chk) ← cash32_value_loop slen (slen - dlen) chk
      ((str.take slen).drop (slen - dlen))
    match chk with
    | none => .ok ⟨pfx, data, false⟩
    | some chk => if chk ≠ 1 then .ok ⟨pfx, data, false⟩ else .ok ⟨pfx, data, true⟩

/-- src/encoding.c:1618-1732 `cash32_deserialize`. -/
def cash32_deserialize (str fallback : List Byte) : C DesOut := do
  match ← cash32_str_scan 196 str ⟨0, false, false, false, 0⟩ with
  | none => .ok ⟨[], [], false⟩
  | some (st, rest) =>
    if st.slen < 8 then .ok ⟨[], [], false⟩
    else do
      let t ← C.rd rest 0
      if t ≠ 0 then .ok ⟨[], [], false⟩
      else if st.lower && st.upper then .ok ⟨[], [], false⟩
      else if st.plen = 0 then do
        let (p, k) ← cash32_fallback_loop 83 fallback 1
        match k with
        | none => .ok ⟨p, [], false⟩
        | some (chk, m) =>
          if p.length = 0 then .ok ⟨p ++ [0], [], false⟩
          else do
            let t ← C.rd m 0
            if t ≠ 0 then .ok ⟨p ++ [0], [], false⟩
            else cash32_finish str (p ++ [0]) st.slen st.slen chk
      else if st.plen > 83 then .ok ⟨[], [], false⟩
      else
        let pre := (str.take st.plen).map (· ||| 32)
        let chk := pre.foldl (fun chk c => cash32_polymod chk ^^^ (c &&& 0x1f).zeroExtend 64) 1
        cash32_finish str (pre ++ [0]) st.slen (st.slen - (st.plen + 1)) chk

/-- src/encoding.c:1734-1741 `cash32_is`. -/
def cash32_is (str fallback : List Byte) : C Bool := do
  let r ← cash32_deserialize str fallback
  .ok r.ret

/-- The `switch` on the hash size of src/encoding.c:1784-1834 `cash32_encode`. -/
def cash32_size_code (hash_len : Nat) : Option Nat :=
  match hash_len * 8 with
  | 160 => some 0
  | 192 => some 1
  | 224 => some 2
  | 256 => some 3
  | 320 => some 4
  | 384 => some 5
  | 448 => some 6
  | 512 => some 7
  | _ => none

/-- src/encoding.c:1784-1834 `cash32_encode`. The locals `data[65]` and `conv[104]` are checked. -/
def cash32_encode (pfx : List Byte) (type : Nat) (hash : List Byte) : C SerOut :=
  if type > 15 then .ok ⟨[], false⟩
  else match cash32_size_code hash.length with
  | none => .ok ⟨[], false⟩
  | some size =>
    let data := BitVec.ofNat 8 ((type <<< 3) ||| size) :: hash
    if data.length > 65 then .ub
    else
      let conv := convert_bits (8 + 5 - 1) 5 data 8 true
      if conv.dst.length > 104 then .ub
      else if !conv.ret then .ok ⟨[], false⟩
      else cash32_serialize pfx conv.dst

/-- Result of src/encoding.c:1836-1879 `cash32_decode`. -/
structure CashAddr where
  type : Nat
  hash : List Byte
  ret : Bool
deriving Repr, DecidableEq

/-- `strcmp(a, b) == 0` of C (used by src/encoding.c:1836-1879 `cash32_decode`). -/
def c_streq : List Byte → List Byte → C Bool
  | a :: as, b :: bs =>
    if a ≠ b then .ok false else if a = 0 then .ok true else c_streq as bs
  | _, _ => .ub

/-- src/encoding.c:1836-1879 `cash32_decode`. The locals `conv[188]` and `data[65]` are checked; `type` is
reported as 0 when it is not written. -/
def cash32_decode (addr expect : List Byte) : C CashAddr := do
  let d ← cash32_deserialize addr expect
  if d.hrp.length > 84 ∨ d.data.length > 188 then .ub
  else if !d.ret then .ok ⟨0, [], false⟩
  else do
    let eq ← c_streq d.hrp expect
    if !eq then .ok ⟨0, [], false⟩
    else if d.data.length = 0 ∨ d.data.length > 104 then .ok ⟨0, [], false⟩
    else
      let conv := convert_bits (5 + 8 - 1) 8 d.data 5 false
      if conv.dst.length > 65 then .ub
      else if !conv.ret then .ok ⟨0, [], false⟩
      else if conv.dst.length = 0 ∨ conv.dst.length > 65 then .ok ⟨0, [], false⟩
      else do
        let b ← C.rd conv.dst 0
        let type := ((b >>> 3) &&& 31).toNat
        let hash := conv.dst.drop 1
        let size := 20 + 4 * (b &&& 3).toNat
        let size := if b &&& 4 ≠ 0 then size * 2 else size
        if type > 15 then .ok ⟨type, hash, false⟩
        else if size ≠ hash.length then .ok ⟨type, hash, false⟩
        else .ok ⟨type, hash, true⟩

/-- src/encoding.c:1881-1888 `cash32_test`; its local `hash[64]` is checked. -/
def cash32_test (addr expect : List Byte) : C Bool := do
  let r ← cash32_decode addr expect
  if r.hash.length > 64 then .ub else .ok r.ret

end Torsion
