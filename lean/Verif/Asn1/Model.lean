import Verif.Basic

/-!
# Model of src/asn1.c

A reader's `(const unsigned char **data, size_t *len)` pair is the state `Asn1St`: the allocated
memory from `*data` on, and `*len`. Every dereference is a checked read and every advance a
checked advance, so leaving the buffer is `ub`. A writer's `(data, pos)` output is append-only;
its model returns the bytes stored from `data + pos` on (the returned `pos` is the old one plus
their number).

An `mpz_t` is modelled here by its (non-negative) value; `mpz_import`, `mpz_export`, `mpz_bitlen`,
`mpz_bytelen` and `mpz_tstbit` are modelled by their mathematical meaning.
-/
namespace Torsion

/-- The `(*data, *len)` pair of the readers of src/asn1.c:1. -/
structure Asn1St where
  data : List Byte
  len : Nat
deriving Repr, DecidableEq

/-- `*data += n; *len -= n;` as used throughout src/asn1.c:1. Moving past the end of the buffer (or
below a zero `*len`) is `ub`. -/
def Asn1St.adv (n : Nat) (s : Asn1St) : C Asn1St :=
  if n ≤ s.data.length ∧ n ≤ s.len then .ok ⟨s.data.drop n, s.len - n⟩ else .ub

/-- Result of src/asn1.c:18-74 `asn1_read_size`. -/
structure Asn1Size where
  size : Nat
  st : Asn1St
  ret : Bool
deriving Repr, DecidableEq

/-- The long-form loop of src/asn1.c:18-74 `asn1_read_size`; first argument = rounds left. `size_t` is
taken at its smallest allowed width, 32 bits: the shift drops bits above. -/
def asn1_size_loop (strict : Bool) : Nat → Nat → Asn1St → C (Option Nat × Asn1St)
  | 0, size, s => .ok (some size, s)
  | k + 1, size, s =>
    if s.len = 0 then .ok (none, s)
    else do
      let c ← C.rd s.data 0
      let s ← s.adv 1
      if size ≥ 1 <<< 24 then .ok (none, s)
      else
        let size := ((size <<< 8) % 2 ^ 32) ||| c.toNat
        if strict ∧ size = 0 then .ok (none, s)
        else asn1_size_loop strict k size s

/-- src/asn1.c:18-74 `asn1_read_size`. -/
def asn1_read_size (s : Asn1St) (strict : Bool) : C Asn1Size :=
  if s.len = 0 then .ok ⟨0, s, false⟩
  else do
    let c ← C.rd s.data 0
    let s ← s.adv 1
    if c &&& 0x80 = 0 then .ok ⟨c.toNat, s, true⟩
    else
      let bytes := (c &&& 0x7f).toNat
      if strict ∧ bytes = 0 then .ok ⟨0, s, false⟩
      else do
        let (size, s) ← asn1_size_loop strict bytes 0 s
        match size with
        | none => .ok ⟨0, s, false⟩
        | some size =>
          if strict ∧ size < 0x80 then .ok ⟨0, s, false⟩ else .ok ⟨size, s, true⟩

/-- src/asn1.c:76-93 `asn1_read_seq`. -/
def asn1_read_seq (s : Asn1St) (strict : Bool) : C (Asn1St × Bool) :=
  if s.len = 0 then .ok (s, false)
  else do
    let c ← C.rd s.data 0
    if c ≠ 0x30 then .ok (s, false)
    else do
      let s ← s.adv 1
      let r ← asn1_read_size s strict
      if !r.ret then .ok (r.st, false)
      else if strict ∧ r.size ≠ r.st.len then .ok (r.st, false)
      else .ok (r.st, true)

/-- The strictness block of src/asn1.c:95-152 `asn1_read_int` (the same text is in src/asn1.c:154-209
`asn1_read_mpz`): whether the function goes on. -/
def asn1_int_strict (num : List Byte) (size : Nat) : C Bool :=
  if size = 0 then .ok false
  else do
    let n0 ← C.rd num 0
    if n0 &&& 0x80 ≠ 0 then .ok false
    else if size > 1 ∧ n0 = 0 then do
      let n1 ← C.rd num 1
      if n1 &&& 0x80 = 0 then .ok false else .ok true
    else .ok true

/-- The `while (size > 0 && **data == 0x00)` loop of src/asn1.c:95-152 `asn1_read_int` (and src/asn1.c:154-209
`asn1_read_mpz`). -/
def asn1_eat_zeroes : Nat → Asn1St → C (Nat × Asn1St)
  | 0, s => .ok (0, s)
  | size + 1, s => do
    let c ← C.rd s.data 0
    if c = 0 then do
      let s ← s.adv 1
      asn1_eat_zeroes size s
    else .ok (size + 1, s)

/-- `memcpy` from the buffer of src/asn1.c:95-152 `asn1_read_int`: the first `n` bytes, which must
exist. -/
def Asn1St.bytes (n : Nat) (s : Asn1St) : C (List Byte) :=
  if n ≤ s.data.length then .ok (s.data.take n) else .ub

/-- Result of src/asn1.c:95-152 `asn1_read_int`: the contents of `out`, the state, the `int`. -/
structure Asn1Int where
  out : List Byte
  st : Asn1St
  ret : Bool
deriving Repr, DecidableEq

/-- src/asn1.c:95-152 `asn1_read_int`. -/
def asn1_read_int (out_len : Nat) (s : Asn1St) (strict : Bool) : C Asn1Int :=
  let fail (s : Asn1St) : C Asn1Int := .ok ⟨List.replicate out_len 0, s, false⟩
  if s.len = 0 then fail s
  else do
    let c ← C.rd s.data 0
    if c ≠ 0x02 then fail s
    else do
      let s ← s.adv 1
      let r ← asn1_read_size s strict
      let s := r.st
      if !r.ret then fail s
      else if r.size > s.len then fail s
      else do
        let go ← (if strict then asn1_int_strict s.data r.size else .ok true)
        if !go then fail s
        else do
          let (size, s) ← asn1_eat_zeroes r.size s
          if size > out_len then fail s
          else do
            let b ← s.bytes size
            let s ← s.adv size
            .ok ⟨List.replicate (out_len - size) 0 ++ b, s, true⟩

/-- `mpz_import(n, data, size, 1)` by its meaning: the big-endian value (src/mpi.c:9075-9090 `mpz_import`). -/
def mpz_import_be (b : List Byte) : Nat := b.foldl (fun v c => 256 * v + c.toNat) 0

/-- `mpz_export(data, n, size, 1)` by its meaning: the low `size` base-256 digits, most significant
first (src/mpi.c:9096-9100 `mpz_export`). -/
def mpz_export_be (n size : Nat) : List Byte :=
  ((List.range size).map (fun i => BitVec.ofNat 8 (n / 256 ^ i))).reverse

/-- `mpz_bitlen` by its meaning (src/mpi.c:8966-8974 `mpz_bitlen`). -/
def mpz_bitlen_nat (n : Nat) : Nat := if n = 0 then 0 else n.log2 + 1

/-- `mpz_bytelen` by its meaning (src/mpi.c:8976-8979 `mpz_bytelen`). -/
def mpz_bytelen_nat (n : Nat) : Nat := (mpz_bitlen_nat n + 7) / 8

/-- Result of src/asn1.c:154-209 `asn1_read_mpz`: the value, the state, the `int`. -/
structure Asn1Mpz where
  n : Nat
  st : Asn1St
  ret : Bool
deriving Repr, DecidableEq

/-- src/asn1.c:154-209 `asn1_read_mpz` (which passes `strict = 1` to `asn1_read_size` always). -/
def asn1_read_mpz (s : Asn1St) (strict : Bool) : C Asn1Mpz :=
  let fail (s : Asn1St) : C Asn1Mpz := .ok ⟨0, s, false⟩
  if s.len = 0 then fail s
  else do
    let c ← C.rd s.data 0
    if c ≠ 0x02 then fail s
    else do
      let s ← s.adv 1
      let r ← asn1_read_size s true
      let s := r.st
      if !r.ret then fail s
      else if r.size > s.len then fail s
      else do
        let go ← (if strict then asn1_int_strict s.data r.size else .ok true)
        if !go then fail s
        else do
          let (size, s) ← asn1_eat_zeroes r.size s
          if size > 2048 then fail s
          else do
            let b ← s.bytes size
            let s ← s.adv size
            .ok ⟨mpz_import_be b, s, true⟩

/-- src/asn1.c:211-240 `asn1_read_version`. -/
def asn1_read_version (s : Asn1St) (version : Nat) (strict : Bool) : C (Asn1St × Bool) :=
  if strict then
    if s.len < 3 then .ok (s, false)
    else do
      let n0 ← C.rd s.data 0
      if n0 ≠ 0x02 then .ok (s, false)
      else do
        let n1 ← C.rd s.data 1
        if n1 ≠ 0x01 then .ok (s, false)
        else do
          let n2 ← C.rd s.data 2
          if n2.toNat ≠ version then .ok (s, false)
          else do
            let s ← s.adv 3
            .ok (s, true)
  else do
    let r ← asn1_read_mpz s false
    if r.ret then .ok (r.st, r.n == version) else .ok (r.st, false)

/-- src/asn1.c:242-267 `asn1_read_dumb`. -/
def asn1_read_dumb (s : Asn1St) : C Asn1Mpz :=
  if s.len < 2 then .ok ⟨0, s, false⟩
  else do
    let b0 ← C.rd s.data 0
    let b1 ← C.rd s.data 1
    let size := (b0.toNat <<< 8) ||| b1.toNat
    let s ← s.adv 2
    if size > s.len then .ok ⟨0, s, false⟩
    else do
      let b ← s.bytes size
      let s ← s.adv size
      .ok ⟨mpz_import_be b, s, true⟩

/-- src/asn1.c:269-278 `asn1_size_size`. -/
def asn1_size_size (size : Nat) : Nat :=
  if size ≤ 0x7f then 1 else if size ≤ 0xff then 2 else 3

/-- The loop `while (len > 0 && num[0] == 0x00)` of src/asn1.c:280-294 `asn1_size_int` and src/asn1.c:344-376
`asn1_write_int`. -/
def asn1_skip_zeroes : List Byte → List Byte
  | [] => []
  | c :: num => if c = 0 then asn1_skip_zeroes num else c :: num

/-- src/asn1.c:280-294 `asn1_size_int`. -/
def asn1_size_int (num : List Byte) : Nat :=
  match asn1_skip_zeroes num with
  | [] => 3
  | c :: t =>
    let len := (c :: t).length + (c >>> 7).toNat
    1 + asn1_size_size len + len

/-- src/asn1.c:296-309 `asn1_size_mpz`. -/
def asn1_size_mpz (n : Nat) : Nat :=
  let bits := mpz_bitlen_nat n
  let size := (bits + 7) / 8
  let size := if bits > 0 ∧ bits &&& 7 = 0 then size + (n.testBit (bits - 1)).toNat else size
  let size := if bits = 0 then 1 else size
  1 + asn1_size_size size + size

/-- src/asn1.c:311-315 `asn1_size_version`. -/
def asn1_size_version (_version : Nat) : Nat := 3

/-- src/asn1.c:317-336 `asn1_write_size`. -/
def asn1_write_size (size : Nat) : C (List Byte) :=
  if size ≤ 0x7f then .ok [BitVec.ofNat 8 size]
  else if size ≤ 0xff then .ok [0x81, BitVec.ofNat 8 size]
  else do
    C.check (size ≤ 0xffff)
    .ok [0x82, BitVec.ofNat 8 (size >>> 8), BitVec.ofNat 8 (size &&& 0xff)]

/-- src/asn1.c:338-342 `asn1_write_seq`. -/
def asn1_write_seq (size : Nat) : C (List Byte) := do
  let l ← asn1_write_size size
  .ok (0x30 :: l)

/-- src/asn1.c:344-376 `asn1_write_int`. -/
def asn1_write_int (num : List Byte) : C (List Byte) :=
  match asn1_skip_zeroes num with
  | [] => .ok [0x02, 0x01, 0x00]
  | c :: t => do
    let pad := (c >>> 7).toNat
    let l ← asn1_write_size (pad + (c :: t).length)
    .ok (0x02 :: (l ++ (if pad ≠ 0 then [0x00] else []) ++ c :: t))

/-- src/asn1.c:378-403 `asn1_write_mpz`. -/
def asn1_write_mpz (n : Nat) : C (List Byte) := do
  let bits := mpz_bitlen_nat n
  let size := (bits + 7) / 8
  let pad := if bits > 0 ∧ bits &&& 7 = 0 then (n.testBit (bits - 1)).toNat else 0
  let size := if bits = 0 then 1 else size
  let l ← asn1_write_size (pad + size)
  .ok (0x02 :: (l ++ (if pad ≠ 0 then [0x00] else []) ++ mpz_export_be n size))

/-- src/asn1.c:405-414 `asn1_write_version`. -/
def asn1_write_version (version : Nat) : C (List Byte) := do
  C.check (version ≤ 0xff)
  .ok [0x02, 0x01, BitVec.ofNat 8 version]

/-- src/asn1.c:416-430 `asn1_write_dumb`. -/
def asn1_write_dumb (n : Nat) : C (List Byte) := do
  let size := mpz_bytelen_nat n
  C.check (size ≤ 0xffff)
  .ok (BitVec.ofNat 8 (size >>> 8) :: BitVec.ofNat 8 (size &&& 0xff) :: mpz_export_be n size)

end Torsion
