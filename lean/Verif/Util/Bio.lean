import Verif.Basic

/-!
# Model of src/bio.h and src/util.c

Multi-byte reads and writes are modelled by the shift formulas of the portable branches; the
`memcpy` branches are the definition of the host representation and give the same value on the
host they are compiled for. Buffers are lists; the index loops use checked accesses.
-/
namespace Torsion

/-- src/bio.h:30-40 `read16le`. -/
def read16le (s : Vector Byte 2) : BitVec 16 :=
  (s[1].zeroExtend 16 <<< 8) ||| (s[0].zeroExtend 16 <<< 0)

/-- src/bio.h:42-50 `write16le`. -/
def write16le (w : BitVec 16) : Vector Byte 2 :=
  #v[(w >>> 0).truncate 8, (w >>> 8).truncate 8]

/-- src/bio.h:52-64 `read32le`. -/
def read32le (s : Vector Byte 4) : BitVec 32 :=
  (s[3].zeroExtend 32 <<< 24) ||| (s[2].zeroExtend 32 <<< 16) |||
    (s[1].zeroExtend 32 <<< 8) ||| (s[0].zeroExtend 32 <<< 0)

/-- src/bio.h:66-76 `write32le`. -/
def write32le (w : BitVec 32) : Vector Byte 4 :=
  #v[(w >>> 0).truncate 8, (w >>> 8).truncate 8, (w >>> 16).truncate 8, (w >>> 24).truncate 8]

/-- src/bio.h:78-94 `read64le`. -/
def read64le (s : Vector Byte 8) : BitVec 64 :=
  (s[7].zeroExtend 64 <<< 56) ||| (s[6].zeroExtend 64 <<< 48) |||
    (s[5].zeroExtend 64 <<< 40) ||| (s[4].zeroExtend 64 <<< 32) |||
    (s[3].zeroExtend 64 <<< 24) ||| (s[2].zeroExtend 64 <<< 16) |||
    (s[1].zeroExtend 64 <<< 8) ||| (s[0].zeroExtend 64 <<< 0)

/-- src/bio.h:96-110 `write64le`. -/
def write64le (w : BitVec 64) : Vector Byte 8 :=
  #v[(w >>> 0).truncate 8, (w >>> 8).truncate 8, (w >>> 16).truncate 8, (w >>> 24).truncate 8,
     (w >>> 32).truncate 8, (w >>> 40).truncate 8, (w >>> 48).truncate 8, (w >>> 56).truncate 8]

/-- src/bio.h:116-126 `read16be`. -/
def read16be (s : Vector Byte 2) : BitVec 16 :=
  (s[0].zeroExtend 16 <<< 8) ||| (s[1].zeroExtend 16 <<< 0)

/-- src/bio.h:128-136 `write16be`. -/
def write16be (w : BitVec 16) : Vector Byte 2 :=
  #v[(w >>> 8).truncate 8, (w >>> 0).truncate 8]

/-- src/bio.h:138-150 `read32be`. -/
def read32be (s : Vector Byte 4) : BitVec 32 :=
  (s[0].zeroExtend 32 <<< 24) ||| (s[1].zeroExtend 32 <<< 16) |||
    (s[2].zeroExtend 32 <<< 8) ||| (s[3].zeroExtend 32 <<< 0)

/-- src/bio.h:152-162 `write32be`. -/
def write32be (w : BitVec 32) : Vector Byte 4 :=
  #v[(w >>> 24).truncate 8, (w >>> 16).truncate 8, (w >>> 8).truncate 8, (w >>> 0).truncate 8]

/-- src/bio.h:164-180 `read64be`. -/
def read64be (s : Vector Byte 8) : BitVec 64 :=
  (s[0].zeroExtend 64 <<< 56) ||| (s[1].zeroExtend 64 <<< 48) |||
    (s[2].zeroExtend 64 <<< 40) ||| (s[3].zeroExtend 64 <<< 32) |||
    (s[4].zeroExtend 64 <<< 24) ||| (s[5].zeroExtend 64 <<< 16) |||
    (s[6].zeroExtend 64 <<< 8) ||| (s[7].zeroExtend 64 <<< 0)

/-- src/bio.h:182-196 `write64be`. -/
def write64be (w : BitVec 64) : Vector Byte 8 :=
  #v[(w >>> 56).truncate 8, (w >>> 48).truncate 8, (w >>> 40).truncate 8, (w >>> 32).truncate 8,
     (w >>> 24).truncate 8, (w >>> 16).truncate 8, (w >>> 8).truncate 8, (w >>> 0).truncate 8]

/-- src/bio.h:207-207 `torsion_bswap16` (portable version). -/
def torsion_bswap16 (x : BitVec 16) : BitVec 16 := (x <<< 8) ||| (x >>> 8)

/-- src/bio.h:216-216 `torsion_bswap32` (portable version). -/
def torsion_bswap32 (x : BitVec 32) : BitVec 32 :=
  let x := ((x <<< 8) &&& 0xff00ff00#32) ||| ((x >>> 8) &&& 0x00ff00ff#32)
  (x >>> 16) ||| (x <<< 16)

/-- src/bio.h:227-227 `torsion_bswap64` (portable version). -/
def torsion_bswap64 (x : BitVec 64) : BitVec 64 :=
  let x := ((x <<< 8) &&& 0xff00ff00ff00ff00#64) ||| ((x >>> 8) &&& 0x00ff00ff00ff00ff#64)
  let x := ((x <<< 16) &&& 0xffff0000ffff0000#64) ||| ((x >>> 16) &&& 0x0000ffff0000ffff#64)
  (x <<< 32) ||| (x >>> 32)

/-- Loop of src/bio.h:243-253 `increment_le`; `c` is an `unsigned int` that stays at most 256. -/
def increment_le_loop (c : Nat) : List Byte → List Byte
  | [] => []
  | x :: xs =>
    let c := c + x.toNat
    BitVec.ofNat 8 c :: increment_le_loop (c / 256) xs

/-- src/bio.h:243-253 `increment_le`. -/
def increment_le (x : List Byte) : List Byte := increment_le_loop 1 x

/-- Loop of src/bio.h:255-264 `increment_le_var`. -/
def increment_le_var_loop (c : Byte) : List Byte → List Byte
  | [] => []
  | x :: xs =>
    if c ≠ 0 then
      let y := x + c
      y :: increment_le_var_loop (if y < c then 1 else 0) xs
    else x :: xs

/-- src/bio.h:255-264 `increment_le_var`. -/
def increment_le_var (x : List Byte) : List Byte := increment_le_var_loop 1 x

/-- Loop of src/bio.h:266-276 `increment_be`; the first argument is `i + 1` (the loop ends when `i`
wraps to `(size_t)-1`). -/
def increment_be_loop : Nat → Nat → List Byte → C (List Byte)
  | 0, _, x => .ok x
  | i + 1, c, x => do
    let xi ← C.rd x i
    let c := c + xi.toNat
    let x ← C.wr x i (BitVec.ofNat 8 c)
    increment_be_loop i (c / 256) x

/-- src/bio.h:266-276 `increment_be`. -/
def increment_be (x : List Byte) : C (List Byte) := increment_be_loop x.length 1 x

/-- Loop of src/bio.h:278-287 `increment_be_var`; the first argument is `i + 1`. -/
def increment_be_var_loop : Nat → Byte → List Byte → C (List Byte)
  | 0, _, x => .ok x
  | i + 1, c, x =>
    if c ≠ 0 then do
      let xi ← C.rd x i
      let y := xi + c
      let x ← C.wr x i y
      increment_be_var_loop i (if y < c then 1 else 0) x
    else .ok x

/-- src/bio.h:278-287 `increment_be_var`. -/
def increment_be_var (x : List Byte) : C (List Byte) := increment_be_var_loop x.length 1 x

/-- Loop of src/util.c:54-71 `torsion_memcmp`; state `(eq, lt)`. -/
def torsion_memcmp_loop : BitVec 32 → BitVec 32 → List Byte → List Byte → BitVec 32 × BitVec 32
  | eq, lt, x :: xs, y :: ys =>
    let a := x.zeroExtend 32
    let b := y.zeroExtend 32
    let lt := lt ||| (eq &&& ((a - b) >>> 31))
    let eq := eq &&& (((a ^^^ b) - 1) >>> 31)
    torsion_memcmp_loop eq lt xs ys
  | eq, lt, _, _ => (eq, lt)

/-- src/util.c:54-71 `torsion_memcmp`. The two arguments are the `n` bytes at `x` and at `y`; the
`(int)` casts of `eq` and `lt` are exact because both are 0 or 1. -/
def torsion_memcmp (x y : List Byte) : Int :=
  let (eq, lt) := torsion_memcmp_loop 1 0 x y
  (1 - 2 * lt.toInt) * (1 - eq.toInt)

/-- src/util.c:73-93 `torsion_memcmp_var`. -/
def torsion_memcmp_var : List Byte → List Byte → Int
  | x :: xs, y :: ys => if x ≠ y then (x.toNat : Int) - y.toNat else torsion_memcmp_var xs ys
  | _, _ => 0

/-- Loop of src/util.c:99-109 `torsion_memequal`. -/
def torsion_memequal_loop : BitVec 32 → List Byte → List Byte → BitVec 32
  | z, x :: xs, y :: ys => torsion_memequal_loop (z ||| (x ^^^ y).zeroExtend 32) xs ys
  | z, _, _ => z

/-- src/util.c:99-109 `torsion_memequal`. -/
def torsion_memequal (x y : List Byte) : Int :=
  ((torsion_memequal_loop 0 x y - 1) >>> 31).toInt

/-- src/util.c:115-122 `torsion_memxor` (`z ^= x`, `n` bytes each). -/
def torsion_memxor : List Byte → List Byte → List Byte
  | z :: zs, x :: xs => (z ^^^ x) :: torsion_memxor zs xs
  | _, _ => []

/-- src/util.c:124-132 `torsion_memxor3`. -/
def torsion_memxor3 : List Byte → List Byte → List Byte
  | x :: xs, y :: ys => (x ^^^ y) :: torsion_memxor3 xs ys
  | _, _ => []

end Torsion
