import Verif.Common.Buffer
import Verif.Util.Bio

/-!
# Model: what the block ciphers of src/cipher.c share

A block is read into two or four machine words, put through the rounds and written back. Tables of
256 entries are indexed by a byte, so that the access is inside the table by its type.
-/
namespace Torsion

/-- The index `(w >> n) & 0xff` of a table access, as in src/cipher.c:833-926 `aes_encrypt`. -/
def byt (w : BitVec 32) (n : Nat) : Byte := (w >>> n).truncate 8

/-- A table access, as in src/cipher.c:833-926 `aes_encrypt`. -/
def tbl {α : Type} (t : Vector α 256) (b : Byte) : α := t[b.toNat]'b.isLt

/-- Four 32-bit words, the state of src/cipher.c:833-926 `aes_encrypt`. -/
structure Quad where
  a : BitVec 32
  b : BitVec 32
  c : BitVec 32
  d : BitVec 32
deriving DecidableEq

/-- Four 16-bit words, the state of src/cipher.c:1122-1234 `arc2_encrypt`. -/
structure Quad16 where
  a : BitVec 16
  b : BitVec 16
  c : BitVec 16
  d : BitVec 16
deriving DecidableEq

/-- Two 32-bit words, the state of src/cipher.c:1820-1831 `blowfish_encrypt`. -/
structure Two where
  l : BitVec 32
  r : BitVec 32
deriving DecidableEq

/-- The four `read32be` of src/cipher.c:833-926 `aes_encrypt`. -/
def load4be (v : Vector Byte 16) : Quad :=
  ⟨read32be (vsub v 0 4), read32be (vsub v 4 4), read32be (vsub v 8 4), read32be (vsub v 12 4)⟩

/-- The four `write32be` of src/cipher.c:833-926 `aes_encrypt`. -/
def store4be (q : Quad) : Vector Byte 16 :=
  (write32be q.a ++ write32be q.b ++ write32be q.c ++ write32be q.d : Vector Byte (4 + 4 + 4 + 4))

/-- The four `read32le` of src/cipher.c:4755-4871 `serpent_encrypt`. -/
def load4le (v : Vector Byte 16) : Quad :=
  ⟨read32le (vsub v 0 4), read32le (vsub v 4 4), read32le (vsub v 8 4), read32le (vsub v 12 4)⟩

/-- The four `write32le` of src/cipher.c:4755-4871 `serpent_encrypt`. -/
def store4le (q : Quad) : Vector Byte 16 :=
  (write32le q.a ++ write32le q.b ++ write32le q.c ++ write32le q.d : Vector Byte (4 + 4 + 4 + 4))

/-- The two `read32be` of src/cipher.c:1820-1831 `blowfish_encrypt`. -/
def load2be (v : Vector Byte 8) : Two := ⟨read32be (vsub v 0 4), read32be (vsub v 4 4)⟩

/-- The two `write32be` of src/cipher.c:1820-1831 `blowfish_encrypt`. -/
def store2be (q : Two) : Vector Byte 8 :=
  (write32be q.l ++ write32be q.r : Vector Byte (4 + 4))

/-- The four `read16le` of src/cipher.c:1122-1234 `arc2_encrypt`. -/
def load4x16le (v : Vector Byte 8) : Quad16 :=
  ⟨read16le (vsub v 0 2), read16le (vsub v 2 2), read16le (vsub v 4 2), read16le (vsub v 6 2)⟩

/-- The four `write16le` of src/cipher.c:1122-1234 `arc2_encrypt`. -/
def store4x16le (q : Quad16) : Vector Byte 8 :=
  (write16le q.a ++ write16le q.b ++ write16le q.c ++ write16le q.d : Vector Byte (2 + 2 + 2 + 2))

/-- The four `read16be` of src/cipher.c:4255-4296 `idea_crypt`. -/
def load4x16be (v : Vector Byte 8) : Quad16 :=
  ⟨read16be (vsub v 0 2), read16be (vsub v 2 2), read16be (vsub v 4 2), read16be (vsub v 6 2)⟩

/-- The four `write16be` of src/cipher.c:4255-4296 `idea_crypt`. -/
def store4x16be (q : Quad16) : Vector Byte 8 :=
  (write16be q.a ++ write16be q.b ++ write16be q.c ++ write16be q.d : Vector Byte (2 + 2 + 2 + 2))

/-- `read32be(key + off)`, as in src/cipher.c:659-788 `aes_init_encrypt`. -/
def key_be (key : List Byte) (off : Nat) : C (BitVec 32) := do
  let b ← C.slice key off 4
  let v ← C.vec 4 b
  .ok (read32be v)

/-- `read32le(key + off)`, as in src/cipher.c:4681-4753 `serpent_init`. -/
def key_le (key : List Byte) (off : Nat) : C (BitVec 32) := do
  let b ← C.slice key off 4
  let v ← C.vec 4 b
  .ok (read32le v)

/-- An array of `n` elements all of which have been written, as in src/cipher.c:3941-3967 `des_init`; it is
`ub` for the number written to differ from `n`. -/
def C.arr {α : Type} (n : Nat) (xs : List α) : C (Vector α n) :=
  if h : xs.length = n then .ok ⟨xs.toArray, by simpa using h⟩ else .ub

/-- The first `n` big-endian words at `key + 4 * i`, read one after the other, as in
src/cipher.c:659-788 `aes_init_encrypt`. -/
def be_words (key : List Byte) : Nat → Nat → C (List (BitVec 32))
  | 0, _ => .ok []
  | n + 1, i => do
    let w ← key_be key (4 * i)
    let ws ← be_words key n (i + 1)
    .ok (w :: ws)

end Torsion
