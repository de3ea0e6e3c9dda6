import Verif.Stream.Spec
import Verif.Common.Blocks
import Verif.Common.Calls
import Verif.Hash.Dispatch
import Verif.Hash.StdSpec

/-!
# Independent specification of the hash functions and HMAC

The digests are defined on whole messages: padding, cutting into blocks, folding the compression
function of the standard (Verif/Hash/StdSpec.lean), truncation. There are no contexts, buffers or
counters here. Of the model only the enumeration `HashId` is used.
-/
namespace Torsion.Spec

/-- `n` big-endian bytes of a number. -/
def bigBytes (n v : Nat) : List Byte := (leBytes n v).reverse

/-! ## The compression functions on blocks -/

def md4Fn (h : Vector (BitVec 32) 4) (b : Vector Byte 64) := Std.md4Compress h b.toList
def md5Fn (h : Vector (BitVec 32) 4) (b : Vector Byte 64) := Std.md5Compress h b.toList
def ripemd160Fn (h : Vector (BitVec 32) 5) (b : Vector Byte 64) := Std.ripemd160Compress h b.toList
def sha1Fn (h : Vector (BitVec 32) 5) (b : Vector Byte 64) := Std.sha1Compress h b.toList
def sha256Fn (h : Vector (BitVec 32) 8) (b : Vector Byte 64) := Std.sha256Compress h b.toList
def sha512Fn (h : Vector (BitVec 64) 8) (b : Vector Byte 128) := Std.sha512Compress h b.toList
def whirlpoolFn (h : Vector (BitVec 64) 8) (b : Vector Byte 64) := Std.whirlpoolCompress h b.toList
def blake2bFn (h : Vector (BitVec 64) 8) (t0 t1 : BitVec 64) (b : Vector Byte 128) (f : BitVec 64) :=
  Std.blake2bF h t0 t1 b.toList f
def blake2sFn (h : Vector (BitVec 32) 8) (t0 t1 : BitVec 32) (b : Vector Byte 64) (f : BitVec 32) :=
  Std.blake2sF h t0 t1 b.toList f

/-! ## Merkle–Damgård hashes -/

/-- Number of zero bytes so that `n` message bytes, one byte `0x80` and the zeros end at offset
`lenOff` of a block of `bs` bytes. -/
def mdZeros (bs lenOff n : Nat) : Nat := (lenOff + bs - (n + 1) % bs) % bs

/-- The padded message: a byte `0x80`, zeros, and the number of message bits in the rest of the last
block (`enc k v` gives the number `v` as `k` bytes). -/
def mdPad (bs lenOff : Nat) (enc : Nat → Nat → List Byte) (m : List Byte) : List Byte :=
  m ++ 0x80 :: List.replicate (mdZeros bs lenOff m.length) 0 ++ enc (bs - lenOff) (8 * m.length)

/-- The iterated hash. -/
def mdHash {St : Type} (bs lenOff : Nat) (enc : Nat → Nat → List Byte) (f : St → Vector Byte bs → St)
    (iv : St) (out : St → List Byte) (m : List Byte) : List Byte :=
  out ((blocks bs (mdPad bs lenOff enc m)).foldl f iv)

/-- The words of a chaining value, little-endian. -/
def le32Out {n : Nat} (s : Vector (BitVec 32) n) : List Byte :=
  s.toList.flatMap fun w => leBytes 4 w.toNat

/-- The words of a chaining value, big-endian. -/
def be32Out {n : Nat} (s : Vector (BitVec 32) n) : List Byte :=
  s.toList.flatMap fun w => bigBytes 4 w.toNat

/-- The words of a chaining value, big-endian. -/
def be64Out {n : Nat} (s : Vector (BitVec 64) n) : List Byte :=
  s.toList.flatMap fun w => bigBytes 8 w.toNat

def md4 : List Byte → List Byte :=
  mdHash 64 56 leBytes md4Fn #v[0x67452301, 0xefcdab89, 0x98badcfe, 0x10325476] le32Out

def md5 : List Byte → List Byte :=
  mdHash 64 56 leBytes md5Fn #v[0x67452301, 0xefcdab89, 0x98badcfe, 0x10325476] le32Out

def ripemd160 : List Byte → List Byte :=
  mdHash 64 56 leBytes ripemd160Fn
    #v[0x67452301, 0xefcdab89, 0x98badcfe, 0x10325476, 0xc3d2e1f0] le32Out

def sha1 : List Byte → List Byte :=
  mdHash 64 56 bigBytes sha1Fn
    #v[0x67452301, 0xefcdab89, 0x98badcfe, 0x10325476, 0xc3d2e1f0] be32Out

def sha256 : List Byte → List Byte := mdHash 64 56 bigBytes sha256Fn Std.blake2sIV be32Out

/-- The initial value of SHA-384: the square roots of the ninth to the sixteenth prime (see
`Std.IsSqrtFrac64`). -/
def sha384IV : Vector (BitVec 64) 8 :=
  #v[0xcbbb9d5dc1059ed8, 0x629a292a367cd507, 0x9159015a3070dd17, 0x152fecd8f70e5939,
    0x67332667ffc00b31, 0x8eb44a8768581511, 0xdb0c2e0d64f98fa7, 0x47b5481dbefa4fa4]

/-- The initial value of SHA-224 is the second half of the words of that of SHA-384. -/
def sha224IV : Vector (BitVec 32) 8 := Vector.ofFn fun i => sha384IV[i].extractLsb' 0 32

def sha224 (m : List Byte) : List Byte := (mdHash 64 56 bigBytes sha256Fn sha224IV be32Out m).take 28

def sha512 : List Byte → List Byte := mdHash 128 112 bigBytes sha512Fn Std.blake2bIV be64Out

def sha384 (m : List Byte) : List Byte := (mdHash 128 112 bigBytes sha512Fn sha384IV be64Out m).take 48

def whirlpool : List Byte → List Byte :=
  mdHash 64 32 bigBytes whirlpoolFn (Vector.replicate 8 0) be64Out

/-! ## Keccak -/

/-- The padded message: the domain byte, zeros, and the top bit of the last byte of the block. -/
def sponge10 (bs : Nat) (pad : Byte) (m : List Byte) : List Byte :=
  if m.length % bs = bs - 1 then m ++ [pad ||| 0x80]
  else m ++ pad :: List.replicate (bs - 2 - m.length % bs) 0 ++ [0x80]

/-- Absorb one block of `bs` bytes: xor it into the first `bs / 8` lanes, then permute. -/
def absorb (bs : Nat) (A : Vector (BitVec 64) 25) (b : Vector Byte bs) : Vector (BitVec 64) 25 :=
  Std.keccakPerm (Vector.ofFn fun i : Fin 25 =>
    if i.val < bs / 8 then A[i] ^^^ BitVec.ofNat 64 (leVal ((b.toList.drop (8 * i.val)).take 8))
    else A[i])

/-- Absorb the padded message and return the first `len` bytes of the state. For `len` above the rate
the standard's sponge would permute again; the library does not. -/
def keccak (bs : Nat) (pad : Byte) (len : Nat) (m : List Byte) : List Byte :=
  (((blocks bs (sponge10 bs pad m)).foldl (absorb bs) (Vector.replicate 25 0)).toList.flatMap
    fun w => leBytes 8 w.toNat).take len

/-! ## BLAKE2 -/

/-- RFC 7693: all blocks but the last with the counter of bytes so far, then the last one, padded
with zeros, with the finalisation flag. The empty message is one block of zeros. -/
def blake2 {w : Nat} (bs : Nat) (compress : Vector (BitVec w) 8 → BitVec w → BitVec w →
      Vector Byte bs → BitVec w → Vector (BitVec w) 8)
    (iv : Vector (BitVec w) 8) (len : Nat) (key m : List Byte) : List Byte :=
  let d := (if key = [] then [] else key ++ List.replicate (bs - key.length) 0) ++ m
  let n := (d.length - 1) / bs
  let h0 := iv.set 0 (iv[0] ^^^ BitVec.ofNat w (0x01010000 + 256 * key.length + len))
  let h := (blocks bs (d.take (n * bs))).zipIdx.foldl (fun h b =>
    compress h (BitVec.ofNat w ((b.2 + 1) * bs)) (BitVec.ofNat w ((b.2 + 1) * bs / 2 ^ w)) b.1 0) h0
  let last : Vector Byte bs := Vector.ofFn fun j : Fin bs => d.getD (n * bs + j.val) 0
  let h := compress h (BitVec.ofNat w d.length) (BitVec.ofNat w (d.length / 2 ^ w)) last
    (BitVec.allOnes w)
  (h.toList.flatMap fun x => leBytes (w / 8) x.toNat).take len

def blake2b (len : Nat) (key m : List Byte) : List Byte :=
  blake2 128 blake2bFn Std.blake2bIV len key m

def blake2s (len : Nat) (key m : List Byte) : List Byte :=
  blake2 64 blake2sFn Std.blake2sIV len key m

/-! ## GOST94 and MD2 -/

/-- The message filled with zeros to a multiple of `n` bytes. -/
def zeroPad (n : Nat) (m : List Byte) : List Byte := m ++ List.replicate ((n - m.length % n) % n) 0

/-- RFC 5831: hash the blocks, then the bit length, then the sum of the blocks modulo `2 ^ 256`. -/
def gost94 (m : List Byte) : List Byte :=
  let bl := blocks 32 (zeroPad 32 m)
  let sum := (bl.map fun b => leVal b.toList).sum
  let len : Vector Byte 32 := Vector.ofFn fun i : Fin 32 => BitVec.ofNat 8 (8 * m.length / 256 ^ i.val)
  let sig : Vector Byte 32 := Vector.ofFn fun i : Fin 32 => BitVec.ofNat 8 (sum / 256 ^ i.val)
  (Std.gost94Compress (Std.gost94Compress (bl.foldl Std.gost94Compress (Vector.replicate 32 0)) len) sig).toList

/-- RFC 1319 3.1: `p` bytes of value `p`, `1 ≤ p ≤ 16`. -/
def md2Pad (m : List Byte) : List Byte :=
  let p := 16 - m.length % 16
  m ++ List.replicate p (BitVec.ofNat 8 p)

/-- RFC 1319: state and checksum over the padded message, then the checksum as a last block. -/
def md2 (m : List Byte) : List Byte :=
  let s := (blocks 16 (md2Pad m)).foldl Std.md2Step (Vector.replicate 16 0, Vector.replicate 16 0)
  (Std.md2Step s s.2).1.toList

/-! ## The sequence of compression calls, for the statements about collisions -/

/-- Two runs of an iterated hash meet in two different steps: two different pairs (chaining value,
input) that occur in them are mapped to the same chaining value. -/
def Collide {St X : Type} (f : St → X → St) (iv : St) (xs ys : List X) : Prop :=
  ∃ p x q y, p ++ [x] <+: xs ∧ q ++ [y] <+: ys ∧
    (p.foldl f iv, x) ≠ (q.foldl f iv, y) ∧ f (p.foldl f iv) x = f (q.foldl f iv) y

/-- The data BLAKE2 hashes for a key and a message: the key fills the first block. -/
def b2data (bs : Nat) (key m : List Byte) : List Byte :=
  (if key = [] then [] else key ++ List.replicate (bs - key.length) 0) ++ m

/-- The inputs of the compression calls of BLAKE2 for the data `d`: block, counter, flag. -/
def blake2Inputs (w bs : Nat) (d : List Byte) : List (Vector Byte bs × BitVec w × BitVec w × BitVec w) :=
  ((blocks bs (d.take ((d.length - 1) / bs * bs))).zipIdx.map fun b =>
    (b.1, BitVec.ofNat w ((b.2 + 1) * bs), BitVec.ofNat w ((b.2 + 1) * bs / 2 ^ w), 0)) ++
  [(Vector.ofFn fun j : Fin bs => d.getD ((d.length - 1) / bs * bs + j.val) 0,
    BitVec.ofNat w d.length, BitVec.ofNat w (d.length / 2 ^ w), BitVec.allOnes w)]

/-- One compression call of BLAKE2. -/
def blake2Step {w bs : Nat} (compress : Vector (BitVec w) 8 → BitVec w → BitVec w →
      Vector Byte bs → BitVec w → Vector (BitVec w) 8)
    (h : Vector (BitVec w) 8) (x : Vector Byte bs × BitVec w × BitVec w × BitVec w) :
    Vector (BitVec w) 8 := compress h x.2.1 x.2.2.1 x.1 x.2.2.2

/-- The inputs of the compression calls of GOST94. -/
def gost94Inputs (m : List Byte) : List (Vector Byte 32) :=
  let bl := blocks 32 (zeroPad 32 m)
  bl ++ [Vector.ofFn fun i : Fin 32 => BitVec.ofNat 8 (8 * m.length / 256 ^ i.val),
    Vector.ofFn fun i : Fin 32 => BitVec.ofNat 8 ((bl.map fun b => leVal b.toList).sum / 256 ^ i.val)]

/-! ## The generic interface -/

/-- The digest for each member of the enumeration; `len` matters only for SHAKE. -/
def hash (t : HashId) (len : Nat) (m : List Byte) : List Byte :=
  match t with
  | .NONE => []
  | .BLAKE2B_160 => blake2b 20 [] m
  | .BLAKE2B_256 => blake2b 32 [] m
  | .BLAKE2B_384 => blake2b 48 [] m
  | .BLAKE2B_512 => blake2b 64 [] m
  | .BLAKE2S_128 => blake2s 16 [] m
  | .BLAKE2S_160 => blake2s 20 [] m
  | .BLAKE2S_224 => blake2s 28 [] m
  | .BLAKE2S_256 => blake2s 32 [] m
  | .GOST94 => gost94 m
  | .HASH160 => ripemd160 (sha256 m)
  | .HASH256 => sha256 (sha256 m)
  | .KECCAK224 => keccak 144 0x01 28 m
  | .KECCAK256 => keccak 136 0x01 32 m
  | .KECCAK384 => keccak 104 0x01 48 m
  | .KECCAK512 => keccak 72 0x01 64 m
  | .MD2 => md2 m
  | .MD4 => md4 m
  | .MD5 => md5 m
  | .MD5SHA1 => md5 m ++ sha1 m
  | .RIPEMD160 => ripemd160 m
  | .SHA1 => sha1 m
  | .SHA224 => sha224 m
  | .SHA256 => sha256 m
  | .SHA384 => sha384 m
  | .SHA512 => sha512 m
  | .SHA3_224 => keccak 144 0x06 28 m
  | .SHA3_256 => keccak 136 0x06 32 m
  | .SHA3_384 => keccak 104 0x06 48 m
  | .SHA3_512 => keccak 72 0x06 64 m
  | .SHAKE128 => keccak 168 0x1f (if len = 0 then 16 else len) m
  | .SHAKE256 => keccak 136 0x1f (if len = 0 then 32 else len) m
  | .WHIRLPOOL => whirlpool m
  | .other _ => []

/-- RFC 2104, for a hash `H` with block size `bs`: a key longer than a block is hashed, the key is
filled with zeros to a block, `H(K ^ opad || H(K ^ ipad || m))`. -/
def hmac (H : List Byte → List Byte) (bs : Nat) (key m : List Byte) : List Byte :=
  let k := if key.length > bs then H key else key
  let k := k ++ List.replicate (bs - k.length) 0
  H (k.map (· ^^^ 0x5c) ++ H (k.map (· ^^^ 0x36) ++ m))

end Torsion.Spec
