import Verif.Util.Spec
import Mathlib.Logic.Function.Iterate
import Mathlib.Data.List.FinRange

/-!
# Independent specification of ChaCha20 (RFC 7539), Salsa20 (Bernstein's spec) and RC4
-/
namespace Torsion.Spec

/-- `n` little-endian bytes of a number. -/
def leBytes (n v : Nat) : List Byte := (List.range n).map fun i => BitVec.ofNat 8 (v / 256 ^ i)

/-- The little-endian 32-bit word at byte offset `off`. -/
def word (b : List Byte) (off : Nat) : BitVec 32 := BitVec.ofNat 32 (leVal ((b.drop off).take 4))

/-- The 4 x 4 matrix of words of ChaCha20 and Salsa20. -/
abbrev Mat := Fin 16 → BitVec 32

/-- Apply a function of four words to four entries of the matrix. -/
def onFour (f : BitVec 32 → BitVec 32 → BitVec 32 → BitVec 32 →
      BitVec 32 × BitVec 32 × BitVec 32 × BitVec 32) (i j k l : Fin 16) (s : Mat) : Mat :=
  let r := f (s i) (s j) (s k) (s l)
  fun n => if n = i then r.1 else if n = j then r.2.1 else if n = k then r.2.2.1
    else if n = l then r.2.2.2 else s n

/-- RFC 7539 2.1: the ChaCha quarter round. -/
def chachaQuarter (a b c d : BitVec 32) : BitVec 32 × BitVec 32 × BitVec 32 × BitVec 32 :=
  let a := a + b; let d := (d ^^^ a).rotateLeft 16
  let c := c + d; let b := (b ^^^ c).rotateLeft 12
  let a := a + b; let d := (d ^^^ a).rotateLeft 8
  let c := c + d; let b := (b ^^^ c).rotateLeft 7
  (a, b, c, d)

/-- RFC 7539 2.3: four column rounds and four diagonal rounds. -/
def chachaDouble (s : Mat) : Mat :=
  let q := onFour chachaQuarter
  (s |> q 0 4 8 12 |> q 1 5 9 13 |> q 2 6 10 14 |> q 3 7 11 15
     |> q 0 5 10 15 |> q 1 6 11 12 |> q 2 7 8 13 |> q 3 4 9 14)

/-- Salsa20 specification, section 3: quarterround. -/
def salsaQuarter (y0 y1 y2 y3 : BitVec 32) : BitVec 32 × BitVec 32 × BitVec 32 × BitVec 32 :=
  let z1 := y1 ^^^ (y0 + y3).rotateLeft 7
  let z2 := y2 ^^^ (z1 + y0).rotateLeft 9
  let z3 := y3 ^^^ (z2 + z1).rotateLeft 13
  let z0 := y0 ^^^ (z3 + z2).rotateLeft 18
  (z0, z1, z2, z3)

/-- Salsa20 specification, sections 4 to 6: rowround after columnround. -/
def salsaDouble (s : Mat) : Mat :=
  let q := onFour salsaQuarter
  (s |> q 0 4 8 12 |> q 5 9 13 1 |> q 10 14 2 6 |> q 15 3 7 11
     |> q 0 1 2 3 |> q 5 6 7 4 |> q 10 11 8 9 |> q 15 12 13 14)

/-- Ten double rounds, feed-forward, serialisation: one 64-byte key stream block. -/
def core (dbl : Mat → Mat) (s : Mat) : List Byte :=
  (List.finRange 16).flatMap fun i => leBytes 4 ((dbl^[10]) s i + s i).toNat

/-- The matrix with `k` added to the 64-bit number in the words `lo`, `hi` (modulo 2^64). -/
def addCtr (lo hi : Fin 16) (s : Mat) (k : Nat) : Mat :=
  let c := (s lo).toNat + 2 ^ 32 * (s hi).toNat + k
  fun n => if n = lo then BitVec.ofNat 32 c
    else if n = hi then BitVec.ofNat 32 (c / 2 ^ 32) else s n

/-- Byte `i` of the key stream: block number `i / 64`, byte `i % 64`. -/
def chachaStream (s : Mat) (i : Nat) : Byte :=
  (core chachaDouble (addCtr 12 13 s (i / 64))).getD (i % 64) 0

/-- Byte `i` of the Salsa20 key stream. -/
def salsaStream (s : Mat) (i : Nat) : Byte :=
  (core salsaDouble (addCtr 8 9 s (i / 64))).getD (i % 64) 0

/-- XOR with a key stream from position `off` on. -/
def xorStream (ks : Nat → Byte) (off : Nat) (m : List Byte) : List Byte :=
  m.mapIdx fun i c => c ^^^ ks (off + i)

/-- The constants "expand 32-byte k" / "expand 16-byte k". -/
def sigma (keyLen i : Nat) : BitVec 32 :=
  let s := if keyLen = 32 then "expand 32-byte k" else "expand 16-byte k"
  BitVec.ofNat 32 (leVal ((((s.toList.map fun c => BitVec.ofNat 8 c.toNat).drop (4 * i)).take 4)))

/-- ChaCha matrix: constants, key (a 16-byte key twice), then the four given words. -/
def chachaMat (key : List Byte) (a b c d : BitVec 32) : Mat :=
  let s := sigma key.length
  let k := fun i => word (if key.length = 32 then key else key ++ key) (4 * i)
  fun n => [s 0, s 1, s 2, s 3, k 0, k 1, k 2, k 3, k 4, k 5, k 6, k 7, a, b, c, d][n]

/-- Salsa matrix: constants on the diagonal, key halves around the four given words. -/
def salsaMat (key : List Byte) (a b c d : BitVec 32) : Mat :=
  let s := sigma key.length
  let k := fun i => word (if key.length = 32 then key else key ++ key) (4 * i)
  fun n => [s 0, k 0, k 1, k 2, k 3, s 1, a, b, c, d, s 2, k 4, k 5, k 6, k 7, s 3][n]

/-- HChaCha20: rows 0 and 3 of the matrix after ten double rounds. -/
def hchacha (key nonce : List Byte) : List Byte :=
  let s := (chachaDouble^[10]) (chachaMat key (word nonce 0) (word nonce 4) (word nonce 8)
    (word nonce 12))
  [0, 1, 2, 3, 12, 13, 14, 15].flatMap fun i : Fin 16 => leBytes 4 (s i).toNat

/-- HSalsa20: the diagonal and the four nonce words after ten double rounds. -/
def hsalsa (key nonce : List Byte) : List Byte :=
  let s := (salsaDouble^[10]) (salsaMat key (word nonce 0) (word nonce 4) (word nonce 8)
    (word nonce 12))
  [0, 5, 10, 15, 6, 7, 8, 9].flatMap fun i : Fin 16 => leBytes 4 (s i).toNat

/-- The ChaCha matrix for the nonce sizes 8 (64-bit counter), 12 (RFC 7539) and 16 (no counter),
and the extended-nonce versions 24, 28 and 32 (XChaCha). -/
def chachaInit (key nonce : List Byte) (counter : Nat) : Mat :=
  let key' := if 24 ≤ nonce.length then hchacha key nonce else key
  let n := if 24 ≤ nonce.length then nonce.drop 16 else nonce
  if n.length = 8 then
    chachaMat key' (BitVec.ofNat 32 counter) (BitVec.ofNat 32 (counter / 2 ^ 32)) (word n 0)
      (word n 4)
  else if n.length = 12 then
    chachaMat key' (BitVec.ofNat 32 counter) (word n 0) (word n 4) (word n 8)
  else chachaMat key' (word n 0) (word n 4) (word n 8) (word n 12)

/-- The Salsa matrix, likewise. -/
def salsaInit (key nonce : List Byte) (counter : Nat) : Mat :=
  let key' := if 24 ≤ nonce.length then hsalsa key nonce else key
  let n := if 24 ≤ nonce.length then nonce.drop 16 else nonce
  if n.length = 8 then
    salsaMat key' (word n 0) (word n 4) (BitVec.ofNat 32 counter)
      (BitVec.ofNat 32 (counter / 2 ^ 32))
  else if n.length = 12 then
    salsaMat key' (word n 0) (word n 4) (word n 8) (BitVec.ofNat 32 counter)
  else salsaMat key' (word n 0) (word n 4) (word n 8) (word n 12)

/-- RC4: exchange two entries of the permutation. -/
def rc4Swap (s : Byte → Byte) (i j : Byte) : Byte → Byte :=
  fun x => if x = i then s j else if x = j then s i else s x

/-- RC4 key scheduling, starting from the identity. -/
def rc4Key (key : List Byte) : Byte → Byte :=
  ((List.range 256).foldl (fun (p : (Byte → Byte) × Byte) i =>
    let j := p.2 + p.1 (BitVec.ofNat 8 i) + key.getD (i % key.length) 0
    (rc4Swap p.1 (BitVec.ofNat 8 i) j, j)) (id, 0)).1

/-- One step of the RC4 generator on (permutation, i, j). -/
def rc4Next (p : (Byte → Byte) × Byte × Byte) : (Byte → Byte) × Byte × Byte :=
  let i := p.2.1 + 1
  let j := p.2.2 + p.1 i
  (rc4Swap p.1 i j, i, j)

/-- Byte `n` of the RC4 key stream. -/
def rc4Stream (key : List Byte) (n : Nat) : Byte :=
  let p := rc4Next^[n + 1] (rc4Key key, 0, 0)
  p.1 (p.1 p.2.1 + p.1 p.2.2)

end Torsion.Spec
