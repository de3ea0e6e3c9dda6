import Verif.Stream.Spec

/-!
# Independent specification of Poly1305 (RFC 7539 2.5) and SipHash-2-4
-/
namespace Torsion.Spec

/-- The prime 2^130 - 5. -/
def polyP : Nat := 2 ^ 130 - 5

/-- The clamped multiplier. -/
def polyR (key : List Byte) : Nat :=
  leVal (key.take 16) &&& 0x0ffffffc0ffffffc0ffffffc0fffffff

/-- The final summand. -/
def polyS (key : List Byte) : Nat := leVal ((key.drop 16).take 16)

/-- The message in pieces of 16 bytes (the last one may be shorter). -/
def pieces (m : List Byte) : List (List Byte) :=
  (List.range ((m.length + 15) / 16)).map fun i => (m.drop (16 * i)).take 16

/-- One piece: append the byte 1, add, multiply. -/
def poly1305Step (r acc : Nat) (c : List Byte) : Nat := (acc + leVal (c ++ [1])) * r % polyP

/-- RFC 7539 2.5: the tag. -/
def poly1305 (key m : List Byte) : List Byte :=
  leBytes 16 (((pieces m).foldl (poly1305Step (polyR key)) 0 + polyS key) % 2 ^ 128)

/-- Zeroes up to a multiple of 16. -/
def pad16 (m : List Byte) : List Byte := m ++ List.replicate ((16 - m.length % 16) % 16) 0

/-! ### SipHash-2-4 (Aumasson, Bernstein) -/

/-- The four-word state. -/
abbrev Sip := BitVec 64 × BitVec 64 × BitVec 64 × BitVec 64

/-- SipRound, in the column order of the paper: two half-rounds of add, rotate, xor. -/
def sipRound : Sip → Sip := fun (v0, v1, v2, v3) =>
  let (a0, a2) := (v0 + v1, v2 + v3)
  let (a1, a3) := (v1.rotateLeft 13 ^^^ a0, v3.rotateLeft 16 ^^^ a2)
  let a0 := a0.rotateLeft 32
  let (b2, b0) := (a2 + a1, a0 + a3)
  let (b1, b3) := (a1.rotateLeft 17 ^^^ b2, a3.rotateLeft 21 ^^^ b0)
  (b0, b1, b2.rotateLeft 32, b3)

/-- Two compression rounds per word. -/
def sipAbsorb (s : Sip) (w : BitVec 64) : Sip :=
  let (v0, v1, v2, v3) := sipRound (sipRound (s.1, s.2.1, s.2.2.1, s.2.2.2 ^^^ w))
  (v0 ^^^ w, v1, v2, v3)

/-- Four finalisation rounds. -/
def sipFinish (s : Sip) : BitVec 64 :=
  let (v0, v1, v2, v3) :=
    sipRound (sipRound (sipRound (sipRound (s.1, s.2.1, s.2.2.1 ^^^ 0xff, s.2.2.2))))
  v0 ^^^ v1 ^^^ v2 ^^^ v3

/-- The little-endian word at byte offset `8 * i`. -/
def word64 (m : List Byte) (i : Nat) : BitVec 64 := BitVec.ofNat 64 (leVal ((m.drop (8 * i)).take 8))

/-- The keyed initial state. -/
def sipKey (key : List Byte) : Sip :=
  (word64 key 0 ^^^ 0x736f6d6570736575, word64 key 1 ^^^ 0x646f72616e646f6d,
    word64 key 0 ^^^ 0x6c7967656e657261, word64 key 1 ^^^ 0x7465646279746573)

/-- Zeroes and, as last byte of the last word, the length modulo 256. -/
def sipPad (m : List Byte) : List Byte :=
  m ++ List.replicate (7 - m.length % 8) 0 ++ [BitVec.ofNat 8 m.length]

/-- SipHash-2-4. -/
def siphash (key m : List Byte) : BitVec 64 :=
  sipFinish (((List.range ((sipPad m).length / 8)).map (word64 (sipPad m))).foldl sipAbsorb (sipKey key))

end Torsion.Spec
