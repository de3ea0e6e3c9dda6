import Verif.Util.Spec

/-!
# MurmurHash3_x86_32

After the public-domain definition of A. Appleby. The hash of a string is a fold over its 32-bit words (lowest byte first), the last
of which may be shorter, and a finalizer.
-/
namespace Torsion.Spec

/-- How a word is mixed before it enters the state. -/
def mmMix (k : BitVec 32) : BitVec 32 := (k * 0xcc9e2d51).rotateLeft 15 * 0x1b873593

/-- A whole word. -/
def mmBody (h k : BitVec 32) : BitVec 32 := (h ^^^ mmMix k).rotateLeft 13 * 5 + 0xe6546b64

/-- The finalizer `fmix32`. -/
def mmFinal (h : BitVec 32) : BitVec 32 :=
  let h := h ^^^ (h >>> 16)
  let h := h * 0x85ebca6b
  let h := h ^^^ (h >>> 13)
  let h := h * 0xc2b2ae35
  h ^^^ (h >>> 16)

/-- A walk over the groups of four bytes of a string. What is left at the end, three bytes at most, is given to `last`. -/
def mmWalk {σ : Type} (body last : σ → List Byte → σ) : List Byte → σ → σ
  | a :: b :: c :: d :: m, h => mmWalk body last m (body h [a, b, c, d])
  | t, h => last h t

/-- The words of the string, the last of which is not rotated into the state. -/
def mmWords (m : List Byte) (h : BitVec 32) : BitVec 32 :=
  mmWalk (fun h w => mmBody h (BitVec.ofNat 32 (leVal w))) (fun h t => h ^^^ mmMix (BitVec.ofNat 32 (leVal t))) m h

/-- The hash. -/
def murmur3 (seed : BitVec 32) (m : List Byte) : BitVec 32 := mmFinal (mmWords m seed ^^^ BitVec.ofNat 32 m.length)

end Torsion.Spec
