import Verif.Basic
import Mathlib.Analysis.Real.Pi.Bounds

/-!
# Independent specification of Blowfish (Schneier, 1993) and of its expensive key schedule (Provos and Mazières, 1999)

The 18 words of the P-array and the 1024 words of the four S-boxes are one sequence of words, in this order.
-/
namespace Torsion.Spec

/-- The subkeys: P-array, then S-boxes. -/
abbrev BfState := Nat → BitVec 32

/-- Entry `x` of S-box number `i`. -/
def bfBox (s : BfState) (i : Nat) (x : Nat) : BitVec 32 := s (18 + 256 * i + x)

/-- The function F: the four bytes of the word from the most significant one, each through its box, joined with +, xor, +. -/
def bfF (s : BfState) (x : BitVec 32) : BitVec 32 :=
  ((bfBox s 0 (x.toNat / 2 ^ 24 % 256) + bfBox s 1 (x.toNat / 2 ^ 16 % 256)) ^^^ bfBox s 2 (x.toNat / 2 ^ 8 % 256)) +
    bfBox s 3 (x.toNat % 256)

/-- One of the sixteen rounds, with the exchange of the halves. -/
def bfRound (s : BfState) (x : BitVec 32 × BitVec 32) (i : Nat) : BitVec 32 × BitVec 32 :=
  (x.2 ^^^ bfF s (x.1 ^^^ s i), x.1 ^^^ s i)

/-- Sixteen rounds; the last exchange is undone; the last two subkeys. -/
def bfEncrypt (s : BfState) (x : BitVec 32 × BitVec 32) : BitVec 32 × BitVec 32 :=
  let y := (List.range 16).foldl (bfRound s) x
  (y.2 ^^^ s 17, y.1 ^^^ s 16)

/-- Word number `i` of the endless repetition of a string, most significant byte first; 0 for the empty string. -/
def cycWord (m : List Byte) (i : Nat) : BitVec 32 :=
  if m = [] then 0
  else BitVec.ofNat 32 ((List.range 4).foldl (fun a j => 256 * a + (m.getD ((4 * i + j) % m.length) 0).toNat) 0)

/-- Replacing two words. -/
def bfSet (s : BfState) (k : Nat) (x : BitVec 32 × BitVec 32) : BfState :=
  fun i => if i = 2 * k then x.1 else if i = 2 * k + 1 then x.2 else s i

/-- One step of the key schedule: two words of the salt into the last block, encryption, two subkeys replaced. -/
def bfStep (salt : List Byte) (t : BfState × (BitVec 32 × BitVec 32)) (k : Nat) : BfState × (BitVec 32 × BitVec 32) :=
  let x := bfEncrypt t.1 (t.2.1 ^^^ cycWord salt (2 * k), t.2.2 ^^^ cycWord salt (2 * k + 1))
  (bfSet t.1 k x, x)

/-- ExpandKey(state, salt, key) of Provos and Mazières; with the empty salt it is the key schedule of Blowfish. -/
def bfExpand (s : BfState) (salt key : List Byte) : BfState :=
  ((List.range 521).foldl (bfStep salt) ((fun i => if i < 18 then s i ^^^ cycWord key i else s i), (0, 0))).1

/-- The four bytes of a word, most significant first. -/
def be32 (w : BitVec 32) : List Byte := [24, 16, 8, 0].map fun k => BitVec.ofNat 8 (w.toNat / 2 ^ k)

/-- The initial subkeys: the binary digits of the fractional part of π, 32 for each of the 1042 words. -/
noncomputable def bfPi : BfState := fun i => if i < 1042 then BitVec.ofNat 32 ⌊Real.pi * 2 ^ (32 * (i + 1))⌋₊ else 0

end Torsion.Spec
