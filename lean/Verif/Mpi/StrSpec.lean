import Verif.Mpi.MpzSpec
import Verif.Util.Spec

/-!
# Specification: integers as strings
-/
namespace Torsion.Spec

/-- Tab, line feed, vertical tab, form feed, carriage return and space. -/
def isBlank (c : Byte) : Bool := (9 ≤ c.toNat && c.toNat ≤ 13) || c.toNat = 32

/-- The digit a character stands for. Up to base 36 letters count regardless of case, beyond it the
lower-case letters follow the upper-case ones. -/
def digitOf (base : Nat) (c : Byte) : Option Nat :=
  let n := c.toNat
  let d :=
    if 48 ≤ n ∧ n ≤ 57 then some (n - 48)
    else if 65 ≤ n ∧ n ≤ 90 then some (n - 65 + 10)
    else if 97 ≤ n ∧ n ≤ 122 then some (n - 97 + (if base ≤ 36 then 10 else 36))
    else none
  d.filter (· < base)

/-- The number a string of digits stands for, blanks being ignored; `none` if it contains anything
else. A string without digits stands for 0. -/
def parseNat (base : Nat) (s : List Byte) : Option Nat :=
  ((s.filter fun c => !isBlank c).mapM (digitOf base)).map fun ds => Nat.ofDigits base ds.reverse

/-- The base announced by a prefix `0b`, `0o`, `0x` or `0` (octal), and the digits after it. -/
def autoBase (s : List Byte) : Nat × List Byte :=
  match s with
  | [] => (10, s)
  | c :: t =>
    if c ≠ 48#8 then (10, s)
    else match t with
      | [] => (8, s)
      | d :: r =>
        if d = 98#8 ∨ d = 66#8 then (2, r)
        else if d = 111#8 ∨ d = 79#8 then (8, r)
        else if d = 120#8 ∨ d = 88#8 then (16, r)
        else (8, s)

/-- Digits of base `base`, or of the base announced by the prefix if `base` is 0. -/
def parseAbs (base : Nat) (s : List Byte) : Option Nat :=
  if base = 0 then parseNat (autoBase s).1 (autoBase s).2 else parseNat base s

/-- The integer of an optional sign and an unsigned numeral. -/
def parseSigned (base : Nat) (s : List Byte) : Option Int :=
  match s with
  | [] => (parseAbs base s).map fun v => (v : Int)
  | c :: t =>
    if c = 45#8 then (parseAbs base t).map fun v => -(v : Int)
    else if c = 43#8 then (parseAbs base t).map fun v => (v : Int)
    else (parseAbs base s).map fun v => (v : Int)

/-- The integer a string stands for: leading blanks are skipped. -/
def parseInt (base : Nat) (s : List Byte) : Option Int := parseSigned base (s.dropWhile isBlank)

/-- The character of a digit: lower case up to base 36, beyond it upper case before lower case. -/
def charOf (base d : Nat) : Byte :=
  BitVec.ofNat 8 (
    if d < 10 then 48 + d
    else if base ≤ 36 then 97 + (d - 10)
    else if d < 36 then 65 + (d - 10)
    else 97 + (d - 36))

/-- The numeral of a number, without leading zeros. -/
def numeral (base v : Nat) : List Byte :=
  if v = 0 then [48] else (Nat.digits base v).reverse.map (charOf base)

/-- The numeral of an integer. -/
def signedNumeral (base : Nat) (i : Int) : List Byte :=
  if i < 0 then 45 :: numeral base i.natAbs else numeral base i.natAbs

end Torsion.Spec
