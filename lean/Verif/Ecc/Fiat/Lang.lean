import Verif.Basic

/-!
# Model of the limb arithmetic in src/fields/*_64.h: the meaning of straight-line C

The functions are straight-line programs: every local is assigned once, in the order of its number. They are kept as syntax
(written by tools/fiat.py, one statement of C to one `St`); this file gives the syntax its meaning. A value is a number with the
width of its type. `int`, to which smaller types are promoted, has the width 31 and is never negative here: a result of type `int`
that is negative or does not fit is `ub`.
-/
namespace Torsion.Fiat

/-- A value of an unsigned type of `w` bits, or (`w = 31`) an `int` that is not negative, as in src/fields/p25519_64.h:15-19. -/
structure Val where
  w : Nat
  n : Nat
deriving DecidableEq, Repr

/-- Expressions of src/fields/p25519_64.h:109-1155 and the other files: `x i` is the local number `i` (from 0), `a w k i` is
`arg(k+1)[i]` of an array of `w`-bit elements, `lit w n` a literal. -/
inductive Ex where
  | x (i : Nat)
  | a (w k i : Nat)
  | lit (w n : Nat)
  | add (e f : Ex)
  | sub (e f : Ex)
  | mul (e f : Ex)
  | shr (e : Ex) (s : Nat)
  | shl (e : Ex) (s : Nat)
  | land (e f : Ex)
  | cast (w : Nat) (e : Ex)
deriving DecidableEq, Repr

/-- Statements of src/fields/p25519_64.h:109-1155 and the other files: assignment to a local of `w` bits, and the calls of
`addcarryx_u<s>`, `subborrowx_u<s>` and `cmovznz_u64`, which assign to the next two locals or the next one. -/
inductive St where
  | set (w : Nat) (e : Ex)
  | addc (s : Nat) (c a b : Ex)
  | subb (s : Nat) (c a b : Ex)
  | cmov (c a b : Ex)
deriving DecidableEq, Repr

/-- A function: the statements and the values of `out1[0]`, `out1[1]`, … (src/fields/p25519_64.h:109-1155 and the other files). -/
structure Prog where
  body : List St
  outs : List Ex

/-- Integer promotion in the expressions of src/fields/p25519_64.h:109-1155. -/
def prom (w : Nat) : Nat := if w < 32 then 31 else w

/-- The common type of two operands in src/fields/p25519_64.h:109-1155. -/
def join (v w : Nat) : Nat := max (prom v) (prom w)

/-- The result `n` in a type of `w` bits: unsigned types wrap, `int` must not overflow (src/fields/p25519_64.h:109-1155). -/
def fit (w n : Nat) : C Val := if w = 31 then (if n < 2 ^ 31 then .ok ⟨31, n⟩ else .ub) else .ok ⟨w, n % 2 ^ w⟩

/-- The value of an expression of src/fields/p25519_64.h:109-1155. -/
def eval (args : List (List Nat)) (env : List Val) : Ex → C Val
  | .x i => C.rd env i
  | .a w k i => do
    let l ← C.rd args k
    let n ← C.rd l i
    if n < 2 ^ w then .ok ⟨w, n⟩ else .ub
  | .lit w n => .ok ⟨w, n⟩
  | .add e f => do
    let u ← eval args env e
    let v ← eval args env f
    fit (join u.w v.w) (u.n + v.n)
  | .sub e f => do
    let u ← eval args env e
    let v ← eval args env f
    let w := join u.w v.w
    if w = 31 then (if v.n ≤ u.n then .ok ⟨31, u.n - v.n⟩ else .ub)
    else .ok ⟨w, (u.n + (2 ^ w - v.n % 2 ^ w)) % 2 ^ w⟩
  | .mul e f => do
    let u ← eval args env e
    let v ← eval args env f
    fit (join u.w v.w) (u.n * v.n)
  | .shr e s => do
    let u ← eval args env e
    if s < prom u.w then .ok ⟨prom u.w, u.n >>> s⟩ else .ub
  | .shl e s => do
    let u ← eval args env e
    if s < prom u.w then fit (prom u.w) (u.n <<< s) else .ub
  | .land e f => do
    let u ← eval args env e
    let v ← eval args env f
    .ok ⟨join u.w v.w, u.n &&& v.n⟩
  | .cast w e => do
    let u ← eval args env e
    .ok ⟨w, u.n % 2 ^ w⟩

/-- src/fields/p25519_64.h:40-49 `fiat_p25519_addcarryx_u51`, with the number of bits as an argument. -/
def addcarryx (s : Nat) (arg1 arg2 arg3 : Nat) : Nat × Nat :=
  let x1 := ((arg1 + arg2) % 2 ^ 64 + arg3) % 2 ^ 64
  let x2 := x1 &&& (2 ^ s - 1)
  let x3 := (x1 >>> s) % 2 ^ 8
  (x2, x3)

/-- The cast to `int64_t` in src/fields/p25519_64.h:65-74 `fiat_p25519_subborrowx_u51`. -/
def s64 (n : Nat) : Int := if n < 2 ^ 63 then n else (n : Int) - 2 ^ 64

/-- The cast to `signed char` in src/fields/p25519_64.h:65-74 `fiat_p25519_subborrowx_u51`. -/
def s8 (n : Int) : Int := if n % 2 ^ 8 < 2 ^ 7 then n % 2 ^ 8 else n % 2 ^ 8 - 2 ^ 8

/-- src/fields/p25519_64.h:65-74 `fiat_p25519_subborrowx_u51`, with the number of bits as an argument. Shifting a negative number to
the right rounds down, as with all usual compilers. -/
def subborrowx (s : Nat) (arg1 arg2 arg3 : Nat) : C (Nat × Nat) :=
  let x1 := s64 ((arg2 + (2 ^ 64 - arg1)) % 2 ^ 64) - s64 arg3
  if -2 ^ 63 ≤ x1 ∧ x1 < 2 ^ 63 then
    let x2 := s8 (x1 / 2 ^ s)
    let x3 := (x1 % 2 ^ 64).toNat &&& (2 ^ s - 1)
    .ok (x3, ((0 - x2) % 2 ^ 8).toNat)
  else .ub

/-- src/fields/p25519_64.h:88-96 `fiat_p25519_cmovznz_u64`; `fe_word_barrier` is the identity. -/
def cmovznz (arg1 arg2 arg3 : Nat) : Nat :=
  let x1 := if arg1 = 0 then 0 else 1
  let x2 := (2 ^ 64 - x1) % 2 ^ 64 &&& 0xffffffffffffffff
  (x2 &&& arg3) ||| ((2 ^ 64 - 1 - x2) &&& arg2)

/-- One statement of src/fields/p25519_64.h:109-1155. The arguments of a call are converted to the types of the parameters. -/
def step (args : List (List Nat)) (env : List Val) : St → C (List Val)
  | .set w e => do
    let v ← eval args env e
    .ok (env ++ [⟨w, v.n % 2 ^ w⟩])
  | .addc s c a b => do
    let c ← eval args env c
    let a ← eval args env a
    let b ← eval args env b
    let r := addcarryx s (c.n % 2 ^ 8) (a.n % 2 ^ 64) (b.n % 2 ^ 64)
    .ok (env ++ [⟨64, r.1⟩, ⟨8, r.2⟩])
  | .subb s c a b => do
    let c ← eval args env c
    let a ← eval args env a
    let b ← eval args env b
    let r ← subborrowx s (c.n % 2 ^ 8) (a.n % 2 ^ 64) (b.n % 2 ^ 64)
    .ok (env ++ [⟨64, r.1⟩, ⟨8, r.2⟩])
  | .cmov c a b => do
    let c ← eval args env c
    let a ← eval args env a
    let b ← eval args env b
    .ok (env ++ [⟨64, cmovznz (c.n % 2 ^ 8) (a.n % 2 ^ 64) (b.n % 2 ^ 64)⟩])

/-- The statements of src/fields/p25519_64.h:109-1155 in their order. -/
def steps (args : List (List Nat)) : List St → List Val → C (List Val)
  | [], env => .ok env
  | s :: r, env => do
    let env ← step args env s
    steps args r env

/-- The assignments to `out1` at the end of the functions of src/fields/p25519_64.h:109-1155. -/
def outputs (args : List (List Nat)) (env : List Val) : List Ex → C (List Nat)
  | [] => .ok []
  | e :: r => do
    let v ← eval args env e
    let l ← outputs args env r
    .ok (v.n :: l)

/-- A call of one of the functions of src/fields/p25519_64.h:109-1155, with the contents of the arrays. -/
def run (p : Prog) (args : List (List Nat)) : C (List Nat) := do
  let env ← steps args p.body []
  outputs args env p.outs

end Torsion.Fiat
