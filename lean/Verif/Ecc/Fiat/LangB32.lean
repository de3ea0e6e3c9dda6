import Verif.Ecc.Fiat.Lang

/-!
# Model of the serialisation in src/fields/*_32.h: the meaning of its statements

As `Verif/Ecc/Fiat/Lang.lean`, but the calls are those of `addcarryx_u<s>`, `subborrowx_u<s>` and `cmovznz_u32` on words of 32 bits.
-/
namespace Torsion.Fiat.B32

/-- src/fields/p25519_32.h:38-47 `fiat_p25519_addcarryx_u26`, with the number of bits as an argument. -/
def addcarryx (s : Nat) (arg1 arg2 arg3 : Nat) : Nat × Nat :=
  let x1 := ((arg1 + arg2) % 2 ^ 32 + arg3) % 2 ^ 32
  let x2 := x1 &&& (2 ^ s - 1)
  let x3 := (x1 >>> s) % 2 ^ 8
  (x2, x3)

/-- The cast to `int32_t` in src/fields/p25519_32.h:63-72 `fiat_p25519_subborrowx_u26`. -/
def s32 (n : Nat) : Int := if n < 2 ^ 31 then n else (n : Int) - 2 ^ 32

/-- src/fields/p25519_32.h:63-72 `fiat_p25519_subborrowx_u26`, with the number of bits as an argument. Shifting a negative number to
the right rounds down, as with all usual compilers. -/
def subborrowx (s : Nat) (arg1 arg2 arg3 : Nat) : C (Nat × Nat) :=
  let x1 := s32 ((arg2 + (2 ^ 32 - arg1)) % 2 ^ 32) - s32 arg3
  if -2 ^ 31 ≤ x1 ∧ x1 < 2 ^ 31 then
    let x2 := s8 (x1 / 2 ^ s)
    let x3 := (x1 % 2 ^ 32).toNat &&& (2 ^ s - 1)
    .ok (x3, ((0 - x2) % 2 ^ 8).toNat)
  else .ub

/-- src/fields/p25519_32.h:136-144 `fiat_p25519_cmovznz_u32`; `fe_word_barrier` is the identity. -/
def cmovznz (arg1 arg2 arg3 : Nat) : Nat :=
  let x1 := if arg1 = 0 then 0 else 1
  let x2 := (2 ^ 32 - x1) % 2 ^ 32 &&& 0xffffffff
  (x2 &&& arg3) ||| ((2 ^ 32 - 1 - x2) &&& arg2)

/-- One statement of src/fields/p25519_32.h:1448-1700. The arguments of a call are converted to the types of the parameters. -/
def step (args : List (List Nat)) (env : List Val) : St → C (List Val)
  | .set w e => do
    let v ← eval args env e
    .ok (env ++ [⟨w, v.n % 2 ^ w⟩])
  | .addc s c a b => do
    let c ← eval args env c
    let a ← eval args env a
    let b ← eval args env b
    let r := addcarryx s (c.n % 2 ^ 8) (a.n % 2 ^ 32) (b.n % 2 ^ 32)
    .ok (env ++ [⟨32, r.1⟩, ⟨8, r.2⟩])
  | .subb s c a b => do
    let c ← eval args env c
    let a ← eval args env a
    let b ← eval args env b
    let r ← subborrowx s (c.n % 2 ^ 8) (a.n % 2 ^ 32) (b.n % 2 ^ 32)
    .ok (env ++ [⟨32, r.1⟩, ⟨8, r.2⟩])
  | .cmov c a b => do
    let c ← eval args env c
    let a ← eval args env a
    let b ← eval args env b
    .ok (env ++ [⟨32, cmovznz (c.n % 2 ^ 8) (a.n % 2 ^ 32) (b.n % 2 ^ 32)⟩])

/-- The statements of src/fields/p25519_32.h:1448-1700 in their order. -/
def steps (args : List (List Nat)) : List St → List Val → C (List Val)
  | [], env => .ok env
  | s :: r, env => do
    let env ← step args env s
    steps args r env

/-- A call of one of the functions of src/fields/p25519_32.h:1448-1700, with the contents of the arrays. -/
def run (p : Prog) (args : List (List Nat)) : C (List Nat) := do
  let env ← steps args p.body []
  outputs args env p.outs

end Torsion.Fiat.B32
