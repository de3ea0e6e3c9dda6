import Verif.Ecc.Chains
import Mathlib.Algebra.Field.Basic

/-!
# Model: inversion and square roots in the prime fields

The functions of src/fields and src/ecc.c for inverses and square roots, over a field `F` whose multiplication stands
for the fiat multiplication and carry code of src/fields/*_64.h and *_32.h (not modelled): `*_mul`, `*_sqr` compute the
product, `*_set` copies, `*_equal` compares the elements (the real functions compare byte encodings or words).
-/
namespace Torsion

variable {F : Type} [Field F] [DecidableEq F]

/-- The multiplication of the field (`fiat_*_carry_mul`), as an operation on registers: src/fields/p256.h:25, `p256_fe_mul`, for example. -/
def feMul (a b : F) : C F := .ok (a * b)

/-- A call `f(z, x)` of a chain; `z` and `x` are registers below 2, possibly the same:
src/fields/p256.h:125-143, `p256_fe_invert`, for example. -/
def runChain (f : Nat → Nat → Nat → List Ins) (z x : Nat) (a : F) : C F := do
  let s ← runIns feMul (f z x 2) (regSet (fun _ => none) x a)
  regGet s z

/-- A call `f(z, x)` of a square root which ends with a comparison: src/fields/p256.h:145-195, `p256_fe_sqrt`, for
example. -/
def runSqrt (f : Nat → Nat → Nat → List Ins × (Nat × Nat) × List Ins) (z x : Nat) (a : F) : C (F × Bool) := do
  let s ← runIns feMul (f z x 2).1 (regSet (fun _ => none) x a)
  let u ← regGet s (f z x 2).2.1.1
  let v ← regGet s (f z x 2).2.1.2
  let s ← runIns feMul (f z x 2).2.2 s
  let r ← regGet s z
  return (r, decide (u = v))

/-- A call `f(z, u, v)` of an inverse square root; `u` is register 1, `v` is register 2, and `z` is one of the
registers below 3: src/fields/p256.h:197-220, `p256_fe_isqrt`, for example. -/
def runIsqrt (f : Nat → Nat → Nat → Nat → List Ins × (Nat × Nat) × List Ins) (z : Nat) (a b : F) : C (F × Bool) := do
  let s ← runIns feMul (f z 1 2 3).1 (regSet (regSet (fun _ => none) 1 a) 2 b)
  let u ← regGet s (f z 1 2 3).2.1.1
  let v ← regGet s (f z 1 2 3).2.1.2
  let s ← runIns feMul (f z 1 2 3).2.2 s
  let r ← regGet s z
  return (r, decide (u = v))

/-- src/fields/p25519.h:28-40, `p25519_sqrtneg1` in 51-bit words, the square root of -1. -/
def p25519_sqrtneg1_limbs : List Nat :=
  [0x00061b274a0ea0b0, 0x0000d5a5fc8f189d, 0x0007ef5e9cbd0c60, 0x00078595a6804c9e, 0x0002b8324804fc1d]

/-- src/fields/p25519.h:28-40, `p25519_sqrtneg1`: the number. -/
def p25519_sqrtneg1 : Nat := p25519_sqrtneg1_limbs.foldr (fun w acc => w + 2 ^ 51 * acc) 0

/-- src/fields/p25519.h:182-214 `p25519_fe_sqrt`. `x1` is a copy of `x` and the locals are not shared, so that the call
does not depend on whether `z` is `x`. -/
def p25519_fe_sqrt (x : F) : C (F × Bool) := do
  let x2 := x * x * x
  let s ← runIns feMul (p25519_fe_pow_core 0 1 2 3) (regSet (regSet (fun _ => none) 1 x) 2 x2)
  let z ← regGet s 0
  let z := z * z * x
  let z := z * z
  let c := z * z
  let t := z * (p25519_sqrtneg1 : F)
  let z := if c = x then z else t
  let c := z * z
  return (z, decide (c = x))

/-- src/fields/p25519.h:216-254 `p25519_fe_isqrt`. `z` is written last. -/
def p25519_fe_isqrt (u v : F) : C (F × Bool) := do
  let t := v * v * v
  let x := t * t * v * u
  let x ← runChain p25519_fe_pow_pm5d8 0 0 x
  let x := x * t * u
  let c := x * x * v
  let css := decide (c = u)
  let c := -c
  let fss := decide (c = u)
  let t := u * (p25519_sqrtneg1 : F)
  let fssi := decide (c = t)
  let t := x * (p25519_sqrtneg1 : F)
  let z := if fss || fssi then t else x
  return (z, css || fss)

/-- src/fields/p224.h:36-39, `p224_g`: the words of the 64-bit version, in Montgomery form with `R = 2^256`. -/
def p224_g_mont : Nat :=
  [0x174131b85ee27c6c, 0x7869be5d866c223b, 0x6d3e2af0dd915e4b, 0x00000000a31b1da4].foldr
    (fun w acc => w + 2 ^ 64 * acc) 0

/-- src/fields/p224.h:48-51, `p224_g`: the words of the 32-bit version, in Montgomery form with `R = 2^224`. -/
def p224_g_mont32 : Nat :=
  [0x174131b9, 0x866c223b, 0xd74c3ac9, 0xdd915e4a, 0x6d3e2af0, 0xa31b1da4, 0xa11d8394].foldr
    (fun w acc => w + 2 ^ 32 * acc) 0

/-- src/fields/p224.h:36, `p224_g`: the number, by the comment at src/fields/p224.h:257. -/
def p224_g : Nat := 0x6a0fec678598a7920c55b2d40b2d6ffbbea3d8cef3fb3632dc691b74

/-- src/fields/p224.h:82-96 `p224_fe_sqrn`. -/
def p224_fe_sqrn (x : F) (n : Nat) : C F := sqr_loop feMul n x

/-- src/fields/p224.h:306-324, `p224_fe_sqrt`, the loop: `i + 1` iterations are left for `i + 1`. -/
def p224_sqrt_loop : Nat → F → F → F → C F
  | 0, z, _, _ => .ok z
  | i + 1, z, t, c => do
    let b ← p224_fe_sqrn t i
    let eq := decide (b = 1)
    let v := z * c
    let z := if eq then z else v
    let c := c * c
    let v := t * c
    let t := if eq then t else v
    p224_sqrt_loop i z t c

/-- src/fields/p224.h:246-326 `p224_fe_sqrt`. -/
def p224_fe_sqrt (x : F) : C (F × Bool) := do
  let z ← runChain p224_fe_pow_em1 0 1 x
  let t := z * z * x
  let z := z * x
  let z ← p224_sqrt_loop 95 z t (p224_g : F)
  let v := z * z
  return (z, decide (v = x))

/-- src/fields/p224.h:405-410, `p224_fe_sqrt_var`, the inner loop: `n` is `k - m`. -/
def p224_order_loop : Nat → F → Nat → Nat
  | 0, _, m => m
  | n + 1, t, m => if t = 1 then m else p224_order_loop n (t * t) (m + 1)

/-- src/fields/p224.h:399-427, `p224_fe_sqrt_var`, the outer loop, for at most `fuel` iterations (`k` decreases, so
that 97 are enough; `ub` otherwise). -/
def p224_sqrt_var_loop : Nat → F → F → F → Nat → C (Option F)
  | 0, _, _, _, _ => .ub
  | fuel + 1, y, b, g, k => do
    let m := p224_order_loop k b 0
    if m = 0 then return some y
    if m ≥ k then return none
    let t ← p224_fe_sqrn g (k - m - 1)
    let g := t * t
    p224_sqrt_var_loop fuel (y * t) (b * g) g m

/-- src/fields/p224.h:328-429 `p224_fe_sqrt_var`. The output is zero when there is no root. -/
def p224_fe_sqrt_var (x : F) : C (F × Bool) := do
  let y ← runChain p224_fe_pow_e 0 1 x
  let b ← runChain p224_fe_pow_s 0 1 x
  let t ← p224_fe_sqrn b 95
  if t = 0 then return (0, true)
  if t ≠ 1 then return (0, false)
  match ← p224_sqrt_var_loop 97 y b (p224_g : F) 96 with
  | some y => return (y, true)
  | none => return (0, false)

/-- src/ecc.c:315-340, `prime_def_t`: the members for inverses and roots; the pointers which may be null are options. -/
structure FieldCode where
  /-- the modulus -/
  p : Nat
  invert : Nat → Nat → Nat → List Ins
  sqrt : {F : Type} → [Field F] → [DecidableEq F] → Nat → Nat → F → C (F × Bool)
  isqrt : {F : Type} → [Field F] → [DecidableEq F] → Option (Nat → F → F → C (F × Bool))
  legendre : Option (Nat → Nat → Nat → List Ins)

/-- src/ecc.c:9066-9096, `field_p192`. -/
def field_p192 : FieldCode :=
  { p := 2 ^ 192 - 2 ^ 64 - 1, invert := p192_fe_invert, sqrt := runSqrt p192_fe_sqrt,
    isqrt := some (runIsqrt p192_fe_isqrt), legendre := none }

/-- src/ecc.c:9114-9145, `field_p224`. -/
def field_p224 : FieldCode :=
  { p := 2 ^ 224 - 2 ^ 96 + 1, invert := p224_fe_invert, sqrt := fun _ _ x => p224_fe_sqrt x, isqrt := none,
    legendre := some p224_fe_legendre }

/-- src/ecc.c:9164-9195, `field_p256`. -/
def field_p256 : FieldCode :=
  { p := 2 ^ 256 - 2 ^ 224 + 2 ^ 192 + 2 ^ 96 - 1, invert := p256_fe_invert, sqrt := runSqrt p256_fe_sqrt,
    isqrt := some (runIsqrt p256_fe_isqrt), legendre := none }

/-- src/ecc.c:9214-9247, `field_p384`. -/
def field_p384 : FieldCode :=
  { p := 2 ^ 384 - 2 ^ 128 - 2 ^ 96 + 2 ^ 32 - 1, invert := p384_fe_invert, sqrt := runSqrt p384_fe_sqrt,
    isqrt := some (runIsqrt p384_fe_isqrt), legendre := none }

/-- src/ecc.c:9268-9304, `field_p521`. -/
def field_p521 : FieldCode :=
  { p := 2 ^ 521 - 1, invert := p521_fe_invert, sqrt := runSqrt p521_fe_sqrt, isqrt := some (runIsqrt p521_fe_isqrt),
    legendre := none }

/-- src/ecc.c:9328-9359, `field_secp256k1`. -/
def field_secp256k1 : FieldCode :=
  { p := 2 ^ 256 - 2 ^ 32 - 977, invert := secp256k1_fe_invert, sqrt := runSqrt secp256k1_fe_sqrt,
    isqrt := some (runIsqrt secp256k1_fe_isqrt), legendre := none }

/-- src/ecc.c:9378-9409, `field_p25519`. -/
def field_p25519 : FieldCode :=
  { p := 2 ^ 255 - 19, invert := p25519_fe_invert, sqrt := fun _ _ x => p25519_fe_sqrt x,
    isqrt := some fun _ u v => p25519_fe_isqrt u v, legendre := none }

/-- src/ecc.c:9428-9462, `field_p448`. -/
def field_p448 : FieldCode :=
  { p := 2 ^ 448 - 2 ^ 224 - 1, invert := p448_fe_invert, sqrt := runSqrt p448_fe_sqrt,
    isqrt := some (runIsqrt p448_fe_isqrt), legendre := none }

/-- src/ecc.c:9484-9515, `field_p251`. -/
def field_p251 : FieldCode :=
  { p := 2 ^ 251 - 9, invert := p251_fe_invert, sqrt := runSqrt p251_fe_sqrt, isqrt := some (runIsqrt p251_fe_isqrt),
    legendre := none }

/-- src/ecc.c:9066-9515: the prime fields. -/
def fieldCodes : List FieldCode :=
  [field_p192, field_p224, field_p256, field_p384, field_p521, field_secp256k1, field_p25519, field_p448, field_p251]

/-- src/ecc.c:1741-1758 `fe_invert`, with the chain (all fields have one; the branch with `fe_pow` is not modelled). -/
def fe_invert_code (fe : FieldCode) (z x : Nat) (a : F) : C (F × Bool) := do
  let r ← runChain fe.invert z x a
  return (r, decide (r = 0) ^^ true)

/-- src/ecc.c:1760-1811 `fe_sqrt`, with the chain (all fields have one). -/
def fe_sqrt (fe : FieldCode) (z x : Nat) (a : F) : C (F × Bool) := fe.sqrt z x a

/-- src/ecc.c:1823-1851 `fe_is_square`, without the last branch, which is not reached because all fields have a square root. -/
def fe_is_square (fe : FieldCode) (a : F) : C Bool := do
  match fe.legendre with
  | some f =>
    let z ← runChain f 0 1 a
    return decide (z = -1) ^^ true
  | none =>
    let (_, r) ← fe.sqrt 0 1 a
    return r

/-- src/ecc.c:1853-1898 `fe_isqrt`. `z` is the register of the output: 0, or that of `u` (1) or of `v` (2). -/
def fe_isqrt (fe : FieldCode) (z : Nat) (u v : F) : C (F × Bool) := do
  match fe.isqrt (F := F) with
  | some f =>
    let (r, ok) ← f z u v
    return (r, (decide (v = 0) ^^ true) && ok)
  | none =>
    let (t, ok) ← fe_invert_code fe 0 1 v
    let t := t * u
    let (r, ok') ← fe_sqrt fe 0 1 t
    return (r, ok && ok')

end Torsion
