import Verif.Ecc.Chain

/-!
# Model: the exponentiation chains of src/fields

Written by `tools/chains.py` from the C code, one instruction per call. Arguments are registers, so that a call with
the output in the place of the input is expressed by giving one register twice; the locals of a function are the
registers from `t` on.
-/
namespace Torsion

/-- src/fields/p192.h:66-118, `p192_fe_pow_pm3d4`. -/
def p192_fe_pow_pm3d4 (z x1 t : Nat) : List Ins :=
  [.sqr t x1, .mul t t x1, .sqr t t, .mul t t x1, .sqrn (t + 1) t 3, .mul (t + 1) (t + 1) t,
   .sqrn (t + 2) (t + 1) 6, .mul (t + 2) (t + 2) (t + 1), .sqrn (t + 3) (t + 2) 12,
   .mul (t + 3) (t + 3) (t + 2), .sqrn (t + 2) (t + 3) 6, .mul (t + 2) (t + 2) (t + 1), .sqr (t + 2) (t + 2),
   .mul (t + 2) (t + 2) x1, .sqrn (t + 3) (t + 2) 31, .mul (t + 3) (t + 3) (t + 2), .sqrn z (t + 3) 62,
   .mul z z (t + 3), .sqrn z z 3, .mul z z t, .sqr z z, .sqrn z z 62, .mul z z (t + 3)]

/-- src/fields/p192.h:120-138, `p192_fe_invert`. -/
def p192_fe_invert (z x t : Nat) : List Ins :=
  [.set t x] ++ p192_fe_pow_pm3d4 z t (t + 1) ++ [.sqr z z, .sqr z z, .mul z z t]

/-- src/fields/p192.h:140-184, `p192_fe_sqrt`: the calls up to the comparison, the registers compared, the calls after it. -/
def p192_fe_sqrt (z x t : Nat) : List Ins × (Nat × Nat) × List Ins :=
  ([.set t x, .sqr (t + 1) t, .mul (t + 1) (t + 1) t, .sqrn (t + 2) (t + 1) 2, .mul (t + 2) (t + 2) (t + 1),
   .sqrn (t + 1) (t + 2) 4, .mul (t + 1) (t + 1) (t + 2), .sqrn (t + 2) (t + 1) 8, .mul (t + 2) (t + 2) (t + 1),
   .sqrn (t + 1) (t + 2) 16, .mul (t + 1) (t + 1) (t + 2), .sqrn (t + 2) (t + 1) 32,
   .mul (t + 2) (t + 2) (t + 1), .sqrn z (t + 2) 64, .mul z z (t + 2), .sqrn z z 62, .sqr (t + 1) z],
   (t + 1, t), [])

/-- src/fields/p192.h:186-211, `p192_fe_isqrt`: the calls up to the comparison, the registers compared, the calls after it. -/
def p192_fe_isqrt (z u v t : Nat) : List Ins × (Nat × Nat) × List Ins :=
  ([.sqr t u, .mul (t + 2) t u, .mul t t (t + 2), .sqr (t + 1) v, .mul (t + 1) (t + 1) v,
   .mul (t + 1) (t + 1) t] ++ p192_fe_pow_pm3d4 (t + 1) (t + 1) (t + 3) ++ [.mul (t + 1) (t + 1) v,
   .mul (t + 1) (t + 1) (t + 2), .sqr (t + 2) (t + 1), .mul (t + 2) (t + 2) v],
   (t + 2, u), [.set z (t + 1)])

/-- src/fields/p224.h:98-131, `p224_fe_pow_s`. -/
def p224_fe_pow_s (z x1 t : Nat) : List Ins :=
  [.sqr t x1, .mul t t x1, .sqrn (t + 1) t 2, .mul (t + 1) (t + 1) t, .sqrn t (t + 1) 4, .mul t t (t + 1),
   .sqrn (t + 1) t 8, .mul (t + 1) (t + 1) t, .sqrn t (t + 1) 16, .mul t t (t + 1), .sqrn (t + 1) t 32,
   .mul (t + 1) (t + 1) t, .sqrn z (t + 1) 64, .mul z z (t + 1)]

/-- src/fields/p224.h:133-140, `p224_fe_pow_e`. -/
def p224_fe_pow_e (z x t : Nat) : List Ins :=
  [.sqrn z x 127]

/-- src/fields/p224.h:142-187, `p224_fe_pow_em1`. -/
def p224_fe_pow_em1 (z x1 t : Nat) : List Ins :=
  [.sqr t x1, .mul t t x1, .sqr t t, .mul t t x1, .sqrn (t + 1) t 3, .mul (t + 1) (t + 1) t,
   .sqrn (t + 2) (t + 1) 6, .mul (t + 2) (t + 2) (t + 1), .sqrn (t + 3) (t + 2) 12,
   .mul (t + 3) (t + 3) (t + 2), .sqrn (t + 2) (t + 3) 6, .mul (t + 2) (t + 2) (t + 1), .sqr (t + 2) (t + 2),
   .mul (t + 2) (t + 2) x1, .sqrn (t + 3) (t + 2) 31, .mul (t + 3) (t + 3) (t + 2), .sqrn z (t + 3) 62,
   .mul z z (t + 3), .sqrn z z 3, .mul z z t]

/-- src/fields/p224.h:189-244, `p224_fe_invert`. -/
def p224_fe_invert (z x t : Nat) : List Ins :=
  [.set t x, .sqr (t + 1) t, .mul (t + 1) (t + 1) t, .sqr (t + 1) (t + 1), .mul (t + 1) (t + 1) t,
   .sqrn (t + 2) (t + 1) 3, .mul (t + 2) (t + 2) (t + 1), .sqrn (t + 1) (t + 2) 6, .mul (t + 1) (t + 1) (t + 2),
   .sqrn (t + 3) (t + 1) 12, .mul (t + 3) (t + 3) (t + 1), .sqrn (t + 1) (t + 3) 24,
   .mul (t + 1) (t + 1) (t + 3), .sqrn (t + 4) (t + 1) 48, .mul (t + 4) (t + 4) (t + 1), .sqrn z (t + 4) 24,
   .mul z z (t + 3), .sqrn z z 6, .mul z z (t + 2), .sqr z z, .mul z z t, .sqr z z, .sqrn z z 96,
   .mul z z (t + 4)]

/-- src/fields/p224.h:431-441, `p224_fe_legendre`. -/
def p224_fe_legendre (z x t : Nat) : List Ins :=
  p224_fe_pow_s z x t ++ [.sqrn z z 95]

/-- src/fields/p256.h:65-123, `p256_fe_pow_pm3d4`. -/
def p256_fe_pow_pm3d4 (z x t : Nat) : List Ins :=
  [.set t x, .sqr (t + 1) t, .mul (t + 1) (t + 1) t, .sqr (t + 2) (t + 1), .mul (t + 2) (t + 2) t,
   .sqrn (t + 3) (t + 2) 3, .mul (t + 3) (t + 3) (t + 2), .sqrn (t + 4) (t + 3) 6, .mul (t + 4) (t + 4) (t + 3),
   .sqrn (t + 3) (t + 4) 3, .mul (t + 3) (t + 3) (t + 2), .sqrn (t + 2) (t + 3) 15,
   .mul (t + 2) (t + 2) (t + 3), .sqrn (t + 3) (t + 2) 2, .mul (t + 3) (t + 3) (t + 1), .sqrn z (t + 3) 31,
   .sqr z z, .mul z z t, .sqrn z z 96, .sqrn z z 32, .mul z z (t + 3), .sqrn z z 32, .mul z z (t + 3),
   .sqrn z z 30, .mul z z (t + 2)]

/-- src/fields/p256.h:125-143, `p256_fe_invert`. -/
def p256_fe_invert (z x t : Nat) : List Ins :=
  [.set t x] ++ p256_fe_pow_pm3d4 z t (t + 1) ++ [.sqr z z, .sqr z z, .mul z z t]

/-- src/fields/p256.h:145-195, `p256_fe_sqrt`: the calls up to the comparison, the registers compared, the calls after it. -/
def p256_fe_sqrt (z x t : Nat) : List Ins × (Nat × Nat) × List Ins :=
  ([.set t x, .sqr (t + 1) t, .mul (t + 1) (t + 1) t, .sqrn (t + 2) (t + 1) 2, .mul (t + 2) (t + 2) (t + 1),
   .sqrn (t + 1) (t + 2) 4, .mul (t + 1) (t + 1) (t + 2), .sqrn (t + 2) (t + 1) 8, .mul (t + 2) (t + 2) (t + 1),
   .sqrn z (t + 2) 16, .mul z z (t + 2), .sqrn z z 31, .sqr z z, .mul z z t, .sqrn z z 95, .sqr z z, .mul z z t,
   .sqrn z z 94, .sqr (t + 1) z],
   (t + 1, t), [])

/-- src/fields/p256.h:197-222, `p256_fe_isqrt`: the calls up to the comparison, the registers compared, the calls after it. -/
def p256_fe_isqrt (z u v t : Nat) : List Ins × (Nat × Nat) × List Ins :=
  ([.sqr t u, .mul (t + 2) t u, .mul t t (t + 2), .sqr (t + 1) v, .mul (t + 1) (t + 1) v,
   .mul (t + 1) (t + 1) t] ++ p256_fe_pow_pm3d4 (t + 1) (t + 1) (t + 3) ++ [.mul (t + 1) (t + 1) v,
   .mul (t + 1) (t + 1) (t + 2), .sqr (t + 2) (t + 1), .mul (t + 2) (t + 2) v],
   (t + 2, u), [.set z (t + 1)])

/-- src/fields/p384.h:71-134, `p384_fe_pow_pm3d4`. -/
def p384_fe_pow_pm3d4 (z x1 t : Nat) : List Ins :=
  [.sqr t x1, .mul t t x1, .sqr (t + 1) t, .mul (t + 1) (t + 1) x1, .sqrn (t + 2) (t + 1) 3,
   .mul (t + 2) (t + 2) (t + 1), .sqrn (t + 3) (t + 2) 6, .mul (t + 3) (t + 3) (t + 2), .sqrn (t + 2) (t + 3) 3,
   .mul (t + 2) (t + 2) (t + 1), .sqrn (t + 1) (t + 2) 15, .mul (t + 1) (t + 1) (t + 2),
   .sqrn (t + 3) (t + 1) 30, .mul (t + 3) (t + 3) (t + 1), .sqrn (t + 4) (t + 3) 60,
   .mul (t + 4) (t + 4) (t + 3), .sqrn z (t + 4) 120, .mul z z (t + 4), .sqrn z z 15, .mul z z (t + 2),
   .sqr z z, .sqrn z z 30, .mul z z (t + 1), .sqrn z z 2, .mul z z t, .sqrn z z 64, .sqrn z z 30,
   .mul z z (t + 1)]

/-- src/fields/p384.h:136-154, `p384_fe_invert`. -/
def p384_fe_invert (z x t : Nat) : List Ins :=
  [.set t x] ++ p384_fe_pow_pm3d4 z t (t + 1) ++ [.sqr z z, .sqr z z, .mul z z t]

/-- src/fields/p384.h:156-229, `p384_fe_sqrt`: the calls up to the comparison, the registers compared, the calls after it. -/
def p384_fe_sqrt (z x t : Nat) : List Ins × (Nat × Nat) × List Ins :=
  ([.set t x, .sqr (t + 1) t, .mul (t + 1) (t + 1) t, .sqr (t + 2) (t + 1), .mul (t + 2) (t + 2) t,
   .sqrn (t + 3) (t + 2) 3, .mul (t + 3) (t + 3) (t + 2), .sqrn (t + 4) (t + 3) 6, .mul (t + 4) (t + 4) (t + 3),
   .sqrn (t + 3) (t + 4) 3, .mul (t + 3) (t + 3) (t + 2), .sqrn (t + 2) (t + 3) 15,
   .mul (t + 2) (t + 2) (t + 3), .sqrn (t + 4) (t + 2) 30, .mul (t + 4) (t + 4) (t + 2),
   .sqrn (t + 5) (t + 4) 60, .mul (t + 5) (t + 5) (t + 4), .sqrn z (t + 5) 120, .mul z z (t + 5), .sqrn z z 15,
   .mul z z (t + 3), .sqr z z, .sqrn z z 30, .mul z z (t + 2), .sqrn z z 2, .mul z z (t + 1), .sqrn z z 63,
   .sqr z z, .mul z z t, .sqrn z z 30, .sqr (t + 1) z],
   (t + 1, t), [])

/-- src/fields/p384.h:231-256, `p384_fe_isqrt`: the calls up to the comparison, the registers compared, the calls after it. -/
def p384_fe_isqrt (z u v t : Nat) : List Ins × (Nat × Nat) × List Ins :=
  ([.sqr t u, .mul (t + 2) t u, .mul t t (t + 2), .sqr (t + 1) v, .mul (t + 1) (t + 1) v,
   .mul (t + 1) (t + 1) t] ++ p384_fe_pow_pm3d4 (t + 1) (t + 1) (t + 3) ++ [.mul (t + 1) (t + 1) v,
   .mul (t + 1) (t + 1) (t + 2), .sqr (t + 2) (t + 1), .mul (t + 2) (t + 2) v],
   (t + 2, u), [.set z (t + 1)])

/-- src/fields/p521.h:76-129, `p521_fe_pow_core`. -/
def p521_fe_pow_core (z x1 t : Nat) : List Ins :=
  [.sqr t x1, .mul t t x1, .sqr t t, .mul t t x1, .sqrn (t + 1) t 3, .mul (t + 1) (t + 1) t, .sqr t (t + 1),
   .mul t t x1, .sqr (t + 1) t, .mul (t + 1) (t + 1) x1, .sqrn (t + 2) (t + 1) 8, .mul (t + 2) (t + 2) (t + 1),
   .sqrn (t + 1) (t + 2) 16, .mul (t + 1) (t + 1) (t + 2), .sqrn (t + 2) (t + 1) 32,
   .mul (t + 2) (t + 2) (t + 1), .sqrn (t + 1) (t + 2) 64, .mul (t + 1) (t + 1) (t + 2),
   .sqrn (t + 2) (t + 1) 128, .mul (t + 2) (t + 2) (t + 1), .sqrn z (t + 2) 256, .mul z z (t + 2), .sqrn z z 7,
   .mul z z t]

/-- src/fields/p521.h:131-138, `p521_fe_pow_pm3d4`. -/
def p521_fe_pow_pm3d4 (z x t : Nat) : List Ins :=
  p521_fe_pow_core z x t

/-- src/fields/p521.h:140-158, `p521_fe_invert`. -/
def p521_fe_invert (z x t : Nat) : List Ins :=
  [.set t x] ++ p521_fe_pow_core z t (t + 1) ++ [.sqr z z, .sqr z z, .mul z z t]

/-- src/fields/p521.h:160-176, `p521_fe_sqrt`: the calls up to the comparison, the registers compared, the calls after it. -/
def p521_fe_sqrt (z x t : Nat) : List Ins × (Nat × Nat) × List Ins :=
  ([.set t x, .sqrn z t 519, .sqr (t + 1) z],
   (t + 1, t), [])

/-- src/fields/p521.h:178-203, `p521_fe_isqrt`: the calls up to the comparison, the registers compared, the calls after it. -/
def p521_fe_isqrt (z u v t : Nat) : List Ins × (Nat × Nat) × List Ins :=
  ([.sqr t u, .mul (t + 2) t u, .mul t t (t + 2), .sqr (t + 1) v, .mul (t + 1) (t + 1) v,
   .mul (t + 1) (t + 1) t] ++ p521_fe_pow_pm3d4 (t + 1) (t + 1) (t + 3) ++ [.mul (t + 1) (t + 1) v,
   .mul (t + 1) (t + 1) (t + 2), .sqr (t + 2) (t + 1), .mul (t + 2) (t + 2) v],
   (t + 2, u), [.set z (t + 1)])

/-- src/fields/secp256k1.h:72-129, `secp256k1_fe_pow_core`. -/
def secp256k1_fe_pow_core (z x1 x2 t : Nat) : List Ins :=
  [.sqr t x2, .mul t t x1, .sqrn (t + 1) t 3, .mul (t + 1) (t + 1) t, .sqrn (t + 2) (t + 1) 3,
   .mul (t + 2) (t + 2) t, .sqrn (t + 1) (t + 2) 2, .mul (t + 1) (t + 1) x2, .sqrn (t + 2) (t + 1) 11,
   .mul (t + 2) (t + 2) (t + 1), .sqrn (t + 1) (t + 2) 22, .mul (t + 1) (t + 1) (t + 2),
   .sqrn (t + 3) (t + 1) 44, .mul (t + 3) (t + 3) (t + 1), .sqrn z (t + 3) 88, .mul z z (t + 3), .sqrn z z 44,
   .mul z z (t + 1), .sqrn z z 3, .mul z z t, .sqr z z, .sqrn z z 22, .mul z z (t + 2), .sqrn z z 4]

/-- src/fields/secp256k1.h:131-157, `secp256k1_fe_pow_pm3d4`. -/
def secp256k1_fe_pow_pm3d4 (z x t : Nat) : List Ins :=
  [.set t x, .sqr (t + 1) t, .mul (t + 1) (t + 1) t] ++ secp256k1_fe_pow_core z t (t + 1) (t + 2) ++ [.sqr z z,
   .mul z z t, .sqr z z, .sqrn z z 2, .mul z z (t + 1)]

/-- src/fields/secp256k1.h:159-192, `secp256k1_fe_invert`. -/
def secp256k1_fe_invert (z x t : Nat) : List Ins :=
  [.set t x, .sqr (t + 1) t, .mul (t + 1) (t + 1) t] ++ secp256k1_fe_pow_core z t (t + 1) (t + 2) ++ [.sqr z z,
   .mul z z t, .sqr z z, .sqrn z z 2, .mul z z (t + 1), .sqr z z, .sqr z z, .mul z z t]

/-- src/fields/secp256k1.h:194-221, `secp256k1_fe_sqrt`: the calls up to the comparison, the registers compared, the calls after it. -/
def secp256k1_fe_sqrt (z x t : Nat) : List Ins × (Nat × Nat) × List Ins :=
  ([.set t x, .sqr (t + 1) t, .mul (t + 1) (t + 1) t] ++ secp256k1_fe_pow_core z t (t + 1) (t + 2) ++
   [.sqrn z z 2, .mul z z (t + 1), .sqrn z z 2, .sqr (t + 1) z],
   (t + 1, t), [])

/-- src/fields/secp256k1.h:223-250, `secp256k1_fe_isqrt`: the calls up to the comparison, the registers compared, the calls after it. -/
def secp256k1_fe_isqrt (z u v t : Nat) : List Ins × (Nat × Nat) × List Ins :=
  ([.sqr t u, .mul (t + 2) t u, .mul t t (t + 2), .sqr (t + 1) v, .mul (t + 1) (t + 1) v,
   .mul (t + 1) (t + 1) t] ++ secp256k1_fe_pow_pm3d4 (t + 1) (t + 1) (t + 3) ++ [.mul (t + 1) (t + 1) v,
   .mul (t + 1) (t + 1) (t + 2), .sqr (t + 2) (t + 1), .mul (t + 2) (t + 2) v],
   (t + 2, u), [.set z (t + 1)])

/-- src/fields/p25519.h:84-125, `p25519_fe_pow_core`. -/
def p25519_fe_pow_core (z x1 x2 t : Nat) : List Ins :=
  [.sqrn t x2 2, .mul t t x2, .sqr t t, .mul t t x1, .sqrn (t + 1) t 5, .mul (t + 1) (t + 1) t,
   .sqrn t (t + 1) 10, .mul t t (t + 1), .sqrn (t + 2) t 20, .mul (t + 2) (t + 2) t, .sqrn t (t + 2) 10,
   .mul t t (t + 1), .sqrn (t + 1) t 50, .mul (t + 1) (t + 1) t, .sqrn z (t + 1) 100, .mul z z (t + 1),
   .sqrn z z 50, .mul z z t]

/-- src/fields/p25519.h:127-149, `p25519_fe_pow_pm5d8`. -/
def p25519_fe_pow_pm5d8 (z x t : Nat) : List Ins :=
  [.set t x, .sqr (t + 1) t, .mul (t + 1) (t + 1) t] ++ p25519_fe_pow_core z t (t + 1) (t + 2) ++ [.sqr z z,
   .sqr z z, .mul z z t]

/-- src/fields/p25519.h:151-180, `p25519_fe_invert`. -/
def p25519_fe_invert (z x t : Nat) : List Ins :=
  [.set t x, .sqr (t + 1) t, .mul (t + 1) (t + 1) t] ++ p25519_fe_pow_core z t (t + 1) (t + 2) ++ [.sqr z z,
   .sqr z z, .mul z z t, .sqr z z, .sqrn z z 2, .mul z z (t + 1)]

/-- src/fields/p448.h:75-120, `p448_fe_pow_core`. -/
def p448_fe_pow_core (z x1 x2 t : Nat) : List Ins :=
  [.sqr t x2, .mul t t x1, .sqrn (t + 1) t 3, .mul (t + 1) (t + 1) t, .sqrn (t + 1) (t + 1) 3,
   .mul (t + 1) (t + 1) t, .sqrn t (t + 1) 2, .mul t t x2, .sqrn (t + 1) t 11, .mul (t + 1) (t + 1) t,
   .sqrn t (t + 1) 22, .mul t t (t + 1), .sqrn (t + 1) t 44, .mul (t + 1) (t + 1) t, .sqrn z (t + 1) 88,
   .mul z z (t + 1), .sqrn z z 44, .mul z z t, .sqrn z z 2, .mul z z x2]

/-- src/fields/p448.h:122-148, `p448_fe_pow_pm3d4`. -/
def p448_fe_pow_pm3d4 (z x t : Nat) : List Ins :=
  [.set t x, .sqr (t + 1) t, .mul (t + 1) (t + 1) t] ++ p448_fe_pow_core (t + 2) t (t + 1) (t + 3) ++
   [.sqr z (t + 2), .mul z z t, .sqr z z, .sqrn z z 222, .mul z z (t + 2)]

/-- src/fields/p448.h:150-168, `p448_fe_invert`. -/
def p448_fe_invert (z x t : Nat) : List Ins :=
  [.set t x] ++ p448_fe_pow_pm3d4 z t (t + 1) ++ [.sqr z z, .sqr z z, .mul z z t]

/-- src/fields/p448.h:170-197, `p448_fe_sqrt`: the calls up to the comparison, the registers compared, the calls after it. -/
def p448_fe_sqrt (z x t : Nat) : List Ins × (Nat × Nat) × List Ins :=
  ([.set t x, .sqr (t + 1) t, .mul (t + 1) (t + 1) t] ++ p448_fe_pow_core z t (t + 1) (t + 2) ++ [.sqrn z z 2,
   .mul z z (t + 1), .sqrn z z 222, .sqr (t + 1) z],
   (t + 1, t), [])

/-- src/fields/p448.h:199-224, `p448_fe_isqrt`: the calls up to the comparison, the registers compared, the calls after it. -/
def p448_fe_isqrt (z u v t : Nat) : List Ins × (Nat × Nat) × List Ins :=
  ([.sqr t u, .mul (t + 2) t u, .mul t t (t + 2), .sqr (t + 1) v, .mul (t + 1) (t + 1) v,
   .mul (t + 1) (t + 1) t] ++ p448_fe_pow_pm3d4 (t + 1) (t + 1) (t + 3) ++ [.mul (t + 1) (t + 1) v,
   .mul (t + 1) (t + 1) (t + 2), .sqr (t + 2) (t + 1), .mul (t + 2) (t + 2) v],
   (t + 2, u), [.set z (t + 1)])

/-- src/fields/p251.h:67-116, `p251_fe_pow_core`. -/
def p251_fe_pow_core (z x1 t : Nat) : List Ins :=
  [.sqr t x1, .mul t t x1, .sqr t t, .mul t t x1, .sqrn (t + 1) t 3, .mul (t + 1) (t + 1) t, .sqrn t (t + 1) 6,
   .mul t t (t + 1), .sqrn (t + 2) t 12, .mul (t + 2) (t + 2) t, .sqrn t (t + 2) 24, .mul t t (t + 2),
   .sqrn (t + 2) t 48, .mul (t + 2) (t + 2) t, .sqrn z (t + 2) 96, .mul z z (t + 2), .sqrn z z 48, .mul z z t,
   .sqrn z z 6, .mul z z (t + 1), .sqr z z, .mul z z x1]

/-- src/fields/p251.h:118-136, `p251_fe_pow_pm3d4`. -/
def p251_fe_pow_pm3d4 (z x t : Nat) : List Ins :=
  [.set t x] ++ p251_fe_pow_core z t (t + 1) ++ [.sqr z z, .sqr z z, .mul z z t]

/-- src/fields/p251.h:138-156, `p251_fe_invert`. -/
def p251_fe_invert (z x t : Nat) : List Ins :=
  [.set t x] ++ p251_fe_pow_pm3d4 z t (t + 1) ++ [.sqr z z, .sqr z z, .mul z z t]

/-- src/fields/p251.h:158-181, `p251_fe_sqrt`: the calls up to the comparison, the registers compared, the calls after it. -/
def p251_fe_sqrt (z x t : Nat) : List Ins × (Nat × Nat) × List Ins :=
  ([.set t x] ++ p251_fe_pow_core z t (t + 2) ++ [.sqr z z, .mul z z t, .sqr z z, .sqr (t + 1) z],
   (t + 1, t), [])

/-- src/fields/p251.h:183-208, `p251_fe_isqrt`: the calls up to the comparison, the registers compared, the calls after it. -/
def p251_fe_isqrt (z u v t : Nat) : List Ins × (Nat × Nat) × List Ins :=
  ([.sqr t u, .mul (t + 2) t u, .mul t t (t + 2), .sqr (t + 1) v, .mul (t + 1) (t + 1) v,
   .mul (t + 1) (t + 1) t] ++ p251_fe_pow_pm3d4 (t + 1) (t + 1) (t + 3) ++ [.mul (t + 1) (t + 1) v,
   .mul (t + 1) (t + 1) (t + 2), .sqr (t + 2) (t + 1), .mul (t + 2) (t + 2) v],
   (t + 2, u), [.set z (t + 1)])

/-- src/fields/scalar.h:11-81, `q192_sc_invert`, between `sc_mont` and `sc_normal`; `z` is register 0
and the input register 1. -/
def q192_sc_invert : List Ins :=
  [.sqr 9 1, .mul 2 1 9, .mul 3 2 9, .mul 4 3 9, .mul 5 4 9, .mul 6 5 9, .mul 7 6 9, .mul 8 7 9, .sqrn 9 8 4,
   .mul 9 9 8, .sqrn 10 9 8, .mul 10 10 9, .sqrn 9 10 16, .mul 9 9 10, .sqrn 10 9 32, .mul 10 10 9,
   .sqrn 0 10 32, .mul 0 0 9, .sqrn 0 0 4, .mul 0 0 5, .sqrn 0 0 4, .mul 0 0 5, .sqrn 0 0 4, .mul 0 0 7,
   .sqrn 0 0 3, .mul 0 0 4, .sqrn 0 0 3, .mul 0 0 2, .sqrn 0 0 3, .mul 0 0 4, .sqrn 0 0 7, .mul 0 0 2,
   .sqrn 0 0 3, .mul 0 0 2, .sqrn 0 0 7, .mul 0 0 3, .sqrn 0 0 7, .mul 0 0 7, .sqrn 0 0 5, .mul 0 0 8,
   .sqrn 0 0 6, .mul 0 0 5, .sqrn 0 0 4, .mul 0 0 6, .sqrn 0 0 7, .mul 0 0 7, .sqrn 0 0 3, .mul 0 0 3,
   .sqrn 0 0 6, .mul 0 0 7, .sqrn 0 0 3, .mul 0 0 1, .sqrn 0 0 6, .mul 0 0 3, .sqrn 0 0 8, .mul 0 0 3,
   .sqrn 0 0 3, .mul 0 0 4]

/-- src/fields/scalar.h:83-155, `q224_sc_invert`, between `sc_mont` and `sc_normal`; `z` is register 0
and the input register 1. -/
def q224_sc_invert : List Ins :=
  [.sqr 8 1, .sqr 9 8, .mul 2 1 8, .mul 3 2 8, .mul 4 3 8, .mul 5 4 9, .mul 6 5 9, .sqr 9 9, .mul 7 6 9,
   .mul 8 7 9, .sqrn 8 8 2, .mul 8 8 2, .sqrn 9 8 7, .mul 9 9 8, .sqrn 8 9 14, .mul 8 8 9, .sqrn 9 8 28,
   .mul 9 9 8, .sqrn 0 9 56, .mul 0 0 9, .sqrn 0 0 7, .mul 0 0 5, .sqrn 0 0 4, .mul 0 0 3, .sqrn 0 0 8,
   .mul 0 0 7, .sqrn 0 0 10, .mul 0 0 7, .sqrn 0 0 7, .mul 0 0 6, .sqrn 0 0 9, .mul 0 0 4, .sqrn 0 0 2,
   .mul 0 0 2, .sqrn 0 0 5, .mul 0 0 1, .sqrn 0 0 5, .mul 0 0 4, .sqrn 0 0 4, .mul 0 0 5, .sqrn 0 0 3,
   .mul 0 0 3, .sqrn 0 0 5, .mul 0 0 3, .sqrn 0 0 5, .mul 0 0 3, .sqrn 0 0 6, .mul 0 0 3, .sqrn 0 0 6,
   .mul 0 0 7, .sqrn 0 0 8, .mul 0 0 7, .sqrn 0 0 7, .mul 0 0 3, .sqrn 0 0 2, .mul 0 0 1, .sqrn 0 0 5,
   .mul 0 0 2, .sqrn 0 0 4, .mul 0 0 5]

/-- src/fields/scalar.h:157-250, `q256_sc_invert`, between `sc_mont` and `sc_normal`; `z` is register 0
and the input register 1. -/
def q256_sc_invert : List Ins :=
  [.sqr 2 1, .mul 3 2 1, .mul 4 2 3, .mul 5 4 2, .sqr 9 4, .mul 6 9 4, .sqrn 7 9 1, .mul 7 7 1, .sqr 10 7,
   .mul 8 10 4, .mul 11 10 7, .sqrn 12 11 2, .mul 12 12 3, .sqrn 13 12 8, .mul 13 13 12, .sqrn 14 13 16,
   .mul 14 14 13, .sqrn 0 14 32, .sqrn 0 0 32, .mul 0 0 14, .sqrn 0 0 32, .mul 0 0 14, .sqrn 0 0 6, .mul 0 0 8,
   .sqrn 0 0 5, .mul 0 0 5, .sqrn 0 0 4, .mul 0 0 3, .sqrn 0 0 5, .mul 0 0 6, .sqrn 0 0 5, .mul 0 0 7,
   .sqrn 0 0 4, .mul 0 0 4, .sqrn 0 0 3, .mul 0 0 4, .sqrn 0 0 3, .mul 0 0 4, .sqrn 0 0 5, .mul 0 0 5,
   .sqrn 0 0 9, .mul 0 0 8, .sqrn 0 0 6, .mul 0 0 6, .sqrn 0 0 2, .mul 0 0 1, .sqrn 0 0 5, .mul 0 0 1,
   .sqrn 0 0 6, .mul 0 0 6, .sqrn 0 0 5, .mul 0 0 5, .sqrn 0 0 4, .mul 0 0 5, .sqrn 0 0 5, .mul 0 0 5,
   .sqrn 0 0 5, .mul 0 0 4, .sqrn 0 0 3, .mul 0 0 3, .sqrn 0 0 10, .mul 0 0 8, .sqrn 0 0 2, .mul 0 0 3,
   .sqrn 0 0 5, .mul 0 0 3, .sqrn 0 0 5, .mul 0 0 3, .sqrn 0 0 3, .mul 0 0 1, .sqrn 0 0 7, .mul 0 0 7,
   .sqrn 0 0 6, .mul 0 0 6]

/-- src/fields/scalar.h:252-368, `q384_sc_invert`, between `sc_mont` and `sc_normal`; `z` is register 0
and the input register 1. -/
def q384_sc_invert : List Ins :=
  [.sqr 9 1, .mul 2 1 9, .mul 3 2 9, .mul 4 3 9, .mul 5 4 9, .mul 6 5 9, .mul 7 6 9, .mul 8 7 9, .sqrn 10 8 4,
   .mul 10 10 8, .sqrn 11 10 8, .mul 11 11 10, .sqrn 12 11 16, .mul 12 12 11, .sqrn 13 12 32, .mul 13 13 12,
   .sqrn 14 13 32, .mul 14 14 12, .sqrn 0 14 96, .mul 0 0 14, .sqrn 0 0 2, .mul 0 0 2, .sqrn 0 0 6, .mul 0 0 4,
   .sqrn 0 0 3, .mul 0 0 2, .sqrn 0 0 5, .mul 0 0 2, .sqrn 0 0 5, .mul 0 0 5, .sqrn 0 0 4, .mul 0 0 6,
   .sqrn 0 0 10, .mul 0 0 8, .sqrn 0 0 3, .mul 0 0 3, .sqrn 0 0 5, .mul 0 0 1, .sqrn 0 0 4, .mul 0 0 6,
   .sqrn 0 0 4, .mul 0 0 5, .sqrn 0 0 5, .mul 0 0 7, .sqrn 0 0 4, .mul 0 0 7, .sqrn 0 0 4, .mul 0 0 8,
   .sqrn 0 0 5, .mul 0 0 6, .sqrn 0 0 10, .mul 0 0 7, .sqrn 0 0 9, .mul 0 0 7, .sqrn 0 0 4, .mul 0 0 6,
   .sqrn 0 0 6, .mul 0 0 5, .sqrn 0 0 3, .mul 0 0 1, .sqrn 0 0 7, .mul 0 0 6, .sqrn 0 0 7, .mul 0 0 3,
   .sqrn 0 0 5, .mul 0 0 4, .sqrn 0 0 5, .mul 0 0 8, .sqrn 0 0 5, .mul 0 0 6, .sqrn 0 0 4, .mul 0 0 6,
   .sqrn 0 0 5, .mul 0 0 4, .sqrn 0 0 3, .mul 0 0 2, .sqrn 0 0 7, .mul 0 0 2, .sqrn 0 0 6, .mul 0 0 6,
   .sqrn 0 0 4, .mul 0 0 3, .sqrn 0 0 3, .mul 0 0 2, .sqrn 0 0 4, .mul 0 0 2, .sqrn 0 0 4, .mul 0 0 2,
   .sqrn 0 0 6, .mul 0 0 3, .sqrn 0 0 5, .mul 0 0 3, .sqrn 0 0 5, .mul 0 0 3, .sqrn 0 0 2, .mul 0 0 2,
   .sqrn 0 0 4, .mul 0 0 1]

/-- src/fields/scalar.h:370-512, `q521_sc_invert`, between `sc_mont` and `sc_normal`; `z` is register 0
and the input register 1. -/
def q521_sc_invert : List Ins :=
  [.sqr 9 1, .mul 2 1 9, .mul 3 2 9, .mul 4 3 9, .mul 5 4 9, .mul 6 5 9, .mul 7 6 9, .mul 8 7 9, .sqrn 9 8 4,
   .mul 9 9 8, .sqrn 10 9 8, .mul 10 10 9, .sqrn 9 10 16, .mul 9 9 10, .sqrn 10 9 32, .mul 10 10 9,
   .sqrn 9 10 64, .mul 9 9 10, .sqrn 0 9 128, .mul 0 0 9, .sqrn 0 0 4, .mul 0 0 8, .sqrn 0 0 4, .mul 0 0 7,
   .sqrn 0 0 5, .mul 0 0 3, .sqrn 0 0 5, .mul 0 0 2, .sqrn 0 0 8, .mul 0 0 7, .sqrn 0 0 8, .mul 0 0 8,
   .sqrn 0 0 8, .mul 0 0 4, .sqrn 0 0 2, .mul 0 0 1, .sqrn 0 0 4, .mul 0 0 8, .sqrn 0 0 4, .mul 0 0 5,
   .sqrn 0 0 5, .mul 0 0 8, .sqrn 0 0 4, .mul 0 0 5, .sqrn 0 0 3, .mul 0 0 2, .sqrn 0 0 6, .mul 0 0 7,
   .sqrn 0 0 5, .mul 0 0 7, .sqrn 0 0 4, .mul 0 0 8, .sqrn 0 0 4, .mul 0 0 8, .sqrn 0 0 4, .mul 0 0 2,
   .sqrn 0 0 12, .mul 0 0 3, .sqrn 0 0 3, .mul 0 0 1, .sqrn 0 0 7, .mul 0 0 8, .sqrn 0 0 4, .mul 0 0 4,
   .sqrn 0 0 8, .mul 0 0 5, .sqrn 0 0 3, .mul 0 0 3, .sqrn 0 0 5, .mul 0 0 3, .sqrn 0 0 4, .mul 0 0 7,
   .sqrn 0 0 9, .mul 0 0 4, .sqrn 0 0 4, .mul 0 0 4, .sqrn 0 0 5, .mul 0 0 7, .sqrn 0 0 4, .mul 0 0 4,
   .sqrn 0 0 6, .mul 0 0 5, .sqrn 0 0 3, .mul 0 0 3, .sqrn 0 0 2, .mul 0 0 2, .sqrn 0 0 4, .mul 0 0 1,
   .sqrn 0 0 7, .mul 0 0 5, .sqrn 0 0 4, .mul 0 0 5, .sqrn 0 0 2, .mul 0 0 2, .sqrn 0 0 4, .mul 0 0 1,
   .sqrn 0 0 5, .mul 0 0 2, .sqrn 0 0 4, .mul 0 0 7, .sqrn 0 0 3, .mul 0 0 2, .sqrn 0 0 3, .mul 0 0 3,
   .sqrn 0 0 4, .mul 0 0 4, .sqrn 0 0 3, .mul 0 0 2, .sqrn 0 0 5, .mul 0 0 7, .sqrn 0 0 4, .mul 0 0 8,
   .sqrn 0 0 5, .mul 0 0 7, .sqrn 0 0 2, .mul 0 0 2, .sqrn 0 0 7, .mul 0 0 8, .sqrn 0 0 5, .mul 0 0 5,
   .sqrn 0 0 7, .mul 0 0 5, .sqrn 0 0 2, .mul 0 0 2, .sqrn 0 0 6, .mul 0 0 2, .sqrn 0 0 3, .mul 0 0 1,
   .sqrn 0 0 10, .mul 0 0 4]

/-- src/fields/scalar.h:514-611, `secq256k1_sc_invert`, between `sc_mont` and `sc_normal`; `z` is register 0
and the input register 1. -/
def secq256k1_sc_invert : List Ins :=
  [.sqr 11 1, .mul 2 11 1, .mul 12 11 2, .mul 3 12 11, .mul 13 3 11, .mul 14 13 11, .mul 15 14 11, .sqr 4 15,
   .sqr 4 4, .mul 4 4 14, .sqr 5 4, .sqr 5 5, .mul 5 5 2, .sqr 6 5, .sqrn 6 6 5, .mul 6 6 4, .sqr 7 6,
   .sqrn 7 7 13, .mul 7 7 6, .sqr 8 7, .sqrn 8 8 27, .mul 8 8 7, .sqr 9 8, .sqrn 9 9 55, .mul 9 9 8, .sqr 10 9,
   .sqrn 10 10 13, .mul 0 10 6, .sqrn 0 0 3, .mul 0 0 12, .sqrn 0 0 4, .mul 0 0 3, .sqrn 0 0 4, .mul 0 0 12,
   .sqrn 0 0 5, .mul 0 0 14, .sqrn 0 0 4, .mul 0 0 14, .sqrn 0 0 4, .mul 0 0 3, .sqrn 0 0 5, .mul 0 0 3,
   .sqrn 0 0 6, .mul 0 0 15, .sqrn 0 0 4, .mul 0 0 12, .sqrn 0 0 3, .mul 0 0 3, .sqrn 0 0 5, .mul 0 0 13,
   .sqrn 0 0 6, .mul 0 0 12, .sqrn 0 0 10, .mul 0 0 3, .sqrn 0 0 4, .mul 0 0 3, .sqrn 0 0 9, .mul 0 0 5,
   .sqrn 0 0 5, .mul 0 0 13, .sqrn 0 0 6, .mul 0 0 14, .sqrn 0 0 4, .mul 0 0 15, .sqrn 0 0 5, .mul 0 0 2,
   .sqrn 0 0 6, .mul 0 0 15, .sqrn 0 0 10, .mul 0 0 15, .sqrn 0 0 4, .mul 0 0 13, .sqrn 0 0 6, .mul 0 0 1,
   .sqrn 0 0 8, .mul 0 0 4]

/-- src/fields/scalar.h:613-690, `q25519_sc_invert`, between `sc_mont` and `sc_normal`; `z` is register 0
and the input register 1. -/
def q25519_sc_invert : List Ins :=
  [.sqr 2 1, .sqr 4 2, .mul 3 2 1, .mul 5 2 3, .mul 6 2 5, .mul 7 2 6, .mul 8 2 7, .mul 9 4 8, .mul 0 9 1,
   .sqrn 0 0 126, .mul 0 0 5, .sqrn 0 0 4, .mul 0 0 3, .sqrn 0 0 5, .mul 0 0 9, .sqrn 0 0 5, .mul 0 0 9,
   .sqrn 0 0 4, .mul 0 0 7, .sqrn 0 0 2, .mul 0 0 3, .sqrn 0 0 5, .mul 0 0 9, .sqrn 0 0 4, .mul 0 0 5,
   .sqrn 0 0 6, .mul 0 0 5, .sqrn 0 0 3, .mul 0 0 6, .sqrn 0 0 5, .mul 0 0 9, .sqrn 0 0 5, .mul 0 0 6,
   .sqrn 0 0 4, .mul 0 0 3, .sqrn 0 0 5, .mul 0 0 8, .sqrn 0 0 6, .mul 0 0 8, .sqrn 0 0 10, .mul 0 0 7,
   .sqrn 0 0 4, .mul 0 0 3, .sqrn 0 0 5, .mul 0 0 3, .sqrn 0 0 5, .mul 0 0 3, .sqrn 0 0 5, .mul 0 0 7,
   .sqrn 0 0 4, .mul 0 0 6, .sqrn 0 0 6, .mul 0 0 9, .sqrn 0 0 5, .mul 0 0 8, .sqrn 0 0 3, .mul 0 0 5,
   .sqrn 0 0 6, .mul 0 0 9, .sqrn 0 0 3, .mul 0 0 5, .sqrn 0 0 3, .mul 0 0 3]

/-- src/fields/scalar.h:692-826, `q448_sc_invert`, between `sc_mont` and `sc_normal`; `z` is register 0
and the input register 1. -/
def q448_sc_invert : List Ins :=
  [.sqr 9 1, .mul 2 1 9, .mul 3 2 9, .mul 4 3 9, .mul 5 4 9, .mul 6 5 9, .mul 7 6 9, .mul 8 7 9, .sqrn 9 8 2,
   .mul 9 9 2, .sqrn 10 9 6, .mul 10 10 9, .sqrn 9 10 12, .mul 9 9 10, .sqrn 9 9 3, .mul 9 9 4, .sqrn 10 9 27,
   .mul 10 10 9, .sqrn 9 10 54, .mul 9 9 10, .sqrn 9 9 3, .mul 9 9 4, .sqrn 0 9 111, .mul 0 0 9, .sqrn 0 0 5,
   .mul 0 0 8, .sqrn 0 0 4, .mul 0 0 5, .sqrn 0 0 4, .mul 0 0 5, .sqrn 0 0 2, .mul 0 0 1, .sqrn 0 0 4,
   .mul 0 0 1, .sqrn 0 0 4, .mul 0 0 1, .sqrn 0 0 4, .mul 0 0 8, .sqrn 0 0 5, .mul 0 0 5, .sqrn 0 0 2,
   .mul 0 0 2, .sqrn 0 0 4, .mul 0 0 1, .sqrn 0 0 7, .mul 0 0 5, .sqrn 0 0 4, .mul 0 0 7, .sqrn 0 0 4,
   .mul 0 0 6, .sqrn 0 0 5, .mul 0 0 7, .sqrn 0 0 6, .mul 0 0 5, .sqrn 0 0 3, .mul 0 0 3, .sqrn 0 0 4,
   .mul 0 0 4, .sqrn 0 0 5, .mul 0 0 7, .sqrn 0 0 3, .mul 0 0 2, .sqrn 0 0 7, .mul 0 0 7, .sqrn 0 0 3,
   .mul 0 0 3, .sqrn 0 0 3, .mul 0 0 1, .sqrn 0 0 7, .mul 0 0 1, .sqrn 0 0 8, .mul 0 0 6, .sqrn 0 0 3,
   .mul 0 0 2, .sqrn 0 0 4, .mul 0 0 2, .sqrn 0 0 5, .mul 0 0 1, .sqrn 0 0 5, .mul 0 0 4, .sqrn 0 0 5,
   .mul 0 0 3, .sqrn 0 0 7, .mul 0 0 7, .sqrn 0 0 2, .mul 0 0 2, .sqrn 0 0 7, .mul 0 0 6, .sqrn 0 0 7,
   .mul 0 0 8, .sqrn 0 0 4, .mul 0 0 3, .sqrn 0 0 4, .mul 0 0 3, .sqrn 0 0 3, .mul 0 0 1, .sqrn 0 0 7,
   .mul 0 0 7, .sqrn 0 0 3, .mul 0 0 4, .sqrn 0 0 5, .mul 0 0 2, .sqrn 0 0 7, .mul 0 0 3, .sqrn 0 0 3,
   .mul 0 0 1, .sqrn 0 0 5, .mul 0 0 3, .sqrn 0 0 4, .mul 0 0 3, .sqrn 0 0 5, .mul 0 0 7, .sqrn 0 0 3,
   .mul 0 0 2, .sqrn 0 0 5, .mul 0 0 1, .sqrn 0 0 7, .mul 0 0 5, .sqrn 0 0 3, .mul 0 0 4, .sqrn 0 0 4,
   .mul 0 0 1]

/-- src/fields/scalar.h:828-918, `q251_sc_invert`, between `sc_mont` and `sc_normal`; `z` is register 0
and the input register 1. -/
def q251_sc_invert : List Ins :=
  [.sqr 9 1, .mul 2 1 9, .mul 3 2 9, .mul 4 3 9, .mul 5 4 9, .mul 6 5 9, .mul 7 6 9, .mul 8 7 9, .sqrn 9 8 2,
   .mul 9 9 2, .sqrn 10 9 6, .mul 10 10 9, .sqrn 10 10 3, .mul 10 10 4, .sqrn 9 10 15, .mul 9 9 10,
   .sqrn 10 9 30, .mul 10 10 9, .sqrn 0 10 60, .mul 0 0 10, .sqrn 0 0 4, .mul 0 0 8, .sqrn 0 0 3, .mul 0 0 3,
   .sqrn 0 0 4, .mul 0 0 7, .sqrn 0 0 3, .mul 0 0 4, .sqrn 0 0 5, .mul 0 0 3, .sqrn 0 0 4, .mul 0 0 5,
   .sqrn 0 0 4, .mul 0 0 4, .sqrn 0 0 7, .mul 0 0 5, .sqrn 0 0 4, .mul 0 0 6, .sqrn 0 0 4, .mul 0 0 8,
   .sqrn 0 0 3, .mul 0 0 3, .sqrn 0 0 4, .mul 0 0 2, .sqrn 0 0 8, .mul 0 0 4, .sqrn 0 0 4, .mul 0 0 2,
   .sqrn 0 0 5, .mul 0 0 5, .sqrn 0 0 4, .mul 0 0 1, .sqrn 0 0 5, .mul 0 0 3, .sqrn 0 0 7, .mul 0 0 5,
   .sqrn 0 0 3, .mul 0 0 3, .sqrn 0 0 2, .mul 0 0 1, .sqrn 0 0 7, .mul 0 0 6, .sqrn 0 0 4, .mul 0 0 8,
   .sqrn 0 0 3, .mul 0 0 3, .sqrn 0 0 6, .mul 0 0 3, .sqrn 0 0 4, .mul 0 0 5, .sqrn 0 0 4, .mul 0 0 6,
   .sqrn 0 0 6, .mul 0 0 5, .sqrn 0 0 3, .mul 0 0 2, .sqrn 0 0 5, .mul 0 0 8]

end Torsion
