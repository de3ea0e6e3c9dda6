import Verif.Ecc.Fiat.Lang

/-!
# Model of src/fields/secp256k1_32.h (written by tools/fiat.py)
-/
namespace Torsion.Fiat.W32

/-- src/fields/secp256k1_32.h:157-194 `fiat_secp256k1_add`. -/
def secp256k1_add : Prog where
  body := [
    .set 32 (.add (.a 32 0 0) (.a 32 1 0)),
    .set 32 (.add (.a 32 0 1) (.a 32 1 1)),
    .set 32 (.add (.a 32 0 2) (.a 32 1 2)),
    .set 32 (.add (.a 32 0 3) (.a 32 1 3)),
    .set 32 (.add (.a 32 0 4) (.a 32 1 4)),
    .set 32 (.add (.a 32 0 5) (.a 32 1 5)),
    .set 32 (.add (.a 32 0 6) (.a 32 1 6)),
    .set 32 (.add (.a 32 0 7) (.a 32 1 7)),
    .set 32 (.add (.a 32 0 8) (.a 32 1 8)),
    .set 32 (.add (.a 32 0 9) (.a 32 1 9)),
    .set 32 (.add (.a 32 0 10) (.a 32 1 10)),
    .set 32 (.add (.a 32 0 11) (.a 32 1 11))]
  outs := [.x 0, .x 1, .x 2, .x 3, .x 4, .x 5, .x 6, .x 7, .x 8, .x 9, .x 10, .x 11]

/-- src/fields/secp256k1_32.h:207-244 `fiat_secp256k1_sub`. -/
def secp256k1_sub : Prog where
  body := [
    .set 32 (.sub (.add (.lit 32 0x7ff85e) (.a 32 0 0)) (.a 32 1 0)),
    .set 32 (.sub (.add (.lit 32 0x3ff7fe) (.a 32 0 1)) (.a 32 1 1)),
    .set 32 (.sub (.add (.lit 32 0x3ffffe) (.a 32 0 2)) (.a 32 1 2)),
    .set 32 (.sub (.add (.lit 32 0x7ffffe) (.a 32 0 3)) (.a 32 1 3)),
    .set 32 (.sub (.add (.lit 32 0x3ffffe) (.a 32 0 4)) (.a 32 1 4)),
    .set 32 (.sub (.add (.lit 32 0x3ffffe) (.a 32 0 5)) (.a 32 1 5)),
    .set 32 (.sub (.add (.lit 32 0x7ffffe) (.a 32 0 6)) (.a 32 1 6)),
    .set 32 (.sub (.add (.lit 32 0x3ffffe) (.a 32 0 7)) (.a 32 1 7)),
    .set 32 (.sub (.add (.lit 32 0x3ffffe) (.a 32 0 8)) (.a 32 1 8)),
    .set 32 (.sub (.add (.lit 32 0x7ffffe) (.a 32 0 9)) (.a 32 1 9)),
    .set 32 (.sub (.add (.lit 32 0x3ffffe) (.a 32 0 10)) (.a 32 1 10)),
    .set 32 (.sub (.add (.lit 32 0x3ffffe) (.a 32 0 11)) (.a 32 1 11))]
  outs := [.x 0, .x 1, .x 2, .x 3, .x 4, .x 5, .x 6, .x 7, .x 8, .x 9, .x 10, .x 11]

/-- src/fields/secp256k1_32.h:256-293 `fiat_secp256k1_opp`. -/
def secp256k1_opp : Prog where
  body := [
    .set 32 (.sub (.lit 32 0x7ff85e) (.a 32 0 0)),
    .set 32 (.sub (.lit 32 0x3ff7fe) (.a 32 0 1)),
    .set 32 (.sub (.lit 32 0x3ffffe) (.a 32 0 2)),
    .set 32 (.sub (.lit 32 0x7ffffe) (.a 32 0 3)),
    .set 32 (.sub (.lit 32 0x3ffffe) (.a 32 0 4)),
    .set 32 (.sub (.lit 32 0x3ffffe) (.a 32 0 5)),
    .set 32 (.sub (.lit 32 0x7ffffe) (.a 32 0 6)),
    .set 32 (.sub (.lit 32 0x3ffffe) (.a 32 0 7)),
    .set 32 (.sub (.lit 32 0x3ffffe) (.a 32 0 8)),
    .set 32 (.sub (.lit 32 0x7ffffe) (.a 32 0 9)),
    .set 32 (.sub (.lit 32 0x3ffffe) (.a 32 0 10)),
    .set 32 (.sub (.lit 32 0x3ffffe) (.a 32 0 11))]
  outs := [.x 0, .x 1, .x 2, .x 3, .x 4, .x 5, .x 6, .x 7, .x 8, .x 9, .x 10, .x 11]

/-- src/fields/secp256k1_32.h:305-378 `fiat_secp256k1_carry`. -/
def secp256k1_carry : Prog where
  body := [
    .set 32 (.a 32 0 0),
    .set 32 (.a 32 0 11),
    .set 32 (.shr (.x 1) 21),
    .set 32 (.add (.add (.shr (.x 0) 22) (.a 32 0 1)) (.shl (.x 2) 10)),
    .set 32 (.add (.land (.x 0) (.lit 32 0x3fffff)) (.mul (.lit 31 0x3d1) (.x 2))),
    .set 32 (.add (.shr (.x 3) 21) (.a 32 0 2)),
    .set 32 (.add (.shr (.x 5) 21) (.a 32 0 3)),
    .set 32 (.add (.shr (.x 6) 22) (.a 32 0 4)),
    .set 32 (.add (.shr (.x 7) 21) (.a 32 0 5)),
    .set 32 (.add (.shr (.x 8) 21) (.a 32 0 6)),
    .set 32 (.add (.shr (.x 9) 22) (.a 32 0 7)),
    .set 32 (.add (.shr (.x 10) 21) (.a 32 0 8)),
    .set 32 (.add (.shr (.x 11) 21) (.a 32 0 9)),
    .set 32 (.add (.shr (.x 12) 22) (.a 32 0 10)),
    .set 32 (.add (.shr (.x 13) 21) (.land (.x 1) (.lit 32 0x1fffff))),
    .set 8 (.cast 8 (.shr (.x 14) 21)),
    .set 32 (.add (.add (.cast 8 (.shr (.x 4) 22)) (.land (.x 3) (.lit 32 0x1fffff))) (.shl (.cast 32 (.x 15)) 10)),
    .set 32 (.add (.land (.x 4) (.lit 32 0x3fffff)) (.mul (.lit 31 0x3d1) (.cast 32 (.x 15)))),
    .set 32 (.land (.x 17) (.lit 32 0x3fffff)),
    .set 32 (.add (.cast 8 (.shr (.x 17) 22)) (.land (.x 16) (.lit 32 0x1fffff))),
    .set 32 (.add (.cast 8 (.shr (.x 16) 21)) (.land (.x 5) (.lit 32 0x1fffff))),
    .set 32 (.land (.x 6) (.lit 32 0x3fffff)),
    .set 32 (.land (.x 7) (.lit 32 0x1fffff)),
    .set 32 (.land (.x 8) (.lit 32 0x1fffff)),
    .set 32 (.land (.x 9) (.lit 32 0x3fffff)),
    .set 32 (.land (.x 10) (.lit 32 0x1fffff)),
    .set 32 (.land (.x 11) (.lit 32 0x1fffff)),
    .set 32 (.land (.x 12) (.lit 32 0x3fffff)),
    .set 32 (.land (.x 13) (.lit 32 0x1fffff)),
    .set 32 (.land (.x 14) (.lit 32 0x1fffff))]
  outs := [.x 18, .x 19, .x 20, .x 21, .x 22, .x 23, .x 24, .x 25, .x 26, .x 27, .x 28, .x 29]

/-- src/fields/secp256k1_32.h:391-956 `fiat_secp256k1_carry_mul`. -/
def secp256k1_carry_mul : Prog where
  body := [
    .set 64 (.mul (.lit 31 0x3d1) (.mul (.cast 64 (.a 32 0 11)) (.a 32 1 11))),
    .set 64 (.mul (.lit 31 0x3d1) (.mul (.mul (.cast 64 (.a 32 0 11)) (.a 32 1 10)) (.lit 31 0x2))),
    .set 64 (.mul (.lit 31 0x3d1) (.mul (.cast 64 (.a 32 0 11)) (.a 32 1 9))),
    .set 64 (.mul (.lit 31 0x3d1) (.mul (.cast 64 (.a 32 0 11)) (.a 32 1 8))),
    .set 64 (.mul (.lit 31 0x3d1) (.mul (.mul (.cast 64 (.a 32 0 11)) (.a 32 1 7)) (.lit 31 0x2))),
    .set 64 (.mul (.lit 31 0x3d1) (.mul (.cast 64 (.a 32 0 11)) (.a 32 1 6))),
    .set 64 (.mul (.lit 31 0x3d1) (.mul (.cast 64 (.a 32 0 11)) (.a 32 1 5))),
    .set 64 (.mul (.lit 31 0x3d1) (.mul (.mul (.cast 64 (.a 32 0 11)) (.a 32 1 4)) (.lit 31 0x2))),
    .set 64 (.mul (.lit 31 0x3d1) (.mul (.cast 64 (.a 32 0 11)) (.a 32 1 3))),
    .set 64 (.mul (.lit 31 0x3d1) (.mul (.cast 64 (.a 32 0 11)) (.a 32 1 2))),
    .set 64 (.mul (.lit 31 0x3d1) (.mul (.mul (.cast 64 (.a 32 0 11)) (.a 32 1 1)) (.lit 31 0x2))),
    .set 64 (.mul (.lit 31 0x3d1) (.mul (.mul (.cast 64 (.a 32 0 10)) (.a 32 1 11)) (.lit 31 0x2))),
    .set 64 (.mul (.lit 31 0x3d1) (.mul (.mul (.cast 64 (.a 32 0 10)) (.a 32 1 10)) (.lit 31 0x2))),
    .set 64 (.mul (.lit 31 0x3d1) (.mul (.cast 64 (.a 32 0 10)) (.a 32 1 9))),
    .set 64 (.mul (.lit 31 0x3d1) (.mul (.mul (.cast 64 (.a 32 0 10)) (.a 32 1 8)) (.lit 31 0x2))),
    .set 64 (.mul (.lit 31 0x3d1) (.mul (.mul (.cast 64 (.a 32 0 10)) (.a 32 1 7)) (.lit 31 0x2))),
    .set 64 (.mul (.lit 31 0x3d1) (.mul (.cast 64 (.a 32 0 10)) (.a 32 1 6))),
    .set 64 (.mul (.lit 31 0x3d1) (.mul (.mul (.cast 64 (.a 32 0 10)) (.a 32 1 5)) (.lit 31 0x2))),
    .set 64 (.mul (.lit 31 0x3d1) (.mul (.mul (.cast 64 (.a 32 0 10)) (.a 32 1 4)) (.lit 31 0x2))),
    .set 64 (.mul (.lit 31 0x3d1) (.mul (.cast 64 (.a 32 0 10)) (.a 32 1 3))),
    .set 64 (.mul (.lit 31 0x3d1) (.mul (.mul (.cast 64 (.a 32 0 10)) (.a 32 1 2)) (.lit 31 0x2))),
    .set 64 (.mul (.lit 31 0x3d1) (.mul (.cast 64 (.a 32 0 9)) (.a 32 1 11))),
    .set 64 (.mul (.lit 31 0x3d1) (.mul (.cast 64 (.a 32 0 9)) (.a 32 1 10))),
    .set 64 (.mul (.lit 31 0x3d1) (.mul (.cast 64 (.a 32 0 9)) (.a 32 1 9))),
    .set 64 (.mul (.lit 31 0x3d1) (.mul (.cast 64 (.a 32 0 9)) (.a 32 1 8))),
    .set 64 (.mul (.lit 31 0x3d1) (.mul (.cast 64 (.a 32 0 9)) (.a 32 1 7))),
    .set 64 (.mul (.lit 31 0x3d1) (.mul (.cast 64 (.a 32 0 9)) (.a 32 1 6))),
    .set 64 (.mul (.lit 31 0x3d1) (.mul (.cast 64 (.a 32 0 9)) (.a 32 1 5))),
    .set 64 (.mul (.lit 31 0x3d1) (.mul (.cast 64 (.a 32 0 9)) (.a 32 1 4))),
    .set 64 (.mul (.lit 31 0x3d1) (.mul (.cast 64 (.a 32 0 9)) (.a 32 1 3))),
    .set 64 (.mul (.lit 31 0x3d1) (.mul (.cast 64 (.a 32 0 8)) (.a 32 1 11))),
    .set 64 (.mul (.lit 31 0x3d1) (.mul (.mul (.cast 64 (.a 32 0 8)) (.a 32 1 10)) (.lit 31 0x2))),
    .set 64 (.mul (.lit 31 0x3d1) (.mul (.cast 64 (.a 32 0 8)) (.a 32 1 9))),
    .set 64 (.mul (.lit 31 0x3d1) (.mul (.cast 64 (.a 32 0 8)) (.a 32 1 8))),
    .set 64 (.mul (.lit 31 0x3d1) (.mul (.mul (.cast 64 (.a 32 0 8)) (.a 32 1 7)) (.lit 31 0x2))),
    .set 64 (.mul (.lit 31 0x3d1) (.mul (.cast 64 (.a 32 0 8)) (.a 32 1 6))),
    .set 64 (.mul (.lit 31 0x3d1) (.mul (.cast 64 (.a 32 0 8)) (.a 32 1 5))),
    .set 64 (.mul (.lit 31 0x3d1) (.mul (.mul (.cast 64 (.a 32 0 8)) (.a 32 1 4)) (.lit 31 0x2))),
    .set 64 (.mul (.lit 31 0x3d1) (.mul (.mul (.cast 64 (.a 32 0 7)) (.a 32 1 11)) (.lit 31 0x2))),
    .set 64 (.mul (.lit 31 0x3d1) (.mul (.mul (.cast 64 (.a 32 0 7)) (.a 32 1 10)) (.lit 31 0x2))),
    .set 64 (.mul (.lit 31 0x3d1) (.mul (.cast 64 (.a 32 0 7)) (.a 32 1 9))),
    .set 64 (.mul (.lit 31 0x3d1) (.mul (.mul (.cast 64 (.a 32 0 7)) (.a 32 1 8)) (.lit 31 0x2))),
    .set 64 (.mul (.lit 31 0x3d1) (.mul (.mul (.cast 64 (.a 32 0 7)) (.a 32 1 7)) (.lit 31 0x2))),
    .set 64 (.mul (.lit 31 0x3d1) (.mul (.cast 64 (.a 32 0 7)) (.a 32 1 6))),
    .set 64 (.mul (.lit 31 0x3d1) (.mul (.mul (.cast 64 (.a 32 0 7)) (.a 32 1 5)) (.lit 31 0x2))),
    .set 64 (.mul (.lit 31 0x3d1) (.mul (.cast 64 (.a 32 0 6)) (.a 32 1 11))),
    .set 64 (.mul (.lit 31 0x3d1) (.mul (.cast 64 (.a 32 0 6)) (.a 32 1 10))),
    .set 64 (.mul (.lit 31 0x3d1) (.mul (.cast 64 (.a 32 0 6)) (.a 32 1 9))),
    .set 64 (.mul (.lit 31 0x3d1) (.mul (.cast 64 (.a 32 0 6)) (.a 32 1 8))),
    .set 64 (.mul (.lit 31 0x3d1) (.mul (.cast 64 (.a 32 0 6)) (.a 32 1 7))),
    .set 64 (.mul (.lit 31 0x3d1) (.mul (.cast 64 (.a 32 0 6)) (.a 32 1 6))),
    .set 64 (.mul (.lit 31 0x3d1) (.mul (.cast 64 (.a 32 0 5)) (.a 32 1 11))),
    .set 64 (.mul (.lit 31 0x3d1) (.mul (.mul (.cast 64 (.a 32 0 5)) (.a 32 1 10)) (.lit 31 0x2))),
    .set 64 (.mul (.lit 31 0x3d1) (.mul (.cast 64 (.a 32 0 5)) (.a 32 1 9))),
    .set 64 (.mul (.lit 31 0x3d1) (.mul (.cast 64 (.a 32 0 5)) (.a 32 1 8))),
    .set 64 (.mul (.lit 31 0x3d1) (.mul (.mul (.cast 64 (.a 32 0 5)) (.a 32 1 7)) (.lit 31 0x2))),
    .set 64 (.mul (.lit 31 0x3d1) (.mul (.mul (.cast 64 (.a 32 0 4)) (.a 32 1 11)) (.lit 31 0x2))),
    .set 64 (.mul (.lit 31 0x3d1) (.mul (.mul (.cast 64 (.a 32 0 4)) (.a 32 1 10)) (.lit 31 0x2))),
    .set 64 (.mul (.lit 31 0x3d1) (.mul (.cast 64 (.a 32 0 4)) (.a 32 1 9))),
    .set 64 (.mul (.lit 31 0x3d1) (.mul (.mul (.cast 64 (.a 32 0 4)) (.a 32 1 8)) (.lit 31 0x2))),
    .set 64 (.mul (.lit 31 0x3d1) (.mul (.cast 64 (.a 32 0 3)) (.a 32 1 11))),
    .set 64 (.mul (.lit 31 0x3d1) (.mul (.cast 64 (.a 32 0 3)) (.a 32 1 10))),
    .set 64 (.mul (.lit 31 0x3d1) (.mul (.cast 64 (.a 32 0 3)) (.a 32 1 9))),
    .set 64 (.mul (.lit 31 0x3d1) (.mul (.cast 64 (.a 32 0 2)) (.a 32 1 11))),
    .set 64 (.mul (.lit 31 0x3d1) (.mul (.mul (.cast 64 (.a 32 0 2)) (.a 32 1 10)) (.lit 31 0x2))),
    .set 64 (.mul (.lit 31 0x3d1) (.mul (.mul (.cast 64 (.a 32 0 1)) (.a 32 1 11)) (.lit 31 0x2))),
    .set 64 (.shl (.mul (.cast 64 (.a 32 0 11)) (.a 32 1 11)) 11),
    .set 64 (.shl (.mul (.cast 64 (.a 32 0 11)) (.a 32 1 10)) 11),
    .set 64 (.shl (.mul (.cast 64 (.a 32 0 11)) (.a 32 1 9)) 11),
    .set 64 (.shl (.mul (.cast 64 (.a 32 0 11)) (.a 32 1 8)) 11),
    .set 64 (.shl (.mul (.cast 64 (.a 32 0 11)) (.a 32 1 7)) 11),
    .set 64 (.shl (.mul (.cast 64 (.a 32 0 11)) (.a 32 1 6)) 11),
    .set 64 (.shl (.mul (.cast 64 (.a 32 0 11)) (.a 32 1 5)) 11),
    .set 64 (.shl (.mul (.cast 64 (.a 32 0 11)) (.a 32 1 4)) 11),
    .set 64 (.shl (.mul (.cast 64 (.a 32 0 11)) (.a 32 1 3)) 11),
    .set 64 (.shl (.mul (.cast 64 (.a 32 0 11)) (.a 32 1 2)) 11),
    .set 64 (.shl (.mul (.cast 64 (.a 32 0 11)) (.a 32 1 1)) 11),
    .set 64 (.shl (.mul (.cast 64 (.a 32 0 10)) (.a 32 1 11)) 11),
    .set 64 (.shl (.mul (.cast 64 (.a 32 0 10)) (.a 32 1 10)) 12),
    .set 64 (.shl (.mul (.cast 64 (.a 32 0 10)) (.a 32 1 9)) 11),
    .set 64 (.shl (.mul (.cast 64 (.a 32 0 10)) (.a 32 1 8)) 11),
    .set 64 (.shl (.mul (.cast 64 (.a 32 0 10)) (.a 32 1 7)) 12),
    .set 64 (.shl (.mul (.cast 64 (.a 32 0 10)) (.a 32 1 6)) 11),
    .set 64 (.shl (.mul (.cast 64 (.a 32 0 10)) (.a 32 1 5)) 11),
    .set 64 (.shl (.mul (.cast 64 (.a 32 0 10)) (.a 32 1 4)) 12),
    .set 64 (.shl (.mul (.cast 64 (.a 32 0 10)) (.a 32 1 3)) 11),
    .set 64 (.shl (.mul (.cast 64 (.a 32 0 10)) (.a 32 1 2)) 11),
    .set 64 (.shl (.mul (.cast 64 (.a 32 0 9)) (.a 32 1 11)) 11),
    .set 64 (.shl (.mul (.cast 64 (.a 32 0 9)) (.a 32 1 10)) 11),
    .set 64 (.shl (.mul (.cast 64 (.a 32 0 9)) (.a 32 1 9)) 10),
    .set 64 (.shl (.mul (.cast 64 (.a 32 0 9)) (.a 32 1 8)) 11),
    .set 64 (.shl (.mul (.cast 64 (.a 32 0 9)) (.a 32 1 7)) 11),
    .set 64 (.shl (.mul (.cast 64 (.a 32 0 9)) (.a 32 1 6)) 10),
    .set 64 (.shl (.mul (.cast 64 (.a 32 0 9)) (.a 32 1 5)) 11),
    .set 64 (.shl (.mul (.cast 64 (.a 32 0 9)) (.a 32 1 4)) 11),
    .set 64 (.shl (.mul (.cast 64 (.a 32 0 9)) (.a 32 1 3)) 10),
    .set 64 (.shl (.mul (.cast 64 (.a 32 0 8)) (.a 32 1 11)) 11),
    .set 64 (.shl (.mul (.cast 64 (.a 32 0 8)) (.a 32 1 10)) 11),
    .set 64 (.shl (.mul (.cast 64 (.a 32 0 8)) (.a 32 1 9)) 11),
    .set 64 (.shl (.mul (.cast 64 (.a 32 0 8)) (.a 32 1 8)) 11),
    .set 64 (.shl (.mul (.cast 64 (.a 32 0 8)) (.a 32 1 7)) 11),
    .set 64 (.shl (.mul (.cast 64 (.a 32 0 8)) (.a 32 1 6)) 11),
    .set 64 (.shl (.mul (.cast 64 (.a 32 0 8)) (.a 32 1 5)) 11),
    .set 64 (.shl (.mul (.cast 64 (.a 32 0 8)) (.a 32 1 4)) 11),
    .set 64 (.shl (.mul (.cast 64 (.a 32 0 7)) (.a 32 1 11)) 11),
    .set 64 (.shl (.mul (.cast 64 (.a 32 0 7)) (.a 32 1 10)) 12),
    .set 64 (.shl (.mul (.cast 64 (.a 32 0 7)) (.a 32 1 9)) 11),
    .set 64 (.shl (.mul (.cast 64 (.a 32 0 7)) (.a 32 1 8)) 11),
    .set 64 (.shl (.mul (.cast 64 (.a 32 0 7)) (.a 32 1 7)) 12),
    .set 64 (.shl (.mul (.cast 64 (.a 32 0 7)) (.a 32 1 6)) 11),
    .set 64 (.shl (.mul (.cast 64 (.a 32 0 7)) (.a 32 1 5)) 11),
    .set 64 (.shl (.mul (.cast 64 (.a 32 0 6)) (.a 32 1 11)) 11),
    .set 64 (.shl (.mul (.cast 64 (.a 32 0 6)) (.a 32 1 10)) 11),
    .set 64 (.shl (.mul (.cast 64 (.a 32 0 6)) (.a 32 1 9)) 10),
    .set 64 (.shl (.mul (.cast 64 (.a 32 0 6)) (.a 32 1 8)) 11),
    .set 64 (.shl (.mul (.cast 64 (.a 32 0 6)) (.a 32 1 7)) 11),
    .set 64 (.shl (.mul (.cast 64 (.a 32 0 6)) (.a 32 1 6)) 10),
    .set 64 (.shl (.mul (.cast 64 (.a 32 0 5)) (.a 32 1 11)) 11),
    .set 64 (.shl (.mul (.cast 64 (.a 32 0 5)) (.a 32 1 10)) 11),
    .set 64 (.shl (.mul (.cast 64 (.a 32 0 5)) (.a 32 1 9)) 11),
    .set 64 (.shl (.mul (.cast 64 (.a 32 0 5)) (.a 32 1 8)) 11),
    .set 64 (.shl (.mul (.cast 64 (.a 32 0 5)) (.a 32 1 7)) 11),
    .set 64 (.shl (.mul (.cast 64 (.a 32 0 4)) (.a 32 1 11)) 11),
    .set 64 (.shl (.mul (.cast 64 (.a 32 0 4)) (.a 32 1 10)) 12),
    .set 64 (.shl (.mul (.cast 64 (.a 32 0 4)) (.a 32 1 9)) 11),
    .set 64 (.shl (.mul (.cast 64 (.a 32 0 4)) (.a 32 1 8)) 11),
    .set 64 (.shl (.mul (.cast 64 (.a 32 0 3)) (.a 32 1 11)) 11),
    .set 64 (.shl (.mul (.cast 64 (.a 32 0 3)) (.a 32 1 10)) 11),
    .set 64 (.shl (.mul (.cast 64 (.a 32 0 3)) (.a 32 1 9)) 10),
    .set 64 (.shl (.mul (.cast 64 (.a 32 0 2)) (.a 32 1 11)) 11),
    .set 64 (.shl (.mul (.cast 64 (.a 32 0 2)) (.a 32 1 10)) 11),
    .set 64 (.shl (.mul (.cast 64 (.a 32 0 1)) (.a 32 1 11)) 11),
    .set 64 (.mul (.cast 64 (.a 32 0 11)) (.a 32 1 0)),
    .set 64 (.mul (.cast 64 (.a 32 0 10)) (.mul (.a 32 1 1) (.lit 31 0x2))),
    .set 64 (.mul (.cast 64 (.a 32 0 10)) (.a 32 1 0)),
    .set 64 (.mul (.cast 64 (.a 32 0 9)) (.a 32 1 2)),
    .set 64 (.mul (.cast 64 (.a 32 0 9)) (.a 32 1 1)),
    .set 64 (.mul (.cast 64 (.a 32 0 9)) (.a 32 1 0)),
    .set 64 (.mul (.cast 64 (.a 32 0 8)) (.a 32 1 3)),
    .set 64 (.mul (.cast 64 (.a 32 0 8)) (.a 32 1 2)),
    .set 64 (.mul (.cast 64 (.a 32 0 8)) (.mul (.a 32 1 1) (.lit 31 0x2))),
    .set 64 (.mul (.cast 64 (.a 32 0 8)) (.a 32 1 0)),
    .set 64 (.mul (.cast 64 (.a 32 0 7)) (.mul (.a 32 1 4) (.lit 31 0x2))),
    .set 64 (.mul (.cast 64 (.a 32 0 7)) (.a 32 1 3)),
    .set 64 (.mul (.cast 64 (.a 32 0 7)) (.mul (.a 32 1 2) (.lit 31 0x2))),
    .set 64 (.mul (.cast 64 (.a 32 0 7)) (.mul (.a 32 1 1) (.lit 31 0x2))),
    .set 64 (.mul (.cast 64 (.a 32 0 7)) (.a 32 1 0)),
    .set 64 (.mul (.cast 64 (.a 32 0 6)) (.a 32 1 5)),
    .set 64 (.mul (.cast 64 (.a 32 0 6)) (.a 32 1 4)),
    .set 64 (.mul (.cast 64 (.a 32 0 6)) (.a 32 1 3)),
    .set 64 (.mul (.cast 64 (.a 32 0 6)) (.a 32 1 2)),
    .set 64 (.mul (.cast 64 (.a 32 0 6)) (.a 32 1 1)),
    .set 64 (.mul (.cast 64 (.a 32 0 6)) (.a 32 1 0)),
    .set 64 (.mul (.cast 64 (.a 32 0 5)) (.a 32 1 6)),
    .set 64 (.mul (.cast 64 (.a 32 0 5)) (.a 32 1 5)),
    .set 64 (.mul (.cast 64 (.a 32 0 5)) (.mul (.a 32 1 4) (.lit 31 0x2))),
    .set 64 (.mul (.cast 64 (.a 32 0 5)) (.a 32 1 3)),
    .set 64 (.mul (.cast 64 (.a 32 0 5)) (.a 32 1 2)),
    .set 64 (.mul (.cast 64 (.a 32 0 5)) (.mul (.a 32 1 1) (.lit 31 0x2))),
    .set 64 (.mul (.cast 64 (.a 32 0 5)) (.a 32 1 0)),
    .set 64 (.mul (.cast 64 (.a 32 0 4)) (.mul (.a 32 1 7) (.lit 31 0x2))),
    .set 64 (.mul (.cast 64 (.a 32 0 4)) (.a 32 1 6)),
    .set 64 (.mul (.cast 64 (.a 32 0 4)) (.mul (.a 32 1 5) (.lit 31 0x2))),
    .set 64 (.mul (.cast 64 (.a 32 0 4)) (.mul (.a 32 1 4) (.lit 31 0x2))),
    .set 64 (.mul (.cast 64 (.a 32 0 4)) (.a 32 1 3)),
    .set 64 (.mul (.cast 64 (.a 32 0 4)) (.mul (.a 32 1 2) (.lit 31 0x2))),
    .set 64 (.mul (.cast 64 (.a 32 0 4)) (.mul (.a 32 1 1) (.lit 31 0x2))),
    .set 64 (.mul (.cast 64 (.a 32 0 4)) (.a 32 1 0)),
    .set 64 (.mul (.cast 64 (.a 32 0 3)) (.a 32 1 8)),
    .set 64 (.mul (.cast 64 (.a 32 0 3)) (.a 32 1 7)),
    .set 64 (.mul (.cast 64 (.a 32 0 3)) (.a 32 1 6)),
    .set 64 (.mul (.cast 64 (.a 32 0 3)) (.a 32 1 5)),
    .set 64 (.mul (.cast 64 (.a 32 0 3)) (.a 32 1 4)),
    .set 64 (.mul (.cast 64 (.a 32 0 3)) (.a 32 1 3)),
    .set 64 (.mul (.cast 64 (.a 32 0 3)) (.a 32 1 2)),
    .set 64 (.mul (.cast 64 (.a 32 0 3)) (.a 32 1 1)),
    .set 64 (.mul (.cast 64 (.a 32 0 3)) (.a 32 1 0)),
    .set 64 (.mul (.cast 64 (.a 32 0 2)) (.a 32 1 9)),
    .set 64 (.mul (.cast 64 (.a 32 0 2)) (.a 32 1 8)),
    .set 64 (.mul (.cast 64 (.a 32 0 2)) (.mul (.a 32 1 7) (.lit 31 0x2))),
    .set 64 (.mul (.cast 64 (.a 32 0 2)) (.a 32 1 6)),
    .set 64 (.mul (.cast 64 (.a 32 0 2)) (.a 32 1 5)),
    .set 64 (.mul (.cast 64 (.a 32 0 2)) (.mul (.a 32 1 4) (.lit 31 0x2))),
    .set 64 (.mul (.cast 64 (.a 32 0 2)) (.a 32 1 3)),
    .set 64 (.mul (.cast 64 (.a 32 0 2)) (.a 32 1 2)),
    .set 64 (.mul (.cast 64 (.a 32 0 2)) (.mul (.a 32 1 1) (.lit 31 0x2))),
    .set 64 (.mul (.cast 64 (.a 32 0 2)) (.a 32 1 0)),
    .set 64 (.mul (.cast 64 (.a 32 0 1)) (.mul (.a 32 1 10) (.lit 31 0x2))),
    .set 64 (.mul (.cast 64 (.a 32 0 1)) (.a 32 1 9)),
    .set 64 (.mul (.cast 64 (.a 32 0 1)) (.mul (.a 32 1 8) (.lit 31 0x2))),
    .set 64 (.mul (.cast 64 (.a 32 0 1)) (.mul (.a 32 1 7) (.lit 31 0x2))),
    .set 64 (.mul (.cast 64 (.a 32 0 1)) (.a 32 1 6)),
    .set 64 (.mul (.cast 64 (.a 32 0 1)) (.mul (.a 32 1 5) (.lit 31 0x2))),
    .set 64 (.mul (.cast 64 (.a 32 0 1)) (.mul (.a 32 1 4) (.lit 31 0x2))),
    .set 64 (.mul (.cast 64 (.a 32 0 1)) (.a 32 1 3)),
    .set 64 (.mul (.cast 64 (.a 32 0 1)) (.mul (.a 32 1 2) (.lit 31 0x2))),
    .set 64 (.mul (.cast 64 (.a 32 0 1)) (.mul (.a 32 1 1) (.lit 31 0x2))),
    .set 64 (.mul (.cast 64 (.a 32 0 1)) (.a 32 1 0)),
    .set 64 (.mul (.cast 64 (.a 32 0 0)) (.a 32 1 11)),
    .set 64 (.mul (.cast 64 (.a 32 0 0)) (.a 32 1 10)),
    .set 64 (.mul (.cast 64 (.a 32 0 0)) (.a 32 1 9)),
    .set 64 (.mul (.cast 64 (.a 32 0 0)) (.a 32 1 8)),
    .set 64 (.mul (.cast 64 (.a 32 0 0)) (.a 32 1 7)),
    .set 64 (.mul (.cast 64 (.a 32 0 0)) (.a 32 1 6)),
    .set 64 (.mul (.cast 64 (.a 32 0 0)) (.a 32 1 5)),
    .set 64 (.mul (.cast 64 (.a 32 0 0)) (.a 32 1 4)),
    .set 64 (.mul (.cast 64 (.a 32 0 0)) (.a 32 1 3)),
    .set 64 (.mul (.cast 64 (.a 32 0 0)) (.a 32 1 2)),
    .set 64 (.mul (.cast 64 (.a 32 0 0)) (.a 32 1 1)),
    .set 64 (.mul (.cast 64 (.a 32 0 0)) (.a 32 1 0)),
    .set 64 (.add (.x 209) (.add (.x 65) (.add (.x 64) (.add (.x 62) (.add (.x 59) (.add (.x 55) (.add (.x 50) (.add (.x 44) (.add (.x 37) (.add (.x 29) (.add (.x 20) (.x 10)))))))))))),
    .set 64 (.shr (.x 210) 22),
    .set 32 (.cast 32 (.land (.x 210) (.lit 32 0x3fffff))),
    .set 64 (.add (.x 198) (.add (.x 187) (.add (.x 177) (.add (.x 168) (.add (.x 160) (.add (.x 153) (.add (.x 147) (.add (.x 142) (.add (.x 138) (.add (.x 135) (.add (.x 133) (.add (.x 132) (.x 66))))))))))))),
    .set 64 (.add (.x 199) (.add (.x 188) (.add (.x 178) (.add (.x 169) (.add (.x 161) (.add (.x 154) (.add (.x 148) (.add (.x 143) (.add (.x 139) (.add (.x 136) (.add (.x 134) (.add (.x 77) (.add (.x 67) (.x 0)))))))))))))),
    .set 64 (.add (.x 200) (.add (.x 189) (.add (.x 179) (.add (.x 170) (.add (.x 162) (.add (.x 155) (.add (.x 149) (.add (.x 144) (.add (.x 140) (.add (.x 137) (.add (.x 87) (.add (.x 78) (.add (.x 68) (.add (.x 11) (.x 1))))))))))))))),
    .set 64 (.add (.x 201) (.add (.x 190) (.add (.x 180) (.add (.x 171) (.add (.x 163) (.add (.x 156) (.add (.x 150) (.add (.x 145) (.add (.x 141) (.add (.x 96) (.add (.x 88) (.add (.x 79) (.add (.x 69) (.add (.x 21) (.add (.x 12) (.x 2)))))))))))))))),
    .set 64 (.add (.x 202) (.add (.x 191) (.add (.x 181) (.add (.x 172) (.add (.x 164) (.add (.x 157) (.add (.x 151) (.add (.x 146) (.add (.x 104) (.add (.x 97) (.add (.x 89) (.add (.x 80) (.add (.x 70) (.add (.x 30) (.add (.x 22) (.add (.x 13) (.x 3))))))))))))))))),
    .set 64 (.add (.x 203) (.add (.x 192) (.add (.x 182) (.add (.x 173) (.add (.x 165) (.add (.x 158) (.add (.x 152) (.add (.x 111) (.add (.x 105) (.add (.x 98) (.add (.x 90) (.add (.x 81) (.add (.x 71) (.add (.x 38) (.add (.x 31) (.add (.x 23) (.add (.x 14) (.x 4)))))))))))))))))),
    .set 64 (.add (.x 204) (.add (.x 193) (.add (.x 183) (.add (.x 174) (.add (.x 166) (.add (.x 159) (.add (.x 117) (.add (.x 112) (.add (.x 106) (.add (.x 99) (.add (.x 91) (.add (.x 82) (.add (.x 72) (.add (.x 45) (.add (.x 39) (.add (.x 32) (.add (.x 24) (.add (.x 15) (.x 5))))))))))))))))))),
    .set 64 (.add (.x 205) (.add (.x 194) (.add (.x 184) (.add (.x 175) (.add (.x 167) (.add (.x 122) (.add (.x 118) (.add (.x 113) (.add (.x 107) (.add (.x 100) (.add (.x 92) (.add (.x 83) (.add (.x 73) (.add (.x 51) (.add (.x 46) (.add (.x 40) (.add (.x 33) (.add (.x 25) (.add (.x 16) (.x 6)))))))))))))))))))),
    .set 64 (.add (.x 206) (.add (.x 195) (.add (.x 185) (.add (.x 176) (.add (.x 126) (.add (.x 123) (.add (.x 119) (.add (.x 114) (.add (.x 108) (.add (.x 101) (.add (.x 93) (.add (.x 84) (.add (.x 74) (.add (.x 56) (.add (.x 52) (.add (.x 47) (.add (.x 41) (.add (.x 34) (.add (.x 26) (.add (.x 17) (.x 7))))))))))))))))))))),
    .set 64 (.add (.x 207) (.add (.x 196) (.add (.x 186) (.add (.x 129) (.add (.x 127) (.add (.x 124) (.add (.x 120) (.add (.x 115) (.add (.x 109) (.add (.x 102) (.add (.x 94) (.add (.x 85) (.add (.x 75) (.add (.x 60) (.add (.x 57) (.add (.x 53) (.add (.x 48) (.add (.x 42) (.add (.x 35) (.add (.x 27) (.add (.x 18) (.x 8)))))))))))))))))))))),
    .set 64 (.add (.x 208) (.add (.x 197) (.add (.x 131) (.add (.x 130) (.add (.x 128) (.add (.x 125) (.add (.x 121) (.add (.x 116) (.add (.x 110) (.add (.x 103) (.add (.x 95) (.add (.x 86) (.add (.x 76) (.add (.x 63) (.add (.x 61) (.add (.x 58) (.add (.x 54) (.add (.x 49) (.add (.x 43) (.add (.x 36) (.add (.x 28) (.add (.x 19) (.x 9))))))))))))))))))))))),
    .set 64 (.add (.x 211) (.x 223)),
    .set 64 (.shr (.x 213) 21),
    .set 32 (.cast 32 (.land (.x 213) (.lit 32 0x1fffff))),
    .set 64 (.mul (.lit 31 0x3d1) (.x 225)),
    .set 64 (.shl (.x 225) 10),
    .set 64 (.add (.x 224) (.x 228)),
    .set 64 (.shr (.x 229) 21),
    .set 32 (.cast 32 (.land (.x 229) (.lit 32 0x1fffff))),
    .set 64 (.add (.x 212) (.x 227)),
    .set 64 (.add (.x 230) (.x 222)),
    .set 32 (.cast 32 (.shr (.x 232) 22)),
    .set 32 (.cast 32 (.land (.x 232) (.lit 32 0x3fffff))),
    .set 32 (.add (.x 234) (.x 231)),
    .set 64 (.shr (.x 233) 21),
    .set 32 (.cast 32 (.land (.x 233) (.lit 32 0x1fffff))),
    .set 64 (.add (.x 237) (.x 221)),
    .set 64 (.shr (.x 239) 22),
    .set 32 (.cast 32 (.land (.x 239) (.lit 32 0x3fffff))),
    .set 64 (.add (.x 240) (.x 220)),
    .set 64 (.shr (.x 242) 21),
    .set 32 (.cast 32 (.land (.x 242) (.lit 32 0x1fffff))),
    .set 64 (.add (.x 243) (.x 219)),
    .set 64 (.shr (.x 245) 21),
    .set 32 (.cast 32 (.land (.x 245) (.lit 32 0x1fffff))),
    .set 64 (.add (.x 246) (.x 218)),
    .set 64 (.shr (.x 248) 22),
    .set 32 (.cast 32 (.land (.x 248) (.lit 32 0x3fffff))),
    .set 64 (.add (.x 249) (.x 217)),
    .set 64 (.shr (.x 251) 21),
    .set 32 (.cast 32 (.land (.x 251) (.lit 32 0x1fffff))),
    .set 64 (.add (.x 252) (.x 216)),
    .set 64 (.shr (.x 254) 21),
    .set 32 (.cast 32 (.land (.x 254) (.lit 32 0x1fffff))),
    .set 64 (.add (.x 255) (.x 215)),
    .set 64 (.shr (.x 257) 22),
    .set 32 (.cast 32 (.land (.x 257) (.lit 32 0x3fffff))),
    .set 64 (.add (.x 258) (.x 214)),
    .set 64 (.shr (.x 260) 21),
    .set 32 (.cast 32 (.land (.x 260) (.lit 32 0x1fffff))),
    .set 64 (.add (.x 261) (.x 226)),
    .set 32 (.cast 32 (.shr (.x 263) 21)),
    .set 32 (.cast 32 (.land (.x 263) (.lit 32 0x1fffff))),
    .set 32 (.mul (.lit 31 0x3d1) (.x 264)),
    .set 32 (.shl (.x 264) 10),
    .set 32 (.add (.x 236) (.x 267)),
    .set 32 (.shr (.x 268) 21),
    .set 32 (.land (.x 268) (.lit 32 0x1fffff)),
    .set 32 (.add (.x 235) (.x 266)),
    .set 32 (.add (.x 269) (.x 238)),
    .set 32 (.shr (.x 271) 22),
    .set 32 (.land (.x 271) (.lit 32 0x3fffff)),
    .set 32 (.add (.x 273) (.x 270))]
  outs := [.x 274, .x 275, .x 272, .x 241, .x 244, .x 247, .x 250, .x 253, .x 256, .x 259, .x 262, .x 265]

/-- src/fields/secp256k1_32.h:968-1407 `fiat_secp256k1_carry_square`. -/
def secp256k1_carry_square : Prog where
  body := [
    .set 32 (.a 32 0 11),
    .set 64 (.mul (.cast 64 (.a 32 0 11)) (.lit 31 0x3d1)),
    .set 32 (.mul (.x 0) (.lit 31 0x2)),
    .set 64 (.mul (.x 1) (.lit 31 0x2)),
    .set 32 (.mul (.a 32 0 11) (.lit 31 0x2)),
    .set 32 (.a 32 0 10),
    .set 64 (.mul (.cast 64 (.a 32 0 10)) (.lit 31 0x3d1)),
    .set 32 (.mul (.x 5) (.lit 31 0x2)),
    .set 64 (.mul (.x 6) (.lit 31 0x2)),
    .set 32 (.mul (.a 32 0 10) (.lit 31 0x2)),
    .set 32 (.a 32 0 9),
    .set 64 (.mul (.cast 64 (.a 32 0 9)) (.lit 31 0x3d1)),
    .set 32 (.mul (.x 10) (.lit 31 0x2)),
    .set 64 (.mul (.x 11) (.lit 31 0x2)),
    .set 32 (.mul (.a 32 0 9) (.lit 31 0x2)),
    .set 32 (.a 32 0 8),
    .set 64 (.mul (.cast 64 (.a 32 0 8)) (.lit 31 0x3d1)),
    .set 32 (.mul (.x 15) (.lit 31 0x2)),
    .set 64 (.mul (.x 16) (.lit 31 0x2)),
    .set 32 (.mul (.a 32 0 8) (.lit 31 0x2)),
    .set 32 (.a 32 0 7),
    .set 64 (.mul (.cast 64 (.a 32 0 7)) (.lit 31 0x3d1)),
    .set 32 (.mul (.x 20) (.lit 31 0x2)),
    .set 64 (.mul (.x 21) (.lit 31 0x2)),
    .set 32 (.mul (.a 32 0 7) (.lit 31 0x2)),
    .set 32 (.a 32 0 6),
    .set 64 (.mul (.cast 64 (.a 32 0 6)) (.lit 31 0x3d1)),
    .set 32 (.mul (.a 32 0 6) (.lit 31 0x2)),
    .set 32 (.mul (.a 32 0 5) (.lit 31 0x2)),
    .set 32 (.mul (.a 32 0 4) (.lit 31 0x2)),
    .set 32 (.mul (.a 32 0 3) (.lit 31 0x2)),
    .set 32 (.mul (.a 32 0 2) (.lit 31 0x2)),
    .set 32 (.mul (.a 32 0 1) (.lit 31 0x2)),
    .set 64 (.mul (.a 32 0 11) (.x 1)),
    .set 64 (.shl (.mul (.cast 64 (.a 32 0 11)) (.x 0)) 11),
    .set 64 (.mul (.a 32 0 10) (.mul (.x 3) (.lit 31 0x2))),
    .set 64 (.shl (.mul (.cast 64 (.a 32 0 10)) (.x 2)) 11),
    .set 64 (.mul (.a 32 0 10) (.mul (.x 6) (.lit 31 0x2))),
    .set 64 (.shl (.mul (.cast 64 (.a 32 0 10)) (.x 5)) 12),
    .set 64 (.mul (.a 32 0 9) (.x 3)),
    .set 64 (.shl (.mul (.cast 64 (.a 32 0 9)) (.x 2)) 11),
    .set 64 (.mul (.a 32 0 9) (.x 8)),
    .set 64 (.shl (.mul (.cast 64 (.a 32 0 9)) (.x 7)) 11),
    .set 64 (.mul (.a 32 0 9) (.x 11)),
    .set 64 (.shl (.mul (.cast 64 (.a 32 0 9)) (.x 10)) 10),
    .set 64 (.mul (.a 32 0 8) (.x 3)),
    .set 64 (.shl (.mul (.cast 64 (.a 32 0 8)) (.x 2)) 11),
    .set 64 (.mul (.a 32 0 8) (.mul (.x 8) (.lit 31 0x2))),
    .set 64 (.shl (.mul (.cast 64 (.a 32 0 8)) (.x 7)) 11),
    .set 64 (.mul (.a 32 0 8) (.x 13)),
    .set 64 (.shl (.mul (.cast 64 (.a 32 0 8)) (.x 12)) 11),
    .set 64 (.mul (.a 32 0 8) (.x 16)),
    .set 64 (.shl (.mul (.cast 64 (.a 32 0 8)) (.x 15)) 11),
    .set 64 (.mul (.a 32 0 7) (.mul (.x 3) (.lit 31 0x2))),
    .set 64 (.shl (.mul (.cast 64 (.a 32 0 7)) (.x 2)) 11),
    .set 64 (.mul (.a 32 0 7) (.mul (.x 8) (.lit 31 0x2))),
    .set 64 (.shl (.mul (.cast 64 (.a 32 0 7)) (.x 7)) 12),
    .set 64 (.mul (.a 32 0 7) (.x 13)),
    .set 64 (.shl (.mul (.cast 64 (.a 32 0 7)) (.x 12)) 11),
    .set 64 (.mul (.a 32 0 7) (.mul (.x 18) (.lit 31 0x2))),
    .set 64 (.shl (.mul (.cast 64 (.a 32 0 7)) (.x 17)) 11),
    .set 64 (.mul (.a 32 0 7) (.mul (.x 21) (.lit 31 0x2))),
    .set 64 (.shl (.mul (.cast 64 (.a 32 0 7)) (.x 20)) 12),
    .set 64 (.mul (.a 32 0 6) (.x 3)),
    .set 64 (.shl (.mul (.cast 64 (.a 32 0 6)) (.x 2)) 11),
    .set 64 (.mul (.a 32 0 6) (.x 8)),
    .set 64 (.shl (.mul (.cast 64 (.a 32 0 6)) (.x 7)) 11),
    .set 64 (.mul (.a 32 0 6) (.x 13)),
    .set 64 (.shl (.mul (.cast 64 (.a 32 0 6)) (.x 12)) 10),
    .set 64 (.mul (.a 32 0 6) (.x 18)),
    .set 64 (.shl (.mul (.cast 64 (.a 32 0 6)) (.x 17)) 11),
    .set 64 (.mul (.a 32 0 6) (.x 23)),
    .set 64 (.shl (.mul (.cast 64 (.a 32 0 6)) (.x 22)) 11),
    .set 64 (.mul (.a 32 0 6) (.x 26)),
    .set 64 (.shl (.mul (.cast 64 (.a 32 0 6)) (.x 25)) 10),
    .set 64 (.mul (.a 32 0 5) (.x 3)),
    .set 64 (.shl (.mul (.cast 64 (.a 32 0 5)) (.x 2)) 11),
    .set 64 (.mul (.a 32 0 5) (.mul (.x 8) (.lit 31 0x2))),
    .set 64 (.shl (.mul (.cast 64 (.a 32 0 5)) (.x 7)) 11),
    .set 64 (.mul (.a 32 0 5) (.x 13)),
    .set 64 (.shl (.mul (.cast 64 (.a 32 0 5)) (.x 12)) 11),
    .set 64 (.mul (.a 32 0 5) (.x 18)),
    .set 64 (.shl (.mul (.cast 64 (.a 32 0 5)) (.x 17)) 11),
    .set 64 (.mul (.a 32 0 5) (.mul (.x 23) (.lit 31 0x2))),
    .set 64 (.shl (.mul (.cast 64 (.a 32 0 5)) (.x 22)) 11),
    .set 64 (.mul (.cast 64 (.a 32 0 5)) (.x 27)),
    .set 64 (.mul (.cast 64 (.a 32 0 5)) (.a 32 0 5)),
    .set 64 (.mul (.a 32 0 4) (.mul (.x 3) (.lit 31 0x2))),
    .set 64 (.shl (.mul (.cast 64 (.a 32 0 4)) (.x 2)) 11),
    .set 64 (.mul (.a 32 0 4) (.mul (.x 8) (.lit 31 0x2))),
    .set 64 (.shl (.mul (.cast 64 (.a 32 0 4)) (.x 7)) 12),
    .set 64 (.mul (.a 32 0 4) (.x 13)),
    .set 64 (.shl (.mul (.cast 64 (.a 32 0 4)) (.x 12)) 11),
    .set 64 (.mul (.a 32 0 4) (.mul (.x 18) (.lit 31 0x2))),
    .set 64 (.shl (.mul (.cast 64 (.a 32 0 4)) (.x 17)) 11),
    .set 64 (.mul (.cast 64 (.a 32 0 4)) (.mul (.x 24) (.lit 31 0x2))),
    .set 64 (.mul (.cast 64 (.a 32 0 4)) (.x 27)),
    .set 64 (.mul (.cast 64 (.a 32 0 4)) (.mul (.x 28) (.lit 31 0x2))),
    .set 64 (.mul (.cast 64 (.a 32 0 4)) (.mul (.a 32 0 4) (.lit 31 0x2))),
    .set 64 (.mul (.a 32 0 3) (.x 3)),
    .set 64 (.shl (.mul (.cast 64 (.a 32 0 3)) (.x 2)) 11),
    .set 64 (.mul (.a 32 0 3) (.x 8)),
    .set 64 (.shl (.mul (.cast 64 (.a 32 0 3)) (.x 7)) 11),
    .set 64 (.mul (.a 32 0 3) (.x 13)),
    .set 64 (.shl (.mul (.cast 64 (.a 32 0 3)) (.x 12)) 10),
    .set 64 (.mul (.cast 64 (.a 32 0 3)) (.x 19)),
    .set 64 (.mul (.cast 64 (.a 32 0 3)) (.x 24)),
    .set 64 (.mul (.cast 64 (.a 32 0 3)) (.x 27)),
    .set 64 (.mul (.cast 64 (.a 32 0 3)) (.x 28)),
    .set 64 (.mul (.cast 64 (.a 32 0 3)) (.x 29)),
    .set 64 (.mul (.cast 64 (.a 32 0 3)) (.a 32 0 3)),
    .set 64 (.mul (.a 32 0 2) (.x 3)),
    .set 64 (.shl (.mul (.cast 64 (.a 32 0 2)) (.x 2)) 11),
    .set 64 (.mul (.a 32 0 2) (.mul (.x 8) (.lit 31 0x2))),
    .set 64 (.shl (.mul (.cast 64 (.a 32 0 2)) (.x 7)) 11),
    .set 64 (.mul (.cast 64 (.a 32 0 2)) (.x 14)),
    .set 64 (.mul (.cast 64 (.a 32 0 2)) (.x 19)),
    .set 64 (.mul (.cast 64 (.a 32 0 2)) (.mul (.x 24) (.lit 31 0x2))),
    .set 64 (.mul (.cast 64 (.a 32 0 2)) (.x 27)),
    .set 64 (.mul (.cast 64 (.a 32 0 2)) (.x 28)),
    .set 64 (.mul (.cast 64 (.a 32 0 2)) (.mul (.x 29) (.lit 31 0x2))),
    .set 64 (.mul (.cast 64 (.a 32 0 2)) (.x 30)),
    .set 64 (.mul (.cast 64 (.a 32 0 2)) (.a 32 0 2)),
    .set 64 (.mul (.a 32 0 1) (.mul (.x 3) (.lit 31 0x2))),
    .set 64 (.shl (.mul (.cast 64 (.a 32 0 1)) (.x 2)) 11),
    .set 64 (.mul (.cast 64 (.a 32 0 1)) (.mul (.x 9) (.lit 31 0x2))),
    .set 64 (.mul (.cast 64 (.a 32 0 1)) (.x 14)),
    .set 64 (.mul (.cast 64 (.a 32 0 1)) (.mul (.x 19) (.lit 31 0x2))),
    .set 64 (.mul (.cast 64 (.a 32 0 1)) (.mul (.x 24) (.lit 31 0x2))),
    .set 64 (.mul (.cast 64 (.a 32 0 1)) (.x 27)),
    .set 64 (.mul (.cast 64 (.a 32 0 1)) (.mul (.x 28) (.lit 31 0x2))),
    .set 64 (.mul (.cast 64 (.a 32 0 1)) (.mul (.x 29) (.lit 31 0x2))),
    .set 64 (.mul (.cast 64 (.a 32 0 1)) (.x 30)),
    .set 64 (.mul (.cast 64 (.a 32 0 1)) (.mul (.x 31) (.lit 31 0x2))),
    .set 64 (.mul (.cast 64 (.a 32 0 1)) (.mul (.a 32 0 1) (.lit 31 0x2))),
    .set 64 (.mul (.cast 64 (.a 32 0 0)) (.x 4)),
    .set 64 (.mul (.cast 64 (.a 32 0 0)) (.x 9)),
    .set 64 (.mul (.cast 64 (.a 32 0 0)) (.x 14)),
    .set 64 (.mul (.cast 64 (.a 32 0 0)) (.x 19)),
    .set 64 (.mul (.cast 64 (.a 32 0 0)) (.x 24)),
    .set 64 (.mul (.cast 64 (.a 32 0 0)) (.x 27)),
    .set 64 (.mul (.cast 64 (.a 32 0 0)) (.x 28)),
    .set 64 (.mul (.cast 64 (.a 32 0 0)) (.x 29)),
    .set 64 (.mul (.cast 64 (.a 32 0 0)) (.x 30)),
    .set 64 (.mul (.cast 64 (.a 32 0 0)) (.x 31)),
    .set 64 (.mul (.cast 64 (.a 32 0 0)) (.x 32)),
    .set 64 (.mul (.cast 64 (.a 32 0 0)) (.a 32 0 0)),
    .set 64 (.add (.x 146) (.add (.x 123) (.add (.x 113) (.add (.x 103) (.add (.x 93) (.add (.x 83) (.x 73))))))),
    .set 64 (.shr (.x 147) 22),
    .set 32 (.cast 32 (.land (.x 147) (.lit 32 0x3fffff))),
    .set 64 (.add (.x 135) (.add (.x 125) (.add (.x 115) (.add (.x 105) (.add (.x 95) (.add (.x 85) (.x 34))))))),
    .set 64 (.add (.x 136) (.add (.x 126) (.add (.x 116) (.add (.x 106) (.add (.x 96) (.add (.x 86) (.add (.x 36) (.x 33)))))))),
    .set 64 (.add (.x 137) (.add (.x 127) (.add (.x 117) (.add (.x 107) (.add (.x 97) (.add (.x 40) (.add (.x 38) (.x 35)))))))),
    .set 64 (.add (.x 138) (.add (.x 128) (.add (.x 118) (.add (.x 108) (.add (.x 98) (.add (.x 46) (.add (.x 42) (.add (.x 39) (.x 37))))))))),
    .set 64 (.add (.x 139) (.add (.x 129) (.add (.x 119) (.add (.x 109) (.add (.x 54) (.add (.x 48) (.add (.x 45) (.add (.x 44) (.x 41))))))))),
    .set 64 (.add (.x 140) (.add (.x 130) (.add (.x 120) (.add (.x 110) (.add (.x 64) (.add (.x 56) (.add (.x 53) (.add (.x 50) (.add (.x 47) (.x 43)))))))))),
    .set 64 (.add (.x 141) (.add (.x 131) (.add (.x 121) (.add (.x 76) (.add (.x 66) (.add (.x 63) (.add (.x 58) (.add (.x 55) (.add (.x 52) (.x 49)))))))))),
    .set 64 (.add (.x 142) (.add (.x 132) (.add (.x 122) (.add (.x 88) (.add (.x 78) (.add (.x 75) (.add (.x 68) (.add (.x 65) (.add (.x 60) (.add (.x 57) (.x 51))))))))))),
    .set 64 (.add (.x 143) (.add (.x 133) (.add (.x 100) (.add (.x 90) (.add (.x 87) (.add (.x 80) (.add (.x 77) (.add (.x 70) (.add (.x 67) (.add (.x 62) (.x 59))))))))))),
    .set 64 (.add (.x 144) (.add (.x 134) (.add (.x 112) (.add (.x 102) (.add (.x 99) (.add (.x 92) (.add (.x 89) (.add (.x 82) (.add (.x 79) (.add (.x 72) (.add (.x 69) (.x 61)))))))))))),
    .set 64 (.add (.x 145) (.add (.x 124) (.add (.x 114) (.add (.x 111) (.add (.x 104) (.add (.x 101) (.add (.x 94) (.add (.x 91) (.add (.x 84) (.add (.x 81) (.add (.x 74) (.x 71)))))))))))),
    .set 64 (.add (.x 148) (.x 160)),
    .set 64 (.shr (.x 150) 21),
    .set 32 (.cast 32 (.land (.x 150) (.lit 32 0x1fffff))),
    .set 64 (.mul (.lit 31 0x3d1) (.x 162)),
    .set 64 (.shl (.x 162) 10),
    .set 64 (.add (.x 161) (.x 165)),
    .set 64 (.shr (.x 166) 21),
    .set 32 (.cast 32 (.land (.x 166) (.lit 32 0x1fffff))),
    .set 64 (.add (.x 149) (.x 164)),
    .set 64 (.add (.x 167) (.x 159)),
    .set 32 (.cast 32 (.shr (.x 169) 22)),
    .set 32 (.cast 32 (.land (.x 169) (.lit 32 0x3fffff))),
    .set 32 (.add (.x 171) (.x 168)),
    .set 64 (.shr (.x 170) 21),
    .set 32 (.cast 32 (.land (.x 170) (.lit 32 0x1fffff))),
    .set 64 (.add (.x 174) (.x 158)),
    .set 64 (.shr (.x 176) 22),
    .set 32 (.cast 32 (.land (.x 176) (.lit 32 0x3fffff))),
    .set 64 (.add (.x 177) (.x 157)),
    .set 64 (.shr (.x 179) 21),
    .set 32 (.cast 32 (.land (.x 179) (.lit 32 0x1fffff))),
    .set 64 (.add (.x 180) (.x 156)),
    .set 64 (.shr (.x 182) 21),
    .set 32 (.cast 32 (.land (.x 182) (.lit 32 0x1fffff))),
    .set 64 (.add (.x 183) (.x 155)),
    .set 64 (.shr (.x 185) 22),
    .set 32 (.cast 32 (.land (.x 185) (.lit 32 0x3fffff))),
    .set 64 (.add (.x 186) (.x 154)),
    .set 64 (.shr (.x 188) 21),
    .set 32 (.cast 32 (.land (.x 188) (.lit 32 0x1fffff))),
    .set 64 (.add (.x 189) (.x 153)),
    .set 64 (.shr (.x 191) 21),
    .set 32 (.cast 32 (.land (.x 191) (.lit 32 0x1fffff))),
    .set 64 (.add (.x 192) (.x 152)),
    .set 64 (.shr (.x 194) 22),
    .set 32 (.cast 32 (.land (.x 194) (.lit 32 0x3fffff))),
    .set 64 (.add (.x 195) (.x 151)),
    .set 64 (.shr (.x 197) 21),
    .set 32 (.cast 32 (.land (.x 197) (.lit 32 0x1fffff))),
    .set 64 (.add (.x 198) (.x 163)),
    .set 32 (.cast 32 (.shr (.x 200) 21)),
    .set 32 (.cast 32 (.land (.x 200) (.lit 32 0x1fffff))),
    .set 32 (.mul (.lit 31 0x3d1) (.x 201)),
    .set 32 (.shl (.x 201) 10),
    .set 32 (.add (.x 173) (.x 204)),
    .set 32 (.shr (.x 205) 21),
    .set 32 (.land (.x 205) (.lit 32 0x1fffff)),
    .set 32 (.add (.x 172) (.x 203)),
    .set 32 (.add (.x 206) (.x 175)),
    .set 32 (.shr (.x 208) 22),
    .set 32 (.land (.x 208) (.lit 32 0x3fffff)),
    .set 32 (.add (.x 210) (.x 207))]
  outs := [.x 211, .x 212, .x 209, .x 178, .x 181, .x 184, .x 187, .x 190, .x 193, .x 196, .x 199, .x 202]

/-- src/fields/secp256k1_32.h:1419-1564 `fiat_secp256k1_carry_scmul_3`. -/
def secp256k1_carry_scmul_3 : Prog where
  body := [
    .set 32 (.mul (.a 32 0 11) (.lit 31 0x3)),
    .set 32 (.mul (.a 32 0 10) (.lit 31 0x3)),
    .set 32 (.mul (.a 32 0 9) (.lit 31 0x3)),
    .set 32 (.mul (.a 32 0 8) (.lit 31 0x3)),
    .set 32 (.mul (.a 32 0 7) (.lit 31 0x3)),
    .set 32 (.mul (.a 32 0 6) (.lit 31 0x3)),
    .set 32 (.mul (.a 32 0 5) (.lit 31 0x3)),
    .set 32 (.mul (.a 32 0 4) (.lit 31 0x3)),
    .set 32 (.mul (.a 32 0 3) (.lit 31 0x3)),
    .set 32 (.mul (.a 32 0 2) (.lit 31 0x3)),
    .set 32 (.mul (.a 32 0 1) (.lit 31 0x3)),
    .set 32 (.mul (.a 32 0 0) (.lit 31 0x3)),
    .set 32 (.shr (.x 11) 22),
    .set 32 (.land (.x 11) (.lit 32 0x3fffff)),
    .set 32 (.add (.x 12) (.x 10)),
    .set 32 (.shr (.x 0) 21),
    .set 32 (.land (.x 0) (.lit 32 0x1fffff)),
    .set 32 (.mul (.lit 31 0x3d1) (.x 15)),
    .set 32 (.shl (.x 15) 10),
    .set 32 (.add (.x 14) (.x 18)),
    .set 32 (.shr (.x 19) 21),
    .set 32 (.land (.x 19) (.lit 32 0x1fffff)),
    .set 32 (.add (.x 13) (.x 17)),
    .set 32 (.add (.x 20) (.x 9)),
    .set 8 (.cast 8 (.shr (.x 22) 22)),
    .set 32 (.land (.x 22) (.lit 32 0x3fffff)),
    .set 32 (.add (.x 24) (.x 21)),
    .set 32 (.shr (.x 23) 21),
    .set 32 (.land (.x 23) (.lit 32 0x1fffff)),
    .set 32 (.add (.x 27) (.x 8)),
    .set 32 (.shr (.x 29) 22),
    .set 32 (.land (.x 29) (.lit 32 0x3fffff)),
    .set 32 (.add (.x 30) (.x 7)),
    .set 32 (.shr (.x 32) 21),
    .set 32 (.land (.x 32) (.lit 32 0x1fffff)),
    .set 32 (.add (.x 33) (.x 6)),
    .set 32 (.shr (.x 35) 21),
    .set 32 (.land (.x 35) (.lit 32 0x1fffff)),
    .set 32 (.add (.x 36) (.x 5)),
    .set 32 (.shr (.x 38) 22),
    .set 32 (.land (.x 38) (.lit 32 0x3fffff)),
    .set 32 (.add (.x 39) (.x 4)),
    .set 32 (.shr (.x 41) 21),
    .set 32 (.land (.x 41) (.lit 32 0x1fffff)),
    .set 32 (.add (.x 42) (.x 3)),
    .set 32 (.shr (.x 44) 21),
    .set 32 (.land (.x 44) (.lit 32 0x1fffff)),
    .set 32 (.add (.x 45) (.x 2)),
    .set 32 (.shr (.x 47) 22),
    .set 32 (.land (.x 47) (.lit 32 0x3fffff)),
    .set 32 (.add (.x 48) (.x 1)),
    .set 32 (.shr (.x 50) 21),
    .set 32 (.land (.x 50) (.lit 32 0x1fffff)),
    .set 32 (.add (.x 51) (.x 16)),
    .set 8 (.cast 8 (.shr (.x 53) 21)),
    .set 32 (.land (.x 53) (.lit 32 0x1fffff)),
    .set 32 (.mul (.lit 31 0x3d1) (.cast 32 (.x 54))),
    .set 32 (.shl (.cast 32 (.x 54)) 10),
    .set 32 (.add (.x 26) (.x 57)),
    .set 8 (.cast 8 (.shr (.x 58) 21)),
    .set 32 (.land (.x 58) (.lit 32 0x1fffff)),
    .set 32 (.add (.x 25) (.x 56)),
    .set 32 (.add (.x 59) (.x 28)),
    .set 8 (.cast 8 (.shr (.x 61) 22)),
    .set 32 (.land (.x 61) (.lit 32 0x3fffff)),
    .set 32 (.add (.x 63) (.x 60))]
  outs := [.x 64, .x 65, .x 62, .x 31, .x 34, .x 37, .x 40, .x 43, .x 46, .x 49, .x 52, .x 55]

/-- src/fields/secp256k1_32.h:1576-1721 `fiat_secp256k1_carry_scmul_4`. -/
def secp256k1_carry_scmul_4 : Prog where
  body := [
    .set 32 (.shl (.a 32 0 11) 2),
    .set 32 (.shl (.a 32 0 10) 2),
    .set 32 (.shl (.a 32 0 9) 2),
    .set 32 (.shl (.a 32 0 8) 2),
    .set 32 (.shl (.a 32 0 7) 2),
    .set 32 (.shl (.a 32 0 6) 2),
    .set 32 (.shl (.a 32 0 5) 2),
    .set 32 (.shl (.a 32 0 4) 2),
    .set 32 (.shl (.a 32 0 3) 2),
    .set 32 (.shl (.a 32 0 2) 2),
    .set 32 (.shl (.a 32 0 1) 2),
    .set 32 (.shl (.a 32 0 0) 2),
    .set 32 (.shr (.x 11) 22),
    .set 32 (.land (.x 11) (.lit 32 0x3fffff)),
    .set 32 (.add (.x 12) (.x 10)),
    .set 32 (.shr (.x 0) 21),
    .set 32 (.land (.x 0) (.lit 32 0x1fffff)),
    .set 32 (.mul (.lit 31 0x3d1) (.x 15)),
    .set 32 (.shl (.x 15) 10),
    .set 32 (.add (.x 14) (.x 18)),
    .set 32 (.shr (.x 19) 21),
    .set 32 (.land (.x 19) (.lit 32 0x1fffff)),
    .set 32 (.add (.x 13) (.x 17)),
    .set 32 (.add (.x 20) (.x 9)),
    .set 8 (.cast 8 (.shr (.x 22) 22)),
    .set 32 (.land (.x 22) (.lit 32 0x3fffff)),
    .set 32 (.add (.x 24) (.x 21)),
    .set 32 (.shr (.x 23) 21),
    .set 32 (.land (.x 23) (.lit 32 0x1fffff)),
    .set 32 (.add (.x 27) (.x 8)),
    .set 32 (.shr (.x 29) 22),
    .set 32 (.land (.x 29) (.lit 32 0x3fffff)),
    .set 32 (.add (.x 30) (.x 7)),
    .set 32 (.shr (.x 32) 21),
    .set 32 (.land (.x 32) (.lit 32 0x1fffff)),
    .set 32 (.add (.x 33) (.x 6)),
    .set 32 (.shr (.x 35) 21),
    .set 32 (.land (.x 35) (.lit 32 0x1fffff)),
    .set 32 (.add (.x 36) (.x 5)),
    .set 32 (.shr (.x 38) 22),
    .set 32 (.land (.x 38) (.lit 32 0x3fffff)),
    .set 32 (.add (.x 39) (.x 4)),
    .set 32 (.shr (.x 41) 21),
    .set 32 (.land (.x 41) (.lit 32 0x1fffff)),
    .set 32 (.add (.x 42) (.x 3)),
    .set 32 (.shr (.x 44) 21),
    .set 32 (.land (.x 44) (.lit 32 0x1fffff)),
    .set 32 (.add (.x 45) (.x 2)),
    .set 32 (.shr (.x 47) 22),
    .set 32 (.land (.x 47) (.lit 32 0x3fffff)),
    .set 32 (.add (.x 48) (.x 1)),
    .set 32 (.shr (.x 50) 21),
    .set 32 (.land (.x 50) (.lit 32 0x1fffff)),
    .set 32 (.add (.x 51) (.x 16)),
    .set 8 (.cast 8 (.shr (.x 53) 21)),
    .set 32 (.land (.x 53) (.lit 32 0x1fffff)),
    .set 32 (.mul (.lit 31 0x3d1) (.cast 32 (.x 54))),
    .set 32 (.shl (.cast 32 (.x 54)) 10),
    .set 32 (.add (.x 26) (.x 57)),
    .set 8 (.cast 8 (.shr (.x 58) 21)),
    .set 32 (.land (.x 58) (.lit 32 0x1fffff)),
    .set 32 (.add (.x 25) (.x 56)),
    .set 32 (.add (.x 59) (.x 28)),
    .set 8 (.cast 8 (.shr (.x 61) 22)),
    .set 32 (.land (.x 61) (.lit 32 0x3fffff)),
    .set 32 (.add (.x 63) (.x 60))]
  outs := [.x 64, .x 65, .x 62, .x 31, .x 34, .x 37, .x 40, .x 43, .x 46, .x 49, .x 52, .x 55]

/-- src/fields/secp256k1_32.h:1733-1878 `fiat_secp256k1_carry_scmul_8`. -/
def secp256k1_carry_scmul_8 : Prog where
  body := [
    .set 32 (.shl (.a 32 0 11) 3),
    .set 32 (.shl (.a 32 0 10) 3),
    .set 32 (.shl (.a 32 0 9) 3),
    .set 32 (.shl (.a 32 0 8) 3),
    .set 32 (.shl (.a 32 0 7) 3),
    .set 32 (.shl (.a 32 0 6) 3),
    .set 32 (.shl (.a 32 0 5) 3),
    .set 32 (.shl (.a 32 0 4) 3),
    .set 32 (.shl (.a 32 0 3) 3),
    .set 32 (.shl (.a 32 0 2) 3),
    .set 32 (.shl (.a 32 0 1) 3),
    .set 32 (.shl (.a 32 0 0) 3),
    .set 32 (.shr (.x 11) 22),
    .set 32 (.land (.x 11) (.lit 32 0x3fffff)),
    .set 32 (.add (.x 12) (.x 10)),
    .set 32 (.shr (.x 0) 21),
    .set 32 (.land (.x 0) (.lit 32 0x1fffff)),
    .set 32 (.mul (.lit 31 0x3d1) (.x 15)),
    .set 32 (.shl (.x 15) 10),
    .set 32 (.add (.x 14) (.x 18)),
    .set 32 (.shr (.x 19) 21),
    .set 32 (.land (.x 19) (.lit 32 0x1fffff)),
    .set 32 (.add (.x 13) (.x 17)),
    .set 32 (.add (.x 20) (.x 9)),
    .set 8 (.cast 8 (.shr (.x 22) 22)),
    .set 32 (.land (.x 22) (.lit 32 0x3fffff)),
    .set 32 (.add (.x 24) (.x 21)),
    .set 32 (.shr (.x 23) 21),
    .set 32 (.land (.x 23) (.lit 32 0x1fffff)),
    .set 32 (.add (.x 27) (.x 8)),
    .set 32 (.shr (.x 29) 22),
    .set 32 (.land (.x 29) (.lit 32 0x3fffff)),
    .set 32 (.add (.x 30) (.x 7)),
    .set 32 (.shr (.x 32) 21),
    .set 32 (.land (.x 32) (.lit 32 0x1fffff)),
    .set 32 (.add (.x 33) (.x 6)),
    .set 32 (.shr (.x 35) 21),
    .set 32 (.land (.x 35) (.lit 32 0x1fffff)),
    .set 32 (.add (.x 36) (.x 5)),
    .set 32 (.shr (.x 38) 22),
    .set 32 (.land (.x 38) (.lit 32 0x3fffff)),
    .set 32 (.add (.x 39) (.x 4)),
    .set 32 (.shr (.x 41) 21),
    .set 32 (.land (.x 41) (.lit 32 0x1fffff)),
    .set 32 (.add (.x 42) (.x 3)),
    .set 32 (.shr (.x 44) 21),
    .set 32 (.land (.x 44) (.lit 32 0x1fffff)),
    .set 32 (.add (.x 45) (.x 2)),
    .set 32 (.shr (.x 47) 22),
    .set 32 (.land (.x 47) (.lit 32 0x3fffff)),
    .set 32 (.add (.x 48) (.x 1)),
    .set 32 (.shr (.x 50) 21),
    .set 32 (.land (.x 50) (.lit 32 0x1fffff)),
    .set 32 (.add (.x 51) (.x 16)),
    .set 8 (.cast 8 (.shr (.x 53) 21)),
    .set 32 (.land (.x 53) (.lit 32 0x1fffff)),
    .set 32 (.mul (.lit 31 0x3d1) (.cast 32 (.x 54))),
    .set 32 (.shl (.cast 32 (.x 54)) 10),
    .set 32 (.add (.x 26) (.x 57)),
    .set 8 (.cast 8 (.shr (.x 58) 21)),
    .set 32 (.land (.x 58) (.lit 32 0x1fffff)),
    .set 32 (.add (.x 25) (.x 56)),
    .set 32 (.add (.x 59) (.x 28)),
    .set 8 (.cast 8 (.shr (.x 61) 22)),
    .set 32 (.land (.x 61) (.lit 32 0x3fffff)),
    .set 32 (.add (.x 63) (.x 60))]
  outs := [.x 64, .x 65, .x 62, .x 31, .x 34, .x 37, .x 40, .x 43, .x 46, .x 49, .x 52, .x 55]

/-- src/fields/secp256k1_32.h:1941-2192 `fiat_secp256k1_to_bytes`. -/
def secp256k1_to_bytes : Prog where
  body := [
    .subb 22 (.lit 31 0x0) (.a 32 0 0) (.lit 32 0x3ffc2f),
    .subb 21 (.x 1) (.a 32 0 1) (.lit 32 0x1ffbff),
    .subb 21 (.x 3) (.a 32 0 2) (.lit 32 0x1fffff),
    .subb 22 (.x 5) (.a 32 0 3) (.lit 32 0x3fffff),
    .subb 21 (.x 7) (.a 32 0 4) (.lit 32 0x1fffff),
    .subb 21 (.x 9) (.a 32 0 5) (.lit 32 0x1fffff),
    .subb 22 (.x 11) (.a 32 0 6) (.lit 32 0x3fffff),
    .subb 21 (.x 13) (.a 32 0 7) (.lit 32 0x1fffff),
    .subb 21 (.x 15) (.a 32 0 8) (.lit 32 0x1fffff),
    .subb 22 (.x 17) (.a 32 0 9) (.lit 32 0x3fffff),
    .subb 21 (.x 19) (.a 32 0 10) (.lit 32 0x1fffff),
    .subb 21 (.x 21) (.a 32 0 11) (.lit 32 0x1fffff),
    .cmov (.x 23) (.lit 31 0x0) (.lit 32 0xffffffff),
    .addc 22 (.lit 31 0x0) (.x 0) (.land (.x 24) (.lit 32 0x3ffc2f)),
    .addc 21 (.x 26) (.x 2) (.land (.x 24) (.lit 32 0x1ffbff)),
    .addc 21 (.x 28) (.x 4) (.land (.x 24) (.lit 32 0x1fffff)),
    .addc 22 (.x 30) (.x 6) (.land (.x 24) (.lit 32 0x3fffff)),
    .addc 21 (.x 32) (.x 8) (.land (.x 24) (.lit 32 0x1fffff)),
    .addc 21 (.x 34) (.x 10) (.land (.x 24) (.lit 32 0x1fffff)),
    .addc 22 (.x 36) (.x 12) (.land (.x 24) (.lit 32 0x3fffff)),
    .addc 21 (.x 38) (.x 14) (.land (.x 24) (.lit 32 0x1fffff)),
    .addc 21 (.x 40) (.x 16) (.land (.x 24) (.lit 32 0x1fffff)),
    .addc 22 (.x 42) (.x 18) (.land (.x 24) (.lit 32 0x3fffff)),
    .addc 21 (.x 44) (.x 20) (.land (.x 24) (.lit 32 0x1fffff)),
    .addc 21 (.x 46) (.x 22) (.land (.x 24) (.lit 32 0x1fffff)),
    .set 32 (.shl (.x 47) 3),
    .set 32 (.shl (.x 45) 6),
    .set 32 (.shl (.x 41) 3),
    .set 32 (.shl (.x 39) 6),
    .set 32 (.shl (.x 35) 3),
    .set 32 (.shl (.x 33) 6),
    .set 32 (.shl (.x 29) 3),
    .set 32 (.shl (.x 27) 6),
    .set 8 (.cast 8 (.land (.x 25) (.lit 31 0xff))),
    .set 32 (.shr (.x 25) 8),
    .set 8 (.cast 8 (.land (.x 58) (.lit 31 0xff))),
    .set 8 (.cast 8 (.shr (.x 58) 8)),
    .set 32 (.add (.x 56) (.cast 32 (.x 60))),
    .set 8 (.cast 8 (.land (.x 61) (.lit 31 0xff))),
    .set 32 (.shr (.x 61) 8),
    .set 8 (.cast 8 (.land (.x 63) (.lit 31 0xff))),
    .set 32 (.shr (.x 63) 8),
    .set 8 (.cast 8 (.land (.x 65) (.lit 31 0xff))),
    .set 8 (.cast 8 (.shr (.x 65) 8)),
    .set 32 (.add (.x 55) (.cast 32 (.x 67))),
    .set 8 (.cast 8 (.land (.x 68) (.lit 31 0xff))),
    .set 32 (.shr (.x 68) 8),
    .set 8 (.cast 8 (.land (.x 70) (.lit 31 0xff))),
    .set 8 (.cast 8 (.shr (.x 70) 8)),
    .set 8 (.cast 8 (.land (.x 31) (.lit 31 0xff))),
    .set 32 (.shr (.x 31) 8),
    .set 8 (.cast 8 (.land (.x 74) (.lit 31 0xff))),
    .set 8 (.cast 8 (.shr (.x 74) 8)),
    .set 32 (.add (.x 54) (.cast 32 (.x 76))),
    .set 8 (.cast 8 (.land (.x 77) (.lit 31 0xff))),
    .set 32 (.shr (.x 77) 8),
    .set 8 (.cast 8 (.land (.x 79) (.lit 31 0xff))),
    .set 32 (.shr (.x 79) 8),
    .set 8 (.cast 8 (.land (.x 81) (.lit 31 0xff))),
    .set 8 (.cast 8 (.shr (.x 81) 8)),
    .set 32 (.add (.x 53) (.cast 32 (.x 83))),
    .set 8 (.cast 8 (.land (.x 84) (.lit 31 0xff))),
    .set 32 (.shr (.x 84) 8),
    .set 8 (.cast 8 (.land (.x 86) (.lit 31 0xff))),
    .set 8 (.cast 8 (.shr (.x 86) 8)),
    .set 8 (.cast 8 (.land (.x 37) (.lit 31 0xff))),
    .set 32 (.shr (.x 37) 8),
    .set 8 (.cast 8 (.land (.x 90) (.lit 31 0xff))),
    .set 8 (.cast 8 (.shr (.x 90) 8)),
    .set 32 (.add (.x 52) (.cast 32 (.x 92))),
    .set 8 (.cast 8 (.land (.x 93) (.lit 31 0xff))),
    .set 32 (.shr (.x 93) 8),
    .set 8 (.cast 8 (.land (.x 95) (.lit 31 0xff))),
    .set 32 (.shr (.x 95) 8),
    .set 8 (.cast 8 (.land (.x 97) (.lit 31 0xff))),
    .set 8 (.cast 8 (.shr (.x 97) 8)),
    .set 32 (.add (.x 51) (.cast 32 (.x 99))),
    .set 8 (.cast 8 (.land (.x 100) (.lit 31 0xff))),
    .set 32 (.shr (.x 100) 8),
    .set 8 (.cast 8 (.land (.x 102) (.lit 31 0xff))),
    .set 8 (.cast 8 (.shr (.x 102) 8)),
    .set 8 (.cast 8 (.land (.x 43) (.lit 31 0xff))),
    .set 32 (.shr (.x 43) 8),
    .set 8 (.cast 8 (.land (.x 106) (.lit 31 0xff))),
    .set 8 (.cast 8 (.shr (.x 106) 8)),
    .set 32 (.add (.x 50) (.cast 32 (.x 108))),
    .set 8 (.cast 8 (.land (.x 109) (.lit 31 0xff))),
    .set 32 (.shr (.x 109) 8),
    .set 8 (.cast 8 (.land (.x 111) (.lit 31 0xff))),
    .set 32 (.shr (.x 111) 8),
    .set 8 (.cast 8 (.land (.x 113) (.lit 31 0xff))),
    .set 8 (.cast 8 (.shr (.x 113) 8)),
    .set 32 (.add (.x 49) (.cast 32 (.x 115))),
    .set 8 (.cast 8 (.land (.x 116) (.lit 31 0xff))),
    .set 32 (.shr (.x 116) 8),
    .set 8 (.cast 8 (.land (.x 118) (.lit 31 0xff))),
    .set 8 (.cast 8 (.shr (.x 118) 8))]
  outs := [.x 57, .x 59, .x 62, .x 64, .x 66, .x 69, .x 71, .x 72, .x 73, .x 75, .x 78, .x 80, .x 82, .x 85, .x 87, .x 88, .x 89, .x 91, .x 94, .x 96, .x 98, .x 101, .x 103, .x 104, .x 105, .x 107, .x 110, .x 112, .x 114, .x 117, .x 119, .x 120]

/-- src/fields/secp256k1_32.h:2204-2369 `fiat_secp256k1_from_bytes`. -/
def secp256k1_from_bytes : Prog where
  body := [
    .set 32 (.shl (.cast 32 (.a 8 0 31)) 13),
    .set 32 (.shl (.cast 32 (.a 8 0 30)) 5),
    .set 32 (.shl (.cast 32 (.a 8 0 29)) 18),
    .set 32 (.shl (.cast 32 (.a 8 0 28)) 10),
    .set 32 (.shl (.cast 32 (.a 8 0 27)) 2),
    .set 32 (.shl (.cast 32 (.a 8 0 26)) 16),
    .set 32 (.shl (.cast 32 (.a 8 0 25)) 8),
    .set 8 (.a 8 0 24),
    .set 32 (.shl (.cast 32 (.a 8 0 23)) 13),
    .set 32 (.shl (.cast 32 (.a 8 0 22)) 5),
    .set 32 (.shl (.cast 32 (.a 8 0 21)) 18),
    .set 32 (.shl (.cast 32 (.a 8 0 20)) 10),
    .set 32 (.shl (.cast 32 (.a 8 0 19)) 2),
    .set 32 (.shl (.cast 32 (.a 8 0 18)) 16),
    .set 32 (.shl (.cast 32 (.a 8 0 17)) 8),
    .set 8 (.a 8 0 16),
    .set 32 (.shl (.cast 32 (.a 8 0 15)) 13),
    .set 32 (.shl (.cast 32 (.a 8 0 14)) 5),
    .set 32 (.shl (.cast 32 (.a 8 0 13)) 18),
    .set 32 (.shl (.cast 32 (.a 8 0 12)) 10),
    .set 32 (.shl (.cast 32 (.a 8 0 11)) 2),
    .set 32 (.shl (.cast 32 (.a 8 0 10)) 16),
    .set 32 (.shl (.cast 32 (.a 8 0 9)) 8),
    .set 8 (.a 8 0 8),
    .set 32 (.shl (.cast 32 (.a 8 0 7)) 13),
    .set 32 (.shl (.cast 32 (.a 8 0 6)) 5),
    .set 32 (.shl (.cast 32 (.a 8 0 5)) 18),
    .set 32 (.shl (.cast 32 (.a 8 0 4)) 10),
    .set 32 (.shl (.cast 32 (.a 8 0 3)) 2),
    .set 32 (.shl (.cast 32 (.a 8 0 2)) 16),
    .set 32 (.shl (.cast 32 (.a 8 0 1)) 8),
    .set 8 (.a 8 0 0),
    .set 32 (.add (.x 30) (.cast 32 (.x 31))),
    .set 32 (.add (.x 29) (.x 32)),
    .set 32 (.land (.x 33) (.lit 32 0x3fffff)),
    .set 8 (.cast 8 (.shr (.x 33) 22)),
    .set 32 (.add (.x 28) (.cast 32 (.x 35))),
    .set 32 (.add (.x 27) (.x 36)),
    .set 32 (.add (.x 26) (.x 37)),
    .set 32 (.land (.x 38) (.lit 32 0x1fffff)),
    .set 8 (.cast 8 (.shr (.x 38) 21)),
    .set 32 (.add (.x 25) (.cast 32 (.x 40))),
    .set 32 (.add (.x 24) (.x 41)),
    .set 32 (.add (.x 22) (.cast 32 (.x 23))),
    .set 32 (.add (.x 21) (.x 43)),
    .set 32 (.land (.x 44) (.lit 32 0x3fffff)),
    .set 8 (.cast 8 (.shr (.x 44) 22)),
    .set 32 (.add (.x 20) (.cast 32 (.x 46))),
    .set 32 (.add (.x 19) (.x 47)),
    .set 32 (.add (.x 18) (.x 48)),
    .set 32 (.land (.x 49) (.lit 32 0x1fffff)),
    .set 8 (.cast 8 (.shr (.x 49) 21)),
    .set 32 (.add (.x 17) (.cast 32 (.x 51))),
    .set 32 (.add (.x 16) (.x 52)),
    .set 32 (.add (.x 14) (.cast 32 (.x 15))),
    .set 32 (.add (.x 13) (.x 54)),
    .set 32 (.land (.x 55) (.lit 32 0x3fffff)),
    .set 8 (.cast 8 (.shr (.x 55) 22)),
    .set 32 (.add (.x 12) (.cast 32 (.x 57))),
    .set 32 (.add (.x 11) (.x 58)),
    .set 32 (.add (.x 10) (.x 59)),
    .set 32 (.land (.x 60) (.lit 32 0x1fffff)),
    .set 8 (.cast 8 (.shr (.x 60) 21)),
    .set 32 (.add (.x 9) (.cast 32 (.x 62))),
    .set 32 (.add (.x 8) (.x 63)),
    .set 32 (.add (.x 6) (.cast 32 (.x 7))),
    .set 32 (.add (.x 5) (.x 65)),
    .set 32 (.land (.x 66) (.lit 32 0x3fffff)),
    .set 8 (.cast 8 (.shr (.x 66) 22)),
    .set 32 (.add (.x 4) (.cast 32 (.x 68))),
    .set 32 (.add (.x 3) (.x 69)),
    .set 32 (.add (.x 2) (.x 70)),
    .set 32 (.land (.x 71) (.lit 32 0x1fffff)),
    .set 8 (.cast 8 (.shr (.x 71) 21)),
    .set 32 (.add (.x 1) (.cast 32 (.x 73))),
    .set 32 (.add (.x 0) (.x 74))]
  outs := [.x 34, .x 39, .x 42, .x 45, .x 50, .x 53, .x 56, .x 61, .x 64, .x 67, .x 72, .x 75]

end Torsion.Fiat.W32
