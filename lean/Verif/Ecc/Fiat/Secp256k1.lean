import Verif.Ecc.Fiat.Lang

/-!
# Model of src/fields/secp256k1_64.h (written by tools/fiat.py)
-/
namespace Torsion.Fiat

/-- src/fields/secp256k1_64.h:159-178 `fiat_secp256k1_add`. -/
def secp256k1_add : Prog where
  body := [
    .set 64 (.add (.a 64 0 0) (.a 64 1 0)),
    .set 64 (.add (.a 64 0 1) (.a 64 1 1)),
    .set 64 (.add (.a 64 0 2) (.a 64 1 2)),
    .set 64 (.add (.a 64 0 3) (.a 64 1 3)),
    .set 64 (.add (.a 64 0 4) (.a 64 1 4)),
    .set 64 (.add (.a 64 0 5) (.a 64 1 5))]
  outs := [.x 0, .x 1, .x 2, .x 3, .x 4, .x 5]

/-- src/fields/secp256k1_64.h:191-210 `fiat_secp256k1_sub`. -/
def secp256k1_sub : Prog where
  body := [
    .set 64 (.sub (.add (.lit 64 0xffdfffff85e) (.a 64 0 0)) (.a 64 1 0)),
    .set 64 (.sub (.add (.lit 64 0xffffffffffe) (.a 64 0 1)) (.a 64 1 1)),
    .set 64 (.sub (.add (.lit 64 0x7fffffffffe) (.a 64 0 2)) (.a 64 1 2)),
    .set 64 (.sub (.add (.lit 64 0xffffffffffe) (.a 64 0 3)) (.a 64 1 3)),
    .set 64 (.sub (.add (.lit 64 0xffffffffffe) (.a 64 0 4)) (.a 64 1 4)),
    .set 64 (.sub (.add (.lit 64 0x7fffffffffe) (.a 64 0 5)) (.a 64 1 5))]
  outs := [.x 0, .x 1, .x 2, .x 3, .x 4, .x 5]

/-- src/fields/secp256k1_64.h:222-241 `fiat_secp256k1_opp`. -/
def secp256k1_opp : Prog where
  body := [
    .set 64 (.sub (.lit 64 0xffdfffff85e) (.a 64 0 0)),
    .set 64 (.sub (.lit 64 0xffffffffffe) (.a 64 0 1)),
    .set 64 (.sub (.lit 64 0x7fffffffffe) (.a 64 0 2)),
    .set 64 (.sub (.lit 64 0xffffffffffe) (.a 64 0 3)),
    .set 64 (.sub (.lit 64 0xffffffffffe) (.a 64 0 4)),
    .set 64 (.sub (.lit 64 0x7fffffffffe) (.a 64 0 5))]
  outs := [.x 0, .x 1, .x 2, .x 3, .x 4, .x 5]

/-- src/fields/secp256k1_64.h:253-288 `fiat_secp256k1_carry`. -/
def secp256k1_carry : Prog where
  body := [
    .set 64 (.a 64 0 0),
    .set 64 (.add (.shr (.x 0) 43) (.a 64 0 1)),
    .set 64 (.add (.shr (.x 1) 43) (.a 64 0 2)),
    .set 64 (.add (.shr (.x 2) 42) (.a 64 0 3)),
    .set 64 (.add (.shr (.x 3) 43) (.a 64 0 4)),
    .set 64 (.add (.shr (.x 4) 43) (.a 64 0 5)),
    .set 64 (.add (.land (.x 0) (.lit 64 0x7ffffffffff)) (.mul (.lit 64 0x1000003d1) (.shr (.x 5) 42))),
    .set 64 (.add (.cast 8 (.shr (.x 6) 43)) (.land (.x 1) (.lit 64 0x7ffffffffff))),
    .set 64 (.land (.x 6) (.lit 64 0x7ffffffffff)),
    .set 64 (.land (.x 7) (.lit 64 0x7ffffffffff)),
    .set 64 (.add (.cast 8 (.shr (.x 7) 43)) (.land (.x 2) (.lit 64 0x3ffffffffff))),
    .set 64 (.land (.x 3) (.lit 64 0x7ffffffffff)),
    .set 64 (.land (.x 4) (.lit 64 0x7ffffffffff)),
    .set 64 (.land (.x 5) (.lit 64 0x3ffffffffff))]
  outs := [.x 8, .x 9, .x 10, .x 11, .x 12, .x 13]

/-- src/fields/secp256k1_64.h:301-442 `fiat_secp256k1_carry_mul`. -/
def secp256k1_carry_mul : Prog where
  body := [
    .set 128 (.mul (.lit 64 0x1000003d1) (.mul (.mul (.cast 128 (.a 64 0 5)) (.a 64 1 5)) (.lit 31 0x2))),
    .set 128 (.mul (.lit 64 0x1000003d1) (.mul (.mul (.cast 128 (.a 64 0 5)) (.a 64 1 4)) (.lit 31 0x2))),
    .set 128 (.mul (.lit 64 0x1000003d1) (.mul (.cast 128 (.a 64 0 5)) (.a 64 1 3))),
    .set 128 (.mul (.lit 64 0x1000003d1) (.mul (.mul (.cast 128 (.a 64 0 5)) (.a 64 1 2)) (.lit 31 0x2))),
    .set 128 (.mul (.lit 64 0x1000003d1) (.mul (.mul (.cast 128 (.a 64 0 5)) (.a 64 1 1)) (.lit 31 0x2))),
    .set 128 (.mul (.lit 64 0x1000003d1) (.mul (.mul (.cast 128 (.a 64 0 4)) (.a 64 1 5)) (.lit 31 0x2))),
    .set 128 (.mul (.lit 64 0x1000003d1) (.mul (.cast 128 (.a 64 0 4)) (.a 64 1 4))),
    .set 128 (.mul (.lit 64 0x1000003d1) (.mul (.cast 128 (.a 64 0 4)) (.a 64 1 3))),
    .set 128 (.mul (.lit 64 0x1000003d1) (.mul (.mul (.cast 128 (.a 64 0 4)) (.a 64 1 2)) (.lit 31 0x2))),
    .set 128 (.mul (.lit 64 0x1000003d1) (.mul (.cast 128 (.a 64 0 3)) (.a 64 1 5))),
    .set 128 (.mul (.lit 64 0x1000003d1) (.mul (.cast 128 (.a 64 0 3)) (.a 64 1 4))),
    .set 128 (.mul (.lit 64 0x1000003d1) (.mul (.cast 128 (.a 64 0 3)) (.a 64 1 3))),
    .set 128 (.mul (.lit 64 0x1000003d1) (.mul (.mul (.cast 128 (.a 64 0 2)) (.a 64 1 5)) (.lit 31 0x2))),
    .set 128 (.mul (.lit 64 0x1000003d1) (.mul (.mul (.cast 128 (.a 64 0 2)) (.a 64 1 4)) (.lit 31 0x2))),
    .set 128 (.mul (.lit 64 0x1000003d1) (.mul (.mul (.cast 128 (.a 64 0 1)) (.a 64 1 5)) (.lit 31 0x2))),
    .set 128 (.mul (.cast 128 (.a 64 0 5)) (.a 64 1 0)),
    .set 128 (.mul (.cast 128 (.a 64 0 4)) (.a 64 1 1)),
    .set 128 (.mul (.cast 128 (.a 64 0 4)) (.a 64 1 0)),
    .set 128 (.mul (.cast 128 (.a 64 0 3)) (.a 64 1 2)),
    .set 128 (.mul (.cast 128 (.a 64 0 3)) (.a 64 1 1)),
    .set 128 (.mul (.cast 128 (.a 64 0 3)) (.a 64 1 0)),
    .set 128 (.mul (.cast 128 (.a 64 0 2)) (.a 64 1 3)),
    .set 128 (.mul (.cast 128 (.a 64 0 2)) (.mul (.a 64 1 2) (.lit 31 0x2))),
    .set 128 (.mul (.cast 128 (.a 64 0 2)) (.mul (.a 64 1 1) (.lit 31 0x2))),
    .set 128 (.mul (.cast 128 (.a 64 0 2)) (.a 64 1 0)),
    .set 128 (.mul (.cast 128 (.a 64 0 1)) (.a 64 1 4)),
    .set 128 (.mul (.cast 128 (.a 64 0 1)) (.a 64 1 3)),
    .set 128 (.mul (.cast 128 (.a 64 0 1)) (.mul (.a 64 1 2) (.lit 31 0x2))),
    .set 128 (.mul (.cast 128 (.a 64 0 1)) (.a 64 1 1)),
    .set 128 (.mul (.cast 128 (.a 64 0 1)) (.a 64 1 0)),
    .set 128 (.mul (.cast 128 (.a 64 0 0)) (.a 64 1 5)),
    .set 128 (.mul (.cast 128 (.a 64 0 0)) (.a 64 1 4)),
    .set 128 (.mul (.cast 128 (.a 64 0 0)) (.a 64 1 3)),
    .set 128 (.mul (.cast 128 (.a 64 0 0)) (.a 64 1 2)),
    .set 128 (.mul (.cast 128 (.a 64 0 0)) (.a 64 1 1)),
    .set 128 (.mul (.cast 128 (.a 64 0 0)) (.a 64 1 0)),
    .set 128 (.add (.x 35) (.add (.x 14) (.add (.x 13) (.add (.x 11) (.add (.x 8) (.x 4)))))),
    .set 128 (.shr (.x 36) 43),
    .set 64 (.cast 64 (.land (.x 36) (.lit 64 0x7ffffffffff))),
    .set 128 (.add (.x 30) (.add (.x 25) (.add (.x 21) (.add (.x 18) (.add (.x 16) (.x 15)))))),
    .set 128 (.add (.x 31) (.add (.x 26) (.add (.x 22) (.add (.x 19) (.add (.x 17) (.x 0)))))),
    .set 128 (.add (.x 32) (.add (.x 27) (.add (.x 23) (.add (.x 20) (.add (.x 5) (.x 1)))))),
    .set 128 (.add (.x 33) (.add (.x 28) (.add (.x 24) (.add (.x 9) (.add (.x 6) (.x 2)))))),
    .set 128 (.add (.x 34) (.add (.x 29) (.add (.x 12) (.add (.x 10) (.add (.x 7) (.x 3)))))),
    .set 128 (.add (.x 37) (.x 43)),
    .set 128 (.shr (.x 44) 43),
    .set 64 (.cast 64 (.land (.x 44) (.lit 64 0x7ffffffffff))),
    .set 128 (.add (.x 45) (.x 42)),
    .set 128 (.shr (.x 47) 42),
    .set 64 (.cast 64 (.land (.x 47) (.lit 64 0x3ffffffffff))),
    .set 128 (.add (.x 48) (.x 41)),
    .set 128 (.shr (.x 50) 43),
    .set 64 (.cast 64 (.land (.x 50) (.lit 64 0x7ffffffffff))),
    .set 128 (.add (.x 51) (.x 40)),
    .set 128 (.shr (.x 53) 43),
    .set 64 (.cast 64 (.land (.x 53) (.lit 64 0x7ffffffffff))),
    .set 128 (.add (.x 54) (.x 39)),
    .set 64 (.cast 64 (.shr (.x 56) 42)),
    .set 64 (.cast 64 (.land (.x 56) (.lit 64 0x3ffffffffff))),
    .set 128 (.mul (.cast 128 (.lit 64 0x1000003d1)) (.x 57)),
    .set 128 (.add (.x 38) (.x 59)),
    .set 64 (.cast 64 (.shr (.x 60) 43)),
    .set 64 (.cast 64 (.land (.x 60) (.lit 64 0x7ffffffffff))),
    .set 64 (.add (.x 61) (.x 46)),
    .set 8 (.cast 8 (.shr (.x 63) 43)),
    .set 64 (.land (.x 63) (.lit 64 0x7ffffffffff)),
    .set 64 (.add (.x 64) (.x 49))]
  outs := [.x 62, .x 65, .x 66, .x 52, .x 55, .x 58]

/-- src/fields/secp256k1_64.h:454-585 `fiat_secp256k1_carry_square`. -/
def secp256k1_carry_square : Prog where
  body := [
    .set 128 (.mul (.cast 128 (.a 64 0 5)) (.lit 64 0x1000003d1)),
    .set 128 (.mul (.x 0) (.lit 31 0x2)),
    .set 64 (.mul (.a 64 0 5) (.lit 31 0x2)),
    .set 128 (.mul (.cast 128 (.a 64 0 4)) (.lit 64 0x1000003d1)),
    .set 128 (.mul (.x 3) (.lit 31 0x2)),
    .set 64 (.mul (.a 64 0 4) (.lit 31 0x2)),
    .set 128 (.mul (.cast 128 (.a 64 0 3)) (.lit 64 0x1000003d1)),
    .set 64 (.mul (.a 64 0 3) (.lit 31 0x2)),
    .set 64 (.mul (.a 64 0 2) (.lit 31 0x2)),
    .set 64 (.mul (.a 64 0 1) (.lit 31 0x2)),
    .set 128 (.mul (.a 64 0 5) (.mul (.x 0) (.lit 31 0x2))),
    .set 128 (.mul (.a 64 0 4) (.mul (.x 1) (.lit 31 0x2))),
    .set 128 (.mul (.a 64 0 4) (.x 3)),
    .set 128 (.mul (.a 64 0 3) (.x 1)),
    .set 128 (.mul (.a 64 0 3) (.x 4)),
    .set 128 (.mul (.a 64 0 3) (.x 6)),
    .set 128 (.mul (.a 64 0 2) (.mul (.x 1) (.lit 31 0x2))),
    .set 128 (.mul (.a 64 0 2) (.mul (.x 4) (.lit 31 0x2))),
    .set 128 (.mul (.cast 128 (.a 64 0 2)) (.x 7)),
    .set 128 (.mul (.cast 128 (.a 64 0 2)) (.mul (.a 64 0 2) (.lit 31 0x2))),
    .set 128 (.mul (.a 64 0 1) (.mul (.x 1) (.lit 31 0x2))),
    .set 128 (.mul (.cast 128 (.a 64 0 1)) (.x 5)),
    .set 128 (.mul (.cast 128 (.a 64 0 1)) (.x 7)),
    .set 128 (.mul (.cast 128 (.a 64 0 1)) (.mul (.x 8) (.lit 31 0x2))),
    .set 128 (.mul (.cast 128 (.a 64 0 1)) (.a 64 0 1)),
    .set 128 (.mul (.cast 128 (.a 64 0 0)) (.x 2)),
    .set 128 (.mul (.cast 128 (.a 64 0 0)) (.x 5)),
    .set 128 (.mul (.cast 128 (.a 64 0 0)) (.x 7)),
    .set 128 (.mul (.cast 128 (.a 64 0 0)) (.x 8)),
    .set 128 (.mul (.cast 128 (.a 64 0 0)) (.x 9)),
    .set 128 (.mul (.cast 128 (.a 64 0 0)) (.a 64 0 0)),
    .set 128 (.add (.x 30) (.add (.x 20) (.add (.x 17) (.x 15)))),
    .set 128 (.shr (.x 31) 43),
    .set 64 (.cast 64 (.land (.x 31) (.lit 64 0x7ffffffffff))),
    .set 128 (.add (.x 25) (.add (.x 21) (.x 18))),
    .set 128 (.add (.x 26) (.add (.x 22) (.add (.x 19) (.x 10)))),
    .set 128 (.add (.x 27) (.add (.x 23) (.x 11))),
    .set 128 (.add (.x 28) (.add (.x 24) (.add (.x 13) (.x 12)))),
    .set 128 (.add (.x 29) (.add (.x 16) (.x 14))),
    .set 128 (.add (.x 32) (.x 38)),
    .set 128 (.shr (.x 39) 43),
    .set 64 (.cast 64 (.land (.x 39) (.lit 64 0x7ffffffffff))),
    .set 128 (.add (.x 40) (.x 37)),
    .set 128 (.shr (.x 42) 42),
    .set 64 (.cast 64 (.land (.x 42) (.lit 64 0x3ffffffffff))),
    .set 128 (.add (.x 43) (.x 36)),
    .set 128 (.shr (.x 45) 43),
    .set 64 (.cast 64 (.land (.x 45) (.lit 64 0x7ffffffffff))),
    .set 128 (.add (.x 46) (.x 35)),
    .set 128 (.shr (.x 48) 43),
    .set 64 (.cast 64 (.land (.x 48) (.lit 64 0x7ffffffffff))),
    .set 128 (.add (.x 49) (.x 34)),
    .set 64 (.cast 64 (.shr (.x 51) 42)),
    .set 64 (.cast 64 (.land (.x 51) (.lit 64 0x3ffffffffff))),
    .set 128 (.mul (.cast 128 (.lit 64 0x1000003d1)) (.x 52)),
    .set 128 (.add (.x 33) (.x 54)),
    .set 64 (.cast 64 (.shr (.x 55) 43)),
    .set 64 (.cast 64 (.land (.x 55) (.lit 64 0x7ffffffffff))),
    .set 64 (.add (.x 56) (.x 41)),
    .set 8 (.cast 8 (.shr (.x 58) 43)),
    .set 64 (.land (.x 58) (.lit 64 0x7ffffffffff)),
    .set 64 (.add (.x 59) (.x 44))]
  outs := [.x 57, .x 60, .x 61, .x 47, .x 50, .x 53]

/-- src/fields/secp256k1_64.h:597-666 `fiat_secp256k1_carry_scmul_3`. -/
def secp256k1_carry_scmul_3 : Prog where
  body := [
    .set 64 (.mul (.a 64 0 5) (.lit 31 0x3)),
    .set 64 (.mul (.a 64 0 4) (.lit 31 0x3)),
    .set 64 (.mul (.a 64 0 3) (.lit 31 0x3)),
    .set 64 (.mul (.a 64 0 2) (.lit 31 0x3)),
    .set 64 (.mul (.a 64 0 1) (.lit 31 0x3)),
    .set 64 (.mul (.a 64 0 0) (.lit 31 0x3)),
    .set 64 (.shr (.x 5) 43),
    .set 64 (.land (.x 5) (.lit 64 0x7ffffffffff)),
    .set 64 (.add (.x 6) (.x 4)),
    .set 64 (.shr (.x 8) 43),
    .set 64 (.land (.x 8) (.lit 64 0x7ffffffffff)),
    .set 64 (.add (.x 9) (.x 3)),
    .set 64 (.shr (.x 11) 42),
    .set 64 (.land (.x 11) (.lit 64 0x3ffffffffff)),
    .set 64 (.add (.x 12) (.x 2)),
    .set 64 (.shr (.x 14) 43),
    .set 64 (.land (.x 14) (.lit 64 0x7ffffffffff)),
    .set 64 (.add (.x 15) (.x 1)),
    .set 64 (.shr (.x 17) 43),
    .set 64 (.land (.x 17) (.lit 64 0x7ffffffffff)),
    .set 64 (.add (.x 18) (.x 0)),
    .set 64 (.shr (.x 20) 42),
    .set 64 (.land (.x 20) (.lit 64 0x3ffffffffff)),
    .set 64 (.mul (.lit 64 0x1000003d1) (.x 21)),
    .set 64 (.add (.x 7) (.x 23)),
    .set 8 (.cast 8 (.shr (.x 24) 43)),
    .set 64 (.land (.x 24) (.lit 64 0x7ffffffffff)),
    .set 64 (.add (.x 25) (.x 10)),
    .set 8 (.cast 8 (.shr (.x 27) 43)),
    .set 64 (.land (.x 27) (.lit 64 0x7ffffffffff)),
    .set 64 (.add (.x 28) (.x 13))]
  outs := [.x 26, .x 29, .x 30, .x 16, .x 19, .x 22]

/-- src/fields/secp256k1_64.h:678-747 `fiat_secp256k1_carry_scmul_4`. -/
def secp256k1_carry_scmul_4 : Prog where
  body := [
    .set 64 (.shl (.a 64 0 5) 2),
    .set 64 (.shl (.a 64 0 4) 2),
    .set 64 (.shl (.a 64 0 3) 2),
    .set 64 (.shl (.a 64 0 2) 2),
    .set 64 (.shl (.a 64 0 1) 2),
    .set 64 (.shl (.a 64 0 0) 2),
    .set 64 (.shr (.x 5) 43),
    .set 64 (.land (.x 5) (.lit 64 0x7ffffffffff)),
    .set 64 (.add (.x 6) (.x 4)),
    .set 64 (.shr (.x 8) 43),
    .set 64 (.land (.x 8) (.lit 64 0x7ffffffffff)),
    .set 64 (.add (.x 9) (.x 3)),
    .set 64 (.shr (.x 11) 42),
    .set 64 (.land (.x 11) (.lit 64 0x3ffffffffff)),
    .set 64 (.add (.x 12) (.x 2)),
    .set 64 (.shr (.x 14) 43),
    .set 64 (.land (.x 14) (.lit 64 0x7ffffffffff)),
    .set 64 (.add (.x 15) (.x 1)),
    .set 64 (.shr (.x 17) 43),
    .set 64 (.land (.x 17) (.lit 64 0x7ffffffffff)),
    .set 64 (.add (.x 18) (.x 0)),
    .set 64 (.shr (.x 20) 42),
    .set 64 (.land (.x 20) (.lit 64 0x3ffffffffff)),
    .set 64 (.mul (.lit 64 0x1000003d1) (.x 21)),
    .set 64 (.add (.x 7) (.x 23)),
    .set 8 (.cast 8 (.shr (.x 24) 43)),
    .set 64 (.land (.x 24) (.lit 64 0x7ffffffffff)),
    .set 64 (.add (.x 25) (.x 10)),
    .set 8 (.cast 8 (.shr (.x 27) 43)),
    .set 64 (.land (.x 27) (.lit 64 0x7ffffffffff)),
    .set 64 (.add (.x 28) (.x 13))]
  outs := [.x 26, .x 29, .x 30, .x 16, .x 19, .x 22]

/-- src/fields/secp256k1_64.h:759-828 `fiat_secp256k1_carry_scmul_8`. -/
def secp256k1_carry_scmul_8 : Prog where
  body := [
    .set 64 (.shl (.a 64 0 5) 3),
    .set 64 (.shl (.a 64 0 4) 3),
    .set 64 (.shl (.a 64 0 3) 3),
    .set 64 (.shl (.a 64 0 2) 3),
    .set 64 (.shl (.a 64 0 1) 3),
    .set 64 (.shl (.a 64 0 0) 3),
    .set 64 (.shr (.x 5) 43),
    .set 64 (.land (.x 5) (.lit 64 0x7ffffffffff)),
    .set 64 (.add (.x 6) (.x 4)),
    .set 64 (.shr (.x 8) 43),
    .set 64 (.land (.x 8) (.lit 64 0x7ffffffffff)),
    .set 64 (.add (.x 9) (.x 3)),
    .set 64 (.shr (.x 11) 42),
    .set 64 (.land (.x 11) (.lit 64 0x3ffffffffff)),
    .set 64 (.add (.x 12) (.x 2)),
    .set 64 (.shr (.x 14) 43),
    .set 64 (.land (.x 14) (.lit 64 0x7ffffffffff)),
    .set 64 (.add (.x 15) (.x 1)),
    .set 64 (.shr (.x 17) 43),
    .set 64 (.land (.x 17) (.lit 64 0x7ffffffffff)),
    .set 64 (.add (.x 18) (.x 0)),
    .set 64 (.shr (.x 20) 42),
    .set 64 (.land (.x 20) (.lit 64 0x3ffffffffff)),
    .set 64 (.mul (.lit 64 0x1000003d1) (.x 21)),
    .set 64 (.add (.x 7) (.x 23)),
    .set 8 (.cast 8 (.shr (.x 24) 43)),
    .set 64 (.land (.x 24) (.lit 64 0x7ffffffffff)),
    .set 64 (.add (.x 25) (.x 10)),
    .set 8 (.cast 8 (.shr (.x 27) 43)),
    .set 64 (.land (.x 27) (.lit 64 0x7ffffffffff)),
    .set 64 (.add (.x 28) (.x 13))]
  outs := [.x 26, .x 29, .x 30, .x 16, .x 19, .x 22]

/-- src/fields/secp256k1_64.h:873-1080 `fiat_secp256k1_to_bytes`. -/
def secp256k1_to_bytes : Prog where
  body := [
    .subb 43 (.lit 31 0x0) (.a 64 0 0) (.lit 64 0x7fefffffc2f),
    .subb 43 (.x 1) (.a 64 0 1) (.lit 64 0x7ffffffffff),
    .subb 42 (.x 3) (.a 64 0 2) (.lit 64 0x3ffffffffff),
    .subb 43 (.x 5) (.a 64 0 3) (.lit 64 0x7ffffffffff),
    .subb 43 (.x 7) (.a 64 0 4) (.lit 64 0x7ffffffffff),
    .subb 42 (.x 9) (.a 64 0 5) (.lit 64 0x3ffffffffff),
    .cmov (.x 11) (.lit 31 0x0) (.lit 64 0xffffffffffffffff),
    .addc 43 (.lit 31 0x0) (.x 0) (.land (.x 12) (.lit 64 0x7fefffffc2f)),
    .addc 43 (.x 14) (.x 2) (.land (.x 12) (.lit 64 0x7ffffffffff)),
    .addc 42 (.x 16) (.x 4) (.land (.x 12) (.lit 64 0x3ffffffffff)),
    .addc 43 (.x 18) (.x 6) (.land (.x 12) (.lit 64 0x7ffffffffff)),
    .addc 43 (.x 20) (.x 8) (.land (.x 12) (.lit 64 0x7ffffffffff)),
    .addc 42 (.x 22) (.x 10) (.land (.x 12) (.lit 64 0x3ffffffffff)),
    .set 64 (.shl (.x 23) 6),
    .set 64 (.shl (.x 21) 3),
    .set 64 (.shl (.x 17) 6),
    .set 64 (.shl (.x 15) 3),
    .set 8 (.cast 8 (.land (.x 13) (.lit 31 0xff))),
    .set 64 (.shr (.x 13) 8),
    .set 8 (.cast 8 (.land (.x 30) (.lit 31 0xff))),
    .set 64 (.shr (.x 30) 8),
    .set 8 (.cast 8 (.land (.x 32) (.lit 31 0xff))),
    .set 64 (.shr (.x 32) 8),
    .set 8 (.cast 8 (.land (.x 34) (.lit 31 0xff))),
    .set 64 (.shr (.x 34) 8),
    .set 8 (.cast 8 (.land (.x 36) (.lit 31 0xff))),
    .set 8 (.cast 8 (.shr (.x 36) 8)),
    .set 64 (.add (.x 28) (.cast 64 (.x 38))),
    .set 8 (.cast 8 (.land (.x 39) (.lit 31 0xff))),
    .set 64 (.shr (.x 39) 8),
    .set 8 (.cast 8 (.land (.x 41) (.lit 31 0xff))),
    .set 64 (.shr (.x 41) 8),
    .set 8 (.cast 8 (.land (.x 43) (.lit 31 0xff))),
    .set 64 (.shr (.x 43) 8),
    .set 8 (.cast 8 (.land (.x 45) (.lit 31 0xff))),
    .set 64 (.shr (.x 45) 8),
    .set 8 (.cast 8 (.land (.x 47) (.lit 31 0xff))),
    .set 8 (.cast 8 (.shr (.x 47) 8)),
    .set 64 (.add (.x 27) (.cast 64 (.x 49))),
    .set 8 (.cast 8 (.land (.x 50) (.lit 31 0xff))),
    .set 64 (.shr (.x 50) 8),
    .set 8 (.cast 8 (.land (.x 52) (.lit 31 0xff))),
    .set 64 (.shr (.x 52) 8),
    .set 8 (.cast 8 (.land (.x 54) (.lit 31 0xff))),
    .set 64 (.shr (.x 54) 8),
    .set 8 (.cast 8 (.land (.x 56) (.lit 31 0xff))),
    .set 64 (.shr (.x 56) 8),
    .set 8 (.cast 8 (.land (.x 58) (.lit 31 0xff))),
    .set 8 (.cast 8 (.shr (.x 58) 8)),
    .set 8 (.cast 8 (.land (.x 19) (.lit 31 0xff))),
    .set 64 (.shr (.x 19) 8),
    .set 8 (.cast 8 (.land (.x 62) (.lit 31 0xff))),
    .set 64 (.shr (.x 62) 8),
    .set 8 (.cast 8 (.land (.x 64) (.lit 31 0xff))),
    .set 64 (.shr (.x 64) 8),
    .set 8 (.cast 8 (.land (.x 66) (.lit 31 0xff))),
    .set 64 (.shr (.x 66) 8),
    .set 8 (.cast 8 (.land (.x 68) (.lit 31 0xff))),
    .set 8 (.cast 8 (.shr (.x 68) 8)),
    .set 64 (.add (.x 26) (.cast 64 (.x 70))),
    .set 8 (.cast 8 (.land (.x 71) (.lit 31 0xff))),
    .set 64 (.shr (.x 71) 8),
    .set 8 (.cast 8 (.land (.x 73) (.lit 31 0xff))),
    .set 64 (.shr (.x 73) 8),
    .set 8 (.cast 8 (.land (.x 75) (.lit 31 0xff))),
    .set 64 (.shr (.x 75) 8),
    .set 8 (.cast 8 (.land (.x 77) (.lit 31 0xff))),
    .set 64 (.shr (.x 77) 8),
    .set 8 (.cast 8 (.land (.x 79) (.lit 31 0xff))),
    .set 8 (.cast 8 (.shr (.x 79) 8)),
    .set 64 (.add (.x 25) (.cast 64 (.x 81))),
    .set 8 (.cast 8 (.land (.x 82) (.lit 31 0xff))),
    .set 64 (.shr (.x 82) 8),
    .set 8 (.cast 8 (.land (.x 84) (.lit 31 0xff))),
    .set 64 (.shr (.x 84) 8),
    .set 8 (.cast 8 (.land (.x 86) (.lit 31 0xff))),
    .set 64 (.shr (.x 86) 8),
    .set 8 (.cast 8 (.land (.x 88) (.lit 31 0xff))),
    .set 64 (.shr (.x 88) 8),
    .set 8 (.cast 8 (.land (.x 90) (.lit 31 0xff))),
    .set 8 (.cast 8 (.shr (.x 90) 8))]
  outs := [.x 29, .x 31, .x 33, .x 35, .x 37, .x 40, .x 42, .x 44, .x 46, .x 48, .x 51, .x 53, .x 55, .x 57, .x 59, .x 60, .x 61, .x 63, .x 65, .x 67, .x 69, .x 72, .x 74, .x 76, .x 78, .x 80, .x 83, .x 85, .x 87, .x 89, .x 91, .x 92]

/-- src/fields/secp256k1_64.h:1092-1239 `fiat_secp256k1_from_bytes`. -/
def secp256k1_from_bytes : Prog where
  body := [
    .set 64 (.shl (.cast 64 (.a 8 0 31)) 34),
    .set 64 (.shl (.cast 64 (.a 8 0 30)) 26),
    .set 64 (.shl (.cast 64 (.a 8 0 29)) 18),
    .set 64 (.shl (.cast 64 (.a 8 0 28)) 10),
    .set 64 (.shl (.cast 64 (.a 8 0 27)) 2),
    .set 64 (.shl (.cast 64 (.a 8 0 26)) 37),
    .set 64 (.shl (.cast 64 (.a 8 0 25)) 29),
    .set 64 (.shl (.cast 64 (.a 8 0 24)) 21),
    .set 64 (.shl (.cast 64 (.a 8 0 23)) 13),
    .set 64 (.shl (.cast 64 (.a 8 0 22)) 5),
    .set 64 (.shl (.cast 64 (.a 8 0 21)) 40),
    .set 64 (.shl (.cast 64 (.a 8 0 20)) 32),
    .set 64 (.shl (.cast 64 (.a 8 0 19)) 24),
    .set 64 (.shl (.cast 64 (.a 8 0 18)) 16),
    .set 64 (.shl (.cast 64 (.a 8 0 17)) 8),
    .set 8 (.a 8 0 16),
    .set 64 (.shl (.cast 64 (.a 8 0 15)) 34),
    .set 64 (.shl (.cast 64 (.a 8 0 14)) 26),
    .set 64 (.shl (.cast 64 (.a 8 0 13)) 18),
    .set 64 (.shl (.cast 64 (.a 8 0 12)) 10),
    .set 64 (.shl (.cast 64 (.a 8 0 11)) 2),
    .set 64 (.shl (.cast 64 (.a 8 0 10)) 37),
    .set 64 (.shl (.cast 64 (.a 8 0 9)) 29),
    .set 64 (.shl (.cast 64 (.a 8 0 8)) 21),
    .set 64 (.shl (.cast 64 (.a 8 0 7)) 13),
    .set 64 (.shl (.cast 64 (.a 8 0 6)) 5),
    .set 64 (.shl (.cast 64 (.a 8 0 5)) 40),
    .set 64 (.shl (.cast 64 (.a 8 0 4)) 32),
    .set 64 (.shl (.cast 64 (.a 8 0 3)) 24),
    .set 64 (.shl (.cast 64 (.a 8 0 2)) 16),
    .set 64 (.shl (.cast 64 (.a 8 0 1)) 8),
    .set 8 (.a 8 0 0),
    .set 64 (.add (.x 30) (.cast 64 (.x 31))),
    .set 64 (.add (.x 29) (.x 32)),
    .set 64 (.add (.x 28) (.x 33)),
    .set 64 (.add (.x 27) (.x 34)),
    .set 64 (.add (.x 26) (.x 35)),
    .set 64 (.land (.x 36) (.lit 64 0x7ffffffffff)),
    .set 8 (.cast 8 (.shr (.x 36) 43)),
    .set 64 (.add (.x 25) (.cast 64 (.x 38))),
    .set 64 (.add (.x 24) (.x 39)),
    .set 64 (.add (.x 23) (.x 40)),
    .set 64 (.add (.x 22) (.x 41)),
    .set 64 (.add (.x 21) (.x 42)),
    .set 64 (.land (.x 43) (.lit 64 0x7ffffffffff)),
    .set 8 (.cast 8 (.shr (.x 43) 43)),
    .set 64 (.add (.x 20) (.cast 64 (.x 45))),
    .set 64 (.add (.x 19) (.x 46)),
    .set 64 (.add (.x 18) (.x 47)),
    .set 64 (.add (.x 17) (.x 48)),
    .set 64 (.add (.x 16) (.x 49)),
    .set 64 (.add (.x 14) (.cast 64 (.x 15))),
    .set 64 (.add (.x 13) (.x 51)),
    .set 64 (.add (.x 12) (.x 52)),
    .set 64 (.add (.x 11) (.x 53)),
    .set 64 (.add (.x 10) (.x 54)),
    .set 64 (.land (.x 55) (.lit 64 0x7ffffffffff)),
    .set 8 (.cast 8 (.shr (.x 55) 43)),
    .set 64 (.add (.x 9) (.cast 64 (.x 57))),
    .set 64 (.add (.x 8) (.x 58)),
    .set 64 (.add (.x 7) (.x 59)),
    .set 64 (.add (.x 6) (.x 60)),
    .set 64 (.add (.x 5) (.x 61)),
    .set 64 (.land (.x 62) (.lit 64 0x7ffffffffff)),
    .set 8 (.cast 8 (.shr (.x 62) 43)),
    .set 64 (.add (.x 4) (.cast 64 (.x 64))),
    .set 64 (.add (.x 3) (.x 65)),
    .set 64 (.add (.x 2) (.x 66)),
    .set 64 (.add (.x 1) (.x 67)),
    .set 64 (.add (.x 0) (.x 68))]
  outs := [.x 37, .x 44, .x 50, .x 56, .x 63, .x 69]

end Torsion.Fiat
