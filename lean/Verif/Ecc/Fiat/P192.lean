import Verif.Ecc.Fiat.Lang

/-!
# Model of src/fields/p192_64.h (written by tools/fiat.py)
-/
namespace Torsion.Fiat

/-- src/fields/p192_64.h:109-122 `fiat_p192_add`. -/
def p192_add : Prog where
  body := [
    .set 64 (.add (.a 64 0 0) (.a 64 1 0)),
    .set 64 (.add (.a 64 0 1) (.a 64 1 1)),
    .set 64 (.add (.a 64 0 2) (.a 64 1 2)),
    .set 64 (.add (.a 64 0 3) (.a 64 1 3))]
  outs := [.x 0, .x 1, .x 2, .x 3]

/-- src/fields/p192_64.h:135-148 `fiat_p192_sub`. -/
def p192_sub : Prog where
  body := [
    .set 64 (.sub (.add (.lit 64 0x1fffffffffffe) (.a 64 0 0)) (.a 64 1 0)),
    .set 64 (.sub (.add (.lit 64 0x1fffffffdfffe) (.a 64 0 1)) (.a 64 1 1)),
    .set 64 (.sub (.add (.lit 64 0x1fffffffffffe) (.a 64 0 2)) (.a 64 1 2)),
    .set 64 (.sub (.add (.lit 64 0x1fffffffffffe) (.a 64 0 3)) (.a 64 1 3))]
  outs := [.x 0, .x 1, .x 2, .x 3]

/-- src/fields/p192_64.h:160-173 `fiat_p192_opp`. -/
def p192_opp : Prog where
  body := [
    .set 64 (.sub (.lit 64 0x1fffffffffffe) (.a 64 0 0)),
    .set 64 (.sub (.lit 64 0x1fffffffdfffe) (.a 64 0 1)),
    .set 64 (.sub (.lit 64 0x1fffffffffffe) (.a 64 0 2)),
    .set 64 (.sub (.lit 64 0x1fffffffffffe) (.a 64 0 3))]
  outs := [.x 0, .x 1, .x 2, .x 3]

/-- src/fields/p192_64.h:185-218 `fiat_p192_carry`. -/
def p192_carry : Prog where
  body := [
    .set 64 (.a 64 0 0),
    .set 64 (.a 64 0 3),
    .set 64 (.shr (.x 1) 48),
    .set 64 (.add (.add (.shr (.x 0) 48) (.a 64 0 1)) (.shl (.x 2) 16)),
    .set 64 (.add (.land (.x 0) (.lit 64 0xffffffffffff)) (.x 2)),
    .set 64 (.add (.shr (.x 3) 48) (.a 64 0 2)),
    .set 64 (.add (.shr (.x 5) 48) (.land (.x 1) (.lit 64 0xffffffffffff))),
    .set 8 (.cast 8 (.shr (.x 6) 48)),
    .set 64 (.add (.add (.cast 8 (.shr (.x 4) 48)) (.land (.x 3) (.lit 64 0xffffffffffff))) (.shl (.cast 64 (.x 7)) 16)),
    .set 64 (.add (.land (.x 4) (.lit 64 0xffffffffffff)) (.cast 64 (.x 7))),
    .set 64 (.land (.x 9) (.lit 64 0xffffffffffff)),
    .set 64 (.add (.cast 8 (.shr (.x 9) 48)) (.land (.x 8) (.lit 64 0xffffffffffff))),
    .set 64 (.add (.cast 8 (.shr (.x 8) 48)) (.land (.x 5) (.lit 64 0xffffffffffff))),
    .set 64 (.land (.x 6) (.lit 64 0xffffffffffff))]
  outs := [.x 10, .x 11, .x 12, .x 13]

/-- src/fields/p192_64.h:231-344 `fiat_p192_carry_mul`. -/
def p192_carry_mul : Prog where
  body := [
    .set 128 (.mul (.cast 128 (.a 64 0 3)) (.a 64 1 3)),
    .set 128 (.mul (.cast 128 (.a 64 0 3)) (.a 64 1 2)),
    .set 128 (.mul (.cast 128 (.a 64 0 3)) (.a 64 1 1)),
    .set 128 (.mul (.cast 128 (.a 64 0 2)) (.a 64 1 3)),
    .set 128 (.mul (.cast 128 (.a 64 0 2)) (.a 64 1 2)),
    .set 128 (.mul (.cast 128 (.a 64 0 1)) (.a 64 1 3)),
    .set 128 (.shl (.mul (.cast 128 (.a 64 0 3)) (.a 64 1 3)) 16),
    .set 128 (.shl (.mul (.cast 128 (.a 64 0 3)) (.a 64 1 2)) 16),
    .set 128 (.shl (.mul (.cast 128 (.a 64 0 3)) (.a 64 1 1)) 16),
    .set 128 (.shl (.mul (.cast 128 (.a 64 0 2)) (.a 64 1 3)) 16),
    .set 128 (.shl (.mul (.cast 128 (.a 64 0 2)) (.a 64 1 2)) 16),
    .set 128 (.shl (.mul (.cast 128 (.a 64 0 1)) (.a 64 1 3)) 16),
    .set 128 (.mul (.cast 128 (.a 64 0 3)) (.a 64 1 0)),
    .set 128 (.mul (.cast 128 (.a 64 0 2)) (.a 64 1 1)),
    .set 128 (.mul (.cast 128 (.a 64 0 2)) (.a 64 1 0)),
    .set 128 (.mul (.cast 128 (.a 64 0 1)) (.a 64 1 2)),
    .set 128 (.mul (.cast 128 (.a 64 0 1)) (.a 64 1 1)),
    .set 128 (.mul (.cast 128 (.a 64 0 1)) (.a 64 1 0)),
    .set 128 (.mul (.cast 128 (.a 64 0 0)) (.a 64 1 3)),
    .set 128 (.mul (.cast 128 (.a 64 0 0)) (.a 64 1 2)),
    .set 128 (.mul (.cast 128 (.a 64 0 0)) (.a 64 1 1)),
    .set 128 (.mul (.cast 128 (.a 64 0 0)) (.a 64 1 0)),
    .set 128 (.add (.x 21) (.add (.x 5) (.add (.x 4) (.x 2)))),
    .set 64 (.cast 64 (.shr (.x 22) 48)),
    .set 64 (.cast 64 (.land (.x 22) (.lit 64 0xffffffffffff))),
    .set 128 (.add (.x 18) (.add (.x 15) (.add (.x 13) (.add (.x 12) (.x 6))))),
    .set 128 (.add (.x 19) (.add (.x 16) (.add (.x 14) (.add (.x 9) (.add (.x 7) (.x 0)))))),
    .set 128 (.add (.x 20) (.add (.x 17) (.add (.x 11) (.add (.x 10) (.add (.x 8) (.add (.x 3) (.x 1))))))),
    .set 128 (.add (.x 23) (.x 27)),
    .set 128 (.shr (.x 25) 48),
    .set 64 (.cast 64 (.land (.x 25) (.lit 64 0xffffffffffff))),
    .set 128 (.shl (.x 29) 16),
    .set 128 (.add (.x 28) (.x 31)),
    .set 128 (.shr (.x 32) 48),
    .set 64 (.cast 64 (.land (.x 32) (.lit 64 0xffffffffffff))),
    .set 128 (.add (.x 24) (.x 29)),
    .set 128 (.add (.x 33) (.x 26)),
    .set 64 (.cast 64 (.shr (.x 35) 48)),
    .set 64 (.cast 64 (.land (.x 35) (.lit 64 0xffffffffffff))),
    .set 64 (.add (.x 37) (.x 34)),
    .set 128 (.shr (.x 36) 48),
    .set 64 (.cast 64 (.land (.x 36) (.lit 64 0xffffffffffff))),
    .set 128 (.add (.x 40) (.x 30)),
    .set 64 (.cast 64 (.shr (.x 42) 48)),
    .set 64 (.cast 64 (.land (.x 42) (.lit 64 0xffffffffffff))),
    .set 64 (.shl (.x 43) 16),
    .set 64 (.add (.x 39) (.x 45)),
    .set 8 (.cast 8 (.shr (.x 46) 48)),
    .set 64 (.land (.x 46) (.lit 64 0xffffffffffff)),
    .set 64 (.add (.x 38) (.x 43)),
    .set 64 (.add (.x 47) (.x 41)),
    .set 8 (.cast 8 (.shr (.x 49) 48)),
    .set 64 (.land (.x 49) (.lit 64 0xffffffffffff)),
    .set 64 (.add (.x 51) (.x 48))]
  outs := [.x 52, .x 53, .x 50, .x 44]

/-- src/fields/p192_64.h:356-471 `fiat_p192_carry_square`. -/
def p192_carry_square : Prog where
  body := [
    .set 64 (.a 64 0 3),
    .set 64 (.a 64 0 3),
    .set 64 (.mul (.x 0) (.lit 31 0x2)),
    .set 64 (.mul (.x 1) (.lit 31 0x2)),
    .set 64 (.mul (.a 64 0 3) (.lit 31 0x2)),
    .set 64 (.a 64 0 2),
    .set 64 (.a 64 0 2),
    .set 64 (.mul (.a 64 0 2) (.lit 31 0x2)),
    .set 64 (.mul (.a 64 0 1) (.lit 31 0x2)),
    .set 128 (.mul (.cast 128 (.a 64 0 3)) (.x 1)),
    .set 128 (.shl (.mul (.cast 128 (.a 64 0 3)) (.x 0)) 16),
    .set 128 (.mul (.cast 128 (.a 64 0 2)) (.x 3)),
    .set 128 (.shl (.mul (.cast 128 (.a 64 0 2)) (.x 2)) 16),
    .set 128 (.mul (.cast 128 (.a 64 0 2)) (.x 6)),
    .set 128 (.shl (.mul (.cast 128 (.a 64 0 2)) (.x 5)) 16),
    .set 128 (.mul (.cast 128 (.a 64 0 1)) (.x 3)),
    .set 128 (.shl (.mul (.cast 128 (.a 64 0 1)) (.x 2)) 16),
    .set 128 (.mul (.cast 128 (.a 64 0 1)) (.x 7)),
    .set 128 (.mul (.cast 128 (.a 64 0 1)) (.a 64 0 1)),
    .set 128 (.mul (.cast 128 (.a 64 0 0)) (.x 4)),
    .set 128 (.mul (.cast 128 (.a 64 0 0)) (.x 7)),
    .set 128 (.mul (.cast 128 (.a 64 0 0)) (.x 8)),
    .set 128 (.mul (.cast 128 (.a 64 0 0)) (.a 64 0 0)),
    .set 128 (.add (.x 22) (.add (.x 15) (.x 13))),
    .set 64 (.cast 64 (.shr (.x 23) 48)),
    .set 64 (.cast 64 (.land (.x 23) (.lit 64 0xffffffffffff))),
    .set 128 (.add (.x 19) (.add (.x 17) (.x 10))),
    .set 128 (.add (.x 20) (.add (.x 18) (.add (.x 12) (.x 9)))),
    .set 128 (.add (.x 21) (.add (.x 16) (.add (.x 14) (.x 11)))),
    .set 128 (.add (.x 24) (.x 28)),
    .set 128 (.shr (.x 26) 48),
    .set 64 (.cast 64 (.land (.x 26) (.lit 64 0xffffffffffff))),
    .set 128 (.shl (.x 30) 16),
    .set 128 (.add (.x 29) (.x 32)),
    .set 128 (.shr (.x 33) 48),
    .set 64 (.cast 64 (.land (.x 33) (.lit 64 0xffffffffffff))),
    .set 128 (.add (.x 25) (.x 30)),
    .set 128 (.add (.x 34) (.x 27)),
    .set 64 (.cast 64 (.shr (.x 36) 48)),
    .set 64 (.cast 64 (.land (.x 36) (.lit 64 0xffffffffffff))),
    .set 64 (.add (.x 38) (.x 35)),
    .set 128 (.shr (.x 37) 48),
    .set 64 (.cast 64 (.land (.x 37) (.lit 64 0xffffffffffff))),
    .set 128 (.add (.x 41) (.x 31)),
    .set 64 (.cast 64 (.shr (.x 43) 48)),
    .set 64 (.cast 64 (.land (.x 43) (.lit 64 0xffffffffffff))),
    .set 64 (.shl (.x 44) 16),
    .set 64 (.add (.x 40) (.x 46)),
    .set 8 (.cast 8 (.shr (.x 47) 48)),
    .set 64 (.land (.x 47) (.lit 64 0xffffffffffff)),
    .set 64 (.add (.x 39) (.x 44)),
    .set 64 (.add (.x 48) (.x 42)),
    .set 8 (.cast 8 (.shr (.x 50) 48)),
    .set 64 (.land (.x 50) (.lit 64 0xffffffffffff)),
    .set 64 (.add (.x 52) (.x 49))]
  outs := [.x 53, .x 54, .x 51, .x 45]

/-- src/fields/p192_64.h:483-552 `fiat_p192_carry_scmul_3`. -/
def p192_carry_scmul_3 : Prog where
  body := [
    .set 64 (.mul (.a 64 0 3) (.lit 31 0x3)),
    .set 64 (.mul (.a 64 0 2) (.lit 31 0x3)),
    .set 64 (.mul (.a 64 0 1) (.lit 31 0x3)),
    .set 64 (.mul (.a 64 0 0) (.lit 31 0x3)),
    .set 64 (.shr (.x 3) 48),
    .set 64 (.land (.x 3) (.lit 64 0xffffffffffff)),
    .set 64 (.add (.x 4) (.x 2)),
    .set 64 (.shr (.x 0) 48),
    .set 64 (.land (.x 0) (.lit 64 0xffffffffffff)),
    .set 64 (.shl (.x 7) 16),
    .set 64 (.add (.x 6) (.x 9)),
    .set 64 (.shr (.x 10) 48),
    .set 64 (.land (.x 10) (.lit 64 0xffffffffffff)),
    .set 64 (.add (.x 5) (.x 7)),
    .set 64 (.add (.x 11) (.x 1)),
    .set 8 (.cast 8 (.shr (.x 13) 48)),
    .set 64 (.land (.x 13) (.lit 64 0xffffffffffff)),
    .set 64 (.add (.x 15) (.x 12)),
    .set 64 (.shr (.x 14) 48),
    .set 64 (.land (.x 14) (.lit 64 0xffffffffffff)),
    .set 64 (.add (.x 18) (.x 8)),
    .set 8 (.cast 8 (.shr (.x 20) 48)),
    .set 64 (.land (.x 20) (.lit 64 0xffffffffffff)),
    .set 64 (.shl (.cast 64 (.x 21)) 16),
    .set 64 (.add (.x 17) (.x 23)),
    .set 8 (.cast 8 (.shr (.x 24) 48)),
    .set 64 (.land (.x 24) (.lit 64 0xffffffffffff)),
    .set 64 (.add (.x 16) (.cast 64 (.x 21))),
    .set 64 (.add (.x 25) (.x 19)),
    .set 8 (.cast 8 (.shr (.x 27) 48)),
    .set 64 (.land (.x 27) (.lit 64 0xffffffffffff)),
    .set 64 (.add (.x 29) (.x 26))]
  outs := [.x 30, .x 31, .x 28, .x 22]

/-- src/fields/p192_64.h:564-633 `fiat_p192_carry_scmul_4`. -/
def p192_carry_scmul_4 : Prog where
  body := [
    .set 64 (.shl (.a 64 0 3) 2),
    .set 64 (.shl (.a 64 0 2) 2),
    .set 64 (.shl (.a 64 0 1) 2),
    .set 64 (.shl (.a 64 0 0) 2),
    .set 64 (.shr (.x 3) 48),
    .set 64 (.land (.x 3) (.lit 64 0xffffffffffff)),
    .set 64 (.add (.x 4) (.x 2)),
    .set 64 (.shr (.x 0) 48),
    .set 64 (.land (.x 0) (.lit 64 0xffffffffffff)),
    .set 64 (.shl (.x 7) 16),
    .set 64 (.add (.x 6) (.x 9)),
    .set 64 (.shr (.x 10) 48),
    .set 64 (.land (.x 10) (.lit 64 0xffffffffffff)),
    .set 64 (.add (.x 5) (.x 7)),
    .set 64 (.add (.x 11) (.x 1)),
    .set 8 (.cast 8 (.shr (.x 13) 48)),
    .set 64 (.land (.x 13) (.lit 64 0xffffffffffff)),
    .set 64 (.add (.x 15) (.x 12)),
    .set 64 (.shr (.x 14) 48),
    .set 64 (.land (.x 14) (.lit 64 0xffffffffffff)),
    .set 64 (.add (.x 18) (.x 8)),
    .set 8 (.cast 8 (.shr (.x 20) 48)),
    .set 64 (.land (.x 20) (.lit 64 0xffffffffffff)),
    .set 64 (.shl (.cast 64 (.x 21)) 16),
    .set 64 (.add (.x 17) (.x 23)),
    .set 8 (.cast 8 (.shr (.x 24) 48)),
    .set 64 (.land (.x 24) (.lit 64 0xffffffffffff)),
    .set 64 (.add (.x 16) (.cast 64 (.x 21))),
    .set 64 (.add (.x 25) (.x 19)),
    .set 8 (.cast 8 (.shr (.x 27) 48)),
    .set 64 (.land (.x 27) (.lit 64 0xffffffffffff)),
    .set 64 (.add (.x 29) (.x 26))]
  outs := [.x 30, .x 31, .x 28, .x 22]

/-- src/fields/p192_64.h:645-714 `fiat_p192_carry_scmul_8`. -/
def p192_carry_scmul_8 : Prog where
  body := [
    .set 64 (.shl (.a 64 0 3) 3),
    .set 64 (.shl (.a 64 0 2) 3),
    .set 64 (.shl (.a 64 0 1) 3),
    .set 64 (.shl (.a 64 0 0) 3),
    .set 64 (.shr (.x 3) 48),
    .set 64 (.land (.x 3) (.lit 64 0xffffffffffff)),
    .set 64 (.add (.x 4) (.x 2)),
    .set 64 (.shr (.x 0) 48),
    .set 64 (.land (.x 0) (.lit 64 0xffffffffffff)),
    .set 64 (.shl (.x 7) 16),
    .set 64 (.add (.x 6) (.x 9)),
    .set 64 (.shr (.x 10) 48),
    .set 64 (.land (.x 10) (.lit 64 0xffffffffffff)),
    .set 64 (.add (.x 5) (.x 7)),
    .set 64 (.add (.x 11) (.x 1)),
    .set 8 (.cast 8 (.shr (.x 13) 48)),
    .set 64 (.land (.x 13) (.lit 64 0xffffffffffff)),
    .set 64 (.add (.x 15) (.x 12)),
    .set 64 (.shr (.x 14) 48),
    .set 64 (.land (.x 14) (.lit 64 0xffffffffffff)),
    .set 64 (.add (.x 18) (.x 8)),
    .set 8 (.cast 8 (.shr (.x 20) 48)),
    .set 64 (.land (.x 20) (.lit 64 0xffffffffffff)),
    .set 64 (.shl (.cast 64 (.x 21)) 16),
    .set 64 (.add (.x 17) (.x 23)),
    .set 8 (.cast 8 (.shr (.x 24) 48)),
    .set 64 (.land (.x 24) (.lit 64 0xffffffffffff)),
    .set 64 (.add (.x 16) (.cast 64 (.x 21))),
    .set 64 (.add (.x 25) (.x 19)),
    .set 8 (.cast 8 (.shr (.x 27) 48)),
    .set 64 (.land (.x 27) (.lit 64 0xffffffffffff)),
    .set 64 (.add (.x 29) (.x 26))]
  outs := [.x 30, .x 31, .x 28, .x 22]

/-- src/fields/p192_64.h:753-884 `fiat_p192_to_bytes`. -/
def p192_to_bytes : Prog where
  body := [
    .subb 48 (.lit 31 0x0) (.a 64 0 0) (.lit 64 0xffffffffffff),
    .subb 48 (.x 1) (.a 64 0 1) (.lit 64 0xfffffffeffff),
    .subb 48 (.x 3) (.a 64 0 2) (.lit 64 0xffffffffffff),
    .subb 48 (.x 5) (.a 64 0 3) (.lit 64 0xffffffffffff),
    .cmov (.x 7) (.lit 31 0x0) (.lit 64 0xffffffffffffffff),
    .addc 48 (.lit 31 0x0) (.x 0) (.land (.x 8) (.lit 64 0xffffffffffff)),
    .addc 48 (.x 10) (.x 2) (.land (.x 8) (.lit 64 0xfffffffeffff)),
    .addc 48 (.x 12) (.x 4) (.land (.x 8) (.lit 64 0xffffffffffff)),
    .addc 48 (.x 14) (.x 6) (.land (.x 8) (.lit 64 0xffffffffffff)),
    .set 8 (.cast 8 (.land (.x 9) (.lit 31 0xff))),
    .set 64 (.shr (.x 9) 8),
    .set 8 (.cast 8 (.land (.x 18) (.lit 31 0xff))),
    .set 64 (.shr (.x 18) 8),
    .set 8 (.cast 8 (.land (.x 20) (.lit 31 0xff))),
    .set 64 (.shr (.x 20) 8),
    .set 8 (.cast 8 (.land (.x 22) (.lit 31 0xff))),
    .set 64 (.shr (.x 22) 8),
    .set 8 (.cast 8 (.land (.x 24) (.lit 31 0xff))),
    .set 8 (.cast 8 (.shr (.x 24) 8)),
    .set 8 (.cast 8 (.land (.x 11) (.lit 31 0xff))),
    .set 64 (.shr (.x 11) 8),
    .set 8 (.cast 8 (.land (.x 28) (.lit 31 0xff))),
    .set 64 (.shr (.x 28) 8),
    .set 8 (.cast 8 (.land (.x 30) (.lit 31 0xff))),
    .set 64 (.shr (.x 30) 8),
    .set 8 (.cast 8 (.land (.x 32) (.lit 31 0xff))),
    .set 64 (.shr (.x 32) 8),
    .set 8 (.cast 8 (.land (.x 34) (.lit 31 0xff))),
    .set 8 (.cast 8 (.shr (.x 34) 8)),
    .set 8 (.cast 8 (.land (.x 13) (.lit 31 0xff))),
    .set 64 (.shr (.x 13) 8),
    .set 8 (.cast 8 (.land (.x 38) (.lit 31 0xff))),
    .set 64 (.shr (.x 38) 8),
    .set 8 (.cast 8 (.land (.x 40) (.lit 31 0xff))),
    .set 64 (.shr (.x 40) 8),
    .set 8 (.cast 8 (.land (.x 42) (.lit 31 0xff))),
    .set 64 (.shr (.x 42) 8),
    .set 8 (.cast 8 (.land (.x 44) (.lit 31 0xff))),
    .set 8 (.cast 8 (.shr (.x 44) 8)),
    .set 8 (.cast 8 (.land (.x 15) (.lit 31 0xff))),
    .set 64 (.shr (.x 15) 8),
    .set 8 (.cast 8 (.land (.x 48) (.lit 31 0xff))),
    .set 64 (.shr (.x 48) 8),
    .set 8 (.cast 8 (.land (.x 50) (.lit 31 0xff))),
    .set 64 (.shr (.x 50) 8),
    .set 8 (.cast 8 (.land (.x 52) (.lit 31 0xff))),
    .set 64 (.shr (.x 52) 8),
    .set 8 (.cast 8 (.land (.x 54) (.lit 31 0xff))),
    .set 8 (.cast 8 (.shr (.x 54) 8))]
  outs := [.x 17, .x 19, .x 21, .x 23, .x 25, .x 26, .x 27, .x 29, .x 31, .x 33, .x 35, .x 36, .x 37, .x 39, .x 41, .x 43, .x 45, .x 46, .x 47, .x 49, .x 51, .x 53, .x 55, .x 56]

/-- src/fields/p192_64.h:896-989 `fiat_p192_from_bytes`. -/
def p192_from_bytes : Prog where
  body := [
    .set 64 (.shl (.cast 64 (.a 8 0 23)) 40),
    .set 64 (.shl (.cast 64 (.a 8 0 22)) 32),
    .set 64 (.shl (.cast 64 (.a 8 0 21)) 24),
    .set 64 (.shl (.cast 64 (.a 8 0 20)) 16),
    .set 64 (.shl (.cast 64 (.a 8 0 19)) 8),
    .set 8 (.a 8 0 18),
    .set 64 (.shl (.cast 64 (.a 8 0 17)) 40),
    .set 64 (.shl (.cast 64 (.a 8 0 16)) 32),
    .set 64 (.shl (.cast 64 (.a 8 0 15)) 24),
    .set 64 (.shl (.cast 64 (.a 8 0 14)) 16),
    .set 64 (.shl (.cast 64 (.a 8 0 13)) 8),
    .set 8 (.a 8 0 12),
    .set 64 (.shl (.cast 64 (.a 8 0 11)) 40),
    .set 64 (.shl (.cast 64 (.a 8 0 10)) 32),
    .set 64 (.shl (.cast 64 (.a 8 0 9)) 24),
    .set 64 (.shl (.cast 64 (.a 8 0 8)) 16),
    .set 64 (.shl (.cast 64 (.a 8 0 7)) 8),
    .set 8 (.a 8 0 6),
    .set 64 (.shl (.cast 64 (.a 8 0 5)) 40),
    .set 64 (.shl (.cast 64 (.a 8 0 4)) 32),
    .set 64 (.shl (.cast 64 (.a 8 0 3)) 24),
    .set 64 (.shl (.cast 64 (.a 8 0 2)) 16),
    .set 64 (.shl (.cast 64 (.a 8 0 1)) 8),
    .set 8 (.a 8 0 0),
    .set 64 (.add (.x 22) (.cast 64 (.x 23))),
    .set 64 (.add (.x 21) (.x 24)),
    .set 64 (.add (.x 20) (.x 25)),
    .set 64 (.add (.x 19) (.x 26)),
    .set 64 (.add (.x 18) (.x 27)),
    .set 64 (.add (.x 16) (.cast 64 (.x 17))),
    .set 64 (.add (.x 15) (.x 29)),
    .set 64 (.add (.x 14) (.x 30)),
    .set 64 (.add (.x 13) (.x 31)),
    .set 64 (.add (.x 12) (.x 32)),
    .set 64 (.add (.x 10) (.cast 64 (.x 11))),
    .set 64 (.add (.x 9) (.x 34)),
    .set 64 (.add (.x 8) (.x 35)),
    .set 64 (.add (.x 7) (.x 36)),
    .set 64 (.add (.x 6) (.x 37)),
    .set 64 (.add (.x 4) (.cast 64 (.x 5))),
    .set 64 (.add (.x 3) (.x 39)),
    .set 64 (.add (.x 2) (.x 40)),
    .set 64 (.add (.x 1) (.x 41)),
    .set 64 (.add (.x 0) (.x 42))]
  outs := [.x 28, .x 33, .x 38, .x 43]

end Torsion.Fiat
