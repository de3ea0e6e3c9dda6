import Verif.Ecc.Fiat.Lang

/-!
# Model of src/fields/p25519_64.h (written by tools/fiat.py)
-/
namespace Torsion.Fiat

/-- src/fields/p25519_64.h:109-125 `fiat_p25519_add`. -/
def p25519_add : Prog where
  body := [
    .set 64 (.add (.a 64 0 0) (.a 64 1 0)),
    .set 64 (.add (.a 64 0 1) (.a 64 1 1)),
    .set 64 (.add (.a 64 0 2) (.a 64 1 2)),
    .set 64 (.add (.a 64 0 3) (.a 64 1 3)),
    .set 64 (.add (.a 64 0 4) (.a 64 1 4))]
  outs := [.x 0, .x 1, .x 2, .x 3, .x 4]

/-- src/fields/p25519_64.h:138-154 `fiat_p25519_sub`. -/
def p25519_sub : Prog where
  body := [
    .set 64 (.sub (.add (.lit 64 0xfffffffffffda) (.a 64 0 0)) (.a 64 1 0)),
    .set 64 (.sub (.add (.lit 64 0xffffffffffffe) (.a 64 0 1)) (.a 64 1 1)),
    .set 64 (.sub (.add (.lit 64 0xffffffffffffe) (.a 64 0 2)) (.a 64 1 2)),
    .set 64 (.sub (.add (.lit 64 0xffffffffffffe) (.a 64 0 3)) (.a 64 1 3)),
    .set 64 (.sub (.add (.lit 64 0xffffffffffffe) (.a 64 0 4)) (.a 64 1 4))]
  outs := [.x 0, .x 1, .x 2, .x 3, .x 4]

/-- src/fields/p25519_64.h:166-182 `fiat_p25519_opp`. -/
def p25519_opp : Prog where
  body := [
    .set 64 (.sub (.lit 64 0xfffffffffffda) (.a 64 0 0)),
    .set 64 (.sub (.lit 64 0xffffffffffffe) (.a 64 0 1)),
    .set 64 (.sub (.lit 64 0xffffffffffffe) (.a 64 0 2)),
    .set 64 (.sub (.lit 64 0xffffffffffffe) (.a 64 0 3)),
    .set 64 (.sub (.lit 64 0xffffffffffffe) (.a 64 0 4))]
  outs := [.x 0, .x 1, .x 2, .x 3, .x 4]

/-- src/fields/p25519_64.h:194-224 `fiat_p25519_carry`. -/
def p25519_carry : Prog where
  body := [
    .set 64 (.a 64 0 0),
    .set 64 (.add (.shr (.x 0) 51) (.a 64 0 1)),
    .set 64 (.add (.shr (.x 1) 51) (.a 64 0 2)),
    .set 64 (.add (.shr (.x 2) 51) (.a 64 0 3)),
    .set 64 (.add (.shr (.x 3) 51) (.a 64 0 4)),
    .set 64 (.add (.land (.x 0) (.lit 64 0x7ffffffffffff)) (.mul (.shr (.x 4) 51) (.lit 31 0x13))),
    .set 64 (.add (.cast 8 (.shr (.x 5) 51)) (.land (.x 1) (.lit 64 0x7ffffffffffff))),
    .set 64 (.land (.x 5) (.lit 64 0x7ffffffffffff)),
    .set 64 (.land (.x 6) (.lit 64 0x7ffffffffffff)),
    .set 64 (.add (.cast 8 (.shr (.x 6) 51)) (.land (.x 2) (.lit 64 0x7ffffffffffff))),
    .set 64 (.land (.x 3) (.lit 64 0x7ffffffffffff)),
    .set 64 (.land (.x 4) (.lit 64 0x7ffffffffffff))]
  outs := [.x 7, .x 8, .x 9, .x 10, .x 11]

/-- src/fields/p25519_64.h:237-347 `fiat_p25519_carry_mul`. -/
def p25519_carry_mul : Prog where
  body := [
    .set 128 (.mul (.cast 128 (.a 64 0 4)) (.mul (.a 64 1 4) (.lit 31 0x13))),
    .set 128 (.mul (.cast 128 (.a 64 0 4)) (.mul (.a 64 1 3) (.lit 31 0x13))),
    .set 128 (.mul (.cast 128 (.a 64 0 4)) (.mul (.a 64 1 2) (.lit 31 0x13))),
    .set 128 (.mul (.cast 128 (.a 64 0 4)) (.mul (.a 64 1 1) (.lit 31 0x13))),
    .set 128 (.mul (.cast 128 (.a 64 0 3)) (.mul (.a 64 1 4) (.lit 31 0x13))),
    .set 128 (.mul (.cast 128 (.a 64 0 3)) (.mul (.a 64 1 3) (.lit 31 0x13))),
    .set 128 (.mul (.cast 128 (.a 64 0 3)) (.mul (.a 64 1 2) (.lit 31 0x13))),
    .set 128 (.mul (.cast 128 (.a 64 0 2)) (.mul (.a 64 1 4) (.lit 31 0x13))),
    .set 128 (.mul (.cast 128 (.a 64 0 2)) (.mul (.a 64 1 3) (.lit 31 0x13))),
    .set 128 (.mul (.cast 128 (.a 64 0 1)) (.mul (.a 64 1 4) (.lit 31 0x13))),
    .set 128 (.mul (.cast 128 (.a 64 0 4)) (.a 64 1 0)),
    .set 128 (.mul (.cast 128 (.a 64 0 3)) (.a 64 1 1)),
    .set 128 (.mul (.cast 128 (.a 64 0 3)) (.a 64 1 0)),
    .set 128 (.mul (.cast 128 (.a 64 0 2)) (.a 64 1 2)),
    .set 128 (.mul (.cast 128 (.a 64 0 2)) (.a 64 1 1)),
    .set 128 (.mul (.cast 128 (.a 64 0 2)) (.a 64 1 0)),
    .set 128 (.mul (.cast 128 (.a 64 0 1)) (.a 64 1 3)),
    .set 128 (.mul (.cast 128 (.a 64 0 1)) (.a 64 1 2)),
    .set 128 (.mul (.cast 128 (.a 64 0 1)) (.a 64 1 1)),
    .set 128 (.mul (.cast 128 (.a 64 0 1)) (.a 64 1 0)),
    .set 128 (.mul (.cast 128 (.a 64 0 0)) (.a 64 1 4)),
    .set 128 (.mul (.cast 128 (.a 64 0 0)) (.a 64 1 3)),
    .set 128 (.mul (.cast 128 (.a 64 0 0)) (.a 64 1 2)),
    .set 128 (.mul (.cast 128 (.a 64 0 0)) (.a 64 1 1)),
    .set 128 (.mul (.cast 128 (.a 64 0 0)) (.a 64 1 0)),
    .set 128 (.add (.x 24) (.add (.x 9) (.add (.x 8) (.add (.x 6) (.x 3))))),
    .set 64 (.cast 64 (.shr (.x 25) 51)),
    .set 64 (.cast 64 (.land (.x 25) (.lit 64 0x7ffffffffffff))),
    .set 128 (.add (.x 20) (.add (.x 16) (.add (.x 13) (.add (.x 11) (.x 10))))),
    .set 128 (.add (.x 21) (.add (.x 17) (.add (.x 14) (.add (.x 12) (.x 0))))),
    .set 128 (.add (.x 22) (.add (.x 18) (.add (.x 15) (.add (.x 4) (.x 1))))),
    .set 128 (.add (.x 23) (.add (.x 19) (.add (.x 7) (.add (.x 5) (.x 2))))),
    .set 128 (.add (.x 26) (.x 31)),
    .set 64 (.cast 64 (.shr (.x 32) 51)),
    .set 64 (.cast 64 (.land (.x 32) (.lit 64 0x7ffffffffffff))),
    .set 128 (.add (.x 33) (.x 30)),
    .set 64 (.cast 64 (.shr (.x 35) 51)),
    .set 64 (.cast 64 (.land (.x 35) (.lit 64 0x7ffffffffffff))),
    .set 128 (.add (.x 36) (.x 29)),
    .set 64 (.cast 64 (.shr (.x 38) 51)),
    .set 64 (.cast 64 (.land (.x 38) (.lit 64 0x7ffffffffffff))),
    .set 128 (.add (.x 39) (.x 28)),
    .set 64 (.cast 64 (.shr (.x 41) 51)),
    .set 64 (.cast 64 (.land (.x 41) (.lit 64 0x7ffffffffffff))),
    .set 64 (.mul (.x 42) (.lit 31 0x13)),
    .set 64 (.add (.x 27) (.x 44)),
    .set 64 (.shr (.x 45) 51),
    .set 64 (.land (.x 45) (.lit 64 0x7ffffffffffff)),
    .set 64 (.add (.x 46) (.x 34)),
    .set 8 (.cast 8 (.shr (.x 48) 51)),
    .set 64 (.land (.x 48) (.lit 64 0x7ffffffffffff)),
    .set 64 (.add (.x 49) (.x 37))]
  outs := [.x 47, .x 50, .x 51, .x 40, .x 43]

/-- src/fields/p25519_64.h:359-465 `fiat_p25519_carry_square`. -/
def p25519_carry_square : Prog where
  body := [
    .set 64 (.mul (.a 64 0 4) (.lit 31 0x13)),
    .set 64 (.mul (.x 0) (.lit 31 0x2)),
    .set 64 (.mul (.a 64 0 4) (.lit 31 0x2)),
    .set 64 (.mul (.a 64 0 3) (.lit 31 0x13)),
    .set 64 (.mul (.x 3) (.lit 31 0x2)),
    .set 64 (.mul (.a 64 0 3) (.lit 31 0x2)),
    .set 64 (.mul (.a 64 0 2) (.lit 31 0x2)),
    .set 64 (.mul (.a 64 0 1) (.lit 31 0x2)),
    .set 128 (.mul (.cast 128 (.a 64 0 4)) (.x 0)),
    .set 128 (.mul (.cast 128 (.a 64 0 3)) (.x 1)),
    .set 128 (.mul (.cast 128 (.a 64 0 3)) (.x 3)),
    .set 128 (.mul (.cast 128 (.a 64 0 2)) (.x 1)),
    .set 128 (.mul (.cast 128 (.a 64 0 2)) (.x 4)),
    .set 128 (.mul (.cast 128 (.a 64 0 2)) (.a 64 0 2)),
    .set 128 (.mul (.cast 128 (.a 64 0 1)) (.x 1)),
    .set 128 (.mul (.cast 128 (.a 64 0 1)) (.x 5)),
    .set 128 (.mul (.cast 128 (.a 64 0 1)) (.x 6)),
    .set 128 (.mul (.cast 128 (.a 64 0 1)) (.a 64 0 1)),
    .set 128 (.mul (.cast 128 (.a 64 0 0)) (.x 2)),
    .set 128 (.mul (.cast 128 (.a 64 0 0)) (.x 5)),
    .set 128 (.mul (.cast 128 (.a 64 0 0)) (.x 6)),
    .set 128 (.mul (.cast 128 (.a 64 0 0)) (.x 7)),
    .set 128 (.mul (.cast 128 (.a 64 0 0)) (.a 64 0 0)),
    .set 128 (.add (.x 22) (.add (.x 14) (.x 12))),
    .set 64 (.cast 64 (.shr (.x 23) 51)),
    .set 64 (.cast 64 (.land (.x 23) (.lit 64 0x7ffffffffffff))),
    .set 128 (.add (.x 18) (.add (.x 15) (.x 13))),
    .set 128 (.add (.x 19) (.add (.x 16) (.x 8))),
    .set 128 (.add (.x 20) (.add (.x 17) (.x 9))),
    .set 128 (.add (.x 21) (.add (.x 11) (.x 10))),
    .set 128 (.add (.x 24) (.x 29)),
    .set 64 (.cast 64 (.shr (.x 30) 51)),
    .set 64 (.cast 64 (.land (.x 30) (.lit 64 0x7ffffffffffff))),
    .set 128 (.add (.x 31) (.x 28)),
    .set 64 (.cast 64 (.shr (.x 33) 51)),
    .set 64 (.cast 64 (.land (.x 33) (.lit 64 0x7ffffffffffff))),
    .set 128 (.add (.x 34) (.x 27)),
    .set 64 (.cast 64 (.shr (.x 36) 51)),
    .set 64 (.cast 64 (.land (.x 36) (.lit 64 0x7ffffffffffff))),
    .set 128 (.add (.x 37) (.x 26)),
    .set 64 (.cast 64 (.shr (.x 39) 51)),
    .set 64 (.cast 64 (.land (.x 39) (.lit 64 0x7ffffffffffff))),
    .set 64 (.mul (.x 40) (.lit 31 0x13)),
    .set 64 (.add (.x 25) (.x 42)),
    .set 64 (.shr (.x 43) 51),
    .set 64 (.land (.x 43) (.lit 64 0x7ffffffffffff)),
    .set 64 (.add (.x 44) (.x 32)),
    .set 8 (.cast 8 (.shr (.x 46) 51)),
    .set 64 (.land (.x 46) (.lit 64 0x7ffffffffffff)),
    .set 64 (.add (.x 47) (.x 35))]
  outs := [.x 45, .x 48, .x 49, .x 38, .x 41]

/-- src/fields/p25519_64.h:477-537 `fiat_p25519_carry_scmul_3`. -/
def p25519_carry_scmul_3 : Prog where
  body := [
    .set 64 (.mul (.a 64 0 4) (.lit 31 0x3)),
    .set 64 (.mul (.a 64 0 3) (.lit 31 0x3)),
    .set 64 (.mul (.a 64 0 2) (.lit 31 0x3)),
    .set 64 (.mul (.a 64 0 1) (.lit 31 0x3)),
    .set 64 (.mul (.a 64 0 0) (.lit 31 0x3)),
    .set 64 (.shr (.x 4) 51),
    .set 64 (.land (.x 4) (.lit 64 0x7ffffffffffff)),
    .set 64 (.add (.x 5) (.x 3)),
    .set 64 (.shr (.x 7) 51),
    .set 64 (.land (.x 7) (.lit 64 0x7ffffffffffff)),
    .set 64 (.add (.x 8) (.x 2)),
    .set 64 (.shr (.x 10) 51),
    .set 64 (.land (.x 10) (.lit 64 0x7ffffffffffff)),
    .set 64 (.add (.x 11) (.x 1)),
    .set 64 (.shr (.x 13) 51),
    .set 64 (.land (.x 13) (.lit 64 0x7ffffffffffff)),
    .set 64 (.add (.x 14) (.x 0)),
    .set 64 (.shr (.x 16) 51),
    .set 64 (.land (.x 16) (.lit 64 0x7ffffffffffff)),
    .set 64 (.mul (.x 17) (.lit 31 0x13)),
    .set 64 (.add (.x 6) (.x 19)),
    .set 8 (.cast 8 (.shr (.x 20) 51)),
    .set 64 (.land (.x 20) (.lit 64 0x7ffffffffffff)),
    .set 64 (.add (.x 21) (.x 9)),
    .set 8 (.cast 8 (.shr (.x 23) 51)),
    .set 64 (.land (.x 23) (.lit 64 0x7ffffffffffff)),
    .set 64 (.add (.x 24) (.x 12))]
  outs := [.x 22, .x 25, .x 26, .x 15, .x 18]

/-- src/fields/p25519_64.h:549-609 `fiat_p25519_carry_scmul_4`. -/
def p25519_carry_scmul_4 : Prog where
  body := [
    .set 64 (.shl (.a 64 0 4) 2),
    .set 64 (.shl (.a 64 0 3) 2),
    .set 64 (.shl (.a 64 0 2) 2),
    .set 64 (.shl (.a 64 0 1) 2),
    .set 64 (.shl (.a 64 0 0) 2),
    .set 64 (.shr (.x 4) 51),
    .set 64 (.land (.x 4) (.lit 64 0x7ffffffffffff)),
    .set 64 (.add (.x 5) (.x 3)),
    .set 64 (.shr (.x 7) 51),
    .set 64 (.land (.x 7) (.lit 64 0x7ffffffffffff)),
    .set 64 (.add (.x 8) (.x 2)),
    .set 64 (.shr (.x 10) 51),
    .set 64 (.land (.x 10) (.lit 64 0x7ffffffffffff)),
    .set 64 (.add (.x 11) (.x 1)),
    .set 64 (.shr (.x 13) 51),
    .set 64 (.land (.x 13) (.lit 64 0x7ffffffffffff)),
    .set 64 (.add (.x 14) (.x 0)),
    .set 64 (.shr (.x 16) 51),
    .set 64 (.land (.x 16) (.lit 64 0x7ffffffffffff)),
    .set 64 (.mul (.x 17) (.lit 31 0x13)),
    .set 64 (.add (.x 6) (.x 19)),
    .set 8 (.cast 8 (.shr (.x 20) 51)),
    .set 64 (.land (.x 20) (.lit 64 0x7ffffffffffff)),
    .set 64 (.add (.x 21) (.x 9)),
    .set 8 (.cast 8 (.shr (.x 23) 51)),
    .set 64 (.land (.x 23) (.lit 64 0x7ffffffffffff)),
    .set 64 (.add (.x 24) (.x 12))]
  outs := [.x 22, .x 25, .x 26, .x 15, .x 18]

/-- src/fields/p25519_64.h:621-681 `fiat_p25519_carry_scmul_8`. -/
def p25519_carry_scmul_8 : Prog where
  body := [
    .set 64 (.shl (.a 64 0 4) 3),
    .set 64 (.shl (.a 64 0 3) 3),
    .set 64 (.shl (.a 64 0 2) 3),
    .set 64 (.shl (.a 64 0 1) 3),
    .set 64 (.shl (.a 64 0 0) 3),
    .set 64 (.shr (.x 4) 51),
    .set 64 (.land (.x 4) (.lit 64 0x7ffffffffffff)),
    .set 64 (.add (.x 5) (.x 3)),
    .set 64 (.shr (.x 7) 51),
    .set 64 (.land (.x 7) (.lit 64 0x7ffffffffffff)),
    .set 64 (.add (.x 8) (.x 2)),
    .set 64 (.shr (.x 10) 51),
    .set 64 (.land (.x 10) (.lit 64 0x7ffffffffffff)),
    .set 64 (.add (.x 11) (.x 1)),
    .set 64 (.shr (.x 13) 51),
    .set 64 (.land (.x 13) (.lit 64 0x7ffffffffffff)),
    .set 64 (.add (.x 14) (.x 0)),
    .set 64 (.shr (.x 16) 51),
    .set 64 (.land (.x 16) (.lit 64 0x7ffffffffffff)),
    .set 64 (.mul (.x 17) (.lit 31 0x13)),
    .set 64 (.add (.x 6) (.x 19)),
    .set 8 (.cast 8 (.shr (.x 20) 51)),
    .set 64 (.land (.x 20) (.lit 64 0x7ffffffffffff)),
    .set 64 (.add (.x 21) (.x 9)),
    .set 8 (.cast 8 (.shr (.x 23) 51)),
    .set 64 (.land (.x 23) (.lit 64 0x7ffffffffffff)),
    .set 64 (.add (.x 24) (.x 12))]
  outs := [.x 22, .x 25, .x 26, .x 15, .x 18]

/-- src/fields/p25519_64.h:693-753 `fiat_p25519_carry_scmul_121666`. -/
def p25519_carry_scmul_121666 : Prog where
  body := [
    .set 128 (.mul (.cast 128 (.lit 32 0x1db42)) (.a 64 0 4)),
    .set 128 (.mul (.cast 128 (.lit 32 0x1db42)) (.a 64 0 3)),
    .set 128 (.mul (.cast 128 (.lit 32 0x1db42)) (.a 64 0 2)),
    .set 128 (.mul (.cast 128 (.lit 32 0x1db42)) (.a 64 0 1)),
    .set 128 (.mul (.cast 128 (.lit 32 0x1db42)) (.a 64 0 0)),
    .set 64 (.cast 64 (.shr (.x 4) 51)),
    .set 64 (.cast 64 (.land (.x 4) (.lit 64 0x7ffffffffffff))),
    .set 128 (.add (.x 5) (.x 3)),
    .set 64 (.cast 64 (.shr (.x 7) 51)),
    .set 64 (.cast 64 (.land (.x 7) (.lit 64 0x7ffffffffffff))),
    .set 128 (.add (.x 8) (.x 2)),
    .set 64 (.cast 64 (.shr (.x 10) 51)),
    .set 64 (.cast 64 (.land (.x 10) (.lit 64 0x7ffffffffffff))),
    .set 128 (.add (.x 11) (.x 1)),
    .set 64 (.cast 64 (.shr (.x 13) 51)),
    .set 64 (.cast 64 (.land (.x 13) (.lit 64 0x7ffffffffffff))),
    .set 128 (.add (.x 14) (.x 0)),
    .set 64 (.cast 64 (.shr (.x 16) 51)),
    .set 64 (.cast 64 (.land (.x 16) (.lit 64 0x7ffffffffffff))),
    .set 64 (.mul (.x 17) (.lit 31 0x13)),
    .set 64 (.add (.x 6) (.x 19)),
    .set 8 (.cast 8 (.shr (.x 20) 51)),
    .set 64 (.land (.x 20) (.lit 64 0x7ffffffffffff)),
    .set 64 (.add (.x 21) (.x 9)),
    .set 8 (.cast 8 (.shr (.x 23) 51)),
    .set 64 (.land (.x 23) (.lit 64 0x7ffffffffffff)),
    .set 64 (.add (.x 24) (.x 12))]
  outs := [.x 22, .x 25, .x 26, .x 15, .x 18]

/-- src/fields/p25519_64.h:795-1000 `fiat_p25519_to_bytes`. -/
def p25519_to_bytes : Prog where
  body := [
    .subb 51 (.lit 31 0x0) (.a 64 0 0) (.lit 64 0x7ffffffffffed),
    .subb 51 (.x 1) (.a 64 0 1) (.lit 64 0x7ffffffffffff),
    .subb 51 (.x 3) (.a 64 0 2) (.lit 64 0x7ffffffffffff),
    .subb 51 (.x 5) (.a 64 0 3) (.lit 64 0x7ffffffffffff),
    .subb 51 (.x 7) (.a 64 0 4) (.lit 64 0x7ffffffffffff),
    .cmov (.x 9) (.lit 31 0x0) (.lit 64 0xffffffffffffffff),
    .addc 51 (.lit 31 0x0) (.x 0) (.land (.x 10) (.lit 64 0x7ffffffffffed)),
    .addc 51 (.x 12) (.x 2) (.land (.x 10) (.lit 64 0x7ffffffffffff)),
    .addc 51 (.x 14) (.x 4) (.land (.x 10) (.lit 64 0x7ffffffffffff)),
    .addc 51 (.x 16) (.x 6) (.land (.x 10) (.lit 64 0x7ffffffffffff)),
    .addc 51 (.x 18) (.x 8) (.land (.x 10) (.lit 64 0x7ffffffffffff)),
    .set 64 (.shl (.x 19) 4),
    .set 64 (.mul (.x 17) (.cast 64 (.lit 31 0x2))),
    .set 64 (.shl (.x 15) 6),
    .set 64 (.shl (.x 13) 3),
    .set 8 (.cast 8 (.land (.x 11) (.lit 31 0xff))),
    .set 64 (.shr (.x 11) 8),
    .set 8 (.cast 8 (.land (.x 26) (.lit 31 0xff))),
    .set 64 (.shr (.x 26) 8),
    .set 8 (.cast 8 (.land (.x 28) (.lit 31 0xff))),
    .set 64 (.shr (.x 28) 8),
    .set 8 (.cast 8 (.land (.x 30) (.lit 31 0xff))),
    .set 64 (.shr (.x 30) 8),
    .set 8 (.cast 8 (.land (.x 32) (.lit 31 0xff))),
    .set 64 (.shr (.x 32) 8),
    .set 8 (.cast 8 (.land (.x 34) (.lit 31 0xff))),
    .set 8 (.cast 8 (.shr (.x 34) 8)),
    .set 64 (.add (.x 24) (.cast 64 (.x 36))),
    .set 8 (.cast 8 (.land (.x 37) (.lit 31 0xff))),
    .set 64 (.shr (.x 37) 8),
    .set 8 (.cast 8 (.land (.x 39) (.lit 31 0xff))),
    .set 64 (.shr (.x 39) 8),
    .set 8 (.cast 8 (.land (.x 41) (.lit 31 0xff))),
    .set 64 (.shr (.x 41) 8),
    .set 8 (.cast 8 (.land (.x 43) (.lit 31 0xff))),
    .set 64 (.shr (.x 43) 8),
    .set 8 (.cast 8 (.land (.x 45) (.lit 31 0xff))),
    .set 64 (.shr (.x 45) 8),
    .set 8 (.cast 8 (.land (.x 47) (.lit 31 0xff))),
    .set 8 (.cast 8 (.shr (.x 47) 8)),
    .set 64 (.add (.x 23) (.cast 64 (.x 49))),
    .set 8 (.cast 8 (.land (.x 50) (.lit 31 0xff))),
    .set 64 (.shr (.x 50) 8),
    .set 8 (.cast 8 (.land (.x 52) (.lit 31 0xff))),
    .set 64 (.shr (.x 52) 8),
    .set 8 (.cast 8 (.land (.x 54) (.lit 31 0xff))),
    .set 64 (.shr (.x 54) 8),
    .set 8 (.cast 8 (.land (.x 56) (.lit 31 0xff))),
    .set 64 (.shr (.x 56) 8),
    .set 8 (.cast 8 (.land (.x 58) (.lit 31 0xff))),
    .set 64 (.shr (.x 58) 8),
    .set 8 (.cast 8 (.land (.x 60) (.lit 31 0xff))),
    .set 64 (.shr (.x 60) 8),
    .set 8 (.cast 8 (.land (.x 62) (.lit 31 0xff))),
    .set 8 (.cast 8 (.shr (.x 62) 8)),
    .set 64 (.add (.x 22) (.cast 64 (.x 64))),
    .set 8 (.cast 8 (.land (.x 65) (.lit 31 0xff))),
    .set 64 (.shr (.x 65) 8),
    .set 8 (.cast 8 (.land (.x 67) (.lit 31 0xff))),
    .set 64 (.shr (.x 67) 8),
    .set 8 (.cast 8 (.land (.x 69) (.lit 31 0xff))),
    .set 64 (.shr (.x 69) 8),
    .set 8 (.cast 8 (.land (.x 71) (.lit 31 0xff))),
    .set 64 (.shr (.x 71) 8),
    .set 8 (.cast 8 (.land (.x 73) (.lit 31 0xff))),
    .set 64 (.shr (.x 73) 8),
    .set 8 (.cast 8 (.land (.x 75) (.lit 31 0xff))),
    .set 8 (.cast 8 (.shr (.x 75) 8)),
    .set 64 (.add (.x 21) (.cast 64 (.x 77))),
    .set 8 (.cast 8 (.land (.x 78) (.lit 31 0xff))),
    .set 64 (.shr (.x 78) 8),
    .set 8 (.cast 8 (.land (.x 80) (.lit 31 0xff))),
    .set 64 (.shr (.x 80) 8),
    .set 8 (.cast 8 (.land (.x 82) (.lit 31 0xff))),
    .set 64 (.shr (.x 82) 8),
    .set 8 (.cast 8 (.land (.x 84) (.lit 31 0xff))),
    .set 64 (.shr (.x 84) 8),
    .set 8 (.cast 8 (.land (.x 86) (.lit 31 0xff))),
    .set 64 (.shr (.x 86) 8),
    .set 8 (.cast 8 (.land (.x 88) (.lit 31 0xff))),
    .set 8 (.cast 8 (.shr (.x 88) 8))]
  outs := [.x 25, .x 27, .x 29, .x 31, .x 33, .x 35, .x 38, .x 40, .x 42, .x 44, .x 46, .x 48, .x 51, .x 53, .x 55, .x 57, .x 59, .x 61, .x 63, .x 66, .x 68, .x 70, .x 72, .x 74, .x 76, .x 79, .x 81, .x 83, .x 85, .x 87, .x 89, .x 90]

/-- src/fields/p25519_64.h:1012-1160 `fiat_p25519_from_bytes`. -/
def p25519_from_bytes : Prog where
  body := [
    .set 64 (.shl (.cast 64 (.a 8 0 31)) 44),
    .set 64 (.shl (.cast 64 (.a 8 0 30)) 36),
    .set 64 (.shl (.cast 64 (.a 8 0 29)) 28),
    .set 64 (.shl (.cast 64 (.a 8 0 28)) 20),
    .set 64 (.shl (.cast 64 (.a 8 0 27)) 12),
    .set 64 (.shl (.cast 64 (.a 8 0 26)) 4),
    .set 64 (.shl (.cast 64 (.a 8 0 25)) 47),
    .set 64 (.shl (.cast 64 (.a 8 0 24)) 39),
    .set 64 (.shl (.cast 64 (.a 8 0 23)) 31),
    .set 64 (.shl (.cast 64 (.a 8 0 22)) 23),
    .set 64 (.shl (.cast 64 (.a 8 0 21)) 15),
    .set 64 (.shl (.cast 64 (.a 8 0 20)) 7),
    .set 64 (.shl (.cast 64 (.a 8 0 19)) 50),
    .set 64 (.shl (.cast 64 (.a 8 0 18)) 42),
    .set 64 (.shl (.cast 64 (.a 8 0 17)) 34),
    .set 64 (.shl (.cast 64 (.a 8 0 16)) 26),
    .set 64 (.shl (.cast 64 (.a 8 0 15)) 18),
    .set 64 (.shl (.cast 64 (.a 8 0 14)) 10),
    .set 64 (.shl (.cast 64 (.a 8 0 13)) 2),
    .set 64 (.shl (.cast 64 (.a 8 0 12)) 45),
    .set 64 (.shl (.cast 64 (.a 8 0 11)) 37),
    .set 64 (.shl (.cast 64 (.a 8 0 10)) 29),
    .set 64 (.shl (.cast 64 (.a 8 0 9)) 21),
    .set 64 (.shl (.cast 64 (.a 8 0 8)) 13),
    .set 64 (.shl (.cast 64 (.a 8 0 7)) 5),
    .set 64 (.shl (.cast 64 (.a 8 0 6)) 48),
    .set 64 (.shl (.cast 64 (.a 8 0 5)) 40),
    .set 64 (.shl (.cast 64 (.a 8 0 4)) 32),
    .set 64 (.shl (.cast 64 (.a 8 0 3)) 24),
    .set 64 (.shl (.cast 64 (.a 8 0 2)) 16),
    .set 64 (.shl (.cast 64 (.a 8 0 1)) 8),
    .set 8 (.a 8 0 0),
    .set 64 (.add (.x 30) (.cast 64 (.x 31))),
    .set 64 (.add (.x 29) (.x 32)),
    .set 64 (.add (.x 28) (.x 33)),
    .set 64 (.add (.x 27) (.x 34)),
    .set 64 (.add (.x 26) (.x 35)),
    .set 64 (.add (.x 25) (.x 36)),
    .set 64 (.land (.x 37) (.lit 64 0x7ffffffffffff)),
    .set 8 (.cast 8 (.shr (.x 37) 51)),
    .set 64 (.add (.x 24) (.cast 64 (.x 39))),
    .set 64 (.add (.x 23) (.x 40)),
    .set 64 (.add (.x 22) (.x 41)),
    .set 64 (.add (.x 21) (.x 42)),
    .set 64 (.add (.x 20) (.x 43)),
    .set 64 (.add (.x 19) (.x 44)),
    .set 64 (.land (.x 45) (.lit 64 0x7ffffffffffff)),
    .set 8 (.cast 8 (.shr (.x 45) 51)),
    .set 64 (.add (.x 18) (.cast 64 (.x 47))),
    .set 64 (.add (.x 17) (.x 48)),
    .set 64 (.add (.x 16) (.x 49)),
    .set 64 (.add (.x 15) (.x 50)),
    .set 64 (.add (.x 14) (.x 51)),
    .set 64 (.add (.x 13) (.x 52)),
    .set 64 (.add (.x 12) (.x 53)),
    .set 64 (.land (.x 54) (.lit 64 0x7ffffffffffff)),
    .set 8 (.cast 8 (.shr (.x 54) 51)),
    .set 64 (.add (.x 11) (.cast 64 (.x 56))),
    .set 64 (.add (.x 10) (.x 57)),
    .set 64 (.add (.x 9) (.x 58)),
    .set 64 (.add (.x 8) (.x 59)),
    .set 64 (.add (.x 7) (.x 60)),
    .set 64 (.add (.x 6) (.x 61)),
    .set 64 (.land (.x 62) (.lit 64 0x7ffffffffffff)),
    .set 8 (.cast 8 (.shr (.x 62) 51)),
    .set 64 (.add (.x 5) (.cast 64 (.x 64))),
    .set 64 (.add (.x 4) (.x 65)),
    .set 64 (.add (.x 3) (.x 66)),
    .set 64 (.add (.x 2) (.x 67)),
    .set 64 (.add (.x 1) (.x 68)),
    .set 64 (.add (.x 0) (.x 69))]
  outs := [.x 38, .x 46, .x 55, .x 63, .x 70]

end Torsion.Fiat
