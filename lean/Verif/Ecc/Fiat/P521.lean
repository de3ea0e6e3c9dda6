import Verif.Ecc.Fiat.Lang

/-!
# Model of src/fields/p521_64.h (written by tools/fiat.py)
-/
namespace Torsion.Fiat

/-- src/fields/p521_64.h:159-187 `fiat_p521_add`. -/
def p521_add : Prog where
  body := [
    .set 64 (.add (.a 64 0 0) (.a 64 1 0)),
    .set 64 (.add (.a 64 0 1) (.a 64 1 1)),
    .set 64 (.add (.a 64 0 2) (.a 64 1 2)),
    .set 64 (.add (.a 64 0 3) (.a 64 1 3)),
    .set 64 (.add (.a 64 0 4) (.a 64 1 4)),
    .set 64 (.add (.a 64 0 5) (.a 64 1 5)),
    .set 64 (.add (.a 64 0 6) (.a 64 1 6)),
    .set 64 (.add (.a 64 0 7) (.a 64 1 7)),
    .set 64 (.add (.a 64 0 8) (.a 64 1 8))]
  outs := [.x 0, .x 1, .x 2, .x 3, .x 4, .x 5, .x 6, .x 7, .x 8]

/-- src/fields/p521_64.h:200-228 `fiat_p521_sub`. -/
def p521_sub : Prog where
  body := [
    .set 64 (.sub (.add (.lit 64 0x7fffffffffffffe) (.a 64 0 0)) (.a 64 1 0)),
    .set 64 (.sub (.add (.lit 64 0x7fffffffffffffe) (.a 64 0 1)) (.a 64 1 1)),
    .set 64 (.sub (.add (.lit 64 0x7fffffffffffffe) (.a 64 0 2)) (.a 64 1 2)),
    .set 64 (.sub (.add (.lit 64 0x7fffffffffffffe) (.a 64 0 3)) (.a 64 1 3)),
    .set 64 (.sub (.add (.lit 64 0x7fffffffffffffe) (.a 64 0 4)) (.a 64 1 4)),
    .set 64 (.sub (.add (.lit 64 0x7fffffffffffffe) (.a 64 0 5)) (.a 64 1 5)),
    .set 64 (.sub (.add (.lit 64 0x7fffffffffffffe) (.a 64 0 6)) (.a 64 1 6)),
    .set 64 (.sub (.add (.lit 64 0x7fffffffffffffe) (.a 64 0 7)) (.a 64 1 7)),
    .set 64 (.sub (.add (.lit 64 0x3fffffffffffffe) (.a 64 0 8)) (.a 64 1 8))]
  outs := [.x 0, .x 1, .x 2, .x 3, .x 4, .x 5, .x 6, .x 7, .x 8]

/-- src/fields/p521_64.h:240-268 `fiat_p521_opp`. -/
def p521_opp : Prog where
  body := [
    .set 64 (.sub (.lit 64 0x7fffffffffffffe) (.a 64 0 0)),
    .set 64 (.sub (.lit 64 0x7fffffffffffffe) (.a 64 0 1)),
    .set 64 (.sub (.lit 64 0x7fffffffffffffe) (.a 64 0 2)),
    .set 64 (.sub (.lit 64 0x7fffffffffffffe) (.a 64 0 3)),
    .set 64 (.sub (.lit 64 0x7fffffffffffffe) (.a 64 0 4)),
    .set 64 (.sub (.lit 64 0x7fffffffffffffe) (.a 64 0 5)),
    .set 64 (.sub (.lit 64 0x7fffffffffffffe) (.a 64 0 6)),
    .set 64 (.sub (.lit 64 0x7fffffffffffffe) (.a 64 0 7)),
    .set 64 (.sub (.lit 64 0x3fffffffffffffe) (.a 64 0 8))]
  outs := [.x 0, .x 1, .x 2, .x 3, .x 4, .x 5, .x 6, .x 7, .x 8]

/-- src/fields/p521_64.h:280-330 `fiat_p521_carry`. -/
def p521_carry : Prog where
  body := [
    .set 64 (.a 64 0 0),
    .set 64 (.add (.shr (.x 0) 58) (.a 64 0 1)),
    .set 64 (.add (.shr (.x 1) 58) (.a 64 0 2)),
    .set 64 (.add (.shr (.x 2) 58) (.a 64 0 3)),
    .set 64 (.add (.shr (.x 3) 58) (.a 64 0 4)),
    .set 64 (.add (.shr (.x 4) 58) (.a 64 0 5)),
    .set 64 (.add (.shr (.x 5) 58) (.a 64 0 6)),
    .set 64 (.add (.shr (.x 6) 58) (.a 64 0 7)),
    .set 64 (.add (.shr (.x 7) 58) (.a 64 0 8)),
    .set 64 (.add (.land (.x 0) (.lit 64 0x3ffffffffffffff)) (.shr (.x 8) 57)),
    .set 64 (.add (.cast 8 (.shr (.x 9) 58)) (.land (.x 1) (.lit 64 0x3ffffffffffffff))),
    .set 64 (.land (.x 9) (.lit 64 0x3ffffffffffffff)),
    .set 64 (.land (.x 10) (.lit 64 0x3ffffffffffffff)),
    .set 64 (.add (.cast 8 (.shr (.x 10) 58)) (.land (.x 2) (.lit 64 0x3ffffffffffffff))),
    .set 64 (.land (.x 3) (.lit 64 0x3ffffffffffffff)),
    .set 64 (.land (.x 4) (.lit 64 0x3ffffffffffffff)),
    .set 64 (.land (.x 5) (.lit 64 0x3ffffffffffffff)),
    .set 64 (.land (.x 6) (.lit 64 0x3ffffffffffffff)),
    .set 64 (.land (.x 7) (.lit 64 0x3ffffffffffffff)),
    .set 64 (.land (.x 8) (.lit 64 0x1ffffffffffffff))]
  outs := [.x 11, .x 12, .x 13, .x 14, .x 15, .x 16, .x 17, .x 18, .x 19]

/-- src/fields/p521_64.h:343-599 `fiat_p521_carry_mul`. -/
def p521_carry_mul : Prog where
  body := [
    .set 128 (.mul (.cast 128 (.a 64 0 8)) (.mul (.a 64 1 8) (.lit 31 0x2))),
    .set 128 (.mul (.cast 128 (.a 64 0 8)) (.mul (.a 64 1 7) (.lit 31 0x2))),
    .set 128 (.mul (.cast 128 (.a 64 0 8)) (.mul (.a 64 1 6) (.lit 31 0x2))),
    .set 128 (.mul (.cast 128 (.a 64 0 8)) (.mul (.a 64 1 5) (.lit 31 0x2))),
    .set 128 (.mul (.cast 128 (.a 64 0 8)) (.mul (.a 64 1 4) (.lit 31 0x2))),
    .set 128 (.mul (.cast 128 (.a 64 0 8)) (.mul (.a 64 1 3) (.lit 31 0x2))),
    .set 128 (.mul (.cast 128 (.a 64 0 8)) (.mul (.a 64 1 2) (.lit 31 0x2))),
    .set 128 (.mul (.cast 128 (.a 64 0 8)) (.mul (.a 64 1 1) (.lit 31 0x2))),
    .set 128 (.mul (.cast 128 (.a 64 0 7)) (.mul (.a 64 1 8) (.lit 31 0x2))),
    .set 128 (.mul (.cast 128 (.a 64 0 7)) (.mul (.a 64 1 7) (.lit 31 0x2))),
    .set 128 (.mul (.cast 128 (.a 64 0 7)) (.mul (.a 64 1 6) (.lit 31 0x2))),
    .set 128 (.mul (.cast 128 (.a 64 0 7)) (.mul (.a 64 1 5) (.lit 31 0x2))),
    .set 128 (.mul (.cast 128 (.a 64 0 7)) (.mul (.a 64 1 4) (.lit 31 0x2))),
    .set 128 (.mul (.cast 128 (.a 64 0 7)) (.mul (.a 64 1 3) (.lit 31 0x2))),
    .set 128 (.mul (.cast 128 (.a 64 0 7)) (.mul (.a 64 1 2) (.lit 31 0x2))),
    .set 128 (.mul (.cast 128 (.a 64 0 6)) (.mul (.a 64 1 8) (.lit 31 0x2))),
    .set 128 (.mul (.cast 128 (.a 64 0 6)) (.mul (.a 64 1 7) (.lit 31 0x2))),
    .set 128 (.mul (.cast 128 (.a 64 0 6)) (.mul (.a 64 1 6) (.lit 31 0x2))),
    .set 128 (.mul (.cast 128 (.a 64 0 6)) (.mul (.a 64 1 5) (.lit 31 0x2))),
    .set 128 (.mul (.cast 128 (.a 64 0 6)) (.mul (.a 64 1 4) (.lit 31 0x2))),
    .set 128 (.mul (.cast 128 (.a 64 0 6)) (.mul (.a 64 1 3) (.lit 31 0x2))),
    .set 128 (.mul (.cast 128 (.a 64 0 5)) (.mul (.a 64 1 8) (.lit 31 0x2))),
    .set 128 (.mul (.cast 128 (.a 64 0 5)) (.mul (.a 64 1 7) (.lit 31 0x2))),
    .set 128 (.mul (.cast 128 (.a 64 0 5)) (.mul (.a 64 1 6) (.lit 31 0x2))),
    .set 128 (.mul (.cast 128 (.a 64 0 5)) (.mul (.a 64 1 5) (.lit 31 0x2))),
    .set 128 (.mul (.cast 128 (.a 64 0 5)) (.mul (.a 64 1 4) (.lit 31 0x2))),
    .set 128 (.mul (.cast 128 (.a 64 0 4)) (.mul (.a 64 1 8) (.lit 31 0x2))),
    .set 128 (.mul (.cast 128 (.a 64 0 4)) (.mul (.a 64 1 7) (.lit 31 0x2))),
    .set 128 (.mul (.cast 128 (.a 64 0 4)) (.mul (.a 64 1 6) (.lit 31 0x2))),
    .set 128 (.mul (.cast 128 (.a 64 0 4)) (.mul (.a 64 1 5) (.lit 31 0x2))),
    .set 128 (.mul (.cast 128 (.a 64 0 3)) (.mul (.a 64 1 8) (.lit 31 0x2))),
    .set 128 (.mul (.cast 128 (.a 64 0 3)) (.mul (.a 64 1 7) (.lit 31 0x2))),
    .set 128 (.mul (.cast 128 (.a 64 0 3)) (.mul (.a 64 1 6) (.lit 31 0x2))),
    .set 128 (.mul (.cast 128 (.a 64 0 2)) (.mul (.a 64 1 8) (.lit 31 0x2))),
    .set 128 (.mul (.cast 128 (.a 64 0 2)) (.mul (.a 64 1 7) (.lit 31 0x2))),
    .set 128 (.mul (.cast 128 (.a 64 0 1)) (.mul (.a 64 1 8) (.lit 31 0x2))),
    .set 128 (.mul (.cast 128 (.a 64 0 8)) (.a 64 1 0)),
    .set 128 (.mul (.cast 128 (.a 64 0 7)) (.a 64 1 1)),
    .set 128 (.mul (.cast 128 (.a 64 0 7)) (.a 64 1 0)),
    .set 128 (.mul (.cast 128 (.a 64 0 6)) (.a 64 1 2)),
    .set 128 (.mul (.cast 128 (.a 64 0 6)) (.a 64 1 1)),
    .set 128 (.mul (.cast 128 (.a 64 0 6)) (.a 64 1 0)),
    .set 128 (.mul (.cast 128 (.a 64 0 5)) (.a 64 1 3)),
    .set 128 (.mul (.cast 128 (.a 64 0 5)) (.a 64 1 2)),
    .set 128 (.mul (.cast 128 (.a 64 0 5)) (.a 64 1 1)),
    .set 128 (.mul (.cast 128 (.a 64 0 5)) (.a 64 1 0)),
    .set 128 (.mul (.cast 128 (.a 64 0 4)) (.a 64 1 4)),
    .set 128 (.mul (.cast 128 (.a 64 0 4)) (.a 64 1 3)),
    .set 128 (.mul (.cast 128 (.a 64 0 4)) (.a 64 1 2)),
    .set 128 (.mul (.cast 128 (.a 64 0 4)) (.a 64 1 1)),
    .set 128 (.mul (.cast 128 (.a 64 0 4)) (.a 64 1 0)),
    .set 128 (.mul (.cast 128 (.a 64 0 3)) (.a 64 1 5)),
    .set 128 (.mul (.cast 128 (.a 64 0 3)) (.a 64 1 4)),
    .set 128 (.mul (.cast 128 (.a 64 0 3)) (.a 64 1 3)),
    .set 128 (.mul (.cast 128 (.a 64 0 3)) (.a 64 1 2)),
    .set 128 (.mul (.cast 128 (.a 64 0 3)) (.a 64 1 1)),
    .set 128 (.mul (.cast 128 (.a 64 0 3)) (.a 64 1 0)),
    .set 128 (.mul (.cast 128 (.a 64 0 2)) (.a 64 1 6)),
    .set 128 (.mul (.cast 128 (.a 64 0 2)) (.a 64 1 5)),
    .set 128 (.mul (.cast 128 (.a 64 0 2)) (.a 64 1 4)),
    .set 128 (.mul (.cast 128 (.a 64 0 2)) (.a 64 1 3)),
    .set 128 (.mul (.cast 128 (.a 64 0 2)) (.a 64 1 2)),
    .set 128 (.mul (.cast 128 (.a 64 0 2)) (.a 64 1 1)),
    .set 128 (.mul (.cast 128 (.a 64 0 2)) (.a 64 1 0)),
    .set 128 (.mul (.cast 128 (.a 64 0 1)) (.a 64 1 7)),
    .set 128 (.mul (.cast 128 (.a 64 0 1)) (.a 64 1 6)),
    .set 128 (.mul (.cast 128 (.a 64 0 1)) (.a 64 1 5)),
    .set 128 (.mul (.cast 128 (.a 64 0 1)) (.a 64 1 4)),
    .set 128 (.mul (.cast 128 (.a 64 0 1)) (.a 64 1 3)),
    .set 128 (.mul (.cast 128 (.a 64 0 1)) (.a 64 1 2)),
    .set 128 (.mul (.cast 128 (.a 64 0 1)) (.a 64 1 1)),
    .set 128 (.mul (.cast 128 (.a 64 0 1)) (.a 64 1 0)),
    .set 128 (.mul (.cast 128 (.a 64 0 0)) (.a 64 1 8)),
    .set 128 (.mul (.cast 128 (.a 64 0 0)) (.a 64 1 7)),
    .set 128 (.mul (.cast 128 (.a 64 0 0)) (.a 64 1 6)),
    .set 128 (.mul (.cast 128 (.a 64 0 0)) (.a 64 1 5)),
    .set 128 (.mul (.cast 128 (.a 64 0 0)) (.a 64 1 4)),
    .set 128 (.mul (.cast 128 (.a 64 0 0)) (.a 64 1 3)),
    .set 128 (.mul (.cast 128 (.a 64 0 0)) (.a 64 1 2)),
    .set 128 (.mul (.cast 128 (.a 64 0 0)) (.a 64 1 1)),
    .set 128 (.mul (.cast 128 (.a 64 0 0)) (.a 64 1 0)),
    .set 128 (.add (.x 80) (.add (.x 35) (.add (.x 34) (.add (.x 32) (.add (.x 29) (.add (.x 25) (.add (.x 20) (.add (.x 14) (.x 7))))))))),
    .set 128 (.shr (.x 81) 58),
    .set 64 (.cast 64 (.land (.x 81) (.lit 64 0x3ffffffffffffff))),
    .set 128 (.add (.x 72) (.add (.x 64) (.add (.x 57) (.add (.x 51) (.add (.x 46) (.add (.x 42) (.add (.x 39) (.add (.x 37) (.x 36))))))))),
    .set 128 (.add (.x 73) (.add (.x 65) (.add (.x 58) (.add (.x 52) (.add (.x 47) (.add (.x 43) (.add (.x 40) (.add (.x 38) (.x 0))))))))),
    .set 128 (.add (.x 74) (.add (.x 66) (.add (.x 59) (.add (.x 53) (.add (.x 48) (.add (.x 44) (.add (.x 41) (.add (.x 8) (.x 1))))))))),
    .set 128 (.add (.x 75) (.add (.x 67) (.add (.x 60) (.add (.x 54) (.add (.x 49) (.add (.x 45) (.add (.x 15) (.add (.x 9) (.x 2))))))))),
    .set 128 (.add (.x 76) (.add (.x 68) (.add (.x 61) (.add (.x 55) (.add (.x 50) (.add (.x 21) (.add (.x 16) (.add (.x 10) (.x 3))))))))),
    .set 128 (.add (.x 77) (.add (.x 69) (.add (.x 62) (.add (.x 56) (.add (.x 26) (.add (.x 22) (.add (.x 17) (.add (.x 11) (.x 4))))))))),
    .set 128 (.add (.x 78) (.add (.x 70) (.add (.x 63) (.add (.x 30) (.add (.x 27) (.add (.x 23) (.add (.x 18) (.add (.x 12) (.x 5))))))))),
    .set 128 (.add (.x 79) (.add (.x 71) (.add (.x 33) (.add (.x 31) (.add (.x 28) (.add (.x 24) (.add (.x 19) (.add (.x 13) (.x 6))))))))),
    .set 128 (.add (.x 82) (.x 91)),
    .set 128 (.shr (.x 92) 58),
    .set 64 (.cast 64 (.land (.x 92) (.lit 64 0x3ffffffffffffff))),
    .set 128 (.add (.x 93) (.x 90)),
    .set 128 (.shr (.x 95) 58),
    .set 64 (.cast 64 (.land (.x 95) (.lit 64 0x3ffffffffffffff))),
    .set 128 (.add (.x 96) (.x 89)),
    .set 128 (.shr (.x 98) 58),
    .set 64 (.cast 64 (.land (.x 98) (.lit 64 0x3ffffffffffffff))),
    .set 128 (.add (.x 99) (.x 88)),
    .set 128 (.shr (.x 101) 58),
    .set 64 (.cast 64 (.land (.x 101) (.lit 64 0x3ffffffffffffff))),
    .set 128 (.add (.x 102) (.x 87)),
    .set 128 (.shr (.x 104) 58),
    .set 64 (.cast 64 (.land (.x 104) (.lit 64 0x3ffffffffffffff))),
    .set 128 (.add (.x 105) (.x 86)),
    .set 128 (.shr (.x 107) 58),
    .set 64 (.cast 64 (.land (.x 107) (.lit 64 0x3ffffffffffffff))),
    .set 128 (.add (.x 108) (.x 85)),
    .set 128 (.shr (.x 110) 58),
    .set 64 (.cast 64 (.land (.x 110) (.lit 64 0x3ffffffffffffff))),
    .set 128 (.add (.x 111) (.x 84)),
    .set 128 (.shr (.x 113) 57),
    .set 64 (.cast 64 (.land (.x 113) (.lit 64 0x1ffffffffffffff))),
    .set 128 (.add (.x 83) (.x 114)),
    .set 64 (.cast 64 (.shr (.x 116) 58)),
    .set 64 (.cast 64 (.land (.x 116) (.lit 64 0x3ffffffffffffff))),
    .set 64 (.add (.x 117) (.x 94)),
    .set 8 (.cast 8 (.shr (.x 119) 58)),
    .set 64 (.land (.x 119) (.lit 64 0x3ffffffffffffff)),
    .set 64 (.add (.x 120) (.x 97))]
  outs := [.x 118, .x 121, .x 122, .x 100, .x 103, .x 106, .x 109, .x 112, .x 115]

/-- src/fields/p521_64.h:611-827 `fiat_p521_carry_square`. -/
def p521_carry_square : Prog where
  body := [
    .set 64 (.a 64 0 8),
    .set 64 (.mul (.x 0) (.lit 31 0x2)),
    .set 64 (.mul (.a 64 0 8) (.lit 31 0x2)),
    .set 64 (.a 64 0 7),
    .set 64 (.mul (.x 3) (.lit 31 0x2)),
    .set 64 (.mul (.a 64 0 7) (.lit 31 0x2)),
    .set 64 (.a 64 0 6),
    .set 64 (.mul (.x 6) (.lit 31 0x2)),
    .set 64 (.mul (.a 64 0 6) (.lit 31 0x2)),
    .set 64 (.a 64 0 5),
    .set 64 (.mul (.x 9) (.lit 31 0x2)),
    .set 64 (.mul (.a 64 0 5) (.lit 31 0x2)),
    .set 64 (.mul (.a 64 0 4) (.lit 31 0x2)),
    .set 64 (.mul (.a 64 0 3) (.lit 31 0x2)),
    .set 64 (.mul (.a 64 0 2) (.lit 31 0x2)),
    .set 64 (.mul (.a 64 0 1) (.lit 31 0x2)),
    .set 128 (.mul (.cast 128 (.a 64 0 8)) (.mul (.x 0) (.lit 31 0x2))),
    .set 128 (.mul (.cast 128 (.a 64 0 7)) (.mul (.x 1) (.lit 31 0x2))),
    .set 128 (.mul (.cast 128 (.a 64 0 7)) (.mul (.x 3) (.lit 31 0x2))),
    .set 128 (.mul (.cast 128 (.a 64 0 6)) (.mul (.x 1) (.lit 31 0x2))),
    .set 128 (.mul (.cast 128 (.a 64 0 6)) (.mul (.x 4) (.lit 31 0x2))),
    .set 128 (.mul (.cast 128 (.a 64 0 6)) (.mul (.x 6) (.lit 31 0x2))),
    .set 128 (.mul (.cast 128 (.a 64 0 5)) (.mul (.x 1) (.lit 31 0x2))),
    .set 128 (.mul (.cast 128 (.a 64 0 5)) (.mul (.x 4) (.lit 31 0x2))),
    .set 128 (.mul (.cast 128 (.a 64 0 5)) (.mul (.x 7) (.lit 31 0x2))),
    .set 128 (.mul (.cast 128 (.a 64 0 5)) (.mul (.x 9) (.lit 31 0x2))),
    .set 128 (.mul (.cast 128 (.a 64 0 4)) (.mul (.x 1) (.lit 31 0x2))),
    .set 128 (.mul (.cast 128 (.a 64 0 4)) (.mul (.x 4) (.lit 31 0x2))),
    .set 128 (.mul (.cast 128 (.a 64 0 4)) (.mul (.x 7) (.lit 31 0x2))),
    .set 128 (.mul (.cast 128 (.a 64 0 4)) (.mul (.x 10) (.lit 31 0x2))),
    .set 128 (.mul (.cast 128 (.a 64 0 4)) (.a 64 0 4)),
    .set 128 (.mul (.cast 128 (.a 64 0 3)) (.mul (.x 1) (.lit 31 0x2))),
    .set 128 (.mul (.cast 128 (.a 64 0 3)) (.mul (.x 4) (.lit 31 0x2))),
    .set 128 (.mul (.cast 128 (.a 64 0 3)) (.mul (.x 7) (.lit 31 0x2))),
    .set 128 (.mul (.cast 128 (.a 64 0 3)) (.x 11)),
    .set 128 (.mul (.cast 128 (.a 64 0 3)) (.x 12)),
    .set 128 (.mul (.cast 128 (.a 64 0 3)) (.a 64 0 3)),
    .set 128 (.mul (.cast 128 (.a 64 0 2)) (.mul (.x 1) (.lit 31 0x2))),
    .set 128 (.mul (.cast 128 (.a 64 0 2)) (.mul (.x 4) (.lit 31 0x2))),
    .set 128 (.mul (.cast 128 (.a 64 0 2)) (.x 8)),
    .set 128 (.mul (.cast 128 (.a 64 0 2)) (.x 11)),
    .set 128 (.mul (.cast 128 (.a 64 0 2)) (.x 12)),
    .set 128 (.mul (.cast 128 (.a 64 0 2)) (.x 13)),
    .set 128 (.mul (.cast 128 (.a 64 0 2)) (.a 64 0 2)),
    .set 128 (.mul (.cast 128 (.a 64 0 1)) (.mul (.x 1) (.lit 31 0x2))),
    .set 128 (.mul (.cast 128 (.a 64 0 1)) (.x 5)),
    .set 128 (.mul (.cast 128 (.a 64 0 1)) (.x 8)),
    .set 128 (.mul (.cast 128 (.a 64 0 1)) (.x 11)),
    .set 128 (.mul (.cast 128 (.a 64 0 1)) (.x 12)),
    .set 128 (.mul (.cast 128 (.a 64 0 1)) (.x 13)),
    .set 128 (.mul (.cast 128 (.a 64 0 1)) (.x 14)),
    .set 128 (.mul (.cast 128 (.a 64 0 1)) (.a 64 0 1)),
    .set 128 (.mul (.cast 128 (.a 64 0 0)) (.x 2)),
    .set 128 (.mul (.cast 128 (.a 64 0 0)) (.x 5)),
    .set 128 (.mul (.cast 128 (.a 64 0 0)) (.x 8)),
    .set 128 (.mul (.cast 128 (.a 64 0 0)) (.x 11)),
    .set 128 (.mul (.cast 128 (.a 64 0 0)) (.x 12)),
    .set 128 (.mul (.cast 128 (.a 64 0 0)) (.x 13)),
    .set 128 (.mul (.cast 128 (.a 64 0 0)) (.x 14)),
    .set 128 (.mul (.cast 128 (.a 64 0 0)) (.x 15)),
    .set 128 (.mul (.cast 128 (.a 64 0 0)) (.a 64 0 0)),
    .set 128 (.add (.x 60) (.add (.x 44) (.add (.x 38) (.add (.x 33) (.x 29))))),
    .set 128 (.shr (.x 61) 58),
    .set 64 (.cast 64 (.land (.x 61) (.lit 64 0x3ffffffffffffff))),
    .set 128 (.add (.x 52) (.add (.x 45) (.add (.x 39) (.add (.x 34) (.x 30))))),
    .set 128 (.add (.x 53) (.add (.x 46) (.add (.x 40) (.add (.x 35) (.x 16))))),
    .set 128 (.add (.x 54) (.add (.x 47) (.add (.x 41) (.add (.x 36) (.x 17))))),
    .set 128 (.add (.x 55) (.add (.x 48) (.add (.x 42) (.add (.x 19) (.x 18))))),
    .set 128 (.add (.x 56) (.add (.x 49) (.add (.x 43) (.add (.x 22) (.x 20))))),
    .set 128 (.add (.x 57) (.add (.x 50) (.add (.x 26) (.add (.x 23) (.x 21))))),
    .set 128 (.add (.x 58) (.add (.x 51) (.add (.x 31) (.add (.x 27) (.x 24))))),
    .set 128 (.add (.x 59) (.add (.x 37) (.add (.x 32) (.add (.x 28) (.x 25))))),
    .set 128 (.add (.x 62) (.x 71)),
    .set 128 (.shr (.x 72) 58),
    .set 64 (.cast 64 (.land (.x 72) (.lit 64 0x3ffffffffffffff))),
    .set 128 (.add (.x 73) (.x 70)),
    .set 128 (.shr (.x 75) 58),
    .set 64 (.cast 64 (.land (.x 75) (.lit 64 0x3ffffffffffffff))),
    .set 128 (.add (.x 76) (.x 69)),
    .set 128 (.shr (.x 78) 58),
    .set 64 (.cast 64 (.land (.x 78) (.lit 64 0x3ffffffffffffff))),
    .set 128 (.add (.x 79) (.x 68)),
    .set 128 (.shr (.x 81) 58),
    .set 64 (.cast 64 (.land (.x 81) (.lit 64 0x3ffffffffffffff))),
    .set 128 (.add (.x 82) (.x 67)),
    .set 128 (.shr (.x 84) 58),
    .set 64 (.cast 64 (.land (.x 84) (.lit 64 0x3ffffffffffffff))),
    .set 128 (.add (.x 85) (.x 66)),
    .set 128 (.shr (.x 87) 58),
    .set 64 (.cast 64 (.land (.x 87) (.lit 64 0x3ffffffffffffff))),
    .set 128 (.add (.x 88) (.x 65)),
    .set 128 (.shr (.x 90) 58),
    .set 64 (.cast 64 (.land (.x 90) (.lit 64 0x3ffffffffffffff))),
    .set 128 (.add (.x 91) (.x 64)),
    .set 128 (.shr (.x 93) 57),
    .set 64 (.cast 64 (.land (.x 93) (.lit 64 0x1ffffffffffffff))),
    .set 128 (.add (.x 63) (.x 94)),
    .set 64 (.cast 64 (.shr (.x 96) 58)),
    .set 64 (.cast 64 (.land (.x 96) (.lit 64 0x3ffffffffffffff))),
    .set 64 (.add (.x 97) (.x 74)),
    .set 8 (.cast 8 (.shr (.x 99) 58)),
    .set 64 (.land (.x 99) (.lit 64 0x3ffffffffffffff)),
    .set 64 (.add (.x 100) (.x 77))]
  outs := [.x 98, .x 101, .x 102, .x 80, .x 83, .x 86, .x 89, .x 92, .x 95]

/-- src/fields/p521_64.h:839-933 `fiat_p521_carry_scmul_3`. -/
def p521_carry_scmul_3 : Prog where
  body := [
    .set 64 (.mul (.a 64 0 8) (.lit 31 0x3)),
    .set 64 (.mul (.a 64 0 7) (.lit 31 0x3)),
    .set 64 (.mul (.a 64 0 6) (.lit 31 0x3)),
    .set 64 (.mul (.a 64 0 5) (.lit 31 0x3)),
    .set 64 (.mul (.a 64 0 4) (.lit 31 0x3)),
    .set 64 (.mul (.a 64 0 3) (.lit 31 0x3)),
    .set 64 (.mul (.a 64 0 2) (.lit 31 0x3)),
    .set 64 (.mul (.a 64 0 1) (.lit 31 0x3)),
    .set 64 (.mul (.a 64 0 0) (.lit 31 0x3)),
    .set 64 (.shr (.x 8) 58),
    .set 64 (.land (.x 8) (.lit 64 0x3ffffffffffffff)),
    .set 64 (.add (.x 9) (.x 7)),
    .set 64 (.shr (.x 11) 58),
    .set 64 (.land (.x 11) (.lit 64 0x3ffffffffffffff)),
    .set 64 (.add (.x 12) (.x 6)),
    .set 64 (.shr (.x 14) 58),
    .set 64 (.land (.x 14) (.lit 64 0x3ffffffffffffff)),
    .set 64 (.add (.x 15) (.x 5)),
    .set 64 (.shr (.x 17) 58),
    .set 64 (.land (.x 17) (.lit 64 0x3ffffffffffffff)),
    .set 64 (.add (.x 18) (.x 4)),
    .set 64 (.shr (.x 20) 58),
    .set 64 (.land (.x 20) (.lit 64 0x3ffffffffffffff)),
    .set 64 (.add (.x 21) (.x 3)),
    .set 64 (.shr (.x 23) 58),
    .set 64 (.land (.x 23) (.lit 64 0x3ffffffffffffff)),
    .set 64 (.add (.x 24) (.x 2)),
    .set 64 (.shr (.x 26) 58),
    .set 64 (.land (.x 26) (.lit 64 0x3ffffffffffffff)),
    .set 64 (.add (.x 27) (.x 1)),
    .set 64 (.shr (.x 29) 58),
    .set 64 (.land (.x 29) (.lit 64 0x3ffffffffffffff)),
    .set 64 (.add (.x 30) (.x 0)),
    .set 64 (.shr (.x 32) 57),
    .set 64 (.land (.x 32) (.lit 64 0x1ffffffffffffff)),
    .set 64 (.add (.x 10) (.x 33)),
    .set 8 (.cast 8 (.shr (.x 35) 58)),
    .set 64 (.land (.x 35) (.lit 64 0x3ffffffffffffff)),
    .set 64 (.add (.x 36) (.x 13)),
    .set 8 (.cast 8 (.shr (.x 38) 58)),
    .set 64 (.land (.x 38) (.lit 64 0x3ffffffffffffff)),
    .set 64 (.add (.x 39) (.x 16))]
  outs := [.x 37, .x 40, .x 41, .x 19, .x 22, .x 25, .x 28, .x 31, .x 34]

/-- src/fields/p521_64.h:945-1039 `fiat_p521_carry_scmul_4`. -/
def p521_carry_scmul_4 : Prog where
  body := [
    .set 64 (.shl (.a 64 0 8) 2),
    .set 64 (.shl (.a 64 0 7) 2),
    .set 64 (.shl (.a 64 0 6) 2),
    .set 64 (.shl (.a 64 0 5) 2),
    .set 64 (.shl (.a 64 0 4) 2),
    .set 64 (.shl (.a 64 0 3) 2),
    .set 64 (.shl (.a 64 0 2) 2),
    .set 64 (.shl (.a 64 0 1) 2),
    .set 64 (.shl (.a 64 0 0) 2),
    .set 64 (.shr (.x 8) 58),
    .set 64 (.land (.x 8) (.lit 64 0x3ffffffffffffff)),
    .set 64 (.add (.x 9) (.x 7)),
    .set 64 (.shr (.x 11) 58),
    .set 64 (.land (.x 11) (.lit 64 0x3ffffffffffffff)),
    .set 64 (.add (.x 12) (.x 6)),
    .set 64 (.shr (.x 14) 58),
    .set 64 (.land (.x 14) (.lit 64 0x3ffffffffffffff)),
    .set 64 (.add (.x 15) (.x 5)),
    .set 64 (.shr (.x 17) 58),
    .set 64 (.land (.x 17) (.lit 64 0x3ffffffffffffff)),
    .set 64 (.add (.x 18) (.x 4)),
    .set 64 (.shr (.x 20) 58),
    .set 64 (.land (.x 20) (.lit 64 0x3ffffffffffffff)),
    .set 64 (.add (.x 21) (.x 3)),
    .set 64 (.shr (.x 23) 58),
    .set 64 (.land (.x 23) (.lit 64 0x3ffffffffffffff)),
    .set 64 (.add (.x 24) (.x 2)),
    .set 64 (.shr (.x 26) 58),
    .set 64 (.land (.x 26) (.lit 64 0x3ffffffffffffff)),
    .set 64 (.add (.x 27) (.x 1)),
    .set 64 (.shr (.x 29) 58),
    .set 64 (.land (.x 29) (.lit 64 0x3ffffffffffffff)),
    .set 64 (.add (.x 30) (.x 0)),
    .set 64 (.shr (.x 32) 57),
    .set 64 (.land (.x 32) (.lit 64 0x1ffffffffffffff)),
    .set 64 (.add (.x 10) (.x 33)),
    .set 8 (.cast 8 (.shr (.x 35) 58)),
    .set 64 (.land (.x 35) (.lit 64 0x3ffffffffffffff)),
    .set 64 (.add (.x 36) (.x 13)),
    .set 8 (.cast 8 (.shr (.x 38) 58)),
    .set 64 (.land (.x 38) (.lit 64 0x3ffffffffffffff)),
    .set 64 (.add (.x 39) (.x 16))]
  outs := [.x 37, .x 40, .x 41, .x 19, .x 22, .x 25, .x 28, .x 31, .x 34]

/-- src/fields/p521_64.h:1051-1145 `fiat_p521_carry_scmul_8`. -/
def p521_carry_scmul_8 : Prog where
  body := [
    .set 64 (.shl (.a 64 0 8) 3),
    .set 64 (.shl (.a 64 0 7) 3),
    .set 64 (.shl (.a 64 0 6) 3),
    .set 64 (.shl (.a 64 0 5) 3),
    .set 64 (.shl (.a 64 0 4) 3),
    .set 64 (.shl (.a 64 0 3) 3),
    .set 64 (.shl (.a 64 0 2) 3),
    .set 64 (.shl (.a 64 0 1) 3),
    .set 64 (.shl (.a 64 0 0) 3),
    .set 64 (.shr (.x 8) 58),
    .set 64 (.land (.x 8) (.lit 64 0x3ffffffffffffff)),
    .set 64 (.add (.x 9) (.x 7)),
    .set 64 (.shr (.x 11) 58),
    .set 64 (.land (.x 11) (.lit 64 0x3ffffffffffffff)),
    .set 64 (.add (.x 12) (.x 6)),
    .set 64 (.shr (.x 14) 58),
    .set 64 (.land (.x 14) (.lit 64 0x3ffffffffffffff)),
    .set 64 (.add (.x 15) (.x 5)),
    .set 64 (.shr (.x 17) 58),
    .set 64 (.land (.x 17) (.lit 64 0x3ffffffffffffff)),
    .set 64 (.add (.x 18) (.x 4)),
    .set 64 (.shr (.x 20) 58),
    .set 64 (.land (.x 20) (.lit 64 0x3ffffffffffffff)),
    .set 64 (.add (.x 21) (.x 3)),
    .set 64 (.shr (.x 23) 58),
    .set 64 (.land (.x 23) (.lit 64 0x3ffffffffffffff)),
    .set 64 (.add (.x 24) (.x 2)),
    .set 64 (.shr (.x 26) 58),
    .set 64 (.land (.x 26) (.lit 64 0x3ffffffffffffff)),
    .set 64 (.add (.x 27) (.x 1)),
    .set 64 (.shr (.x 29) 58),
    .set 64 (.land (.x 29) (.lit 64 0x3ffffffffffffff)),
    .set 64 (.add (.x 30) (.x 0)),
    .set 64 (.shr (.x 32) 57),
    .set 64 (.land (.x 32) (.lit 64 0x1ffffffffffffff)),
    .set 64 (.add (.x 10) (.x 33)),
    .set 8 (.cast 8 (.shr (.x 35) 58)),
    .set 64 (.land (.x 35) (.lit 64 0x3ffffffffffffff)),
    .set 64 (.add (.x 36) (.x 13)),
    .set 8 (.cast 8 (.shr (.x 38) 58)),
    .set 64 (.land (.x 38) (.lit 64 0x3ffffffffffffff)),
    .set 64 (.add (.x 39) (.x 16))]
  outs := [.x 37, .x 40, .x 41, .x 19, .x 22, .x 25, .x 28, .x 31, .x 34]

/-- src/fields/p521_64.h:1199-1598 `fiat_p521_to_bytes`. -/
def p521_to_bytes : Prog where
  body := [
    .subb 58 (.lit 31 0x0) (.a 64 0 0) (.lit 64 0x3ffffffffffffff),
    .subb 58 (.x 1) (.a 64 0 1) (.lit 64 0x3ffffffffffffff),
    .subb 58 (.x 3) (.a 64 0 2) (.lit 64 0x3ffffffffffffff),
    .subb 58 (.x 5) (.a 64 0 3) (.lit 64 0x3ffffffffffffff),
    .subb 58 (.x 7) (.a 64 0 4) (.lit 64 0x3ffffffffffffff),
    .subb 58 (.x 9) (.a 64 0 5) (.lit 64 0x3ffffffffffffff),
    .subb 58 (.x 11) (.a 64 0 6) (.lit 64 0x3ffffffffffffff),
    .subb 58 (.x 13) (.a 64 0 7) (.lit 64 0x3ffffffffffffff),
    .subb 57 (.x 15) (.a 64 0 8) (.lit 64 0x1ffffffffffffff),
    .cmov (.x 17) (.lit 31 0x0) (.lit 64 0xffffffffffffffff),
    .addc 58 (.lit 31 0x0) (.x 0) (.land (.x 18) (.lit 64 0x3ffffffffffffff)),
    .addc 58 (.x 20) (.x 2) (.land (.x 18) (.lit 64 0x3ffffffffffffff)),
    .addc 58 (.x 22) (.x 4) (.land (.x 18) (.lit 64 0x3ffffffffffffff)),
    .addc 58 (.x 24) (.x 6) (.land (.x 18) (.lit 64 0x3ffffffffffffff)),
    .addc 58 (.x 26) (.x 8) (.land (.x 18) (.lit 64 0x3ffffffffffffff)),
    .addc 58 (.x 28) (.x 10) (.land (.x 18) (.lit 64 0x3ffffffffffffff)),
    .addc 58 (.x 30) (.x 12) (.land (.x 18) (.lit 64 0x3ffffffffffffff)),
    .addc 58 (.x 32) (.x 14) (.land (.x 18) (.lit 64 0x3ffffffffffffff)),
    .addc 57 (.x 34) (.x 16) (.land (.x 18) (.lit 64 0x1ffffffffffffff)),
    .set 64 (.shl (.x 33) 6),
    .set 64 (.shl (.x 31) 4),
    .set 64 (.shl (.x 29) 2),
    .set 64 (.shl (.x 25) 6),
    .set 64 (.shl (.x 23) 4),
    .set 64 (.shl (.x 21) 2),
    .set 8 (.cast 8 (.land (.x 19) (.lit 31 0xff))),
    .set 64 (.shr (.x 19) 8),
    .set 8 (.cast 8 (.land (.x 44) (.lit 31 0xff))),
    .set 64 (.shr (.x 44) 8),
    .set 8 (.cast 8 (.land (.x 46) (.lit 31 0xff))),
    .set 64 (.shr (.x 46) 8),
    .set 8 (.cast 8 (.land (.x 48) (.lit 31 0xff))),
    .set 64 (.shr (.x 48) 8),
    .set 8 (.cast 8 (.land (.x 50) (.lit 31 0xff))),
    .set 64 (.shr (.x 50) 8),
    .set 8 (.cast 8 (.land (.x 52) (.lit 31 0xff))),
    .set 64 (.shr (.x 52) 8),
    .set 8 (.cast 8 (.land (.x 54) (.lit 31 0xff))),
    .set 8 (.cast 8 (.shr (.x 54) 8)),
    .set 64 (.add (.x 42) (.cast 64 (.x 56))),
    .set 8 (.cast 8 (.land (.x 57) (.lit 31 0xff))),
    .set 64 (.shr (.x 57) 8),
    .set 8 (.cast 8 (.land (.x 59) (.lit 31 0xff))),
    .set 64 (.shr (.x 59) 8),
    .set 8 (.cast 8 (.land (.x 61) (.lit 31 0xff))),
    .set 64 (.shr (.x 61) 8),
    .set 8 (.cast 8 (.land (.x 63) (.lit 31 0xff))),
    .set 64 (.shr (.x 63) 8),
    .set 8 (.cast 8 (.land (.x 65) (.lit 31 0xff))),
    .set 64 (.shr (.x 65) 8),
    .set 8 (.cast 8 (.land (.x 67) (.lit 31 0xff))),
    .set 64 (.shr (.x 67) 8),
    .set 8 (.cast 8 (.land (.x 69) (.lit 31 0xff))),
    .set 8 (.cast 8 (.shr (.x 69) 8)),
    .set 64 (.add (.x 41) (.cast 64 (.x 71))),
    .set 8 (.cast 8 (.land (.x 72) (.lit 31 0xff))),
    .set 64 (.shr (.x 72) 8),
    .set 8 (.cast 8 (.land (.x 74) (.lit 31 0xff))),
    .set 64 (.shr (.x 74) 8),
    .set 8 (.cast 8 (.land (.x 76) (.lit 31 0xff))),
    .set 64 (.shr (.x 76) 8),
    .set 8 (.cast 8 (.land (.x 78) (.lit 31 0xff))),
    .set 64 (.shr (.x 78) 8),
    .set 8 (.cast 8 (.land (.x 80) (.lit 31 0xff))),
    .set 64 (.shr (.x 80) 8),
    .set 8 (.cast 8 (.land (.x 82) (.lit 31 0xff))),
    .set 64 (.shr (.x 82) 8),
    .set 8 (.cast 8 (.land (.x 84) (.lit 31 0xff))),
    .set 8 (.cast 8 (.shr (.x 84) 8)),
    .set 64 (.add (.x 40) (.cast 64 (.x 86))),
    .set 8 (.cast 8 (.land (.x 87) (.lit 31 0xff))),
    .set 64 (.shr (.x 87) 8),
    .set 8 (.cast 8 (.land (.x 89) (.lit 31 0xff))),
    .set 64 (.shr (.x 89) 8),
    .set 8 (.cast 8 (.land (.x 91) (.lit 31 0xff))),
    .set 64 (.shr (.x 91) 8),
    .set 8 (.cast 8 (.land (.x 93) (.lit 31 0xff))),
    .set 64 (.shr (.x 93) 8),
    .set 8 (.cast 8 (.land (.x 95) (.lit 31 0xff))),
    .set 64 (.shr (.x 95) 8),
    .set 8 (.cast 8 (.land (.x 97) (.lit 31 0xff))),
    .set 64 (.shr (.x 97) 8),
    .set 8 (.cast 8 (.land (.x 99) (.lit 31 0xff))),
    .set 8 (.cast 8 (.shr (.x 99) 8)),
    .set 8 (.cast 8 (.land (.x 27) (.lit 31 0xff))),
    .set 64 (.shr (.x 27) 8),
    .set 8 (.cast 8 (.land (.x 103) (.lit 31 0xff))),
    .set 64 (.shr (.x 103) 8),
    .set 8 (.cast 8 (.land (.x 105) (.lit 31 0xff))),
    .set 64 (.shr (.x 105) 8),
    .set 8 (.cast 8 (.land (.x 107) (.lit 31 0xff))),
    .set 64 (.shr (.x 107) 8),
    .set 8 (.cast 8 (.land (.x 109) (.lit 31 0xff))),
    .set 64 (.shr (.x 109) 8),
    .set 8 (.cast 8 (.land (.x 111) (.lit 31 0xff))),
    .set 64 (.shr (.x 111) 8),
    .set 8 (.cast 8 (.land (.x 113) (.lit 31 0xff))),
    .set 8 (.cast 8 (.shr (.x 113) 8)),
    .set 64 (.add (.x 39) (.cast 64 (.x 115))),
    .set 8 (.cast 8 (.land (.x 116) (.lit 31 0xff))),
    .set 64 (.shr (.x 116) 8),
    .set 8 (.cast 8 (.land (.x 118) (.lit 31 0xff))),
    .set 64 (.shr (.x 118) 8),
    .set 8 (.cast 8 (.land (.x 120) (.lit 31 0xff))),
    .set 64 (.shr (.x 120) 8),
    .set 8 (.cast 8 (.land (.x 122) (.lit 31 0xff))),
    .set 64 (.shr (.x 122) 8),
    .set 8 (.cast 8 (.land (.x 124) (.lit 31 0xff))),
    .set 64 (.shr (.x 124) 8),
    .set 8 (.cast 8 (.land (.x 126) (.lit 31 0xff))),
    .set 64 (.shr (.x 126) 8),
    .set 8 (.cast 8 (.land (.x 128) (.lit 31 0xff))),
    .set 8 (.cast 8 (.shr (.x 128) 8)),
    .set 64 (.add (.x 38) (.cast 64 (.x 130))),
    .set 8 (.cast 8 (.land (.x 131) (.lit 31 0xff))),
    .set 64 (.shr (.x 131) 8),
    .set 8 (.cast 8 (.land (.x 133) (.lit 31 0xff))),
    .set 64 (.shr (.x 133) 8),
    .set 8 (.cast 8 (.land (.x 135) (.lit 31 0xff))),
    .set 64 (.shr (.x 135) 8),
    .set 8 (.cast 8 (.land (.x 137) (.lit 31 0xff))),
    .set 64 (.shr (.x 137) 8),
    .set 8 (.cast 8 (.land (.x 139) (.lit 31 0xff))),
    .set 64 (.shr (.x 139) 8),
    .set 8 (.cast 8 (.land (.x 141) (.lit 31 0xff))),
    .set 64 (.shr (.x 141) 8),
    .set 8 (.cast 8 (.land (.x 143) (.lit 31 0xff))),
    .set 8 (.cast 8 (.shr (.x 143) 8)),
    .set 64 (.add (.x 37) (.cast 64 (.x 145))),
    .set 8 (.cast 8 (.land (.x 146) (.lit 31 0xff))),
    .set 64 (.shr (.x 146) 8),
    .set 8 (.cast 8 (.land (.x 148) (.lit 31 0xff))),
    .set 64 (.shr (.x 148) 8),
    .set 8 (.cast 8 (.land (.x 150) (.lit 31 0xff))),
    .set 64 (.shr (.x 150) 8),
    .set 8 (.cast 8 (.land (.x 152) (.lit 31 0xff))),
    .set 64 (.shr (.x 152) 8),
    .set 8 (.cast 8 (.land (.x 154) (.lit 31 0xff))),
    .set 64 (.shr (.x 154) 8),
    .set 8 (.cast 8 (.land (.x 156) (.lit 31 0xff))),
    .set 64 (.shr (.x 156) 8),
    .set 8 (.cast 8 (.land (.x 158) (.lit 31 0xff))),
    .set 8 (.cast 8 (.shr (.x 158) 8)),
    .set 8 (.cast 8 (.land (.x 35) (.lit 31 0xff))),
    .set 64 (.shr (.x 35) 8),
    .set 8 (.cast 8 (.land (.x 162) (.lit 31 0xff))),
    .set 64 (.shr (.x 162) 8),
    .set 8 (.cast 8 (.land (.x 164) (.lit 31 0xff))),
    .set 64 (.shr (.x 164) 8),
    .set 8 (.cast 8 (.land (.x 166) (.lit 31 0xff))),
    .set 64 (.shr (.x 166) 8),
    .set 8 (.cast 8 (.land (.x 168) (.lit 31 0xff))),
    .set 64 (.shr (.x 168) 8),
    .set 8 (.cast 8 (.land (.x 170) (.lit 31 0xff))),
    .set 64 (.shr (.x 170) 8),
    .set 8 (.cast 8 (.land (.x 172) (.lit 31 0xff))),
    .set 8 (.cast 8 (.shr (.x 172) 8))]
  outs := [.x 43, .x 45, .x 47, .x 49, .x 51, .x 53, .x 55, .x 58, .x 60, .x 62, .x 64, .x 66, .x 68, .x 70, .x 73, .x 75, .x 77, .x 79, .x 81, .x 83, .x 85, .x 88, .x 90, .x 92, .x 94, .x 96, .x 98, .x 100, .x 101, .x 102, .x 104, .x 106, .x 108, .x 110, .x 112, .x 114, .x 117, .x 119, .x 121, .x 123, .x 125, .x 127, .x 129, .x 132, .x 134, .x 136, .x 138, .x 140, .x 142, .x 144, .x 147, .x 149, .x 151, .x 153, .x 155, .x 157, .x 159, .x 160, .x 161, .x 163, .x 165, .x 167, .x 169, .x 171, .x 173, .x 174]

/-- src/fields/p521_64.h:1610-1902 `fiat_p521_from_bytes`. -/
def p521_from_bytes : Prog where
  body := [
    .set 64 (.shl (.cast 64 (.cast 8 (.a 8 0 65))) 56),
    .set 64 (.shl (.cast 64 (.a 8 0 64)) 48),
    .set 64 (.shl (.cast 64 (.a 8 0 63)) 40),
    .set 64 (.shl (.cast 64 (.a 8 0 62)) 32),
    .set 64 (.shl (.cast 64 (.a 8 0 61)) 24),
    .set 64 (.shl (.cast 64 (.a 8 0 60)) 16),
    .set 64 (.shl (.cast 64 (.a 8 0 59)) 8),
    .set 8 (.a 8 0 58),
    .set 64 (.shl (.cast 64 (.a 8 0 57)) 50),
    .set 64 (.shl (.cast 64 (.a 8 0 56)) 42),
    .set 64 (.shl (.cast 64 (.a 8 0 55)) 34),
    .set 64 (.shl (.cast 64 (.a 8 0 54)) 26),
    .set 64 (.shl (.cast 64 (.a 8 0 53)) 18),
    .set 64 (.shl (.cast 64 (.a 8 0 52)) 10),
    .set 64 (.shl (.cast 64 (.a 8 0 51)) 2),
    .set 64 (.shl (.cast 64 (.a 8 0 50)) 52),
    .set 64 (.shl (.cast 64 (.a 8 0 49)) 44),
    .set 64 (.shl (.cast 64 (.a 8 0 48)) 36),
    .set 64 (.shl (.cast 64 (.a 8 0 47)) 28),
    .set 64 (.shl (.cast 64 (.a 8 0 46)) 20),
    .set 64 (.shl (.cast 64 (.a 8 0 45)) 12),
    .set 64 (.shl (.cast 64 (.a 8 0 44)) 4),
    .set 64 (.shl (.cast 64 (.a 8 0 43)) 54),
    .set 64 (.shl (.cast 64 (.a 8 0 42)) 46),
    .set 64 (.shl (.cast 64 (.a 8 0 41)) 38),
    .set 64 (.shl (.cast 64 (.a 8 0 40)) 30),
    .set 64 (.shl (.cast 64 (.a 8 0 39)) 22),
    .set 64 (.shl (.cast 64 (.a 8 0 38)) 14),
    .set 64 (.shl (.cast 64 (.a 8 0 37)) 6),
    .set 64 (.shl (.cast 64 (.a 8 0 36)) 56),
    .set 64 (.shl (.cast 64 (.a 8 0 35)) 48),
    .set 64 (.shl (.cast 64 (.a 8 0 34)) 40),
    .set 64 (.shl (.cast 64 (.a 8 0 33)) 32),
    .set 64 (.shl (.cast 64 (.a 8 0 32)) 24),
    .set 64 (.shl (.cast 64 (.a 8 0 31)) 16),
    .set 64 (.shl (.cast 64 (.a 8 0 30)) 8),
    .set 8 (.a 8 0 29),
    .set 64 (.shl (.cast 64 (.a 8 0 28)) 50),
    .set 64 (.shl (.cast 64 (.a 8 0 27)) 42),
    .set 64 (.shl (.cast 64 (.a 8 0 26)) 34),
    .set 64 (.shl (.cast 64 (.a 8 0 25)) 26),
    .set 64 (.shl (.cast 64 (.a 8 0 24)) 18),
    .set 64 (.shl (.cast 64 (.a 8 0 23)) 10),
    .set 64 (.shl (.cast 64 (.a 8 0 22)) 2),
    .set 64 (.shl (.cast 64 (.a 8 0 21)) 52),
    .set 64 (.shl (.cast 64 (.a 8 0 20)) 44),
    .set 64 (.shl (.cast 64 (.a 8 0 19)) 36),
    .set 64 (.shl (.cast 64 (.a 8 0 18)) 28),
    .set 64 (.shl (.cast 64 (.a 8 0 17)) 20),
    .set 64 (.shl (.cast 64 (.a 8 0 16)) 12),
    .set 64 (.shl (.cast 64 (.a 8 0 15)) 4),
    .set 64 (.shl (.cast 64 (.a 8 0 14)) 54),
    .set 64 (.shl (.cast 64 (.a 8 0 13)) 46),
    .set 64 (.shl (.cast 64 (.a 8 0 12)) 38),
    .set 64 (.shl (.cast 64 (.a 8 0 11)) 30),
    .set 64 (.shl (.cast 64 (.a 8 0 10)) 22),
    .set 64 (.shl (.cast 64 (.a 8 0 9)) 14),
    .set 64 (.shl (.cast 64 (.a 8 0 8)) 6),
    .set 64 (.shl (.cast 64 (.a 8 0 7)) 56),
    .set 64 (.shl (.cast 64 (.a 8 0 6)) 48),
    .set 64 (.shl (.cast 64 (.a 8 0 5)) 40),
    .set 64 (.shl (.cast 64 (.a 8 0 4)) 32),
    .set 64 (.shl (.cast 64 (.a 8 0 3)) 24),
    .set 64 (.shl (.cast 64 (.a 8 0 2)) 16),
    .set 64 (.shl (.cast 64 (.a 8 0 1)) 8),
    .set 8 (.a 8 0 0),
    .set 64 (.add (.x 64) (.cast 64 (.x 65))),
    .set 64 (.add (.x 63) (.x 66)),
    .set 64 (.add (.x 62) (.x 67)),
    .set 64 (.add (.x 61) (.x 68)),
    .set 64 (.add (.x 60) (.x 69)),
    .set 64 (.add (.x 59) (.x 70)),
    .set 64 (.add (.x 58) (.x 71)),
    .set 64 (.land (.x 72) (.lit 64 0x3ffffffffffffff)),
    .set 8 (.cast 8 (.shr (.x 72) 58)),
    .set 64 (.add (.x 57) (.cast 64 (.x 74))),
    .set 64 (.add (.x 56) (.x 75)),
    .set 64 (.add (.x 55) (.x 76)),
    .set 64 (.add (.x 54) (.x 77)),
    .set 64 (.add (.x 53) (.x 78)),
    .set 64 (.add (.x 52) (.x 79)),
    .set 64 (.add (.x 51) (.x 80)),
    .set 64 (.land (.x 81) (.lit 64 0x3ffffffffffffff)),
    .set 8 (.cast 8 (.shr (.x 81) 58)),
    .set 64 (.add (.x 50) (.cast 64 (.x 83))),
    .set 64 (.add (.x 49) (.x 84)),
    .set 64 (.add (.x 48) (.x 85)),
    .set 64 (.add (.x 47) (.x 86)),
    .set 64 (.add (.x 46) (.x 87)),
    .set 64 (.add (.x 45) (.x 88)),
    .set 64 (.add (.x 44) (.x 89)),
    .set 64 (.land (.x 90) (.lit 64 0x3ffffffffffffff)),
    .set 8 (.cast 8 (.shr (.x 90) 58)),
    .set 64 (.add (.x 43) (.cast 64 (.x 92))),
    .set 64 (.add (.x 42) (.x 93)),
    .set 64 (.add (.x 41) (.x 94)),
    .set 64 (.add (.x 40) (.x 95)),
    .set 64 (.add (.x 39) (.x 96)),
    .set 64 (.add (.x 38) (.x 97)),
    .set 64 (.add (.x 37) (.x 98)),
    .set 64 (.add (.x 35) (.cast 64 (.x 36))),
    .set 64 (.add (.x 34) (.x 100)),
    .set 64 (.add (.x 33) (.x 101)),
    .set 64 (.add (.x 32) (.x 102)),
    .set 64 (.add (.x 31) (.x 103)),
    .set 64 (.add (.x 30) (.x 104)),
    .set 64 (.add (.x 29) (.x 105)),
    .set 64 (.land (.x 106) (.lit 64 0x3ffffffffffffff)),
    .set 8 (.cast 8 (.shr (.x 106) 58)),
    .set 64 (.add (.x 28) (.cast 64 (.x 108))),
    .set 64 (.add (.x 27) (.x 109)),
    .set 64 (.add (.x 26) (.x 110)),
    .set 64 (.add (.x 25) (.x 111)),
    .set 64 (.add (.x 24) (.x 112)),
    .set 64 (.add (.x 23) (.x 113)),
    .set 64 (.add (.x 22) (.x 114)),
    .set 64 (.land (.x 115) (.lit 64 0x3ffffffffffffff)),
    .set 8 (.cast 8 (.shr (.x 115) 58)),
    .set 64 (.add (.x 21) (.cast 64 (.x 117))),
    .set 64 (.add (.x 20) (.x 118)),
    .set 64 (.add (.x 19) (.x 119)),
    .set 64 (.add (.x 18) (.x 120)),
    .set 64 (.add (.x 17) (.x 121)),
    .set 64 (.add (.x 16) (.x 122)),
    .set 64 (.add (.x 15) (.x 123)),
    .set 64 (.land (.x 124) (.lit 64 0x3ffffffffffffff)),
    .set 8 (.cast 8 (.shr (.x 124) 58)),
    .set 64 (.add (.x 14) (.cast 64 (.x 126))),
    .set 64 (.add (.x 13) (.x 127)),
    .set 64 (.add (.x 12) (.x 128)),
    .set 64 (.add (.x 11) (.x 129)),
    .set 64 (.add (.x 10) (.x 130)),
    .set 64 (.add (.x 9) (.x 131)),
    .set 64 (.add (.x 8) (.x 132)),
    .set 64 (.add (.x 6) (.cast 64 (.x 7))),
    .set 64 (.add (.x 5) (.x 134)),
    .set 64 (.add (.x 4) (.x 135)),
    .set 64 (.add (.x 3) (.x 136)),
    .set 64 (.add (.x 2) (.x 137)),
    .set 64 (.add (.x 1) (.x 138)),
    .set 64 (.add (.x 0) (.x 139))]
  outs := [.x 73, .x 82, .x 91, .x 99, .x 107, .x 116, .x 125, .x 133, .x 140]

end Torsion.Fiat
