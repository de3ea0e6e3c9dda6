import Verif.Ecc.Fiat.Lang

/-!
# Model of src/fields/p251_32.h (written by tools/fiat.py)
-/
namespace Torsion.Fiat.W32

/-- src/fields/p251_32.h:157-188 `fiat_p251_add`. -/
def p251_add : Prog where
  body := [
    .set 32 (.add (.a 32 0 0) (.a 32 1 0)),
    .set 32 (.add (.a 32 0 1) (.a 32 1 1)),
    .set 32 (.add (.a 32 0 2) (.a 32 1 2)),
    .set 32 (.add (.a 32 0 3) (.a 32 1 3)),
    .set 32 (.add (.a 32 0 4) (.a 32 1 4)),
    .set 32 (.add (.a 32 0 5) (.a 32 1 5)),
    .set 32 (.add (.a 32 0 6) (.a 32 1 6)),
    .set 32 (.add (.a 32 0 7) (.a 32 1 7)),
    .set 32 (.add (.a 32 0 8) (.a 32 1 8)),
    .set 32 (.add (.a 32 0 9) (.a 32 1 9))]
  outs := [.x 0, .x 1, .x 2, .x 3, .x 4, .x 5, .x 6, .x 7, .x 8, .x 9]

/-- src/fields/p251_32.h:201-232 `fiat_p251_sub`. -/
def p251_sub : Prog where
  body := [
    .set 32 (.sub (.add (.lit 32 0x7ffffee) (.a 32 0 0)) (.a 32 1 0)),
    .set 32 (.sub (.add (.lit 32 0x3fffffe) (.a 32 0 1)) (.a 32 1 1)),
    .set 32 (.sub (.add (.lit 32 0x3fffffe) (.a 32 0 2)) (.a 32 1 2)),
    .set 32 (.sub (.add (.lit 32 0x3fffffe) (.a 32 0 3)) (.a 32 1 3)),
    .set 32 (.sub (.add (.lit 32 0x3fffffe) (.a 32 0 4)) (.a 32 1 4)),
    .set 32 (.sub (.add (.lit 32 0x3fffffe) (.a 32 0 5)) (.a 32 1 5)),
    .set 32 (.sub (.add (.lit 32 0x3fffffe) (.a 32 0 6)) (.a 32 1 6)),
    .set 32 (.sub (.add (.lit 32 0x3fffffe) (.a 32 0 7)) (.a 32 1 7)),
    .set 32 (.sub (.add (.lit 32 0x3fffffe) (.a 32 0 8)) (.a 32 1 8)),
    .set 32 (.sub (.add (.lit 32 0x3fffffe) (.a 32 0 9)) (.a 32 1 9))]
  outs := [.x 0, .x 1, .x 2, .x 3, .x 4, .x 5, .x 6, .x 7, .x 8, .x 9]

/-- src/fields/p251_32.h:244-275 `fiat_p251_opp`. -/
def p251_opp : Prog where
  body := [
    .set 32 (.sub (.lit 32 0x7ffffee) (.a 32 0 0)),
    .set 32 (.sub (.lit 32 0x3fffffe) (.a 32 0 1)),
    .set 32 (.sub (.lit 32 0x3fffffe) (.a 32 0 2)),
    .set 32 (.sub (.lit 32 0x3fffffe) (.a 32 0 3)),
    .set 32 (.sub (.lit 32 0x3fffffe) (.a 32 0 4)),
    .set 32 (.sub (.lit 32 0x3fffffe) (.a 32 0 5)),
    .set 32 (.sub (.lit 32 0x3fffffe) (.a 32 0 6)),
    .set 32 (.sub (.lit 32 0x3fffffe) (.a 32 0 7)),
    .set 32 (.sub (.lit 32 0x3fffffe) (.a 32 0 8)),
    .set 32 (.sub (.lit 32 0x3fffffe) (.a 32 0 9))]
  outs := [.x 0, .x 1, .x 2, .x 3, .x 4, .x 5, .x 6, .x 7, .x 8, .x 9]

/-- src/fields/p251_32.h:287-342 `fiat_p251_carry`. -/
def p251_carry : Prog where
  body := [
    .set 32 (.a 32 0 0),
    .set 32 (.add (.shr (.x 0) 26) (.a 32 0 1)),
    .set 32 (.add (.shr (.x 1) 25) (.a 32 0 2)),
    .set 32 (.add (.shr (.x 2) 25) (.a 32 0 3)),
    .set 32 (.add (.shr (.x 3) 25) (.a 32 0 4)),
    .set 32 (.add (.shr (.x 4) 25) (.a 32 0 5)),
    .set 32 (.add (.shr (.x 5) 25) (.a 32 0 6)),
    .set 32 (.add (.shr (.x 6) 25) (.a 32 0 7)),
    .set 32 (.add (.shr (.x 7) 25) (.a 32 0 8)),
    .set 32 (.add (.shr (.x 8) 25) (.a 32 0 9)),
    .set 32 (.add (.land (.x 0) (.lit 32 0x3ffffff)) (.mul (.shr (.x 9) 25) (.lit 31 0x9))),
    .set 32 (.add (.cast 8 (.shr (.x 10) 26)) (.land (.x 1) (.lit 32 0x1ffffff))),
    .set 32 (.land (.x 10) (.lit 32 0x3ffffff)),
    .set 32 (.land (.x 11) (.lit 32 0x1ffffff)),
    .set 32 (.add (.cast 8 (.shr (.x 11) 25)) (.land (.x 2) (.lit 32 0x1ffffff))),
    .set 32 (.land (.x 3) (.lit 32 0x1ffffff)),
    .set 32 (.land (.x 4) (.lit 32 0x1ffffff)),
    .set 32 (.land (.x 5) (.lit 32 0x1ffffff)),
    .set 32 (.land (.x 6) (.lit 32 0x1ffffff)),
    .set 32 (.land (.x 7) (.lit 32 0x1ffffff)),
    .set 32 (.land (.x 8) (.lit 32 0x1ffffff)),
    .set 32 (.land (.x 9) (.lit 32 0x1ffffff))]
  outs := [.x 12, .x 13, .x 14, .x 15, .x 16, .x 17, .x 18, .x 19, .x 20, .x 21]

/-- src/fields/p251_32.h:355-660 `fiat_p251_carry_mul`. -/
def p251_carry_mul : Prog where
  body := [
    .set 64 (.mul (.cast 64 (.a 32 0 9)) (.mul (.a 32 1 9) (.lit 31 0x9))),
    .set 64 (.mul (.cast 64 (.a 32 0 9)) (.mul (.a 32 1 8) (.lit 31 0x9))),
    .set 64 (.mul (.cast 64 (.a 32 0 9)) (.mul (.a 32 1 7) (.lit 31 0x9))),
    .set 64 (.mul (.cast 64 (.a 32 0 9)) (.mul (.a 32 1 6) (.lit 31 0x9))),
    .set 64 (.mul (.cast 64 (.a 32 0 9)) (.mul (.a 32 1 5) (.lit 31 0x9))),
    .set 64 (.mul (.cast 64 (.a 32 0 9)) (.mul (.a 32 1 4) (.lit 31 0x9))),
    .set 64 (.mul (.cast 64 (.a 32 0 9)) (.mul (.a 32 1 3) (.lit 31 0x9))),
    .set 64 (.mul (.cast 64 (.a 32 0 9)) (.mul (.a 32 1 2) (.lit 31 0x9))),
    .set 64 (.mul (.cast 64 (.a 32 0 9)) (.mul (.a 32 1 1) (.lit 31 0x12))),
    .set 64 (.mul (.cast 64 (.a 32 0 8)) (.mul (.a 32 1 9) (.lit 31 0x9))),
    .set 64 (.mul (.cast 64 (.a 32 0 8)) (.mul (.a 32 1 8) (.lit 31 0x9))),
    .set 64 (.mul (.cast 64 (.a 32 0 8)) (.mul (.a 32 1 7) (.lit 31 0x9))),
    .set 64 (.mul (.cast 64 (.a 32 0 8)) (.mul (.a 32 1 6) (.lit 31 0x9))),
    .set 64 (.mul (.cast 64 (.a 32 0 8)) (.mul (.a 32 1 5) (.lit 31 0x9))),
    .set 64 (.mul (.cast 64 (.a 32 0 8)) (.mul (.a 32 1 4) (.lit 31 0x9))),
    .set 64 (.mul (.cast 64 (.a 32 0 8)) (.mul (.a 32 1 3) (.lit 31 0x9))),
    .set 64 (.mul (.cast 64 (.a 32 0 8)) (.mul (.a 32 1 2) (.lit 31 0x12))),
    .set 64 (.mul (.cast 64 (.a 32 0 7)) (.mul (.a 32 1 9) (.lit 31 0x9))),
    .set 64 (.mul (.cast 64 (.a 32 0 7)) (.mul (.a 32 1 8) (.lit 31 0x9))),
    .set 64 (.mul (.cast 64 (.a 32 0 7)) (.mul (.a 32 1 7) (.lit 31 0x9))),
    .set 64 (.mul (.cast 64 (.a 32 0 7)) (.mul (.a 32 1 6) (.lit 31 0x9))),
    .set 64 (.mul (.cast 64 (.a 32 0 7)) (.mul (.a 32 1 5) (.lit 31 0x9))),
    .set 64 (.mul (.cast 64 (.a 32 0 7)) (.mul (.a 32 1 4) (.lit 31 0x9))),
    .set 64 (.mul (.cast 64 (.a 32 0 7)) (.mul (.a 32 1 3) (.lit 31 0x12))),
    .set 64 (.mul (.cast 64 (.a 32 0 6)) (.mul (.a 32 1 9) (.lit 31 0x9))),
    .set 64 (.mul (.cast 64 (.a 32 0 6)) (.mul (.a 32 1 8) (.lit 31 0x9))),
    .set 64 (.mul (.cast 64 (.a 32 0 6)) (.mul (.a 32 1 7) (.lit 31 0x9))),
    .set 64 (.mul (.cast 64 (.a 32 0 6)) (.mul (.a 32 1 6) (.lit 31 0x9))),
    .set 64 (.mul (.cast 64 (.a 32 0 6)) (.mul (.a 32 1 5) (.lit 31 0x9))),
    .set 64 (.mul (.cast 64 (.a 32 0 6)) (.mul (.a 32 1 4) (.lit 31 0x12))),
    .set 64 (.mul (.cast 64 (.a 32 0 5)) (.mul (.a 32 1 9) (.lit 31 0x9))),
    .set 64 (.mul (.cast 64 (.a 32 0 5)) (.mul (.a 32 1 8) (.lit 31 0x9))),
    .set 64 (.mul (.cast 64 (.a 32 0 5)) (.mul (.a 32 1 7) (.lit 31 0x9))),
    .set 64 (.mul (.cast 64 (.a 32 0 5)) (.mul (.a 32 1 6) (.lit 31 0x9))),
    .set 64 (.mul (.cast 64 (.a 32 0 5)) (.mul (.a 32 1 5) (.lit 31 0x12))),
    .set 64 (.mul (.cast 64 (.a 32 0 4)) (.mul (.a 32 1 9) (.lit 31 0x9))),
    .set 64 (.mul (.cast 64 (.a 32 0 4)) (.mul (.a 32 1 8) (.lit 31 0x9))),
    .set 64 (.mul (.cast 64 (.a 32 0 4)) (.mul (.a 32 1 7) (.lit 31 0x9))),
    .set 64 (.mul (.cast 64 (.a 32 0 4)) (.mul (.a 32 1 6) (.lit 31 0x12))),
    .set 64 (.mul (.cast 64 (.a 32 0 3)) (.mul (.a 32 1 9) (.lit 31 0x9))),
    .set 64 (.mul (.cast 64 (.a 32 0 3)) (.mul (.a 32 1 8) (.lit 31 0x9))),
    .set 64 (.mul (.cast 64 (.a 32 0 3)) (.mul (.a 32 1 7) (.lit 31 0x12))),
    .set 64 (.mul (.cast 64 (.a 32 0 2)) (.mul (.a 32 1 9) (.lit 31 0x9))),
    .set 64 (.mul (.cast 64 (.a 32 0 2)) (.mul (.a 32 1 8) (.lit 31 0x12))),
    .set 64 (.mul (.cast 64 (.a 32 0 1)) (.mul (.a 32 1 9) (.lit 31 0x12))),
    .set 64 (.mul (.cast 64 (.a 32 0 9)) (.a 32 1 0)),
    .set 64 (.mul (.cast 64 (.a 32 0 8)) (.mul (.a 32 1 1) (.lit 31 0x2))),
    .set 64 (.mul (.cast 64 (.a 32 0 8)) (.a 32 1 0)),
    .set 64 (.mul (.cast 64 (.a 32 0 7)) (.mul (.a 32 1 2) (.lit 31 0x2))),
    .set 64 (.mul (.cast 64 (.a 32 0 7)) (.mul (.a 32 1 1) (.lit 31 0x2))),
    .set 64 (.mul (.cast 64 (.a 32 0 7)) (.a 32 1 0)),
    .set 64 (.mul (.cast 64 (.a 32 0 6)) (.mul (.a 32 1 3) (.lit 31 0x2))),
    .set 64 (.mul (.cast 64 (.a 32 0 6)) (.mul (.a 32 1 2) (.lit 31 0x2))),
    .set 64 (.mul (.cast 64 (.a 32 0 6)) (.mul (.a 32 1 1) (.lit 31 0x2))),
    .set 64 (.mul (.cast 64 (.a 32 0 6)) (.a 32 1 0)),
    .set 64 (.mul (.cast 64 (.a 32 0 5)) (.mul (.a 32 1 4) (.lit 31 0x2))),
    .set 64 (.mul (.cast 64 (.a 32 0 5)) (.mul (.a 32 1 3) (.lit 31 0x2))),
    .set 64 (.mul (.cast 64 (.a 32 0 5)) (.mul (.a 32 1 2) (.lit 31 0x2))),
    .set 64 (.mul (.cast 64 (.a 32 0 5)) (.mul (.a 32 1 1) (.lit 31 0x2))),
    .set 64 (.mul (.cast 64 (.a 32 0 5)) (.a 32 1 0)),
    .set 64 (.mul (.cast 64 (.a 32 0 4)) (.mul (.a 32 1 5) (.lit 31 0x2))),
    .set 64 (.mul (.cast 64 (.a 32 0 4)) (.mul (.a 32 1 4) (.lit 31 0x2))),
    .set 64 (.mul (.cast 64 (.a 32 0 4)) (.mul (.a 32 1 3) (.lit 31 0x2))),
    .set 64 (.mul (.cast 64 (.a 32 0 4)) (.mul (.a 32 1 2) (.lit 31 0x2))),
    .set 64 (.mul (.cast 64 (.a 32 0 4)) (.mul (.a 32 1 1) (.lit 31 0x2))),
    .set 64 (.mul (.cast 64 (.a 32 0 4)) (.a 32 1 0)),
    .set 64 (.mul (.cast 64 (.a 32 0 3)) (.mul (.a 32 1 6) (.lit 31 0x2))),
    .set 64 (.mul (.cast 64 (.a 32 0 3)) (.mul (.a 32 1 5) (.lit 31 0x2))),
    .set 64 (.mul (.cast 64 (.a 32 0 3)) (.mul (.a 32 1 4) (.lit 31 0x2))),
    .set 64 (.mul (.cast 64 (.a 32 0 3)) (.mul (.a 32 1 3) (.lit 31 0x2))),
    .set 64 (.mul (.cast 64 (.a 32 0 3)) (.mul (.a 32 1 2) (.lit 31 0x2))),
    .set 64 (.mul (.cast 64 (.a 32 0 3)) (.mul (.a 32 1 1) (.lit 31 0x2))),
    .set 64 (.mul (.cast 64 (.a 32 0 3)) (.a 32 1 0)),
    .set 64 (.mul (.cast 64 (.a 32 0 2)) (.mul (.a 32 1 7) (.lit 31 0x2))),
    .set 64 (.mul (.cast 64 (.a 32 0 2)) (.mul (.a 32 1 6) (.lit 31 0x2))),
    .set 64 (.mul (.cast 64 (.a 32 0 2)) (.mul (.a 32 1 5) (.lit 31 0x2))),
    .set 64 (.mul (.cast 64 (.a 32 0 2)) (.mul (.a 32 1 4) (.lit 31 0x2))),
    .set 64 (.mul (.cast 64 (.a 32 0 2)) (.mul (.a 32 1 3) (.lit 31 0x2))),
    .set 64 (.mul (.cast 64 (.a 32 0 2)) (.mul (.a 32 1 2) (.lit 31 0x2))),
    .set 64 (.mul (.cast 64 (.a 32 0 2)) (.mul (.a 32 1 1) (.lit 31 0x2))),
    .set 64 (.mul (.cast 64 (.a 32 0 2)) (.a 32 1 0)),
    .set 64 (.mul (.cast 64 (.a 32 0 1)) (.mul (.a 32 1 8) (.lit 31 0x2))),
    .set 64 (.mul (.cast 64 (.a 32 0 1)) (.mul (.a 32 1 7) (.lit 31 0x2))),
    .set 64 (.mul (.cast 64 (.a 32 0 1)) (.mul (.a 32 1 6) (.lit 31 0x2))),
    .set 64 (.mul (.cast 64 (.a 32 0 1)) (.mul (.a 32 1 5) (.lit 31 0x2))),
    .set 64 (.mul (.cast 64 (.a 32 0 1)) (.mul (.a 32 1 4) (.lit 31 0x2))),
    .set 64 (.mul (.cast 64 (.a 32 0 1)) (.mul (.a 32 1 3) (.lit 31 0x2))),
    .set 64 (.mul (.cast 64 (.a 32 0 1)) (.mul (.a 32 1 2) (.lit 31 0x2))),
    .set 64 (.mul (.cast 64 (.a 32 0 1)) (.mul (.a 32 1 1) (.lit 31 0x2))),
    .set 64 (.mul (.cast 64 (.a 32 0 1)) (.a 32 1 0)),
    .set 64 (.mul (.cast 64 (.a 32 0 0)) (.a 32 1 9)),
    .set 64 (.mul (.cast 64 (.a 32 0 0)) (.a 32 1 8)),
    .set 64 (.mul (.cast 64 (.a 32 0 0)) (.a 32 1 7)),
    .set 64 (.mul (.cast 64 (.a 32 0 0)) (.a 32 1 6)),
    .set 64 (.mul (.cast 64 (.a 32 0 0)) (.a 32 1 5)),
    .set 64 (.mul (.cast 64 (.a 32 0 0)) (.a 32 1 4)),
    .set 64 (.mul (.cast 64 (.a 32 0 0)) (.a 32 1 3)),
    .set 64 (.mul (.cast 64 (.a 32 0 0)) (.a 32 1 2)),
    .set 64 (.mul (.cast 64 (.a 32 0 0)) (.a 32 1 1)),
    .set 64 (.mul (.cast 64 (.a 32 0 0)) (.a 32 1 0)),
    .set 64 (.add (.x 99) (.add (.x 44) (.add (.x 43) (.add (.x 41) (.add (.x 38) (.add (.x 34) (.add (.x 29) (.add (.x 23) (.add (.x 16) (.x 8)))))))))),
    .set 64 (.shr (.x 100) 26),
    .set 32 (.cast 32 (.land (.x 100) (.lit 32 0x3ffffff))),
    .set 64 (.add (.x 90) (.add (.x 81) (.add (.x 73) (.add (.x 66) (.add (.x 60) (.add (.x 55) (.add (.x 51) (.add (.x 48) (.add (.x 46) (.x 45)))))))))),
    .set 64 (.add (.x 91) (.add (.x 82) (.add (.x 74) (.add (.x 67) (.add (.x 61) (.add (.x 56) (.add (.x 52) (.add (.x 49) (.add (.x 47) (.x 0)))))))))),
    .set 64 (.add (.x 92) (.add (.x 83) (.add (.x 75) (.add (.x 68) (.add (.x 62) (.add (.x 57) (.add (.x 53) (.add (.x 50) (.add (.x 9) (.x 1)))))))))),
    .set 64 (.add (.x 93) (.add (.x 84) (.add (.x 76) (.add (.x 69) (.add (.x 63) (.add (.x 58) (.add (.x 54) (.add (.x 17) (.add (.x 10) (.x 2)))))))))),
    .set 64 (.add (.x 94) (.add (.x 85) (.add (.x 77) (.add (.x 70) (.add (.x 64) (.add (.x 59) (.add (.x 24) (.add (.x 18) (.add (.x 11) (.x 3)))))))))),
    .set 64 (.add (.x 95) (.add (.x 86) (.add (.x 78) (.add (.x 71) (.add (.x 65) (.add (.x 30) (.add (.x 25) (.add (.x 19) (.add (.x 12) (.x 4)))))))))),
    .set 64 (.add (.x 96) (.add (.x 87) (.add (.x 79) (.add (.x 72) (.add (.x 35) (.add (.x 31) (.add (.x 26) (.add (.x 20) (.add (.x 13) (.x 5)))))))))),
    .set 64 (.add (.x 97) (.add (.x 88) (.add (.x 80) (.add (.x 39) (.add (.x 36) (.add (.x 32) (.add (.x 27) (.add (.x 21) (.add (.x 14) (.x 6)))))))))),
    .set 64 (.add (.x 98) (.add (.x 89) (.add (.x 42) (.add (.x 40) (.add (.x 37) (.add (.x 33) (.add (.x 28) (.add (.x 22) (.add (.x 15) (.x 7)))))))))),
    .set 64 (.add (.x 101) (.x 111)),
    .set 64 (.shr (.x 112) 25),
    .set 32 (.cast 32 (.land (.x 112) (.lit 32 0x1ffffff))),
    .set 64 (.add (.x 113) (.x 110)),
    .set 64 (.shr (.x 115) 25),
    .set 32 (.cast 32 (.land (.x 115) (.lit 32 0x1ffffff))),
    .set 64 (.add (.x 116) (.x 109)),
    .set 64 (.shr (.x 118) 25),
    .set 32 (.cast 32 (.land (.x 118) (.lit 32 0x1ffffff))),
    .set 64 (.add (.x 119) (.x 108)),
    .set 64 (.shr (.x 121) 25),
    .set 32 (.cast 32 (.land (.x 121) (.lit 32 0x1ffffff))),
    .set 64 (.add (.x 122) (.x 107)),
    .set 64 (.shr (.x 124) 25),
    .set 32 (.cast 32 (.land (.x 124) (.lit 32 0x1ffffff))),
    .set 64 (.add (.x 125) (.x 106)),
    .set 64 (.shr (.x 127) 25),
    .set 32 (.cast 32 (.land (.x 127) (.lit 32 0x1ffffff))),
    .set 64 (.add (.x 128) (.x 105)),
    .set 64 (.shr (.x 130) 25),
    .set 32 (.cast 32 (.land (.x 130) (.lit 32 0x1ffffff))),
    .set 64 (.add (.x 131) (.x 104)),
    .set 64 (.shr (.x 133) 25),
    .set 32 (.cast 32 (.land (.x 133) (.lit 32 0x1ffffff))),
    .set 64 (.add (.x 134) (.x 103)),
    .set 64 (.shr (.x 136) 25),
    .set 32 (.cast 32 (.land (.x 136) (.lit 32 0x1ffffff))),
    .set 64 (.mul (.x 137) (.lit 31 0x9)),
    .set 64 (.add (.x 102) (.x 139)),
    .set 32 (.cast 32 (.shr (.x 140) 26)),
    .set 32 (.cast 32 (.land (.x 140) (.lit 32 0x3ffffff))),
    .set 32 (.add (.x 141) (.x 114)),
    .set 8 (.cast 8 (.shr (.x 143) 25)),
    .set 32 (.land (.x 143) (.lit 32 0x1ffffff)),
    .set 32 (.add (.x 144) (.x 117))]
  outs := [.x 142, .x 145, .x 146, .x 120, .x 123, .x 126, .x 129, .x 132, .x 135, .x 138]

/-- src/fields/p251_32.h:672-923 `fiat_p251_carry_square`. -/
def p251_carry_square : Prog where
  body := [
    .set 32 (.mul (.a 32 0 9) (.lit 31 0x9)),
    .set 32 (.mul (.x 0) (.lit 31 0x2)),
    .set 32 (.mul (.a 32 0 9) (.lit 31 0x2)),
    .set 32 (.mul (.a 32 0 8) (.lit 31 0x9)),
    .set 32 (.mul (.x 3) (.lit 31 0x2)),
    .set 32 (.mul (.a 32 0 8) (.lit 31 0x2)),
    .set 32 (.mul (.a 32 0 7) (.lit 31 0x9)),
    .set 32 (.mul (.x 6) (.lit 31 0x2)),
    .set 32 (.mul (.a 32 0 7) (.lit 31 0x2)),
    .set 32 (.mul (.a 32 0 6) (.lit 31 0x9)),
    .set 32 (.mul (.x 9) (.lit 31 0x2)),
    .set 32 (.mul (.a 32 0 6) (.lit 31 0x2)),
    .set 32 (.mul (.a 32 0 5) (.lit 31 0x9)),
    .set 32 (.mul (.a 32 0 5) (.lit 31 0x2)),
    .set 32 (.mul (.a 32 0 4) (.lit 31 0x2)),
    .set 32 (.mul (.a 32 0 3) (.lit 31 0x2)),
    .set 32 (.mul (.a 32 0 2) (.lit 31 0x2)),
    .set 32 (.mul (.a 32 0 1) (.lit 31 0x2)),
    .set 64 (.mul (.cast 64 (.a 32 0 9)) (.x 0)),
    .set 64 (.mul (.cast 64 (.a 32 0 8)) (.x 1)),
    .set 64 (.mul (.cast 64 (.a 32 0 8)) (.x 3)),
    .set 64 (.mul (.cast 64 (.a 32 0 7)) (.x 1)),
    .set 64 (.mul (.cast 64 (.a 32 0 7)) (.x 4)),
    .set 64 (.mul (.cast 64 (.a 32 0 7)) (.x 6)),
    .set 64 (.mul (.cast 64 (.a 32 0 6)) (.x 1)),
    .set 64 (.mul (.cast 64 (.a 32 0 6)) (.x 4)),
    .set 64 (.mul (.cast 64 (.a 32 0 6)) (.x 7)),
    .set 64 (.mul (.cast 64 (.a 32 0 6)) (.x 9)),
    .set 64 (.mul (.cast 64 (.a 32 0 5)) (.x 1)),
    .set 64 (.mul (.cast 64 (.a 32 0 5)) (.x 4)),
    .set 64 (.mul (.cast 64 (.a 32 0 5)) (.x 7)),
    .set 64 (.mul (.cast 64 (.a 32 0 5)) (.x 10)),
    .set 64 (.mul (.cast 64 (.a 32 0 5)) (.mul (.x 12) (.lit 31 0x2))),
    .set 64 (.mul (.cast 64 (.a 32 0 4)) (.x 1)),
    .set 64 (.mul (.cast 64 (.a 32 0 4)) (.x 4)),
    .set 64 (.mul (.cast 64 (.a 32 0 4)) (.x 7)),
    .set 64 (.mul (.cast 64 (.a 32 0 4)) (.mul (.x 10) (.lit 31 0x2))),
    .set 64 (.mul (.cast 64 (.a 32 0 4)) (.mul (.x 13) (.lit 31 0x2))),
    .set 64 (.mul (.cast 64 (.a 32 0 4)) (.mul (.a 32 0 4) (.lit 31 0x2))),
    .set 64 (.mul (.cast 64 (.a 32 0 3)) (.x 1)),
    .set 64 (.mul (.cast 64 (.a 32 0 3)) (.x 4)),
    .set 64 (.mul (.cast 64 (.a 32 0 3)) (.mul (.x 7) (.lit 31 0x2))),
    .set 64 (.mul (.cast 64 (.a 32 0 3)) (.mul (.x 11) (.lit 31 0x2))),
    .set 64 (.mul (.cast 64 (.a 32 0 3)) (.mul (.x 13) (.lit 31 0x2))),
    .set 64 (.mul (.cast 64 (.a 32 0 3)) (.mul (.x 14) (.lit 31 0x2))),
    .set 64 (.mul (.cast 64 (.a 32 0 3)) (.mul (.a 32 0 3) (.lit 31 0x2))),
    .set 64 (.mul (.cast 64 (.a 32 0 2)) (.x 1)),
    .set 64 (.mul (.cast 64 (.a 32 0 2)) (.mul (.x 4) (.lit 31 0x2))),
    .set 64 (.mul (.cast 64 (.a 32 0 2)) (.mul (.x 8) (.lit 31 0x2))),
    .set 64 (.mul (.cast 64 (.a 32 0 2)) (.mul (.x 11) (.lit 31 0x2))),
    .set 64 (.mul (.cast 64 (.a 32 0 2)) (.mul (.x 13) (.lit 31 0x2))),
    .set 64 (.mul (.cast 64 (.a 32 0 2)) (.mul (.x 14) (.lit 31 0x2))),
    .set 64 (.mul (.cast 64 (.a 32 0 2)) (.mul (.x 15) (.lit 31 0x2))),
    .set 64 (.mul (.cast 64 (.a 32 0 2)) (.mul (.a 32 0 2) (.lit 31 0x2))),
    .set 64 (.mul (.cast 64 (.a 32 0 1)) (.mul (.x 1) (.lit 31 0x2))),
    .set 64 (.mul (.cast 64 (.a 32 0 1)) (.mul (.x 5) (.lit 31 0x2))),
    .set 64 (.mul (.cast 64 (.a 32 0 1)) (.mul (.x 8) (.lit 31 0x2))),
    .set 64 (.mul (.cast 64 (.a 32 0 1)) (.mul (.x 11) (.lit 31 0x2))),
    .set 64 (.mul (.cast 64 (.a 32 0 1)) (.mul (.x 13) (.lit 31 0x2))),
    .set 64 (.mul (.cast 64 (.a 32 0 1)) (.mul (.x 14) (.lit 31 0x2))),
    .set 64 (.mul (.cast 64 (.a 32 0 1)) (.mul (.x 15) (.lit 31 0x2))),
    .set 64 (.mul (.cast 64 (.a 32 0 1)) (.mul (.x 16) (.lit 31 0x2))),
    .set 64 (.mul (.cast 64 (.a 32 0 1)) (.mul (.a 32 0 1) (.lit 31 0x2))),
    .set 64 (.mul (.cast 64 (.a 32 0 0)) (.x 2)),
    .set 64 (.mul (.cast 64 (.a 32 0 0)) (.x 5)),
    .set 64 (.mul (.cast 64 (.a 32 0 0)) (.x 8)),
    .set 64 (.mul (.cast 64 (.a 32 0 0)) (.x 11)),
    .set 64 (.mul (.cast 64 (.a 32 0 0)) (.x 13)),
    .set 64 (.mul (.cast 64 (.a 32 0 0)) (.x 14)),
    .set 64 (.mul (.cast 64 (.a 32 0 0)) (.x 15)),
    .set 64 (.mul (.cast 64 (.a 32 0 0)) (.x 16)),
    .set 64 (.mul (.cast 64 (.a 32 0 0)) (.x 17)),
    .set 64 (.mul (.cast 64 (.a 32 0 0)) (.a 32 0 0)),
    .set 64 (.add (.x 72) (.add (.x 54) (.add (.x 47) (.add (.x 41) (.add (.x 36) (.x 32)))))),
    .set 64 (.shr (.x 73) 26),
    .set 32 (.cast 32 (.land (.x 73) (.lit 32 0x3ffffff))),
    .set 64 (.add (.x 63) (.add (.x 55) (.add (.x 48) (.add (.x 42) (.x 37))))),
    .set 64 (.add (.x 64) (.add (.x 56) (.add (.x 49) (.add (.x 43) (.add (.x 38) (.x 18)))))),
    .set 64 (.add (.x 65) (.add (.x 57) (.add (.x 50) (.add (.x 44) (.x 19))))),
    .set 64 (.add (.x 66) (.add (.x 58) (.add (.x 51) (.add (.x 45) (.add (.x 21) (.x 20)))))),
    .set 64 (.add (.x 67) (.add (.x 59) (.add (.x 52) (.add (.x 24) (.x 22))))),
    .set 64 (.add (.x 68) (.add (.x 60) (.add (.x 53) (.add (.x 28) (.add (.x 25) (.x 23)))))),
    .set 64 (.add (.x 69) (.add (.x 61) (.add (.x 33) (.add (.x 29) (.x 26))))),
    .set 64 (.add (.x 70) (.add (.x 62) (.add (.x 39) (.add (.x 34) (.add (.x 30) (.x 27)))))),
    .set 64 (.add (.x 71) (.add (.x 46) (.add (.x 40) (.add (.x 35) (.x 31))))),
    .set 64 (.add (.x 74) (.x 84)),
    .set 64 (.shr (.x 85) 25),
    .set 32 (.cast 32 (.land (.x 85) (.lit 32 0x1ffffff))),
    .set 64 (.add (.x 86) (.x 83)),
    .set 64 (.shr (.x 88) 25),
    .set 32 (.cast 32 (.land (.x 88) (.lit 32 0x1ffffff))),
    .set 64 (.add (.x 89) (.x 82)),
    .set 64 (.shr (.x 91) 25),
    .set 32 (.cast 32 (.land (.x 91) (.lit 32 0x1ffffff))),
    .set 64 (.add (.x 92) (.x 81)),
    .set 64 (.shr (.x 94) 25),
    .set 32 (.cast 32 (.land (.x 94) (.lit 32 0x1ffffff))),
    .set 64 (.add (.x 95) (.x 80)),
    .set 64 (.shr (.x 97) 25),
    .set 32 (.cast 32 (.land (.x 97) (.lit 32 0x1ffffff))),
    .set 64 (.add (.x 98) (.x 79)),
    .set 64 (.shr (.x 100) 25),
    .set 32 (.cast 32 (.land (.x 100) (.lit 32 0x1ffffff))),
    .set 64 (.add (.x 101) (.x 78)),
    .set 64 (.shr (.x 103) 25),
    .set 32 (.cast 32 (.land (.x 103) (.lit 32 0x1ffffff))),
    .set 64 (.add (.x 104) (.x 77)),
    .set 64 (.shr (.x 106) 25),
    .set 32 (.cast 32 (.land (.x 106) (.lit 32 0x1ffffff))),
    .set 64 (.add (.x 107) (.x 76)),
    .set 64 (.shr (.x 109) 25),
    .set 32 (.cast 32 (.land (.x 109) (.lit 32 0x1ffffff))),
    .set 64 (.mul (.x 110) (.lit 31 0x9)),
    .set 64 (.add (.x 75) (.x 112)),
    .set 32 (.cast 32 (.shr (.x 113) 26)),
    .set 32 (.cast 32 (.land (.x 113) (.lit 32 0x3ffffff))),
    .set 32 (.add (.x 114) (.x 87)),
    .set 8 (.cast 8 (.shr (.x 116) 25)),
    .set 32 (.land (.x 116) (.lit 32 0x1ffffff)),
    .set 32 (.add (.x 117) (.x 90))]
  outs := [.x 115, .x 118, .x 119, .x 93, .x 96, .x 99, .x 102, .x 105, .x 108, .x 111]

/-- src/fields/p251_32.h:935-1040 `fiat_p251_carry_scmul_3`. -/
def p251_carry_scmul_3 : Prog where
  body := [
    .set 32 (.mul (.a 32 0 9) (.lit 31 0x3)),
    .set 32 (.mul (.a 32 0 8) (.lit 31 0x3)),
    .set 32 (.mul (.a 32 0 7) (.lit 31 0x3)),
    .set 32 (.mul (.a 32 0 6) (.lit 31 0x3)),
    .set 32 (.mul (.a 32 0 5) (.lit 31 0x3)),
    .set 32 (.mul (.a 32 0 4) (.lit 31 0x3)),
    .set 32 (.mul (.a 32 0 3) (.lit 31 0x3)),
    .set 32 (.mul (.a 32 0 2) (.lit 31 0x3)),
    .set 32 (.mul (.a 32 0 1) (.lit 31 0x3)),
    .set 32 (.mul (.a 32 0 0) (.lit 31 0x3)),
    .set 32 (.shr (.x 9) 26),
    .set 32 (.land (.x 9) (.lit 32 0x3ffffff)),
    .set 32 (.add (.x 10) (.x 8)),
    .set 32 (.shr (.x 12) 25),
    .set 32 (.land (.x 12) (.lit 32 0x1ffffff)),
    .set 32 (.add (.x 13) (.x 7)),
    .set 32 (.shr (.x 15) 25),
    .set 32 (.land (.x 15) (.lit 32 0x1ffffff)),
    .set 32 (.add (.x 16) (.x 6)),
    .set 32 (.shr (.x 18) 25),
    .set 32 (.land (.x 18) (.lit 32 0x1ffffff)),
    .set 32 (.add (.x 19) (.x 5)),
    .set 32 (.shr (.x 21) 25),
    .set 32 (.land (.x 21) (.lit 32 0x1ffffff)),
    .set 32 (.add (.x 22) (.x 4)),
    .set 32 (.shr (.x 24) 25),
    .set 32 (.land (.x 24) (.lit 32 0x1ffffff)),
    .set 32 (.add (.x 25) (.x 3)),
    .set 32 (.shr (.x 27) 25),
    .set 32 (.land (.x 27) (.lit 32 0x1ffffff)),
    .set 32 (.add (.x 28) (.x 2)),
    .set 32 (.shr (.x 30) 25),
    .set 32 (.land (.x 30) (.lit 32 0x1ffffff)),
    .set 32 (.add (.x 31) (.x 1)),
    .set 32 (.shr (.x 33) 25),
    .set 32 (.land (.x 33) (.lit 32 0x1ffffff)),
    .set 32 (.add (.x 34) (.x 0)),
    .set 32 (.shr (.x 36) 25),
    .set 32 (.land (.x 36) (.lit 32 0x1ffffff)),
    .set 32 (.mul (.x 37) (.lit 31 0x9)),
    .set 32 (.add (.x 11) (.x 39)),
    .set 8 (.cast 8 (.shr (.x 40) 26)),
    .set 32 (.land (.x 40) (.lit 32 0x3ffffff)),
    .set 32 (.add (.x 41) (.x 14)),
    .set 8 (.cast 8 (.shr (.x 43) 25)),
    .set 32 (.land (.x 43) (.lit 32 0x1ffffff)),
    .set 32 (.add (.x 44) (.x 17))]
  outs := [.x 42, .x 45, .x 46, .x 20, .x 23, .x 26, .x 29, .x 32, .x 35, .x 38]

/-- src/fields/p251_32.h:1052-1157 `fiat_p251_carry_scmul_4`. -/
def p251_carry_scmul_4 : Prog where
  body := [
    .set 32 (.shl (.a 32 0 9) 2),
    .set 32 (.shl (.a 32 0 8) 2),
    .set 32 (.shl (.a 32 0 7) 2),
    .set 32 (.shl (.a 32 0 6) 2),
    .set 32 (.shl (.a 32 0 5) 2),
    .set 32 (.shl (.a 32 0 4) 2),
    .set 32 (.shl (.a 32 0 3) 2),
    .set 32 (.shl (.a 32 0 2) 2),
    .set 32 (.shl (.a 32 0 1) 2),
    .set 32 (.shl (.a 32 0 0) 2),
    .set 32 (.shr (.x 9) 26),
    .set 32 (.land (.x 9) (.lit 32 0x3ffffff)),
    .set 32 (.add (.x 10) (.x 8)),
    .set 32 (.shr (.x 12) 25),
    .set 32 (.land (.x 12) (.lit 32 0x1ffffff)),
    .set 32 (.add (.x 13) (.x 7)),
    .set 32 (.shr (.x 15) 25),
    .set 32 (.land (.x 15) (.lit 32 0x1ffffff)),
    .set 32 (.add (.x 16) (.x 6)),
    .set 32 (.shr (.x 18) 25),
    .set 32 (.land (.x 18) (.lit 32 0x1ffffff)),
    .set 32 (.add (.x 19) (.x 5)),
    .set 32 (.shr (.x 21) 25),
    .set 32 (.land (.x 21) (.lit 32 0x1ffffff)),
    .set 32 (.add (.x 22) (.x 4)),
    .set 32 (.shr (.x 24) 25),
    .set 32 (.land (.x 24) (.lit 32 0x1ffffff)),
    .set 32 (.add (.x 25) (.x 3)),
    .set 32 (.shr (.x 27) 25),
    .set 32 (.land (.x 27) (.lit 32 0x1ffffff)),
    .set 32 (.add (.x 28) (.x 2)),
    .set 32 (.shr (.x 30) 25),
    .set 32 (.land (.x 30) (.lit 32 0x1ffffff)),
    .set 32 (.add (.x 31) (.x 1)),
    .set 32 (.shr (.x 33) 25),
    .set 32 (.land (.x 33) (.lit 32 0x1ffffff)),
    .set 32 (.add (.x 34) (.x 0)),
    .set 32 (.shr (.x 36) 25),
    .set 32 (.land (.x 36) (.lit 32 0x1ffffff)),
    .set 32 (.mul (.x 37) (.lit 31 0x9)),
    .set 32 (.add (.x 11) (.x 39)),
    .set 8 (.cast 8 (.shr (.x 40) 26)),
    .set 32 (.land (.x 40) (.lit 32 0x3ffffff)),
    .set 32 (.add (.x 41) (.x 14)),
    .set 8 (.cast 8 (.shr (.x 43) 25)),
    .set 32 (.land (.x 43) (.lit 32 0x1ffffff)),
    .set 32 (.add (.x 44) (.x 17))]
  outs := [.x 42, .x 45, .x 46, .x 20, .x 23, .x 26, .x 29, .x 32, .x 35, .x 38]

/-- src/fields/p251_32.h:1169-1274 `fiat_p251_carry_scmul_8`. -/
def p251_carry_scmul_8 : Prog where
  body := [
    .set 32 (.shl (.a 32 0 9) 3),
    .set 32 (.shl (.a 32 0 8) 3),
    .set 32 (.shl (.a 32 0 7) 3),
    .set 32 (.shl (.a 32 0 6) 3),
    .set 32 (.shl (.a 32 0 5) 3),
    .set 32 (.shl (.a 32 0 4) 3),
    .set 32 (.shl (.a 32 0 3) 3),
    .set 32 (.shl (.a 32 0 2) 3),
    .set 32 (.shl (.a 32 0 1) 3),
    .set 32 (.shl (.a 32 0 0) 3),
    .set 32 (.shr (.x 9) 26),
    .set 32 (.land (.x 9) (.lit 32 0x3ffffff)),
    .set 32 (.add (.x 10) (.x 8)),
    .set 32 (.shr (.x 12) 25),
    .set 32 (.land (.x 12) (.lit 32 0x1ffffff)),
    .set 32 (.add (.x 13) (.x 7)),
    .set 32 (.shr (.x 15) 25),
    .set 32 (.land (.x 15) (.lit 32 0x1ffffff)),
    .set 32 (.add (.x 16) (.x 6)),
    .set 32 (.shr (.x 18) 25),
    .set 32 (.land (.x 18) (.lit 32 0x1ffffff)),
    .set 32 (.add (.x 19) (.x 5)),
    .set 32 (.shr (.x 21) 25),
    .set 32 (.land (.x 21) (.lit 32 0x1ffffff)),
    .set 32 (.add (.x 22) (.x 4)),
    .set 32 (.shr (.x 24) 25),
    .set 32 (.land (.x 24) (.lit 32 0x1ffffff)),
    .set 32 (.add (.x 25) (.x 3)),
    .set 32 (.shr (.x 27) 25),
    .set 32 (.land (.x 27) (.lit 32 0x1ffffff)),
    .set 32 (.add (.x 28) (.x 2)),
    .set 32 (.shr (.x 30) 25),
    .set 32 (.land (.x 30) (.lit 32 0x1ffffff)),
    .set 32 (.add (.x 31) (.x 1)),
    .set 32 (.shr (.x 33) 25),
    .set 32 (.land (.x 33) (.lit 32 0x1ffffff)),
    .set 32 (.add (.x 34) (.x 0)),
    .set 32 (.shr (.x 36) 25),
    .set 32 (.land (.x 36) (.lit 32 0x1ffffff)),
    .set 32 (.mul (.x 37) (.lit 31 0x9)),
    .set 32 (.add (.x 11) (.x 39)),
    .set 8 (.cast 8 (.shr (.x 40) 26)),
    .set 32 (.land (.x 40) (.lit 32 0x3ffffff)),
    .set 32 (.add (.x 41) (.x 14)),
    .set 8 (.cast 8 (.shr (.x 43) 25)),
    .set 32 (.land (.x 43) (.lit 32 0x1ffffff)),
    .set 32 (.add (.x 44) (.x 17))]
  outs := [.x 42, .x 45, .x 46, .x 20, .x 23, .x 26, .x 29, .x 32, .x 35, .x 38]

/-- src/fields/p251_32.h:1286-1391 `fiat_p251_carry_scmul_1174`. -/
def p251_carry_scmul_1174 : Prog where
  body := [
    .set 64 (.mul (.cast 64 (.lit 31 0x496)) (.a 32 0 9)),
    .set 64 (.mul (.cast 64 (.lit 31 0x496)) (.a 32 0 8)),
    .set 64 (.mul (.cast 64 (.lit 31 0x496)) (.a 32 0 7)),
    .set 64 (.mul (.cast 64 (.lit 31 0x496)) (.a 32 0 6)),
    .set 64 (.mul (.cast 64 (.lit 31 0x496)) (.a 32 0 5)),
    .set 64 (.mul (.cast 64 (.lit 31 0x496)) (.a 32 0 4)),
    .set 64 (.mul (.cast 64 (.lit 31 0x496)) (.a 32 0 3)),
    .set 64 (.mul (.cast 64 (.lit 31 0x496)) (.a 32 0 2)),
    .set 64 (.mul (.cast 64 (.lit 31 0x496)) (.a 32 0 1)),
    .set 64 (.mul (.cast 64 (.lit 31 0x496)) (.a 32 0 0)),
    .set 32 (.cast 32 (.shr (.x 9) 26)),
    .set 32 (.cast 32 (.land (.x 9) (.lit 32 0x3ffffff))),
    .set 64 (.add (.x 10) (.x 8)),
    .set 32 (.cast 32 (.shr (.x 12) 25)),
    .set 32 (.cast 32 (.land (.x 12) (.lit 32 0x1ffffff))),
    .set 64 (.add (.x 13) (.x 7)),
    .set 32 (.cast 32 (.shr (.x 15) 25)),
    .set 32 (.cast 32 (.land (.x 15) (.lit 32 0x1ffffff))),
    .set 64 (.add (.x 16) (.x 6)),
    .set 32 (.cast 32 (.shr (.x 18) 25)),
    .set 32 (.cast 32 (.land (.x 18) (.lit 32 0x1ffffff))),
    .set 64 (.add (.x 19) (.x 5)),
    .set 32 (.cast 32 (.shr (.x 21) 25)),
    .set 32 (.cast 32 (.land (.x 21) (.lit 32 0x1ffffff))),
    .set 64 (.add (.x 22) (.x 4)),
    .set 32 (.cast 32 (.shr (.x 24) 25)),
    .set 32 (.cast 32 (.land (.x 24) (.lit 32 0x1ffffff))),
    .set 64 (.add (.x 25) (.x 3)),
    .set 32 (.cast 32 (.shr (.x 27) 25)),
    .set 32 (.cast 32 (.land (.x 27) (.lit 32 0x1ffffff))),
    .set 64 (.add (.x 28) (.x 2)),
    .set 32 (.cast 32 (.shr (.x 30) 25)),
    .set 32 (.cast 32 (.land (.x 30) (.lit 32 0x1ffffff))),
    .set 64 (.add (.x 31) (.x 1)),
    .set 32 (.cast 32 (.shr (.x 33) 25)),
    .set 32 (.cast 32 (.land (.x 33) (.lit 32 0x1ffffff))),
    .set 64 (.add (.x 34) (.x 0)),
    .set 32 (.cast 32 (.shr (.x 36) 25)),
    .set 32 (.cast 32 (.land (.x 36) (.lit 32 0x1ffffff))),
    .set 32 (.mul (.x 37) (.lit 31 0x9)),
    .set 32 (.add (.x 11) (.x 39)),
    .set 8 (.cast 8 (.shr (.x 40) 26)),
    .set 32 (.land (.x 40) (.lit 32 0x3ffffff)),
    .set 32 (.add (.x 41) (.x 14)),
    .set 8 (.cast 8 (.shr (.x 43) 25)),
    .set 32 (.land (.x 43) (.lit 32 0x1ffffff)),
    .set 32 (.add (.x 44) (.x 17))]
  outs := [.x 42, .x 45, .x 46, .x 20, .x 23, .x 26, .x 29, .x 32, .x 35, .x 38]

/-- src/fields/p251_32.h:1448-1695 `fiat_p251_to_bytes`. -/
def p251_to_bytes : Prog where
  body := [
    .subb 26 (.lit 31 0x0) (.a 32 0 0) (.lit 32 0x3fffff7),
    .subb 25 (.x 1) (.a 32 0 1) (.lit 32 0x1ffffff),
    .subb 25 (.x 3) (.a 32 0 2) (.lit 32 0x1ffffff),
    .subb 25 (.x 5) (.a 32 0 3) (.lit 32 0x1ffffff),
    .subb 25 (.x 7) (.a 32 0 4) (.lit 32 0x1ffffff),
    .subb 25 (.x 9) (.a 32 0 5) (.lit 32 0x1ffffff),
    .subb 25 (.x 11) (.a 32 0 6) (.lit 32 0x1ffffff),
    .subb 25 (.x 13) (.a 32 0 7) (.lit 32 0x1ffffff),
    .subb 25 (.x 15) (.a 32 0 8) (.lit 32 0x1ffffff),
    .subb 25 (.x 17) (.a 32 0 9) (.lit 32 0x1ffffff),
    .cmov (.x 19) (.lit 31 0x0) (.lit 32 0xffffffff),
    .addc 26 (.lit 31 0x0) (.x 0) (.land (.x 20) (.lit 32 0x3fffff7)),
    .addc 25 (.x 22) (.x 2) (.land (.x 20) (.lit 32 0x1ffffff)),
    .addc 25 (.x 24) (.x 4) (.land (.x 20) (.lit 32 0x1ffffff)),
    .addc 25 (.x 26) (.x 6) (.land (.x 20) (.lit 32 0x1ffffff)),
    .addc 25 (.x 28) (.x 8) (.land (.x 20) (.lit 32 0x1ffffff)),
    .addc 25 (.x 30) (.x 10) (.land (.x 20) (.lit 32 0x1ffffff)),
    .addc 25 (.x 32) (.x 12) (.land (.x 20) (.lit 32 0x1ffffff)),
    .addc 25 (.x 34) (.x 14) (.land (.x 20) (.lit 32 0x1ffffff)),
    .addc 25 (.x 36) (.x 16) (.land (.x 20) (.lit 32 0x1ffffff)),
    .addc 25 (.x 38) (.x 18) (.land (.x 20) (.lit 32 0x1ffffff)),
    .set 32 (.shl (.x 39) 2),
    .set 32 (.mul (.x 37) (.cast 32 (.lit 31 0x2))),
    .set 32 (.shl (.x 33) 7),
    .set 32 (.shl (.x 31) 6),
    .set 32 (.shl (.x 29) 5),
    .set 32 (.shl (.x 27) 4),
    .set 32 (.shl (.x 25) 3),
    .set 32 (.shl (.x 23) 2),
    .set 8 (.cast 8 (.land (.x 21) (.lit 31 0xff))),
    .set 32 (.shr (.x 21) 8),
    .set 8 (.cast 8 (.land (.x 50) (.lit 31 0xff))),
    .set 32 (.shr (.x 50) 8),
    .set 8 (.cast 8 (.land (.x 52) (.lit 31 0xff))),
    .set 8 (.cast 8 (.shr (.x 52) 8)),
    .set 32 (.add (.x 48) (.cast 32 (.x 54))),
    .set 8 (.cast 8 (.land (.x 55) (.lit 31 0xff))),
    .set 32 (.shr (.x 55) 8),
    .set 8 (.cast 8 (.land (.x 57) (.lit 31 0xff))),
    .set 32 (.shr (.x 57) 8),
    .set 8 (.cast 8 (.land (.x 59) (.lit 31 0xff))),
    .set 8 (.cast 8 (.shr (.x 59) 8)),
    .set 32 (.add (.x 47) (.cast 32 (.x 61))),
    .set 8 (.cast 8 (.land (.x 62) (.lit 31 0xff))),
    .set 32 (.shr (.x 62) 8),
    .set 8 (.cast 8 (.land (.x 64) (.lit 31 0xff))),
    .set 32 (.shr (.x 64) 8),
    .set 8 (.cast 8 (.land (.x 66) (.lit 31 0xff))),
    .set 8 (.cast 8 (.shr (.x 66) 8)),
    .set 32 (.add (.x 46) (.cast 32 (.x 68))),
    .set 8 (.cast 8 (.land (.x 69) (.lit 31 0xff))),
    .set 32 (.shr (.x 69) 8),
    .set 8 (.cast 8 (.land (.x 71) (.lit 31 0xff))),
    .set 32 (.shr (.x 71) 8),
    .set 8 (.cast 8 (.land (.x 73) (.lit 31 0xff))),
    .set 8 (.cast 8 (.shr (.x 73) 8)),
    .set 32 (.add (.x 45) (.cast 32 (.x 75))),
    .set 8 (.cast 8 (.land (.x 76) (.lit 31 0xff))),
    .set 32 (.shr (.x 76) 8),
    .set 8 (.cast 8 (.land (.x 78) (.lit 31 0xff))),
    .set 32 (.shr (.x 78) 8),
    .set 8 (.cast 8 (.land (.x 80) (.lit 31 0xff))),
    .set 8 (.cast 8 (.shr (.x 80) 8)),
    .set 32 (.add (.x 44) (.cast 32 (.x 82))),
    .set 8 (.cast 8 (.land (.x 83) (.lit 31 0xff))),
    .set 32 (.shr (.x 83) 8),
    .set 8 (.cast 8 (.land (.x 85) (.lit 31 0xff))),
    .set 32 (.shr (.x 85) 8),
    .set 8 (.cast 8 (.land (.x 87) (.lit 31 0xff))),
    .set 8 (.cast 8 (.shr (.x 87) 8)),
    .set 32 (.add (.x 43) (.cast 32 (.x 89))),
    .set 8 (.cast 8 (.land (.x 90) (.lit 31 0xff))),
    .set 32 (.shr (.x 90) 8),
    .set 8 (.cast 8 (.land (.x 92) (.lit 31 0xff))),
    .set 32 (.shr (.x 92) 8),
    .set 8 (.cast 8 (.land (.x 94) (.lit 31 0xff))),
    .set 8 (.cast 8 (.shr (.x 94) 8)),
    .set 8 (.cast 8 (.land (.x 35) (.lit 31 0xff))),
    .set 32 (.shr (.x 35) 8),
    .set 8 (.cast 8 (.land (.x 98) (.lit 31 0xff))),
    .set 32 (.shr (.x 98) 8),
    .set 8 (.cast 8 (.land (.x 100) (.lit 31 0xff))),
    .set 8 (.cast 8 (.shr (.x 100) 8)),
    .set 32 (.add (.x 42) (.cast 32 (.x 102))),
    .set 8 (.cast 8 (.land (.x 103) (.lit 31 0xff))),
    .set 32 (.shr (.x 103) 8),
    .set 8 (.cast 8 (.land (.x 105) (.lit 31 0xff))),
    .set 32 (.shr (.x 105) 8),
    .set 8 (.cast 8 (.land (.x 107) (.lit 31 0xff))),
    .set 8 (.cast 8 (.shr (.x 107) 8)),
    .set 32 (.add (.x 41) (.cast 32 (.x 109))),
    .set 8 (.cast 8 (.land (.x 110) (.lit 31 0xff))),
    .set 32 (.shr (.x 110) 8),
    .set 8 (.cast 8 (.land (.x 112) (.lit 31 0xff))),
    .set 32 (.shr (.x 112) 8),
    .set 8 (.cast 8 (.land (.x 114) (.lit 31 0xff))),
    .set 8 (.cast 8 (.shr (.x 114) 8))]
  outs := [.x 49, .x 51, .x 53, .x 56, .x 58, .x 60, .x 63, .x 65, .x 67, .x 70, .x 72, .x 74, .x 77, .x 79, .x 81, .x 84, .x 86, .x 88, .x 91, .x 93, .x 95, .x 96, .x 97, .x 99, .x 101, .x 104, .x 106, .x 108, .x 111, .x 113, .x 115, .x 116]

/-- src/fields/p251_32.h:1707-1874 `fiat_p251_from_bytes`. -/
def p251_from_bytes : Prog where
  body := [
    .set 32 (.shl (.cast 32 (.a 8 0 31)) 22),
    .set 32 (.shl (.cast 32 (.a 8 0 30)) 14),
    .set 32 (.shl (.cast 32 (.a 8 0 29)) 6),
    .set 32 (.shl (.cast 32 (.a 8 0 28)) 23),
    .set 32 (.shl (.cast 32 (.a 8 0 27)) 15),
    .set 32 (.shl (.cast 32 (.a 8 0 26)) 7),
    .set 32 (.shl (.cast 32 (.a 8 0 25)) 24),
    .set 32 (.shl (.cast 32 (.a 8 0 24)) 16),
    .set 32 (.shl (.cast 32 (.a 8 0 23)) 8),
    .set 8 (.a 8 0 22),
    .set 32 (.shl (.cast 32 (.a 8 0 21)) 17),
    .set 32 (.shl (.cast 32 (.a 8 0 20)) 9),
    .set 32 (.mul (.cast 32 (.a 8 0 19)) (.lit 31 0x2)),
    .set 32 (.shl (.cast 32 (.a 8 0 18)) 18),
    .set 32 (.shl (.cast 32 (.a 8 0 17)) 10),
    .set 32 (.shl (.cast 32 (.a 8 0 16)) 2),
    .set 32 (.shl (.cast 32 (.a 8 0 15)) 19),
    .set 32 (.shl (.cast 32 (.a 8 0 14)) 11),
    .set 32 (.shl (.cast 32 (.a 8 0 13)) 3),
    .set 32 (.shl (.cast 32 (.a 8 0 12)) 20),
    .set 32 (.shl (.cast 32 (.a 8 0 11)) 12),
    .set 32 (.shl (.cast 32 (.a 8 0 10)) 4),
    .set 32 (.shl (.cast 32 (.a 8 0 9)) 21),
    .set 32 (.shl (.cast 32 (.a 8 0 8)) 13),
    .set 32 (.shl (.cast 32 (.a 8 0 7)) 5),
    .set 32 (.shl (.cast 32 (.a 8 0 6)) 22),
    .set 32 (.shl (.cast 32 (.a 8 0 5)) 14),
    .set 32 (.shl (.cast 32 (.a 8 0 4)) 6),
    .set 32 (.shl (.cast 32 (.a 8 0 3)) 24),
    .set 32 (.shl (.cast 32 (.a 8 0 2)) 16),
    .set 32 (.shl (.cast 32 (.a 8 0 1)) 8),
    .set 8 (.a 8 0 0),
    .set 32 (.add (.x 30) (.cast 32 (.x 31))),
    .set 32 (.add (.x 29) (.x 32)),
    .set 32 (.add (.x 28) (.x 33)),
    .set 32 (.land (.x 34) (.lit 32 0x3ffffff)),
    .set 8 (.cast 8 (.shr (.x 34) 26)),
    .set 32 (.add (.x 27) (.cast 32 (.x 36))),
    .set 32 (.add (.x 26) (.x 37)),
    .set 32 (.add (.x 25) (.x 38)),
    .set 32 (.land (.x 39) (.lit 32 0x1ffffff)),
    .set 8 (.cast 8 (.shr (.x 39) 25)),
    .set 32 (.add (.x 24) (.cast 32 (.x 41))),
    .set 32 (.add (.x 23) (.x 42)),
    .set 32 (.add (.x 22) (.x 43)),
    .set 32 (.land (.x 44) (.lit 32 0x1ffffff)),
    .set 8 (.cast 8 (.shr (.x 44) 25)),
    .set 32 (.add (.x 21) (.cast 32 (.x 46))),
    .set 32 (.add (.x 20) (.x 47)),
    .set 32 (.add (.x 19) (.x 48)),
    .set 32 (.land (.x 49) (.lit 32 0x1ffffff)),
    .set 8 (.cast 8 (.shr (.x 49) 25)),
    .set 32 (.add (.x 18) (.cast 32 (.x 51))),
    .set 32 (.add (.x 17) (.x 52)),
    .set 32 (.add (.x 16) (.x 53)),
    .set 32 (.land (.x 54) (.lit 32 0x1ffffff)),
    .set 8 (.cast 8 (.shr (.x 54) 25)),
    .set 32 (.add (.x 15) (.cast 32 (.x 56))),
    .set 32 (.add (.x 14) (.x 57)),
    .set 32 (.add (.x 13) (.x 58)),
    .set 32 (.land (.x 59) (.lit 32 0x1ffffff)),
    .set 8 (.cast 8 (.shr (.x 59) 25)),
    .set 32 (.add (.x 12) (.cast 32 (.x 61))),
    .set 32 (.add (.x 11) (.x 62)),
    .set 32 (.add (.x 10) (.x 63)),
    .set 32 (.add (.x 8) (.cast 32 (.x 9))),
    .set 32 (.add (.x 7) (.x 65)),
    .set 32 (.add (.x 6) (.x 66)),
    .set 32 (.land (.x 67) (.lit 32 0x1ffffff)),
    .set 8 (.cast 8 (.shr (.x 67) 25)),
    .set 32 (.add (.x 5) (.cast 32 (.x 69))),
    .set 32 (.add (.x 4) (.x 70)),
    .set 32 (.add (.x 3) (.x 71)),
    .set 32 (.land (.x 72) (.lit 32 0x1ffffff)),
    .set 8 (.cast 8 (.shr (.x 72) 25)),
    .set 32 (.add (.x 2) (.cast 32 (.x 74))),
    .set 32 (.add (.x 1) (.x 75)),
    .set 32 (.add (.x 0) (.x 76))]
  outs := [.x 35, .x 40, .x 45, .x 50, .x 55, .x 60, .x 64, .x 68, .x 73, .x 77]

end Torsion.Fiat.W32
