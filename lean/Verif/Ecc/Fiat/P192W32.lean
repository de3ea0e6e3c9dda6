import Verif.Ecc.Fiat.Lang

/-!
# Model of src/fields/p192_32.h (written by tools/fiat.py)
-/
namespace Torsion.Fiat.W32

/-- src/fields/p192_32.h:157-185 `fiat_p192_add`. -/
def p192_add : Prog where
  body := [
    .set 32 (.add (.a 32 0 0) (.a 32 1 0)),
    .set 32 (.add (.a 32 0 1) (.a 32 1 1)),
    .set 32 (.add (.a 32 0 2) (.a 32 1 2)),
    .set 32 (.add (.a 32 0 3) (.a 32 1 3)),
    .set 32 (.add (.a 32 0 4) (.a 32 1 4)),
    .set 32 (.add (.a 32 0 5) (.a 32 1 5)),
    .set 32 (.add (.a 32 0 6) (.a 32 1 6)),
    .set 32 (.add (.a 32 0 7) (.a 32 1 7)),
    .set 32 (.add (.a 32 0 8) (.a 32 1 8))]
  outs := [.x 0, .x 1, .x 2, .x 3, .x 4, .x 5, .x 6, .x 7, .x 8]

/-- src/fields/p192_32.h:198-226 `fiat_p192_sub`. -/
def p192_sub : Prog where
  body := [
    .set 32 (.sub (.add (.lit 32 0x7ffffe) (.a 32 0 0)) (.a 32 1 0)),
    .set 32 (.sub (.add (.lit 32 0x3ffffe) (.a 32 0 1)) (.a 32 1 1)),
    .set 32 (.sub (.add (.lit 32 0x3ffffe) (.a 32 0 2)) (.a 32 1 2)),
    .set 32 (.sub (.add (.lit 32 0x7ffffc) (.a 32 0 3)) (.a 32 1 3)),
    .set 32 (.sub (.add (.lit 32 0x3ffffe) (.a 32 0 4)) (.a 32 1 4)),
    .set 32 (.sub (.add (.lit 32 0x3ffffe) (.a 32 0 5)) (.a 32 1 5)),
    .set 32 (.sub (.add (.lit 32 0x7ffffe) (.a 32 0 6)) (.a 32 1 6)),
    .set 32 (.sub (.add (.lit 32 0x3ffffe) (.a 32 0 7)) (.a 32 1 7)),
    .set 32 (.sub (.add (.lit 32 0x3ffffe) (.a 32 0 8)) (.a 32 1 8))]
  outs := [.x 0, .x 1, .x 2, .x 3, .x 4, .x 5, .x 6, .x 7, .x 8]

/-- src/fields/p192_32.h:238-266 `fiat_p192_opp`. -/
def p192_opp : Prog where
  body := [
    .set 32 (.sub (.lit 32 0x7ffffe) (.a 32 0 0)),
    .set 32 (.sub (.lit 32 0x3ffffe) (.a 32 0 1)),
    .set 32 (.sub (.lit 32 0x3ffffe) (.a 32 0 2)),
    .set 32 (.sub (.lit 32 0x7ffffc) (.a 32 0 3)),
    .set 32 (.sub (.lit 32 0x3ffffe) (.a 32 0 4)),
    .set 32 (.sub (.lit 32 0x3ffffe) (.a 32 0 5)),
    .set 32 (.sub (.lit 32 0x7ffffe) (.a 32 0 6)),
    .set 32 (.sub (.lit 32 0x3ffffe) (.a 32 0 7)),
    .set 32 (.sub (.lit 32 0x3ffffe) (.a 32 0 8))]
  outs := [.x 0, .x 1, .x 2, .x 3, .x 4, .x 5, .x 6, .x 7, .x 8]

/-- src/fields/p192_32.h:278-336 `fiat_p192_carry`. -/
def p192_carry : Prog where
  body := [
    .set 32 (.a 32 0 2),
    .set 32 (.a 32 0 8),
    .set 32 (.shr (.x 1) 21),
    .set 32 (.add (.add (.shr (.x 0) 21) (.a 32 0 3)) (.x 2)),
    .set 32 (.add (.a 32 0 0) (.x 2)),
    .set 32 (.add (.shr (.x 3) 22) (.a 32 0 4)),
    .set 32 (.add (.shr (.x 4) 22) (.a 32 0 1)),
    .set 32 (.add (.shr (.x 5) 21) (.a 32 0 5)),
    .set 32 (.add (.shr (.x 6) 21) (.land (.x 0) (.lit 32 0x1fffff))),
    .set 32 (.add (.shr (.x 7) 21) (.a 32 0 6)),
    .set 32 (.add (.shr (.x 9) 22) (.a 32 0 7)),
    .set 32 (.add (.shr (.x 10) 21) (.land (.x 1) (.lit 32 0x1fffff))),
    .set 8 (.cast 8 (.shr (.x 11) 21)),
    .set 32 (.add (.add (.cast 8 (.shr (.x 8) 21)) (.land (.x 3) (.lit 32 0x3fffff))) (.cast 32 (.x 12))),
    .set 32 (.add (.land (.x 4) (.lit 32 0x3fffff)) (.cast 32 (.x 12))),
    .set 32 (.land (.x 14) (.lit 32 0x3fffff)),
    .set 32 (.add (.cast 8 (.shr (.x 14) 22)) (.land (.x 6) (.lit 32 0x1fffff))),
    .set 32 (.land (.x 8) (.lit 32 0x1fffff)),
    .set 32 (.land (.x 13) (.lit 32 0x3fffff)),
    .set 32 (.add (.cast 8 (.shr (.x 13) 22)) (.land (.x 5) (.lit 32 0x1fffff))),
    .set 32 (.land (.x 7) (.lit 32 0x1fffff)),
    .set 32 (.land (.x 9) (.lit 32 0x3fffff)),
    .set 32 (.land (.x 10) (.lit 32 0x1fffff)),
    .set 32 (.land (.x 11) (.lit 32 0x1fffff))]
  outs := [.x 15, .x 16, .x 17, .x 18, .x 19, .x 20, .x 21, .x 22, .x 23]

/-- src/fields/p192_32.h:349-699 `fiat_p192_carry_mul`. -/
def p192_carry_mul : Prog where
  body := [
    .set 64 (.mul (.cast 64 (.a 32 0 8)) (.a 32 1 8)),
    .set 64 (.mul (.cast 64 (.a 32 0 8)) (.mul (.a 32 1 7) (.lit 31 0x2))),
    .set 64 (.mul (.cast 64 (.a 32 0 7)) (.mul (.a 32 1 8) (.lit 31 0x2))),
    .set 64 (.mul (.cast 64 (.a 32 0 8)) (.a 32 1 8)),
    .set 64 (.mul (.cast 64 (.a 32 0 8)) (.mul (.a 32 1 7) (.lit 31 0x2))),
    .set 64 (.mul (.cast 64 (.a 32 0 7)) (.mul (.a 32 1 8) (.lit 31 0x2))),
    .set 64 (.mul (.cast 64 (.a 32 0 8)) (.a 32 1 8)),
    .set 64 (.mul (.cast 64 (.a 32 0 8)) (.mul (.a 32 1 7) (.lit 31 0x2))),
    .set 64 (.mul (.cast 64 (.a 32 0 8)) (.a 32 1 6)),
    .set 64 (.mul (.cast 64 (.a 32 0 8)) (.a 32 1 5)),
    .set 64 (.mul (.cast 64 (.a 32 0 8)) (.mul (.a 32 1 4) (.lit 31 0x2))),
    .set 64 (.mul (.cast 64 (.a 32 0 8)) (.a 32 1 3)),
    .set 64 (.mul (.cast 64 (.a 32 0 8)) (.a 32 1 2)),
    .set 64 (.mul (.cast 64 (.a 32 0 8)) (.mul (.a 32 1 1) (.lit 31 0x2))),
    .set 64 (.mul (.cast 64 (.a 32 0 7)) (.mul (.a 32 1 8) (.lit 31 0x2))),
    .set 64 (.mul (.cast 64 (.a 32 0 7)) (.mul (.a 32 1 7) (.lit 31 0x2))),
    .set 64 (.mul (.cast 64 (.a 32 0 7)) (.a 32 1 6)),
    .set 64 (.mul (.cast 64 (.a 32 0 7)) (.mul (.a 32 1 5) (.lit 31 0x2))),
    .set 64 (.mul (.cast 64 (.a 32 0 7)) (.mul (.a 32 1 4) (.lit 31 0x2))),
    .set 64 (.mul (.cast 64 (.a 32 0 7)) (.a 32 1 3)),
    .set 64 (.mul (.cast 64 (.a 32 0 7)) (.mul (.a 32 1 2) (.lit 31 0x2))),
    .set 64 (.mul (.cast 64 (.a 32 0 6)) (.a 32 1 8)),
    .set 64 (.mul (.cast 64 (.a 32 0 6)) (.a 32 1 7)),
    .set 64 (.mul (.cast 64 (.a 32 0 6)) (.a 32 1 6)),
    .set 64 (.mul (.cast 64 (.a 32 0 6)) (.a 32 1 5)),
    .set 64 (.mul (.cast 64 (.a 32 0 6)) (.a 32 1 4)),
    .set 64 (.mul (.cast 64 (.a 32 0 6)) (.a 32 1 3)),
    .set 64 (.mul (.cast 64 (.a 32 0 5)) (.a 32 1 8)),
    .set 64 (.mul (.cast 64 (.a 32 0 5)) (.mul (.a 32 1 7) (.lit 31 0x2))),
    .set 64 (.mul (.cast 64 (.a 32 0 5)) (.a 32 1 6)),
    .set 64 (.mul (.cast 64 (.a 32 0 5)) (.a 32 1 5)),
    .set 64 (.mul (.cast 64 (.a 32 0 5)) (.mul (.a 32 1 4) (.lit 31 0x2))),
    .set 64 (.mul (.cast 64 (.a 32 0 4)) (.mul (.a 32 1 8) (.lit 31 0x2))),
    .set 64 (.mul (.cast 64 (.a 32 0 4)) (.mul (.a 32 1 7) (.lit 31 0x2))),
    .set 64 (.mul (.cast 64 (.a 32 0 4)) (.a 32 1 6)),
    .set 64 (.mul (.cast 64 (.a 32 0 4)) (.mul (.a 32 1 5) (.lit 31 0x2))),
    .set 64 (.mul (.cast 64 (.a 32 0 3)) (.a 32 1 8)),
    .set 64 (.mul (.cast 64 (.a 32 0 3)) (.a 32 1 7)),
    .set 64 (.mul (.cast 64 (.a 32 0 3)) (.a 32 1 6)),
    .set 64 (.mul (.cast 64 (.a 32 0 2)) (.a 32 1 8)),
    .set 64 (.mul (.cast 64 (.a 32 0 2)) (.mul (.a 32 1 7) (.lit 31 0x2))),
    .set 64 (.mul (.cast 64 (.a 32 0 1)) (.mul (.a 32 1 8) (.lit 31 0x2))),
    .set 64 (.mul (.cast 64 (.a 32 0 8)) (.a 32 1 6)),
    .set 64 (.mul (.cast 64 (.a 32 0 8)) (.a 32 1 5)),
    .set 64 (.mul (.cast 64 (.a 32 0 8)) (.mul (.a 32 1 4) (.lit 31 0x2))),
    .set 64 (.mul (.cast 64 (.a 32 0 8)) (.a 32 1 3)),
    .set 64 (.mul (.cast 64 (.a 32 0 8)) (.a 32 1 2)),
    .set 64 (.mul (.cast 64 (.a 32 0 8)) (.mul (.a 32 1 1) (.lit 31 0x2))),
    .set 64 (.mul (.cast 64 (.a 32 0 7)) (.mul (.a 32 1 7) (.lit 31 0x2))),
    .set 64 (.mul (.cast 64 (.a 32 0 7)) (.a 32 1 6)),
    .set 64 (.mul (.cast 64 (.a 32 0 7)) (.mul (.a 32 1 5) (.lit 31 0x2))),
    .set 64 (.mul (.cast 64 (.a 32 0 7)) (.mul (.a 32 1 4) (.lit 31 0x2))),
    .set 64 (.mul (.cast 64 (.a 32 0 7)) (.a 32 1 3)),
    .set 64 (.mul (.cast 64 (.a 32 0 7)) (.mul (.a 32 1 2) (.lit 31 0x2))),
    .set 64 (.mul (.cast 64 (.a 32 0 6)) (.a 32 1 8)),
    .set 64 (.mul (.cast 64 (.a 32 0 6)) (.a 32 1 7)),
    .set 64 (.mul (.cast 64 (.a 32 0 6)) (.a 32 1 6)),
    .set 64 (.mul (.cast 64 (.a 32 0 6)) (.a 32 1 5)),
    .set 64 (.mul (.cast 64 (.a 32 0 6)) (.a 32 1 4)),
    .set 64 (.mul (.cast 64 (.a 32 0 6)) (.a 32 1 3)),
    .set 64 (.mul (.cast 64 (.a 32 0 5)) (.a 32 1 8)),
    .set 64 (.mul (.cast 64 (.a 32 0 5)) (.mul (.a 32 1 7) (.lit 31 0x2))),
    .set 64 (.mul (.cast 64 (.a 32 0 5)) (.a 32 1 6)),
    .set 64 (.mul (.cast 64 (.a 32 0 5)) (.a 32 1 5)),
    .set 64 (.mul (.cast 64 (.a 32 0 5)) (.mul (.a 32 1 4) (.lit 31 0x2))),
    .set 64 (.mul (.cast 64 (.a 32 0 4)) (.mul (.a 32 1 8) (.lit 31 0x2))),
    .set 64 (.mul (.cast 64 (.a 32 0 4)) (.mul (.a 32 1 7) (.lit 31 0x2))),
    .set 64 (.mul (.cast 64 (.a 32 0 4)) (.a 32 1 6)),
    .set 64 (.mul (.cast 64 (.a 32 0 4)) (.mul (.a 32 1 5) (.lit 31 0x2))),
    .set 64 (.mul (.cast 64 (.a 32 0 3)) (.a 32 1 8)),
    .set 64 (.mul (.cast 64 (.a 32 0 3)) (.a 32 1 7)),
    .set 64 (.mul (.cast 64 (.a 32 0 3)) (.a 32 1 6)),
    .set 64 (.mul (.cast 64 (.a 32 0 2)) (.a 32 1 8)),
    .set 64 (.mul (.cast 64 (.a 32 0 2)) (.mul (.a 32 1 7) (.lit 31 0x2))),
    .set 64 (.mul (.cast 64 (.a 32 0 1)) (.mul (.a 32 1 8) (.lit 31 0x2))),
    .set 64 (.mul (.cast 64 (.a 32 0 8)) (.a 32 1 0)),
    .set 64 (.mul (.cast 64 (.a 32 0 7)) (.mul (.a 32 1 1) (.lit 31 0x2))),
    .set 64 (.mul (.cast 64 (.a 32 0 7)) (.a 32 1 0)),
    .set 64 (.mul (.cast 64 (.a 32 0 6)) (.a 32 1 2)),
    .set 64 (.mul (.cast 64 (.a 32 0 6)) (.a 32 1 1)),
    .set 64 (.mul (.cast 64 (.a 32 0 6)) (.a 32 1 0)),
    .set 64 (.mul (.cast 64 (.a 32 0 5)) (.a 32 1 3)),
    .set 64 (.mul (.cast 64 (.a 32 0 5)) (.a 32 1 2)),
    .set 64 (.mul (.cast 64 (.a 32 0 5)) (.mul (.a 32 1 1) (.lit 31 0x2))),
    .set 64 (.mul (.cast 64 (.a 32 0 5)) (.a 32 1 0)),
    .set 64 (.mul (.cast 64 (.a 32 0 4)) (.mul (.a 32 1 4) (.lit 31 0x2))),
    .set 64 (.mul (.cast 64 (.a 32 0 4)) (.a 32 1 3)),
    .set 64 (.mul (.cast 64 (.a 32 0 4)) (.mul (.a 32 1 2) (.lit 31 0x2))),
    .set 64 (.mul (.cast 64 (.a 32 0 4)) (.mul (.a 32 1 1) (.lit 31 0x2))),
    .set 64 (.mul (.cast 64 (.a 32 0 4)) (.a 32 1 0)),
    .set 64 (.mul (.cast 64 (.a 32 0 3)) (.a 32 1 5)),
    .set 64 (.mul (.cast 64 (.a 32 0 3)) (.a 32 1 4)),
    .set 64 (.mul (.cast 64 (.a 32 0 3)) (.a 32 1 3)),
    .set 64 (.mul (.cast 64 (.a 32 0 3)) (.a 32 1 2)),
    .set 64 (.mul (.cast 64 (.a 32 0 3)) (.a 32 1 1)),
    .set 64 (.mul (.cast 64 (.a 32 0 3)) (.a 32 1 0)),
    .set 64 (.mul (.cast 64 (.a 32 0 2)) (.a 32 1 6)),
    .set 64 (.mul (.cast 64 (.a 32 0 2)) (.a 32 1 5)),
    .set 64 (.mul (.cast 64 (.a 32 0 2)) (.mul (.a 32 1 4) (.lit 31 0x2))),
    .set 64 (.mul (.cast 64 (.a 32 0 2)) (.a 32 1 3)),
    .set 64 (.mul (.cast 64 (.a 32 0 2)) (.a 32 1 2)),
    .set 64 (.mul (.cast 64 (.a 32 0 2)) (.mul (.a 32 1 1) (.lit 31 0x2))),
    .set 64 (.mul (.cast 64 (.a 32 0 2)) (.a 32 1 0)),
    .set 64 (.mul (.cast 64 (.a 32 0 1)) (.mul (.a 32 1 7) (.lit 31 0x2))),
    .set 64 (.mul (.cast 64 (.a 32 0 1)) (.a 32 1 6)),
    .set 64 (.mul (.cast 64 (.a 32 0 1)) (.mul (.a 32 1 5) (.lit 31 0x2))),
    .set 64 (.mul (.cast 64 (.a 32 0 1)) (.mul (.a 32 1 4) (.lit 31 0x2))),
    .set 64 (.mul (.cast 64 (.a 32 0 1)) (.a 32 1 3)),
    .set 64 (.mul (.cast 64 (.a 32 0 1)) (.mul (.a 32 1 2) (.lit 31 0x2))),
    .set 64 (.mul (.cast 64 (.a 32 0 1)) (.mul (.a 32 1 1) (.lit 31 0x2))),
    .set 64 (.mul (.cast 64 (.a 32 0 1)) (.a 32 1 0)),
    .set 64 (.mul (.cast 64 (.a 32 0 0)) (.a 32 1 8)),
    .set 64 (.mul (.cast 64 (.a 32 0 0)) (.a 32 1 7)),
    .set 64 (.mul (.cast 64 (.a 32 0 0)) (.a 32 1 6)),
    .set 64 (.mul (.cast 64 (.a 32 0 0)) (.a 32 1 5)),
    .set 64 (.mul (.cast 64 (.a 32 0 0)) (.a 32 1 4)),
    .set 64 (.mul (.cast 64 (.a 32 0 0)) (.a 32 1 3)),
    .set 64 (.mul (.cast 64 (.a 32 0 0)) (.a 32 1 2)),
    .set 64 (.mul (.cast 64 (.a 32 0 0)) (.a 32 1 1)),
    .set 64 (.mul (.cast 64 (.a 32 0 0)) (.a 32 1 0)),
    .set 64 (.add (.x 117) (.add (.x 109) (.add (.x 102) (.add (.x 36) (.add (.x 33) (.add (.x 29) (.add (.x 24) (.add (.x 18) (.x 11))))))))),
    .set 32 (.cast 32 (.shr (.x 120) 21)),
    .set 32 (.cast 32 (.land (.x 120) (.lit 32 0x1fffff))),
    .set 64 (.add (.x 111) (.add (.x 103) (.add (.x 96) (.add (.x 90) (.add (.x 85) (.add (.x 81) (.add (.x 78) (.add (.x 76) (.add (.x 75) (.add (.x 54) (.add (.x 48) (.x 42)))))))))))),
    .set 64 (.add (.x 112) (.add (.x 104) (.add (.x 97) (.add (.x 91) (.add (.x 86) (.add (.x 82) (.add (.x 79) (.add (.x 77) (.add (.x 60) (.add (.x 55) (.add (.x 49) (.add (.x 43) (.x 6))))))))))))),
    .set 64 (.add (.x 113) (.add (.x 105) (.add (.x 98) (.add (.x 92) (.add (.x 87) (.add (.x 83) (.add (.x 80) (.add (.x 65) (.add (.x 61) (.add (.x 56) (.add (.x 50) (.add (.x 44) (.add (.x 14) (.x 7)))))))))))))),
    .set 64 (.add (.x 114) (.add (.x 106) (.add (.x 99) (.add (.x 93) (.add (.x 88) (.add (.x 84) (.add (.x 69) (.add (.x 66) (.add (.x 62) (.add (.x 57) (.add (.x 51) (.add (.x 45) (.add (.x 21) (.add (.x 15) (.x 8))))))))))))))),
    .set 64 (.add (.x 115) (.add (.x 107) (.add (.x 100) (.add (.x 94) (.add (.x 89) (.add (.x 72) (.add (.x 70) (.add (.x 67) (.add (.x 63) (.add (.x 58) (.add (.x 52) (.add (.x 46) (.add (.x 27) (.add (.x 22) (.add (.x 16) (.add (.x 9) (.x 3))))))))))))))))),
    .set 64 (.add (.x 116) (.add (.x 108) (.add (.x 101) (.add (.x 95) (.add (.x 74) (.add (.x 73) (.add (.x 71) (.add (.x 68) (.add (.x 64) (.add (.x 59) (.add (.x 53) (.add (.x 47) (.add (.x 32) (.add (.x 28) (.add (.x 23) (.add (.x 17) (.add (.x 10) (.add (.x 5) (.x 4))))))))))))))))))),
    .set 64 (.add (.x 118) (.add (.x 110) (.add (.x 39) (.add (.x 37) (.add (.x 34) (.add (.x 30) (.add (.x 25) (.add (.x 19) (.add (.x 12) (.x 0)))))))))),
    .set 64 (.add (.x 119) (.add (.x 41) (.add (.x 40) (.add (.x 38) (.add (.x 35) (.add (.x 31) (.add (.x 26) (.add (.x 20) (.add (.x 13) (.add (.x 2) (.x 1))))))))))),
    .set 64 (.add (.x 121) (.x 128)),
    .set 32 (.cast 32 (.shr (.x 123) 21)),
    .set 32 (.cast 32 (.land (.x 123) (.lit 32 0x1fffff))),
    .set 64 (.add (.x 131) (.x 132)),
    .set 32 (.cast 32 (.shr (.x 134) 22)),
    .set 32 (.cast 32 (.land (.x 134) (.lit 32 0x3fffff))),
    .set 64 (.add (.x 130) (.x 132)),
    .set 64 (.add (.x 135) (.x 127)),
    .set 32 (.cast 32 (.shr (.x 137) 22)),
    .set 32 (.cast 32 (.land (.x 137) (.lit 32 0x3fffff))),
    .set 64 (.add (.x 139) (.x 129)),
    .set 32 (.cast 32 (.shr (.x 138) 21)),
    .set 32 (.cast 32 (.land (.x 138) (.lit 32 0x1fffff))),
    .set 64 (.add (.x 142) (.x 126)),
    .set 32 (.cast 32 (.shr (.x 141) 21)),
    .set 32 (.cast 32 (.land (.x 141) (.lit 32 0x1fffff))),
    .set 32 (.add (.x 145) (.x 122)),
    .set 32 (.cast 32 (.shr (.x 144) 21)),
    .set 32 (.cast 32 (.land (.x 144) (.lit 32 0x1fffff))),
    .set 64 (.add (.x 148) (.x 125)),
    .set 32 (.shr (.x 147) 21),
    .set 32 (.land (.x 147) (.lit 32 0x1fffff)),
    .set 32 (.add (.x 151) (.x 136)),
    .set 32 (.cast 32 (.shr (.x 150) 22)),
    .set 32 (.cast 32 (.land (.x 150) (.lit 32 0x3fffff))),
    .set 64 (.add (.x 154) (.x 124)),
    .set 32 (.cast 32 (.shr (.x 156) 21)),
    .set 32 (.cast 32 (.land (.x 156) (.lit 32 0x1fffff))),
    .set 32 (.add (.x 157) (.x 133)),
    .set 32 (.shr (.x 159) 21),
    .set 32 (.land (.x 159) (.lit 32 0x1fffff)),
    .set 32 (.add (.x 153) (.x 160)),
    .set 8 (.cast 8 (.shr (.x 162) 22)),
    .set 32 (.land (.x 162) (.lit 32 0x3fffff)),
    .set 32 (.add (.x 140) (.x 160)),
    .set 32 (.add (.x 163) (.x 143)),
    .set 8 (.cast 8 (.shr (.x 165) 22)),
    .set 32 (.land (.x 165) (.lit 32 0x3fffff)),
    .set 32 (.add (.x 167) (.x 146))]
  outs := [.x 168, .x 169, .x 152, .x 164, .x 166, .x 149, .x 155, .x 158, .x 161]

/-- src/fields/p192_32.h:711-1003 `fiat_p192_carry_square`. -/
def p192_carry_square : Prog where
  body := [
    .set 32 (.a 32 0 8),
    .set 32 (.a 32 0 8),
    .set 32 (.mul (.x 0) (.lit 31 0x2)),
    .set 32 (.mul (.x 1) (.lit 31 0x2)),
    .set 32 (.mul (.a 32 0 8) (.lit 31 0x2)),
    .set 32 (.a 32 0 7),
    .set 32 (.a 32 0 7),
    .set 32 (.mul (.x 5) (.lit 31 0x2)),
    .set 32 (.mul (.x 6) (.lit 31 0x2)),
    .set 32 (.mul (.a 32 0 7) (.lit 31 0x2)),
    .set 32 (.a 32 0 6),
    .set 32 (.a 32 0 6),
    .set 32 (.mul (.x 10) (.lit 31 0x2)),
    .set 32 (.mul (.x 11) (.lit 31 0x2)),
    .set 32 (.mul (.a 32 0 6) (.lit 31 0x2)),
    .set 32 (.a 32 0 5),
    .set 32 (.a 32 0 5),
    .set 32 (.mul (.x 15) (.lit 31 0x2)),
    .set 32 (.mul (.x 16) (.lit 31 0x2)),
    .set 32 (.mul (.a 32 0 5) (.lit 31 0x2)),
    .set 32 (.mul (.a 32 0 4) (.lit 31 0x2)),
    .set 32 (.mul (.a 32 0 3) (.lit 31 0x2)),
    .set 32 (.mul (.a 32 0 2) (.lit 31 0x2)),
    .set 32 (.mul (.a 32 0 1) (.lit 31 0x2)),
    .set 64 (.mul (.cast 64 (.a 32 0 8)) (.x 0)),
    .set 64 (.mul (.cast 64 (.a 32 0 7)) (.mul (.x 2) (.lit 31 0x2))),
    .set 64 (.mul (.cast 64 (.a 32 0 8)) (.x 0)),
    .set 64 (.mul (.cast 64 (.a 32 0 7)) (.mul (.x 2) (.lit 31 0x2))),
    .set 64 (.mul (.cast 64 (.a 32 0 8)) (.x 1)),
    .set 64 (.mul (.cast 64 (.a 32 0 7)) (.mul (.x 3) (.lit 31 0x2))),
    .set 64 (.mul (.cast 64 (.a 32 0 7)) (.mul (.x 6) (.lit 31 0x2))),
    .set 64 (.mul (.cast 64 (.a 32 0 7)) (.mul (.x 5) (.lit 31 0x2))),
    .set 64 (.mul (.cast 64 (.a 32 0 6)) (.x 3)),
    .set 64 (.mul (.cast 64 (.a 32 0 6)) (.x 2)),
    .set 64 (.mul (.cast 64 (.a 32 0 6)) (.x 8)),
    .set 64 (.mul (.cast 64 (.a 32 0 6)) (.x 7)),
    .set 64 (.mul (.cast 64 (.a 32 0 6)) (.x 11)),
    .set 64 (.mul (.cast 64 (.a 32 0 6)) (.x 10)),
    .set 64 (.mul (.cast 64 (.a 32 0 5)) (.x 3)),
    .set 64 (.mul (.cast 64 (.a 32 0 5)) (.x 2)),
    .set 64 (.mul (.cast 64 (.a 32 0 5)) (.mul (.x 8) (.lit 31 0x2))),
    .set 64 (.mul (.cast 64 (.a 32 0 5)) (.mul (.x 7) (.lit 31 0x2))),
    .set 64 (.mul (.cast 64 (.a 32 0 5)) (.x 13)),
    .set 64 (.mul (.cast 64 (.a 32 0 5)) (.x 12)),
    .set 64 (.mul (.cast 64 (.a 32 0 5)) (.x 16)),
    .set 64 (.mul (.cast 64 (.a 32 0 5)) (.x 15)),
    .set 64 (.mul (.cast 64 (.a 32 0 4)) (.mul (.x 3) (.lit 31 0x2))),
    .set 64 (.mul (.cast 64 (.a 32 0 4)) (.mul (.x 2) (.lit 31 0x2))),
    .set 64 (.mul (.cast 64 (.a 32 0 4)) (.mul (.x 8) (.lit 31 0x2))),
    .set 64 (.mul (.cast 64 (.a 32 0 4)) (.mul (.x 7) (.lit 31 0x2))),
    .set 64 (.mul (.cast 64 (.a 32 0 4)) (.x 13)),
    .set 64 (.mul (.cast 64 (.a 32 0 4)) (.x 12)),
    .set 64 (.mul (.cast 64 (.a 32 0 4)) (.mul (.x 18) (.lit 31 0x2))),
    .set 64 (.mul (.cast 64 (.a 32 0 4)) (.mul (.x 17) (.lit 31 0x2))),
    .set 64 (.mul (.cast 64 (.a 32 0 4)) (.mul (.a 32 0 4) (.lit 31 0x2))),
    .set 64 (.mul (.cast 64 (.a 32 0 3)) (.x 3)),
    .set 64 (.mul (.cast 64 (.a 32 0 3)) (.x 2)),
    .set 64 (.mul (.cast 64 (.a 32 0 3)) (.x 8)),
    .set 64 (.mul (.cast 64 (.a 32 0 3)) (.x 7)),
    .set 64 (.mul (.cast 64 (.a 32 0 3)) (.x 13)),
    .set 64 (.mul (.cast 64 (.a 32 0 3)) (.x 12)),
    .set 64 (.mul (.cast 64 (.a 32 0 3)) (.x 19)),
    .set 64 (.mul (.cast 64 (.a 32 0 3)) (.x 20)),
    .set 64 (.mul (.cast 64 (.a 32 0 3)) (.a 32 0 3)),
    .set 64 (.mul (.cast 64 (.a 32 0 2)) (.x 3)),
    .set 64 (.mul (.cast 64 (.a 32 0 2)) (.x 2)),
    .set 64 (.mul (.cast 64 (.a 32 0 2)) (.mul (.x 8) (.lit 31 0x2))),
    .set 64 (.mul (.cast 64 (.a 32 0 2)) (.mul (.x 7) (.lit 31 0x2))),
    .set 64 (.mul (.cast 64 (.a 32 0 2)) (.x 14)),
    .set 64 (.mul (.cast 64 (.a 32 0 2)) (.x 19)),
    .set 64 (.mul (.cast 64 (.a 32 0 2)) (.mul (.x 20) (.lit 31 0x2))),
    .set 64 (.mul (.cast 64 (.a 32 0 2)) (.x 21)),
    .set 64 (.mul (.cast 64 (.a 32 0 2)) (.a 32 0 2)),
    .set 64 (.mul (.cast 64 (.a 32 0 1)) (.mul (.x 3) (.lit 31 0x2))),
    .set 64 (.mul (.cast 64 (.a 32 0 1)) (.mul (.x 2) (.lit 31 0x2))),
    .set 64 (.mul (.cast 64 (.a 32 0 1)) (.mul (.x 9) (.lit 31 0x2))),
    .set 64 (.mul (.cast 64 (.a 32 0 1)) (.x 14)),
    .set 64 (.mul (.cast 64 (.a 32 0 1)) (.mul (.x 19) (.lit 31 0x2))),
    .set 64 (.mul (.cast 64 (.a 32 0 1)) (.mul (.x 20) (.lit 31 0x2))),
    .set 64 (.mul (.cast 64 (.a 32 0 1)) (.x 21)),
    .set 64 (.mul (.cast 64 (.a 32 0 1)) (.mul (.x 22) (.lit 31 0x2))),
    .set 64 (.mul (.cast 64 (.a 32 0 1)) (.mul (.a 32 0 1) (.lit 31 0x2))),
    .set 64 (.mul (.cast 64 (.a 32 0 0)) (.x 4)),
    .set 64 (.mul (.cast 64 (.a 32 0 0)) (.x 9)),
    .set 64 (.mul (.cast 64 (.a 32 0 0)) (.x 14)),
    .set 64 (.mul (.cast 64 (.a 32 0 0)) (.x 19)),
    .set 64 (.mul (.cast 64 (.a 32 0 0)) (.x 20)),
    .set 64 (.mul (.cast 64 (.a 32 0 0)) (.x 21)),
    .set 64 (.mul (.cast 64 (.a 32 0 0)) (.x 22)),
    .set 64 (.mul (.cast 64 (.a 32 0 0)) (.x 23)),
    .set 64 (.mul (.cast 64 (.a 32 0 0)) (.a 32 0 0)),
    .set 64 (.add (.x 88) (.add (.x 81) (.add (.x 55) (.add (.x 48) (.x 42))))),
    .set 32 (.cast 32 (.shr (.x 91) 21)),
    .set 32 (.cast 32 (.land (.x 91) (.lit 32 0x1fffff))),
    .set 64 (.add (.x 82) (.add (.x 75) (.add (.x 68) (.add (.x 61) (.add (.x 54) (.add (.x 33) (.x 31))))))),
    .set 64 (.add (.x 83) (.add (.x 76) (.add (.x 69) (.add (.x 62) (.add (.x 39) (.add (.x 35) (.x 28))))))),
    .set 64 (.add (.x 84) (.add (.x 77) (.add (.x 70) (.add (.x 63) (.add (.x 47) (.add (.x 41) (.add (.x 37) (.x 29)))))))),
    .set 64 (.add (.x 85) (.add (.x 78) (.add (.x 71) (.add (.x 56) (.add (.x 49) (.add (.x 43) (.add (.x 32) (.x 30)))))))),
    .set 64 (.add (.x 86) (.add (.x 79) (.add (.x 72) (.add (.x 65) (.add (.x 58) (.add (.x 51) (.add (.x 45) (.add (.x 38) (.add (.x 34) (.x 26)))))))))),
    .set 64 (.add (.x 87) (.add (.x 80) (.add (.x 74) (.add (.x 67) (.add (.x 60) (.add (.x 53) (.add (.x 46) (.add (.x 40) (.add (.x 36) (.x 27)))))))))),
    .set 64 (.add (.x 89) (.add (.x 64) (.add (.x 57) (.add (.x 50) (.add (.x 44) (.x 24)))))),
    .set 64 (.add (.x 90) (.add (.x 73) (.add (.x 66) (.add (.x 59) (.add (.x 52) (.x 25)))))),
    .set 64 (.add (.x 92) (.x 99)),
    .set 32 (.cast 32 (.shr (.x 94) 21)),
    .set 32 (.cast 32 (.land (.x 94) (.lit 32 0x1fffff))),
    .set 64 (.add (.x 102) (.x 103)),
    .set 32 (.cast 32 (.shr (.x 105) 22)),
    .set 32 (.cast 32 (.land (.x 105) (.lit 32 0x3fffff))),
    .set 64 (.add (.x 101) (.x 103)),
    .set 64 (.add (.x 106) (.x 98)),
    .set 32 (.cast 32 (.shr (.x 108) 22)),
    .set 32 (.cast 32 (.land (.x 108) (.lit 32 0x3fffff))),
    .set 64 (.add (.x 110) (.x 100)),
    .set 32 (.cast 32 (.shr (.x 109) 21)),
    .set 32 (.cast 32 (.land (.x 109) (.lit 32 0x1fffff))),
    .set 64 (.add (.x 113) (.x 97)),
    .set 32 (.cast 32 (.shr (.x 112) 21)),
    .set 32 (.cast 32 (.land (.x 112) (.lit 32 0x1fffff))),
    .set 32 (.add (.x 116) (.x 93)),
    .set 32 (.cast 32 (.shr (.x 115) 21)),
    .set 32 (.cast 32 (.land (.x 115) (.lit 32 0x1fffff))),
    .set 64 (.add (.x 119) (.x 96)),
    .set 32 (.shr (.x 118) 21),
    .set 32 (.land (.x 118) (.lit 32 0x1fffff)),
    .set 32 (.add (.x 122) (.x 107)),
    .set 32 (.cast 32 (.shr (.x 121) 22)),
    .set 32 (.cast 32 (.land (.x 121) (.lit 32 0x3fffff))),
    .set 64 (.add (.x 125) (.x 95)),
    .set 32 (.cast 32 (.shr (.x 127) 21)),
    .set 32 (.cast 32 (.land (.x 127) (.lit 32 0x1fffff))),
    .set 32 (.add (.x 128) (.x 104)),
    .set 32 (.shr (.x 130) 21),
    .set 32 (.land (.x 130) (.lit 32 0x1fffff)),
    .set 32 (.add (.x 124) (.x 131)),
    .set 8 (.cast 8 (.shr (.x 133) 22)),
    .set 32 (.land (.x 133) (.lit 32 0x3fffff)),
    .set 32 (.add (.x 111) (.x 131)),
    .set 32 (.add (.x 134) (.x 114)),
    .set 8 (.cast 8 (.shr (.x 136) 22)),
    .set 32 (.land (.x 136) (.lit 32 0x3fffff)),
    .set 32 (.add (.x 138) (.x 117))]
  outs := [.x 139, .x 140, .x 123, .x 135, .x 137, .x 120, .x 126, .x 129, .x 132]

/-- src/fields/p192_32.h:1015-1125 `fiat_p192_carry_scmul_3`. -/
def p192_carry_scmul_3 : Prog where
  body := [
    .set 32 (.mul (.a 32 0 8) (.lit 31 0x3)),
    .set 32 (.mul (.a 32 0 7) (.lit 31 0x3)),
    .set 32 (.mul (.a 32 0 6) (.lit 31 0x3)),
    .set 32 (.mul (.a 32 0 5) (.lit 31 0x3)),
    .set 32 (.mul (.a 32 0 4) (.lit 31 0x3)),
    .set 32 (.mul (.a 32 0 3) (.lit 31 0x3)),
    .set 32 (.mul (.a 32 0 2) (.lit 31 0x3)),
    .set 32 (.mul (.a 32 0 1) (.lit 31 0x3)),
    .set 32 (.mul (.a 32 0 0) (.lit 31 0x3)),
    .set 32 (.shr (.x 6) 21),
    .set 32 (.land (.x 6) (.lit 32 0x1fffff)),
    .set 32 (.add (.x 9) (.x 5)),
    .set 32 (.shr (.x 0) 21),
    .set 32 (.land (.x 0) (.lit 32 0x1fffff)),
    .set 32 (.add (.x 11) (.x 12)),
    .set 32 (.shr (.x 14) 22),
    .set 32 (.land (.x 14) (.lit 32 0x3fffff)),
    .set 32 (.add (.x 8) (.x 12)),
    .set 32 (.add (.x 15) (.x 4)),
    .set 32 (.shr (.x 17) 22),
    .set 32 (.land (.x 17) (.lit 32 0x3fffff)),
    .set 32 (.add (.x 19) (.x 7)),
    .set 32 (.shr (.x 18) 21),
    .set 32 (.land (.x 18) (.lit 32 0x1fffff)),
    .set 32 (.add (.x 22) (.x 3)),
    .set 32 (.shr (.x 21) 21),
    .set 32 (.land (.x 21) (.lit 32 0x1fffff)),
    .set 32 (.add (.x 25) (.x 10)),
    .set 32 (.shr (.x 24) 21),
    .set 32 (.land (.x 24) (.lit 32 0x1fffff)),
    .set 32 (.add (.x 28) (.x 2)),
    .set 8 (.cast 8 (.shr (.x 27) 21)),
    .set 32 (.land (.x 27) (.lit 32 0x1fffff)),
    .set 32 (.add (.x 31) (.x 16)),
    .set 32 (.shr (.x 30) 22),
    .set 32 (.land (.x 30) (.lit 32 0x3fffff)),
    .set 32 (.add (.x 34) (.x 1)),
    .set 32 (.shr (.x 36) 21),
    .set 32 (.land (.x 36) (.lit 32 0x1fffff)),
    .set 32 (.add (.x 37) (.x 13)),
    .set 8 (.cast 8 (.shr (.x 39) 21)),
    .set 32 (.land (.x 39) (.lit 32 0x1fffff)),
    .set 32 (.add (.x 33) (.cast 32 (.x 40))),
    .set 8 (.cast 8 (.shr (.x 42) 22)),
    .set 32 (.land (.x 42) (.lit 32 0x3fffff)),
    .set 32 (.add (.x 20) (.cast 32 (.x 40))),
    .set 32 (.add (.x 43) (.x 23)),
    .set 8 (.cast 8 (.shr (.x 45) 22)),
    .set 32 (.land (.x 45) (.lit 32 0x3fffff)),
    .set 32 (.add (.x 47) (.x 26))]
  outs := [.x 48, .x 49, .x 32, .x 44, .x 46, .x 29, .x 35, .x 38, .x 41]

/-- src/fields/p192_32.h:1137-1247 `fiat_p192_carry_scmul_4`. -/
def p192_carry_scmul_4 : Prog where
  body := [
    .set 32 (.shl (.a 32 0 8) 2),
    .set 32 (.shl (.a 32 0 7) 2),
    .set 32 (.shl (.a 32 0 6) 2),
    .set 32 (.shl (.a 32 0 5) 2),
    .set 32 (.shl (.a 32 0 4) 2),
    .set 32 (.shl (.a 32 0 3) 2),
    .set 32 (.shl (.a 32 0 2) 2),
    .set 32 (.shl (.a 32 0 1) 2),
    .set 32 (.shl (.a 32 0 0) 2),
    .set 32 (.shr (.x 6) 21),
    .set 32 (.land (.x 6) (.lit 32 0x1fffff)),
    .set 32 (.add (.x 9) (.x 5)),
    .set 32 (.shr (.x 0) 21),
    .set 32 (.land (.x 0) (.lit 32 0x1fffff)),
    .set 32 (.add (.x 11) (.x 12)),
    .set 32 (.shr (.x 14) 22),
    .set 32 (.land (.x 14) (.lit 32 0x3fffff)),
    .set 32 (.add (.x 8) (.x 12)),
    .set 32 (.add (.x 15) (.x 4)),
    .set 32 (.shr (.x 17) 22),
    .set 32 (.land (.x 17) (.lit 32 0x3fffff)),
    .set 32 (.add (.x 19) (.x 7)),
    .set 32 (.shr (.x 18) 21),
    .set 32 (.land (.x 18) (.lit 32 0x1fffff)),
    .set 32 (.add (.x 22) (.x 3)),
    .set 32 (.shr (.x 21) 21),
    .set 32 (.land (.x 21) (.lit 32 0x1fffff)),
    .set 32 (.add (.x 25) (.x 10)),
    .set 32 (.shr (.x 24) 21),
    .set 32 (.land (.x 24) (.lit 32 0x1fffff)),
    .set 32 (.add (.x 28) (.x 2)),
    .set 8 (.cast 8 (.shr (.x 27) 21)),
    .set 32 (.land (.x 27) (.lit 32 0x1fffff)),
    .set 32 (.add (.x 31) (.x 16)),
    .set 32 (.shr (.x 30) 22),
    .set 32 (.land (.x 30) (.lit 32 0x3fffff)),
    .set 32 (.add (.x 34) (.x 1)),
    .set 32 (.shr (.x 36) 21),
    .set 32 (.land (.x 36) (.lit 32 0x1fffff)),
    .set 32 (.add (.x 37) (.x 13)),
    .set 8 (.cast 8 (.shr (.x 39) 21)),
    .set 32 (.land (.x 39) (.lit 32 0x1fffff)),
    .set 32 (.add (.x 33) (.cast 32 (.x 40))),
    .set 8 (.cast 8 (.shr (.x 42) 22)),
    .set 32 (.land (.x 42) (.lit 32 0x3fffff)),
    .set 32 (.add (.x 20) (.cast 32 (.x 40))),
    .set 32 (.add (.x 43) (.x 23)),
    .set 8 (.cast 8 (.shr (.x 45) 22)),
    .set 32 (.land (.x 45) (.lit 32 0x3fffff)),
    .set 32 (.add (.x 47) (.x 26))]
  outs := [.x 48, .x 49, .x 32, .x 44, .x 46, .x 29, .x 35, .x 38, .x 41]

/-- src/fields/p192_32.h:1259-1369 `fiat_p192_carry_scmul_8`. -/
def p192_carry_scmul_8 : Prog where
  body := [
    .set 32 (.shl (.a 32 0 8) 3),
    .set 32 (.shl (.a 32 0 7) 3),
    .set 32 (.shl (.a 32 0 6) 3),
    .set 32 (.shl (.a 32 0 5) 3),
    .set 32 (.shl (.a 32 0 4) 3),
    .set 32 (.shl (.a 32 0 3) 3),
    .set 32 (.shl (.a 32 0 2) 3),
    .set 32 (.shl (.a 32 0 1) 3),
    .set 32 (.shl (.a 32 0 0) 3),
    .set 32 (.shr (.x 6) 21),
    .set 32 (.land (.x 6) (.lit 32 0x1fffff)),
    .set 32 (.add (.x 9) (.x 5)),
    .set 32 (.shr (.x 0) 21),
    .set 32 (.land (.x 0) (.lit 32 0x1fffff)),
    .set 32 (.add (.x 11) (.x 12)),
    .set 32 (.shr (.x 14) 22),
    .set 32 (.land (.x 14) (.lit 32 0x3fffff)),
    .set 32 (.add (.x 8) (.x 12)),
    .set 32 (.add (.x 15) (.x 4)),
    .set 32 (.shr (.x 17) 22),
    .set 32 (.land (.x 17) (.lit 32 0x3fffff)),
    .set 32 (.add (.x 19) (.x 7)),
    .set 32 (.shr (.x 18) 21),
    .set 32 (.land (.x 18) (.lit 32 0x1fffff)),
    .set 32 (.add (.x 22) (.x 3)),
    .set 32 (.shr (.x 21) 21),
    .set 32 (.land (.x 21) (.lit 32 0x1fffff)),
    .set 32 (.add (.x 25) (.x 10)),
    .set 32 (.shr (.x 24) 21),
    .set 32 (.land (.x 24) (.lit 32 0x1fffff)),
    .set 32 (.add (.x 28) (.x 2)),
    .set 8 (.cast 8 (.shr (.x 27) 21)),
    .set 32 (.land (.x 27) (.lit 32 0x1fffff)),
    .set 32 (.add (.x 31) (.x 16)),
    .set 32 (.shr (.x 30) 22),
    .set 32 (.land (.x 30) (.lit 32 0x3fffff)),
    .set 32 (.add (.x 34) (.x 1)),
    .set 32 (.shr (.x 36) 21),
    .set 32 (.land (.x 36) (.lit 32 0x1fffff)),
    .set 32 (.add (.x 37) (.x 13)),
    .set 8 (.cast 8 (.shr (.x 39) 21)),
    .set 32 (.land (.x 39) (.lit 32 0x1fffff)),
    .set 32 (.add (.x 33) (.cast 32 (.x 40))),
    .set 8 (.cast 8 (.shr (.x 42) 22)),
    .set 32 (.land (.x 42) (.lit 32 0x3fffff)),
    .set 32 (.add (.x 20) (.cast 32 (.x 40))),
    .set 32 (.add (.x 43) (.x 23)),
    .set 8 (.cast 8 (.shr (.x 45) 22)),
    .set 32 (.land (.x 45) (.lit 32 0x3fffff)),
    .set 32 (.add (.x 47) (.x 26))]
  outs := [.x 48, .x 49, .x 32, .x 44, .x 46, .x 29, .x 35, .x 38, .x 41]

/-- src/fields/p192_32.h:1423-1612 `fiat_p192_to_bytes`. -/
def p192_to_bytes : Prog where
  body := [
    .subb 22 (.lit 31 0x0) (.a 32 0 0) (.lit 32 0x3fffff),
    .subb 21 (.x 1) (.a 32 0 1) (.lit 32 0x1fffff),
    .subb 21 (.x 3) (.a 32 0 2) (.lit 32 0x1fffff),
    .subb 22 (.x 5) (.a 32 0 3) (.lit 32 0x3ffffe),
    .subb 21 (.x 7) (.a 32 0 4) (.lit 32 0x1fffff),
    .subb 21 (.x 9) (.a 32 0 5) (.lit 32 0x1fffff),
    .subb 22 (.x 11) (.a 32 0 6) (.lit 32 0x3fffff),
    .subb 21 (.x 13) (.a 32 0 7) (.lit 32 0x1fffff),
    .subb 21 (.x 15) (.a 32 0 8) (.lit 32 0x1fffff),
    .cmov (.x 17) (.lit 31 0x0) (.lit 32 0xffffffff),
    .addc 22 (.lit 31 0x0) (.x 0) (.land (.x 18) (.lit 32 0x3fffff)),
    .addc 21 (.x 20) (.x 2) (.land (.x 18) (.lit 32 0x1fffff)),
    .addc 21 (.x 22) (.x 4) (.land (.x 18) (.lit 32 0x1fffff)),
    .addc 22 (.x 24) (.x 6) (.land (.x 18) (.lit 32 0x3ffffe)),
    .addc 21 (.x 26) (.x 8) (.land (.x 18) (.lit 32 0x1fffff)),
    .addc 21 (.x 28) (.x 10) (.land (.x 18) (.lit 32 0x1fffff)),
    .addc 22 (.x 30) (.x 12) (.land (.x 18) (.lit 32 0x3fffff)),
    .addc 21 (.x 32) (.x 14) (.land (.x 18) (.lit 32 0x1fffff)),
    .addc 21 (.x 34) (.x 16) (.land (.x 18) (.lit 32 0x1fffff)),
    .set 32 (.shl (.x 35) 3),
    .set 32 (.shl (.x 33) 6),
    .set 32 (.shl (.x 29) 3),
    .set 32 (.shl (.x 27) 6),
    .set 32 (.shl (.x 23) 3),
    .set 32 (.shl (.x 21) 6),
    .set 8 (.cast 8 (.land (.x 19) (.lit 31 0xff))),
    .set 32 (.shr (.x 19) 8),
    .set 8 (.cast 8 (.land (.x 44) (.lit 31 0xff))),
    .set 8 (.cast 8 (.shr (.x 44) 8)),
    .set 32 (.add (.x 42) (.cast 32 (.x 46))),
    .set 8 (.cast 8 (.land (.x 47) (.lit 31 0xff))),
    .set 32 (.shr (.x 47) 8),
    .set 8 (.cast 8 (.land (.x 49) (.lit 31 0xff))),
    .set 32 (.shr (.x 49) 8),
    .set 8 (.cast 8 (.land (.x 51) (.lit 31 0xff))),
    .set 8 (.cast 8 (.shr (.x 51) 8)),
    .set 32 (.add (.x 41) (.cast 32 (.x 53))),
    .set 8 (.cast 8 (.land (.x 54) (.lit 31 0xff))),
    .set 32 (.shr (.x 54) 8),
    .set 8 (.cast 8 (.land (.x 56) (.lit 31 0xff))),
    .set 8 (.cast 8 (.shr (.x 56) 8)),
    .set 8 (.cast 8 (.land (.x 25) (.lit 31 0xff))),
    .set 32 (.shr (.x 25) 8),
    .set 8 (.cast 8 (.land (.x 60) (.lit 31 0xff))),
    .set 8 (.cast 8 (.shr (.x 60) 8)),
    .set 32 (.add (.x 40) (.cast 32 (.x 62))),
    .set 8 (.cast 8 (.land (.x 63) (.lit 31 0xff))),
    .set 32 (.shr (.x 63) 8),
    .set 8 (.cast 8 (.land (.x 65) (.lit 31 0xff))),
    .set 32 (.shr (.x 65) 8),
    .set 8 (.cast 8 (.land (.x 67) (.lit 31 0xff))),
    .set 8 (.cast 8 (.shr (.x 67) 8)),
    .set 32 (.add (.x 39) (.cast 32 (.x 69))),
    .set 8 (.cast 8 (.land (.x 70) (.lit 31 0xff))),
    .set 32 (.shr (.x 70) 8),
    .set 8 (.cast 8 (.land (.x 72) (.lit 31 0xff))),
    .set 8 (.cast 8 (.shr (.x 72) 8)),
    .set 8 (.cast 8 (.land (.x 31) (.lit 31 0xff))),
    .set 32 (.shr (.x 31) 8),
    .set 8 (.cast 8 (.land (.x 76) (.lit 31 0xff))),
    .set 8 (.cast 8 (.shr (.x 76) 8)),
    .set 32 (.add (.x 38) (.cast 32 (.x 78))),
    .set 8 (.cast 8 (.land (.x 79) (.lit 31 0xff))),
    .set 32 (.shr (.x 79) 8),
    .set 8 (.cast 8 (.land (.x 81) (.lit 31 0xff))),
    .set 32 (.shr (.x 81) 8),
    .set 8 (.cast 8 (.land (.x 83) (.lit 31 0xff))),
    .set 8 (.cast 8 (.shr (.x 83) 8)),
    .set 32 (.add (.x 37) (.cast 32 (.x 85))),
    .set 8 (.cast 8 (.land (.x 86) (.lit 31 0xff))),
    .set 32 (.shr (.x 86) 8),
    .set 8 (.cast 8 (.land (.x 88) (.lit 31 0xff))),
    .set 8 (.cast 8 (.shr (.x 88) 8))]
  outs := [.x 43, .x 45, .x 48, .x 50, .x 52, .x 55, .x 57, .x 58, .x 59, .x 61, .x 64, .x 66, .x 68, .x 71, .x 73, .x 74, .x 75, .x 77, .x 80, .x 82, .x 84, .x 87, .x 89, .x 90]

/-- src/fields/p192_32.h:1624-1748 `fiat_p192_from_bytes`. -/
def p192_from_bytes : Prog where
  body := [
    .set 32 (.shl (.cast 32 (.a 8 0 23)) 13),
    .set 32 (.shl (.cast 32 (.a 8 0 22)) 5),
    .set 32 (.shl (.cast 32 (.a 8 0 21)) 18),
    .set 32 (.shl (.cast 32 (.a 8 0 20)) 10),
    .set 32 (.shl (.cast 32 (.a 8 0 19)) 2),
    .set 32 (.shl (.cast 32 (.a 8 0 18)) 16),
    .set 32 (.shl (.cast 32 (.a 8 0 17)) 8),
    .set 8 (.a 8 0 16),
    .set 32 (.shl (.cast 32 (.a 8 0 15)) 13),
    .set 32 (.shl (.cast 32 (.a 8 0 14)) 5),
    .set 32 (.shl (.cast 32 (.a 8 0 13)) 18),
    .set 32 (.shl (.cast 32 (.a 8 0 12)) 10),
    .set 32 (.shl (.cast 32 (.a 8 0 11)) 2),
    .set 32 (.shl (.cast 32 (.a 8 0 10)) 16),
    .set 32 (.shl (.cast 32 (.a 8 0 9)) 8),
    .set 8 (.a 8 0 8),
    .set 32 (.shl (.cast 32 (.a 8 0 7)) 13),
    .set 32 (.shl (.cast 32 (.a 8 0 6)) 5),
    .set 32 (.shl (.cast 32 (.a 8 0 5)) 18),
    .set 32 (.shl (.cast 32 (.a 8 0 4)) 10),
    .set 32 (.shl (.cast 32 (.a 8 0 3)) 2),
    .set 32 (.shl (.cast 32 (.a 8 0 2)) 16),
    .set 32 (.shl (.cast 32 (.a 8 0 1)) 8),
    .set 8 (.a 8 0 0),
    .set 32 (.add (.x 22) (.cast 32 (.x 23))),
    .set 32 (.add (.x 21) (.x 24)),
    .set 32 (.land (.x 25) (.lit 32 0x3fffff)),
    .set 8 (.cast 8 (.shr (.x 25) 22)),
    .set 32 (.add (.x 20) (.cast 32 (.x 27))),
    .set 32 (.add (.x 19) (.x 28)),
    .set 32 (.add (.x 18) (.x 29)),
    .set 32 (.land (.x 30) (.lit 32 0x1fffff)),
    .set 8 (.cast 8 (.shr (.x 30) 21)),
    .set 32 (.add (.x 17) (.cast 32 (.x 32))),
    .set 32 (.add (.x 16) (.x 33)),
    .set 32 (.add (.x 14) (.cast 32 (.x 15))),
    .set 32 (.add (.x 13) (.x 35)),
    .set 32 (.land (.x 36) (.lit 32 0x3fffff)),
    .set 8 (.cast 8 (.shr (.x 36) 22)),
    .set 32 (.add (.x 12) (.cast 32 (.x 38))),
    .set 32 (.add (.x 11) (.x 39)),
    .set 32 (.add (.x 10) (.x 40)),
    .set 32 (.land (.x 41) (.lit 32 0x1fffff)),
    .set 8 (.cast 8 (.shr (.x 41) 21)),
    .set 32 (.add (.x 9) (.cast 32 (.x 43))),
    .set 32 (.add (.x 8) (.x 44)),
    .set 32 (.add (.x 6) (.cast 32 (.x 7))),
    .set 32 (.add (.x 5) (.x 46)),
    .set 32 (.land (.x 47) (.lit 32 0x3fffff)),
    .set 8 (.cast 8 (.shr (.x 47) 22)),
    .set 32 (.add (.x 4) (.cast 32 (.x 49))),
    .set 32 (.add (.x 3) (.x 50)),
    .set 32 (.add (.x 2) (.x 51)),
    .set 32 (.land (.x 52) (.lit 32 0x1fffff)),
    .set 8 (.cast 8 (.shr (.x 52) 21)),
    .set 32 (.add (.x 1) (.cast 32 (.x 54))),
    .set 32 (.add (.x 0) (.x 55))]
  outs := [.x 26, .x 31, .x 34, .x 37, .x 42, .x 45, .x 48, .x 53, .x 56]

end Torsion.Fiat.W32
