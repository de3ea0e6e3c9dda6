import Verif.Ecc.Fiat.Lang

/-!
# Model of src/fields/p448_64.h (written by tools/fiat.py)
-/
namespace Torsion.Fiat

/-- src/fields/p448_64.h:109-134 `fiat_p448_add`. -/
def p448_add : Prog where
  body := [
    .set 64 (.add (.a 64 0 0) (.a 64 1 0)),
    .set 64 (.add (.a 64 0 1) (.a 64 1 1)),
    .set 64 (.add (.a 64 0 2) (.a 64 1 2)),
    .set 64 (.add (.a 64 0 3) (.a 64 1 3)),
    .set 64 (.add (.a 64 0 4) (.a 64 1 4)),
    .set 64 (.add (.a 64 0 5) (.a 64 1 5)),
    .set 64 (.add (.a 64 0 6) (.a 64 1 6)),
    .set 64 (.add (.a 64 0 7) (.a 64 1 7))]
  outs := [.x 0, .x 1, .x 2, .x 3, .x 4, .x 5, .x 6, .x 7]

/-- src/fields/p448_64.h:147-172 `fiat_p448_sub`. -/
def p448_sub : Prog where
  body := [
    .set 64 (.sub (.add (.lit 64 0x1fffffffffffffe) (.a 64 0 0)) (.a 64 1 0)),
    .set 64 (.sub (.add (.lit 64 0x1fffffffffffffe) (.a 64 0 1)) (.a 64 1 1)),
    .set 64 (.sub (.add (.lit 64 0x1fffffffffffffe) (.a 64 0 2)) (.a 64 1 2)),
    .set 64 (.sub (.add (.lit 64 0x1fffffffffffffe) (.a 64 0 3)) (.a 64 1 3)),
    .set 64 (.sub (.add (.lit 64 0x1fffffffffffffc) (.a 64 0 4)) (.a 64 1 4)),
    .set 64 (.sub (.add (.lit 64 0x1fffffffffffffe) (.a 64 0 5)) (.a 64 1 5)),
    .set 64 (.sub (.add (.lit 64 0x1fffffffffffffe) (.a 64 0 6)) (.a 64 1 6)),
    .set 64 (.sub (.add (.lit 64 0x1fffffffffffffe) (.a 64 0 7)) (.a 64 1 7))]
  outs := [.x 0, .x 1, .x 2, .x 3, .x 4, .x 5, .x 6, .x 7]

/-- src/fields/p448_64.h:184-209 `fiat_p448_opp`. -/
def p448_opp : Prog where
  body := [
    .set 64 (.sub (.lit 64 0x1fffffffffffffe) (.a 64 0 0)),
    .set 64 (.sub (.lit 64 0x1fffffffffffffe) (.a 64 0 1)),
    .set 64 (.sub (.lit 64 0x1fffffffffffffe) (.a 64 0 2)),
    .set 64 (.sub (.lit 64 0x1fffffffffffffe) (.a 64 0 3)),
    .set 64 (.sub (.lit 64 0x1fffffffffffffc) (.a 64 0 4)),
    .set 64 (.sub (.lit 64 0x1fffffffffffffe) (.a 64 0 5)),
    .set 64 (.sub (.lit 64 0x1fffffffffffffe) (.a 64 0 6)),
    .set 64 (.sub (.lit 64 0x1fffffffffffffe) (.a 64 0 7))]
  outs := [.x 0, .x 1, .x 2, .x 3, .x 4, .x 5, .x 6, .x 7]

/-- src/fields/p448_64.h:221-274 `fiat_p448_carry`. -/
def p448_carry : Prog where
  body := [
    .set 64 (.a 64 0 3),
    .set 64 (.a 64 0 7),
    .set 64 (.shr (.x 1) 56),
    .set 64 (.add (.add (.shr (.x 0) 56) (.a 64 0 4)) (.x 2)),
    .set 64 (.add (.a 64 0 0) (.x 2)),
    .set 64 (.add (.shr (.x 3) 56) (.a 64 0 5)),
    .set 64 (.add (.shr (.x 4) 56) (.a 64 0 1)),
    .set 64 (.add (.shr (.x 5) 56) (.a 64 0 6)),
    .set 64 (.add (.shr (.x 6) 56) (.a 64 0 2)),
    .set 64 (.add (.shr (.x 7) 56) (.land (.x 1) (.lit 64 0xffffffffffffff))),
    .set 64 (.add (.shr (.x 8) 56) (.land (.x 0) (.lit 64 0xffffffffffffff))),
    .set 8 (.cast 8 (.shr (.x 9) 56)),
    .set 64 (.add (.land (.x 4) (.lit 64 0xffffffffffffff)) (.cast 64 (.x 11))),
    .set 64 (.add (.cast 8 (.shr (.x 10) 56)) (.add (.land (.x 3) (.lit 64 0xffffffffffffff)) (.cast 64 (.x 11)))),
    .set 64 (.land (.x 12) (.lit 64 0xffffffffffffff)),
    .set 64 (.add (.cast 8 (.shr (.x 12) 56)) (.land (.x 6) (.lit 64 0xffffffffffffff))),
    .set 64 (.land (.x 8) (.lit 64 0xffffffffffffff)),
    .set 64 (.land (.x 10) (.lit 64 0xffffffffffffff)),
    .set 64 (.land (.x 13) (.lit 64 0xffffffffffffff)),
    .set 64 (.add (.cast 8 (.shr (.x 13) 56)) (.land (.x 5) (.lit 64 0xffffffffffffff))),
    .set 64 (.land (.x 7) (.lit 64 0xffffffffffffff)),
    .set 64 (.land (.x 9) (.lit 64 0xffffffffffffff))]
  outs := [.x 14, .x 15, .x 16, .x 17, .x 18, .x 19, .x 20, .x 21]

/-- src/fields/p448_64.h:287-584 `fiat_p448_carry_mul`. -/
def p448_carry_mul : Prog where
  body := [
    .set 128 (.mul (.cast 128 (.a 64 0 7)) (.a 64 1 7)),
    .set 128 (.mul (.cast 128 (.a 64 0 7)) (.a 64 1 6)),
    .set 128 (.mul (.cast 128 (.a 64 0 7)) (.a 64 1 5)),
    .set 128 (.mul (.cast 128 (.a 64 0 6)) (.a 64 1 7)),
    .set 128 (.mul (.cast 128 (.a 64 0 6)) (.a 64 1 6)),
    .set 128 (.mul (.cast 128 (.a 64 0 5)) (.a 64 1 7)),
    .set 128 (.mul (.cast 128 (.a 64 0 7)) (.a 64 1 7)),
    .set 128 (.mul (.cast 128 (.a 64 0 7)) (.a 64 1 6)),
    .set 128 (.mul (.cast 128 (.a 64 0 7)) (.a 64 1 5)),
    .set 128 (.mul (.cast 128 (.a 64 0 6)) (.a 64 1 7)),
    .set 128 (.mul (.cast 128 (.a 64 0 6)) (.a 64 1 6)),
    .set 128 (.mul (.cast 128 (.a 64 0 5)) (.a 64 1 7)),
    .set 128 (.mul (.cast 128 (.a 64 0 7)) (.a 64 1 7)),
    .set 128 (.mul (.cast 128 (.a 64 0 7)) (.a 64 1 6)),
    .set 128 (.mul (.cast 128 (.a 64 0 7)) (.a 64 1 5)),
    .set 128 (.mul (.cast 128 (.a 64 0 7)) (.a 64 1 4)),
    .set 128 (.mul (.cast 128 (.a 64 0 7)) (.a 64 1 3)),
    .set 128 (.mul (.cast 128 (.a 64 0 7)) (.a 64 1 2)),
    .set 128 (.mul (.cast 128 (.a 64 0 7)) (.a 64 1 1)),
    .set 128 (.mul (.cast 128 (.a 64 0 6)) (.a 64 1 7)),
    .set 128 (.mul (.cast 128 (.a 64 0 6)) (.a 64 1 6)),
    .set 128 (.mul (.cast 128 (.a 64 0 6)) (.a 64 1 5)),
    .set 128 (.mul (.cast 128 (.a 64 0 6)) (.a 64 1 4)),
    .set 128 (.mul (.cast 128 (.a 64 0 6)) (.a 64 1 3)),
    .set 128 (.mul (.cast 128 (.a 64 0 6)) (.a 64 1 2)),
    .set 128 (.mul (.cast 128 (.a 64 0 5)) (.a 64 1 7)),
    .set 128 (.mul (.cast 128 (.a 64 0 5)) (.a 64 1 6)),
    .set 128 (.mul (.cast 128 (.a 64 0 5)) (.a 64 1 5)),
    .set 128 (.mul (.cast 128 (.a 64 0 5)) (.a 64 1 4)),
    .set 128 (.mul (.cast 128 (.a 64 0 5)) (.a 64 1 3)),
    .set 128 (.mul (.cast 128 (.a 64 0 4)) (.a 64 1 7)),
    .set 128 (.mul (.cast 128 (.a 64 0 4)) (.a 64 1 6)),
    .set 128 (.mul (.cast 128 (.a 64 0 4)) (.a 64 1 5)),
    .set 128 (.mul (.cast 128 (.a 64 0 4)) (.a 64 1 4)),
    .set 128 (.mul (.cast 128 (.a 64 0 3)) (.a 64 1 7)),
    .set 128 (.mul (.cast 128 (.a 64 0 3)) (.a 64 1 6)),
    .set 128 (.mul (.cast 128 (.a 64 0 3)) (.a 64 1 5)),
    .set 128 (.mul (.cast 128 (.a 64 0 2)) (.a 64 1 7)),
    .set 128 (.mul (.cast 128 (.a 64 0 2)) (.a 64 1 6)),
    .set 128 (.mul (.cast 128 (.a 64 0 1)) (.a 64 1 7)),
    .set 128 (.mul (.cast 128 (.a 64 0 7)) (.a 64 1 4)),
    .set 128 (.mul (.cast 128 (.a 64 0 7)) (.a 64 1 3)),
    .set 128 (.mul (.cast 128 (.a 64 0 7)) (.a 64 1 2)),
    .set 128 (.mul (.cast 128 (.a 64 0 7)) (.a 64 1 1)),
    .set 128 (.mul (.cast 128 (.a 64 0 6)) (.a 64 1 5)),
    .set 128 (.mul (.cast 128 (.a 64 0 6)) (.a 64 1 4)),
    .set 128 (.mul (.cast 128 (.a 64 0 6)) (.a 64 1 3)),
    .set 128 (.mul (.cast 128 (.a 64 0 6)) (.a 64 1 2)),
    .set 128 (.mul (.cast 128 (.a 64 0 5)) (.a 64 1 6)),
    .set 128 (.mul (.cast 128 (.a 64 0 5)) (.a 64 1 5)),
    .set 128 (.mul (.cast 128 (.a 64 0 5)) (.a 64 1 4)),
    .set 128 (.mul (.cast 128 (.a 64 0 5)) (.a 64 1 3)),
    .set 128 (.mul (.cast 128 (.a 64 0 4)) (.a 64 1 7)),
    .set 128 (.mul (.cast 128 (.a 64 0 4)) (.a 64 1 6)),
    .set 128 (.mul (.cast 128 (.a 64 0 4)) (.a 64 1 5)),
    .set 128 (.mul (.cast 128 (.a 64 0 4)) (.a 64 1 4)),
    .set 128 (.mul (.cast 128 (.a 64 0 3)) (.a 64 1 7)),
    .set 128 (.mul (.cast 128 (.a 64 0 3)) (.a 64 1 6)),
    .set 128 (.mul (.cast 128 (.a 64 0 3)) (.a 64 1 5)),
    .set 128 (.mul (.cast 128 (.a 64 0 2)) (.a 64 1 7)),
    .set 128 (.mul (.cast 128 (.a 64 0 2)) (.a 64 1 6)),
    .set 128 (.mul (.cast 128 (.a 64 0 1)) (.a 64 1 7)),
    .set 128 (.mul (.cast 128 (.a 64 0 7)) (.a 64 1 0)),
    .set 128 (.mul (.cast 128 (.a 64 0 6)) (.a 64 1 1)),
    .set 128 (.mul (.cast 128 (.a 64 0 6)) (.a 64 1 0)),
    .set 128 (.mul (.cast 128 (.a 64 0 5)) (.a 64 1 2)),
    .set 128 (.mul (.cast 128 (.a 64 0 5)) (.a 64 1 1)),
    .set 128 (.mul (.cast 128 (.a 64 0 5)) (.a 64 1 0)),
    .set 128 (.mul (.cast 128 (.a 64 0 4)) (.a 64 1 3)),
    .set 128 (.mul (.cast 128 (.a 64 0 4)) (.a 64 1 2)),
    .set 128 (.mul (.cast 128 (.a 64 0 4)) (.a 64 1 1)),
    .set 128 (.mul (.cast 128 (.a 64 0 4)) (.a 64 1 0)),
    .set 128 (.mul (.cast 128 (.a 64 0 3)) (.a 64 1 4)),
    .set 128 (.mul (.cast 128 (.a 64 0 3)) (.a 64 1 3)),
    .set 128 (.mul (.cast 128 (.a 64 0 3)) (.a 64 1 2)),
    .set 128 (.mul (.cast 128 (.a 64 0 3)) (.a 64 1 1)),
    .set 128 (.mul (.cast 128 (.a 64 0 3)) (.a 64 1 0)),
    .set 128 (.mul (.cast 128 (.a 64 0 2)) (.a 64 1 5)),
    .set 128 (.mul (.cast 128 (.a 64 0 2)) (.a 64 1 4)),
    .set 128 (.mul (.cast 128 (.a 64 0 2)) (.a 64 1 3)),
    .set 128 (.mul (.cast 128 (.a 64 0 2)) (.a 64 1 2)),
    .set 128 (.mul (.cast 128 (.a 64 0 2)) (.a 64 1 1)),
    .set 128 (.mul (.cast 128 (.a 64 0 2)) (.a 64 1 0)),
    .set 128 (.mul (.cast 128 (.a 64 0 1)) (.a 64 1 6)),
    .set 128 (.mul (.cast 128 (.a 64 0 1)) (.a 64 1 5)),
    .set 128 (.mul (.cast 128 (.a 64 0 1)) (.a 64 1 4)),
    .set 128 (.mul (.cast 128 (.a 64 0 1)) (.a 64 1 3)),
    .set 128 (.mul (.cast 128 (.a 64 0 1)) (.a 64 1 2)),
    .set 128 (.mul (.cast 128 (.a 64 0 1)) (.a 64 1 1)),
    .set 128 (.mul (.cast 128 (.a 64 0 1)) (.a 64 1 0)),
    .set 128 (.mul (.cast 128 (.a 64 0 0)) (.a 64 1 7)),
    .set 128 (.mul (.cast 128 (.a 64 0 0)) (.a 64 1 6)),
    .set 128 (.mul (.cast 128 (.a 64 0 0)) (.a 64 1 5)),
    .set 128 (.mul (.cast 128 (.a 64 0 0)) (.a 64 1 4)),
    .set 128 (.mul (.cast 128 (.a 64 0 0)) (.a 64 1 3)),
    .set 128 (.mul (.cast 128 (.a 64 0 0)) (.a 64 1 2)),
    .set 128 (.mul (.cast 128 (.a 64 0 0)) (.a 64 1 1)),
    .set 128 (.mul (.cast 128 (.a 64 0 0)) (.a 64 1 0)),
    .set 128 (.add (.x 94) (.add (.x 87) (.add (.x 81) (.add (.x 76) (.add (.x 30) (.add (.x 26) (.add (.x 21) (.x 15)))))))),
    .set 64 (.cast 64 (.shr (.x 98) 56)),
    .set 64 (.cast 64 (.land (.x 98) (.lit 64 0xffffffffffffff))),
    .set 128 (.add (.x 90) (.add (.x 83) (.add (.x 77) (.add (.x 72) (.add (.x 68) (.add (.x 65) (.add (.x 63) (.add (.x 62) (.add (.x 52) (.add (.x 48) (.add (.x 44) (.x 40)))))))))))),
    .set 128 (.add (.x 91) (.add (.x 84) (.add (.x 78) (.add (.x 73) (.add (.x 69) (.add (.x 66) (.add (.x 64) (.add (.x 56) (.add (.x 53) (.add (.x 49) (.add (.x 45) (.add (.x 41) (.add (.x 12) (.x 6)))))))))))))),
    .set 128 (.add (.x 92) (.add (.x 85) (.add (.x 79) (.add (.x 74) (.add (.x 70) (.add (.x 67) (.add (.x 59) (.add (.x 57) (.add (.x 54) (.add (.x 50) (.add (.x 46) (.add (.x 42) (.add (.x 19) (.add (.x 13) (.add (.x 9) (.x 7)))))))))))))))),
    .set 128 (.add (.x 93) (.add (.x 86) (.add (.x 80) (.add (.x 75) (.add (.x 71) (.add (.x 61) (.add (.x 60) (.add (.x 58) (.add (.x 55) (.add (.x 51) (.add (.x 47) (.add (.x 43) (.add (.x 25) (.add (.x 20) (.add (.x 14) (.add (.x 11) (.add (.x 10) (.x 8)))))))))))))))))),
    .set 128 (.add (.x 95) (.add (.x 88) (.add (.x 82) (.add (.x 34) (.add (.x 31) (.add (.x 27) (.add (.x 22) (.add (.x 16) (.x 0))))))))),
    .set 128 (.add (.x 96) (.add (.x 89) (.add (.x 37) (.add (.x 35) (.add (.x 32) (.add (.x 28) (.add (.x 23) (.add (.x 17) (.add (.x 3) (.x 1)))))))))),
    .set 128 (.add (.x 97) (.add (.x 39) (.add (.x 38) (.add (.x 36) (.add (.x 33) (.add (.x 29) (.add (.x 24) (.add (.x 18) (.add (.x 5) (.add (.x 4) (.x 2))))))))))),
    .set 128 (.add (.x 99) (.x 104)),
    .set 64 (.cast 64 (.shr (.x 101) 56)),
    .set 64 (.cast 64 (.land (.x 101) (.lit 64 0xffffffffffffff))),
    .set 128 (.add (.x 108) (.x 109)),
    .set 64 (.cast 64 (.shr (.x 111) 56)),
    .set 64 (.cast 64 (.land (.x 111) (.lit 64 0xffffffffffffff))),
    .set 128 (.add (.x 107) (.x 109)),
    .set 128 (.add (.x 112) (.x 103)),
    .set 64 (.cast 64 (.shr (.x 114) 56)),
    .set 64 (.cast 64 (.land (.x 114) (.lit 64 0xffffffffffffff))),
    .set 128 (.add (.x 116) (.x 106)),
    .set 64 (.cast 64 (.shr (.x 115) 56)),
    .set 64 (.cast 64 (.land (.x 115) (.lit 64 0xffffffffffffff))),
    .set 128 (.add (.x 119) (.x 102)),
    .set 64 (.cast 64 (.shr (.x 118) 56)),
    .set 64 (.cast 64 (.land (.x 118) (.lit 64 0xffffffffffffff))),
    .set 128 (.add (.x 122) (.x 105)),
    .set 64 (.cast 64 (.shr (.x 121) 56)),
    .set 64 (.cast 64 (.land (.x 121) (.lit 64 0xffffffffffffff))),
    .set 64 (.add (.x 125) (.x 110)),
    .set 64 (.cast 64 (.shr (.x 124) 56)),
    .set 64 (.cast 64 (.land (.x 124) (.lit 64 0xffffffffffffff))),
    .set 64 (.add (.x 128) (.x 100)),
    .set 64 (.shr (.x 127) 56),
    .set 64 (.land (.x 127) (.lit 64 0xffffffffffffff)),
    .set 64 (.shr (.x 130) 56),
    .set 64 (.land (.x 130) (.lit 64 0xffffffffffffff)),
    .set 64 (.add (.x 113) (.x 131)),
    .set 64 (.add (.x 117) (.x 131)),
    .set 64 (.add (.x 133) (.x 135)),
    .set 8 (.cast 8 (.shr (.x 137) 56)),
    .set 64 (.land (.x 137) (.lit 64 0xffffffffffffff)),
    .set 64 (.add (.x 138) (.x 120)),
    .set 8 (.cast 8 (.shr (.x 136) 56)),
    .set 64 (.land (.x 136) (.lit 64 0xffffffffffffff)),
    .set 64 (.add (.x 141) (.x 123))]
  outs := [.x 142, .x 143, .x 129, .x 134, .x 139, .x 140, .x 126, .x 132]

/-- src/fields/p448_64.h:596-851 `fiat_p448_carry_square`. -/
def p448_carry_square : Prog where
  body := [
    .set 64 (.a 64 0 7),
    .set 64 (.a 64 0 7),
    .set 64 (.mul (.x 0) (.lit 31 0x2)),
    .set 64 (.mul (.x 1) (.lit 31 0x2)),
    .set 64 (.mul (.a 64 0 7) (.lit 31 0x2)),
    .set 64 (.a 64 0 6),
    .set 64 (.a 64 0 6),
    .set 64 (.mul (.x 5) (.lit 31 0x2)),
    .set 64 (.mul (.x 6) (.lit 31 0x2)),
    .set 64 (.mul (.a 64 0 6) (.lit 31 0x2)),
    .set 64 (.a 64 0 5),
    .set 64 (.a 64 0 5),
    .set 64 (.mul (.x 10) (.lit 31 0x2)),
    .set 64 (.mul (.x 11) (.lit 31 0x2)),
    .set 64 (.mul (.a 64 0 5) (.lit 31 0x2)),
    .set 64 (.a 64 0 4),
    .set 64 (.a 64 0 4),
    .set 64 (.mul (.a 64 0 4) (.lit 31 0x2)),
    .set 64 (.mul (.a 64 0 3) (.lit 31 0x2)),
    .set 64 (.mul (.a 64 0 2) (.lit 31 0x2)),
    .set 64 (.mul (.a 64 0 1) (.lit 31 0x2)),
    .set 128 (.mul (.cast 128 (.a 64 0 7)) (.x 0)),
    .set 128 (.mul (.cast 128 (.a 64 0 6)) (.x 2)),
    .set 128 (.mul (.cast 128 (.a 64 0 6)) (.x 5)),
    .set 128 (.mul (.cast 128 (.a 64 0 5)) (.x 2)),
    .set 128 (.mul (.cast 128 (.a 64 0 7)) (.x 0)),
    .set 128 (.mul (.cast 128 (.a 64 0 6)) (.x 2)),
    .set 128 (.mul (.cast 128 (.a 64 0 6)) (.x 5)),
    .set 128 (.mul (.cast 128 (.a 64 0 5)) (.x 2)),
    .set 128 (.mul (.cast 128 (.a 64 0 7)) (.x 1)),
    .set 128 (.mul (.cast 128 (.a 64 0 6)) (.x 3)),
    .set 128 (.mul (.cast 128 (.a 64 0 6)) (.x 6)),
    .set 128 (.mul (.cast 128 (.a 64 0 5)) (.x 3)),
    .set 128 (.mul (.cast 128 (.a 64 0 5)) (.x 8)),
    .set 128 (.mul (.cast 128 (.a 64 0 5)) (.x 7)),
    .set 128 (.mul (.cast 128 (.a 64 0 5)) (.x 11)),
    .set 128 (.mul (.cast 128 (.a 64 0 5)) (.x 10)),
    .set 128 (.mul (.cast 128 (.a 64 0 4)) (.x 3)),
    .set 128 (.mul (.cast 128 (.a 64 0 4)) (.x 2)),
    .set 128 (.mul (.cast 128 (.a 64 0 4)) (.x 8)),
    .set 128 (.mul (.cast 128 (.a 64 0 4)) (.x 7)),
    .set 128 (.mul (.cast 128 (.a 64 0 4)) (.x 13)),
    .set 128 (.mul (.cast 128 (.a 64 0 4)) (.x 12)),
    .set 128 (.mul (.cast 128 (.a 64 0 4)) (.x 16)),
    .set 128 (.mul (.cast 128 (.a 64 0 4)) (.x 15)),
    .set 128 (.mul (.cast 128 (.a 64 0 3)) (.x 3)),
    .set 128 (.mul (.cast 128 (.a 64 0 3)) (.x 2)),
    .set 128 (.mul (.cast 128 (.a 64 0 3)) (.x 8)),
    .set 128 (.mul (.cast 128 (.a 64 0 3)) (.x 7)),
    .set 128 (.mul (.cast 128 (.a 64 0 3)) (.x 13)),
    .set 128 (.mul (.cast 128 (.a 64 0 3)) (.x 12)),
    .set 128 (.mul (.cast 128 (.a 64 0 3)) (.x 17)),
    .set 128 (.mul (.cast 128 (.a 64 0 3)) (.a 64 0 3)),
    .set 128 (.mul (.cast 128 (.a 64 0 2)) (.x 3)),
    .set 128 (.mul (.cast 128 (.a 64 0 2)) (.x 2)),
    .set 128 (.mul (.cast 128 (.a 64 0 2)) (.x 8)),
    .set 128 (.mul (.cast 128 (.a 64 0 2)) (.x 7)),
    .set 128 (.mul (.cast 128 (.a 64 0 2)) (.x 14)),
    .set 128 (.mul (.cast 128 (.a 64 0 2)) (.x 17)),
    .set 128 (.mul (.cast 128 (.a 64 0 2)) (.x 18)),
    .set 128 (.mul (.cast 128 (.a 64 0 2)) (.a 64 0 2)),
    .set 128 (.mul (.cast 128 (.a 64 0 1)) (.x 3)),
    .set 128 (.mul (.cast 128 (.a 64 0 1)) (.x 2)),
    .set 128 (.mul (.cast 128 (.a 64 0 1)) (.x 9)),
    .set 128 (.mul (.cast 128 (.a 64 0 1)) (.x 14)),
    .set 128 (.mul (.cast 128 (.a 64 0 1)) (.x 17)),
    .set 128 (.mul (.cast 128 (.a 64 0 1)) (.x 18)),
    .set 128 (.mul (.cast 128 (.a 64 0 1)) (.x 19)),
    .set 128 (.mul (.cast 128 (.a 64 0 1)) (.a 64 0 1)),
    .set 128 (.mul (.cast 128 (.a 64 0 0)) (.x 4)),
    .set 128 (.mul (.cast 128 (.a 64 0 0)) (.x 9)),
    .set 128 (.mul (.cast 128 (.a 64 0 0)) (.x 14)),
    .set 128 (.mul (.cast 128 (.a 64 0 0)) (.x 17)),
    .set 128 (.mul (.cast 128 (.a 64 0 0)) (.x 18)),
    .set 128 (.mul (.cast 128 (.a 64 0 0)) (.x 19)),
    .set 128 (.mul (.cast 128 (.a 64 0 0)) (.x 20)),
    .set 128 (.mul (.cast 128 (.a 64 0 0)) (.a 64 0 0)),
    .set 128 (.add (.x 73) (.add (.x 67) (.add (.x 37) (.x 33)))),
    .set 64 (.cast 64 (.shr (.x 77) 56)),
    .set 64 (.cast 64 (.land (.x 77) (.lit 64 0xffffffffffffff))),
    .set 128 (.add (.x 69) (.add (.x 63) (.add (.x 57) (.add (.x 51) (.add (.x 38) (.x 34)))))),
    .set 128 (.add (.x 70) (.add (.x 64) (.add (.x 58) (.add (.x 52) (.add (.x 46) (.add (.x 40) (.add (.x 36) (.add (.x 29) (.x 25))))))))),
    .set 128 (.add (.x 71) (.add (.x 65) (.add (.x 59) (.add (.x 54) (.add (.x 48) (.add (.x 42) (.add (.x 30) (.x 26)))))))),
    .set 128 (.add (.x 72) (.add (.x 66) (.add (.x 62) (.add (.x 60) (.add (.x 56) (.add (.x 50) (.add (.x 44) (.add (.x 32) (.add (.x 31) (.add (.x 28) (.x 27))))))))))),
    .set 128 (.add (.x 74) (.add (.x 68) (.add (.x 45) (.add (.x 39) (.add (.x 35) (.x 21)))))),
    .set 128 (.add (.x 75) (.add (.x 53) (.add (.x 47) (.add (.x 41) (.x 22))))),
    .set 128 (.add (.x 76) (.add (.x 61) (.add (.x 55) (.add (.x 49) (.add (.x 43) (.add (.x 24) (.x 23))))))),
    .set 128 (.add (.x 78) (.x 83)),
    .set 64 (.cast 64 (.shr (.x 80) 56)),
    .set 64 (.cast 64 (.land (.x 80) (.lit 64 0xffffffffffffff))),
    .set 128 (.add (.x 87) (.x 88)),
    .set 64 (.cast 64 (.shr (.x 90) 56)),
    .set 64 (.cast 64 (.land (.x 90) (.lit 64 0xffffffffffffff))),
    .set 128 (.add (.x 86) (.x 88)),
    .set 128 (.add (.x 91) (.x 82)),
    .set 64 (.cast 64 (.shr (.x 93) 56)),
    .set 64 (.cast 64 (.land (.x 93) (.lit 64 0xffffffffffffff))),
    .set 128 (.add (.x 95) (.x 85)),
    .set 64 (.cast 64 (.shr (.x 94) 56)),
    .set 64 (.cast 64 (.land (.x 94) (.lit 64 0xffffffffffffff))),
    .set 128 (.add (.x 98) (.x 81)),
    .set 64 (.cast 64 (.shr (.x 97) 56)),
    .set 64 (.cast 64 (.land (.x 97) (.lit 64 0xffffffffffffff))),
    .set 128 (.add (.x 101) (.x 84)),
    .set 64 (.cast 64 (.shr (.x 100) 56)),
    .set 64 (.cast 64 (.land (.x 100) (.lit 64 0xffffffffffffff))),
    .set 64 (.add (.x 104) (.x 89)),
    .set 64 (.cast 64 (.shr (.x 103) 56)),
    .set 64 (.cast 64 (.land (.x 103) (.lit 64 0xffffffffffffff))),
    .set 64 (.add (.x 107) (.x 79)),
    .set 64 (.shr (.x 106) 56),
    .set 64 (.land (.x 106) (.lit 64 0xffffffffffffff)),
    .set 64 (.shr (.x 109) 56),
    .set 64 (.land (.x 109) (.lit 64 0xffffffffffffff)),
    .set 64 (.add (.x 92) (.x 110)),
    .set 64 (.add (.x 96) (.x 110)),
    .set 64 (.add (.x 112) (.x 114)),
    .set 8 (.cast 8 (.shr (.x 116) 56)),
    .set 64 (.land (.x 116) (.lit 64 0xffffffffffffff)),
    .set 64 (.add (.x 117) (.x 99)),
    .set 8 (.cast 8 (.shr (.x 115) 56)),
    .set 64 (.land (.x 115) (.lit 64 0xffffffffffffff)),
    .set 64 (.add (.x 120) (.x 102))]
  outs := [.x 121, .x 122, .x 108, .x 113, .x 118, .x 119, .x 105, .x 111]

/-- src/fields/p448_64.h:863-964 `fiat_p448_carry_scmul_3`. -/
def p448_carry_scmul_3 : Prog where
  body := [
    .set 64 (.mul (.a 64 0 7) (.lit 31 0x3)),
    .set 64 (.mul (.a 64 0 6) (.lit 31 0x3)),
    .set 64 (.mul (.a 64 0 5) (.lit 31 0x3)),
    .set 64 (.mul (.a 64 0 4) (.lit 31 0x3)),
    .set 64 (.mul (.a 64 0 3) (.lit 31 0x3)),
    .set 64 (.mul (.a 64 0 2) (.lit 31 0x3)),
    .set 64 (.mul (.a 64 0 1) (.lit 31 0x3)),
    .set 64 (.mul (.a 64 0 0) (.lit 31 0x3)),
    .set 64 (.shr (.x 4) 56),
    .set 64 (.land (.x 4) (.lit 64 0xffffffffffffff)),
    .set 64 (.add (.x 8) (.x 3)),
    .set 64 (.shr (.x 0) 56),
    .set 64 (.land (.x 0) (.lit 64 0xffffffffffffff)),
    .set 64 (.add (.x 10) (.x 11)),
    .set 64 (.shr (.x 13) 56),
    .set 64 (.land (.x 13) (.lit 64 0xffffffffffffff)),
    .set 64 (.add (.x 7) (.x 11)),
    .set 64 (.add (.x 14) (.x 2)),
    .set 64 (.shr (.x 16) 56),
    .set 64 (.land (.x 16) (.lit 64 0xffffffffffffff)),
    .set 64 (.add (.x 18) (.x 6)),
    .set 64 (.shr (.x 17) 56),
    .set 64 (.land (.x 17) (.lit 64 0xffffffffffffff)),
    .set 64 (.add (.x 21) (.x 1)),
    .set 64 (.shr (.x 20) 56),
    .set 64 (.land (.x 20) (.lit 64 0xffffffffffffff)),
    .set 64 (.add (.x 24) (.x 5)),
    .set 64 (.shr (.x 23) 56),
    .set 64 (.land (.x 23) (.lit 64 0xffffffffffffff)),
    .set 64 (.add (.x 27) (.x 12)),
    .set 64 (.shr (.x 26) 56),
    .set 64 (.land (.x 26) (.lit 64 0xffffffffffffff)),
    .set 64 (.add (.x 30) (.x 9)),
    .set 8 (.cast 8 (.shr (.x 29) 56)),
    .set 64 (.land (.x 29) (.lit 64 0xffffffffffffff)),
    .set 8 (.cast 8 (.shr (.x 32) 56)),
    .set 64 (.land (.x 32) (.lit 64 0xffffffffffffff)),
    .set 64 (.add (.x 15) (.cast 64 (.x 33))),
    .set 64 (.add (.x 19) (.cast 64 (.x 33))),
    .set 64 (.add (.x 35) (.x 37)),
    .set 8 (.cast 8 (.shr (.x 39) 56)),
    .set 64 (.land (.x 39) (.lit 64 0xffffffffffffff)),
    .set 64 (.add (.x 40) (.x 22)),
    .set 8 (.cast 8 (.shr (.x 38) 56)),
    .set 64 (.land (.x 38) (.lit 64 0xffffffffffffff)),
    .set 64 (.add (.x 43) (.x 25))]
  outs := [.x 44, .x 45, .x 31, .x 36, .x 41, .x 42, .x 28, .x 34]

/-- src/fields/p448_64.h:976-1077 `fiat_p448_carry_scmul_4`. -/
def p448_carry_scmul_4 : Prog where
  body := [
    .set 64 (.shl (.a 64 0 7) 2),
    .set 64 (.shl (.a 64 0 6) 2),
    .set 64 (.shl (.a 64 0 5) 2),
    .set 64 (.shl (.a 64 0 4) 2),
    .set 64 (.shl (.a 64 0 3) 2),
    .set 64 (.shl (.a 64 0 2) 2),
    .set 64 (.shl (.a 64 0 1) 2),
    .set 64 (.shl (.a 64 0 0) 2),
    .set 64 (.shr (.x 4) 56),
    .set 64 (.land (.x 4) (.lit 64 0xffffffffffffff)),
    .set 64 (.add (.x 8) (.x 3)),
    .set 64 (.shr (.x 0) 56),
    .set 64 (.land (.x 0) (.lit 64 0xffffffffffffff)),
    .set 64 (.add (.x 10) (.x 11)),
    .set 64 (.shr (.x 13) 56),
    .set 64 (.land (.x 13) (.lit 64 0xffffffffffffff)),
    .set 64 (.add (.x 7) (.x 11)),
    .set 64 (.add (.x 14) (.x 2)),
    .set 64 (.shr (.x 16) 56),
    .set 64 (.land (.x 16) (.lit 64 0xffffffffffffff)),
    .set 64 (.add (.x 18) (.x 6)),
    .set 64 (.shr (.x 17) 56),
    .set 64 (.land (.x 17) (.lit 64 0xffffffffffffff)),
    .set 64 (.add (.x 21) (.x 1)),
    .set 64 (.shr (.x 20) 56),
    .set 64 (.land (.x 20) (.lit 64 0xffffffffffffff)),
    .set 64 (.add (.x 24) (.x 5)),
    .set 64 (.shr (.x 23) 56),
    .set 64 (.land (.x 23) (.lit 64 0xffffffffffffff)),
    .set 64 (.add (.x 27) (.x 12)),
    .set 64 (.shr (.x 26) 56),
    .set 64 (.land (.x 26) (.lit 64 0xffffffffffffff)),
    .set 64 (.add (.x 30) (.x 9)),
    .set 8 (.cast 8 (.shr (.x 29) 56)),
    .set 64 (.land (.x 29) (.lit 64 0xffffffffffffff)),
    .set 8 (.cast 8 (.shr (.x 32) 56)),
    .set 64 (.land (.x 32) (.lit 64 0xffffffffffffff)),
    .set 64 (.add (.x 15) (.cast 64 (.x 33))),
    .set 64 (.add (.x 19) (.cast 64 (.x 33))),
    .set 64 (.add (.x 35) (.x 37)),
    .set 8 (.cast 8 (.shr (.x 39) 56)),
    .set 64 (.land (.x 39) (.lit 64 0xffffffffffffff)),
    .set 64 (.add (.x 40) (.x 22)),
    .set 8 (.cast 8 (.shr (.x 38) 56)),
    .set 64 (.land (.x 38) (.lit 64 0xffffffffffffff)),
    .set 64 (.add (.x 43) (.x 25))]
  outs := [.x 44, .x 45, .x 31, .x 36, .x 41, .x 42, .x 28, .x 34]

/-- src/fields/p448_64.h:1089-1190 `fiat_p448_carry_scmul_8`. -/
def p448_carry_scmul_8 : Prog where
  body := [
    .set 64 (.shl (.a 64 0 7) 3),
    .set 64 (.shl (.a 64 0 6) 3),
    .set 64 (.shl (.a 64 0 5) 3),
    .set 64 (.shl (.a 64 0 4) 3),
    .set 64 (.shl (.a 64 0 3) 3),
    .set 64 (.shl (.a 64 0 2) 3),
    .set 64 (.shl (.a 64 0 1) 3),
    .set 64 (.shl (.a 64 0 0) 3),
    .set 64 (.shr (.x 4) 56),
    .set 64 (.land (.x 4) (.lit 64 0xffffffffffffff)),
    .set 64 (.add (.x 8) (.x 3)),
    .set 64 (.shr (.x 0) 56),
    .set 64 (.land (.x 0) (.lit 64 0xffffffffffffff)),
    .set 64 (.add (.x 10) (.x 11)),
    .set 64 (.shr (.x 13) 56),
    .set 64 (.land (.x 13) (.lit 64 0xffffffffffffff)),
    .set 64 (.add (.x 7) (.x 11)),
    .set 64 (.add (.x 14) (.x 2)),
    .set 64 (.shr (.x 16) 56),
    .set 64 (.land (.x 16) (.lit 64 0xffffffffffffff)),
    .set 64 (.add (.x 18) (.x 6)),
    .set 64 (.shr (.x 17) 56),
    .set 64 (.land (.x 17) (.lit 64 0xffffffffffffff)),
    .set 64 (.add (.x 21) (.x 1)),
    .set 64 (.shr (.x 20) 56),
    .set 64 (.land (.x 20) (.lit 64 0xffffffffffffff)),
    .set 64 (.add (.x 24) (.x 5)),
    .set 64 (.shr (.x 23) 56),
    .set 64 (.land (.x 23) (.lit 64 0xffffffffffffff)),
    .set 64 (.add (.x 27) (.x 12)),
    .set 64 (.shr (.x 26) 56),
    .set 64 (.land (.x 26) (.lit 64 0xffffffffffffff)),
    .set 64 (.add (.x 30) (.x 9)),
    .set 8 (.cast 8 (.shr (.x 29) 56)),
    .set 64 (.land (.x 29) (.lit 64 0xffffffffffffff)),
    .set 8 (.cast 8 (.shr (.x 32) 56)),
    .set 64 (.land (.x 32) (.lit 64 0xffffffffffffff)),
    .set 64 (.add (.x 15) (.cast 64 (.x 33))),
    .set 64 (.add (.x 19) (.cast 64 (.x 33))),
    .set 64 (.add (.x 35) (.x 37)),
    .set 8 (.cast 8 (.shr (.x 39) 56)),
    .set 64 (.land (.x 39) (.lit 64 0xffffffffffffff)),
    .set 64 (.add (.x 40) (.x 22)),
    .set 8 (.cast 8 (.shr (.x 38) 56)),
    .set 64 (.land (.x 38) (.lit 64 0xffffffffffffff)),
    .set 64 (.add (.x 43) (.x 25))]
  outs := [.x 44, .x 45, .x 31, .x 36, .x 41, .x 42, .x 28, .x 34]

/-- src/fields/p448_64.h:1202-1303 `fiat_p448_carry_scmul_39082`. -/
def p448_carry_scmul_39082 : Prog where
  body := [
    .set 128 (.mul (.cast 128 (.lit 31 0x98aa)) (.a 64 0 7)),
    .set 128 (.mul (.cast 128 (.lit 31 0x98aa)) (.a 64 0 6)),
    .set 128 (.mul (.cast 128 (.lit 31 0x98aa)) (.a 64 0 5)),
    .set 128 (.mul (.cast 128 (.lit 31 0x98aa)) (.a 64 0 4)),
    .set 128 (.mul (.cast 128 (.lit 31 0x98aa)) (.a 64 0 3)),
    .set 128 (.mul (.cast 128 (.lit 31 0x98aa)) (.a 64 0 2)),
    .set 128 (.mul (.cast 128 (.lit 31 0x98aa)) (.a 64 0 1)),
    .set 128 (.mul (.cast 128 (.lit 31 0x98aa)) (.a 64 0 0)),
    .set 64 (.cast 64 (.shr (.x 4) 56)),
    .set 64 (.cast 64 (.land (.x 4) (.lit 64 0xffffffffffffff))),
    .set 128 (.add (.x 8) (.x 3)),
    .set 64 (.cast 64 (.shr (.x 0) 56)),
    .set 64 (.cast 64 (.land (.x 0) (.lit 64 0xffffffffffffff))),
    .set 128 (.add (.x 10) (.x 11)),
    .set 64 (.cast 64 (.shr (.x 13) 56)),
    .set 64 (.cast 64 (.land (.x 13) (.lit 64 0xffffffffffffff))),
    .set 128 (.add (.x 7) (.x 11)),
    .set 128 (.add (.x 14) (.x 2)),
    .set 64 (.cast 64 (.shr (.x 16) 56)),
    .set 64 (.cast 64 (.land (.x 16) (.lit 64 0xffffffffffffff))),
    .set 128 (.add (.x 18) (.x 6)),
    .set 64 (.cast 64 (.shr (.x 17) 56)),
    .set 64 (.cast 64 (.land (.x 17) (.lit 64 0xffffffffffffff))),
    .set 128 (.add (.x 21) (.x 1)),
    .set 64 (.cast 64 (.shr (.x 20) 56)),
    .set 64 (.cast 64 (.land (.x 20) (.lit 64 0xffffffffffffff))),
    .set 128 (.add (.x 24) (.x 5)),
    .set 64 (.cast 64 (.shr (.x 23) 56)),
    .set 64 (.cast 64 (.land (.x 23) (.lit 64 0xffffffffffffff))),
    .set 64 (.add (.x 27) (.x 12)),
    .set 64 (.cast 64 (.shr (.x 26) 56)),
    .set 64 (.cast 64 (.land (.x 26) (.lit 64 0xffffffffffffff))),
    .set 64 (.add (.x 30) (.x 9)),
    .set 8 (.cast 8 (.shr (.x 29) 56)),
    .set 64 (.land (.x 29) (.lit 64 0xffffffffffffff)),
    .set 8 (.cast 8 (.shr (.x 32) 56)),
    .set 64 (.land (.x 32) (.lit 64 0xffffffffffffff)),
    .set 64 (.add (.x 15) (.cast 64 (.x 33))),
    .set 64 (.add (.x 19) (.cast 64 (.x 33))),
    .set 64 (.add (.x 35) (.x 37)),
    .set 8 (.cast 8 (.shr (.x 39) 56)),
    .set 64 (.land (.x 39) (.lit 64 0xffffffffffffff)),
    .set 64 (.add (.x 40) (.x 22)),
    .set 8 (.cast 8 (.shr (.x 38) 56)),
    .set 64 (.land (.x 38) (.lit 64 0xffffffffffffff)),
    .set 64 (.add (.x 43) (.x 25))]
  outs := [.x 44, .x 45, .x 31, .x 36, .x 41, .x 42, .x 28, .x 34]

/-- src/fields/p448_64.h:1315-1416 `fiat_p448_carry_scmul_39081`. -/
def p448_carry_scmul_39081 : Prog where
  body := [
    .set 128 (.mul (.cast 128 (.lit 31 0x98a9)) (.a 64 0 7)),
    .set 128 (.mul (.cast 128 (.lit 31 0x98a9)) (.a 64 0 6)),
    .set 128 (.mul (.cast 128 (.lit 31 0x98a9)) (.a 64 0 5)),
    .set 128 (.mul (.cast 128 (.lit 31 0x98a9)) (.a 64 0 4)),
    .set 128 (.mul (.cast 128 (.lit 31 0x98a9)) (.a 64 0 3)),
    .set 128 (.mul (.cast 128 (.lit 31 0x98a9)) (.a 64 0 2)),
    .set 128 (.mul (.cast 128 (.lit 31 0x98a9)) (.a 64 0 1)),
    .set 128 (.mul (.cast 128 (.lit 31 0x98a9)) (.a 64 0 0)),
    .set 64 (.cast 64 (.shr (.x 4) 56)),
    .set 64 (.cast 64 (.land (.x 4) (.lit 64 0xffffffffffffff))),
    .set 128 (.add (.x 8) (.x 3)),
    .set 64 (.cast 64 (.shr (.x 0) 56)),
    .set 64 (.cast 64 (.land (.x 0) (.lit 64 0xffffffffffffff))),
    .set 128 (.add (.x 10) (.x 11)),
    .set 64 (.cast 64 (.shr (.x 13) 56)),
    .set 64 (.cast 64 (.land (.x 13) (.lit 64 0xffffffffffffff))),
    .set 128 (.add (.x 7) (.x 11)),
    .set 128 (.add (.x 14) (.x 2)),
    .set 64 (.cast 64 (.shr (.x 16) 56)),
    .set 64 (.cast 64 (.land (.x 16) (.lit 64 0xffffffffffffff))),
    .set 128 (.add (.x 18) (.x 6)),
    .set 64 (.cast 64 (.shr (.x 17) 56)),
    .set 64 (.cast 64 (.land (.x 17) (.lit 64 0xffffffffffffff))),
    .set 128 (.add (.x 21) (.x 1)),
    .set 64 (.cast 64 (.shr (.x 20) 56)),
    .set 64 (.cast 64 (.land (.x 20) (.lit 64 0xffffffffffffff))),
    .set 128 (.add (.x 24) (.x 5)),
    .set 64 (.cast 64 (.shr (.x 23) 56)),
    .set 64 (.cast 64 (.land (.x 23) (.lit 64 0xffffffffffffff))),
    .set 64 (.add (.x 27) (.x 12)),
    .set 64 (.cast 64 (.shr (.x 26) 56)),
    .set 64 (.cast 64 (.land (.x 26) (.lit 64 0xffffffffffffff))),
    .set 64 (.add (.x 30) (.x 9)),
    .set 8 (.cast 8 (.shr (.x 29) 56)),
    .set 64 (.land (.x 29) (.lit 64 0xffffffffffffff)),
    .set 8 (.cast 8 (.shr (.x 32) 56)),
    .set 64 (.land (.x 32) (.lit 64 0xffffffffffffff)),
    .set 64 (.add (.x 15) (.cast 64 (.x 33))),
    .set 64 (.add (.x 19) (.cast 64 (.x 33))),
    .set 64 (.add (.x 35) (.x 37)),
    .set 8 (.cast 8 (.shr (.x 39) 56)),
    .set 64 (.land (.x 39) (.lit 64 0xffffffffffffff)),
    .set 64 (.add (.x 40) (.x 22)),
    .set 8 (.cast 8 (.shr (.x 38) 56)),
    .set 64 (.land (.x 38) (.lit 64 0xffffffffffffff)),
    .set 64 (.add (.x 43) (.x 25))]
  outs := [.x 44, .x 45, .x 31, .x 36, .x 41, .x 42, .x 28, .x 34]

/-- src/fields/p448_64.h:1467-1766 `fiat_p448_to_bytes`. -/
def p448_to_bytes : Prog where
  body := [
    .subb 56 (.lit 31 0x0) (.a 64 0 0) (.lit 64 0xffffffffffffff),
    .subb 56 (.x 1) (.a 64 0 1) (.lit 64 0xffffffffffffff),
    .subb 56 (.x 3) (.a 64 0 2) (.lit 64 0xffffffffffffff),
    .subb 56 (.x 5) (.a 64 0 3) (.lit 64 0xffffffffffffff),
    .subb 56 (.x 7) (.a 64 0 4) (.lit 64 0xfffffffffffffe),
    .subb 56 (.x 9) (.a 64 0 5) (.lit 64 0xffffffffffffff),
    .subb 56 (.x 11) (.a 64 0 6) (.lit 64 0xffffffffffffff),
    .subb 56 (.x 13) (.a 64 0 7) (.lit 64 0xffffffffffffff),
    .cmov (.x 15) (.lit 31 0x0) (.lit 64 0xffffffffffffffff),
    .addc 56 (.lit 31 0x0) (.x 0) (.land (.x 16) (.lit 64 0xffffffffffffff)),
    .addc 56 (.x 18) (.x 2) (.land (.x 16) (.lit 64 0xffffffffffffff)),
    .addc 56 (.x 20) (.x 4) (.land (.x 16) (.lit 64 0xffffffffffffff)),
    .addc 56 (.x 22) (.x 6) (.land (.x 16) (.lit 64 0xffffffffffffff)),
    .addc 56 (.x 24) (.x 8) (.land (.x 16) (.lit 64 0xfffffffffffffe)),
    .addc 56 (.x 26) (.x 10) (.land (.x 16) (.lit 64 0xffffffffffffff)),
    .addc 56 (.x 28) (.x 12) (.land (.x 16) (.lit 64 0xffffffffffffff)),
    .addc 56 (.x 30) (.x 14) (.land (.x 16) (.lit 64 0xffffffffffffff)),
    .set 8 (.cast 8 (.land (.x 17) (.lit 31 0xff))),
    .set 64 (.shr (.x 17) 8),
    .set 8 (.cast 8 (.land (.x 34) (.lit 31 0xff))),
    .set 64 (.shr (.x 34) 8),
    .set 8 (.cast 8 (.land (.x 36) (.lit 31 0xff))),
    .set 64 (.shr (.x 36) 8),
    .set 8 (.cast 8 (.land (.x 38) (.lit 31 0xff))),
    .set 64 (.shr (.x 38) 8),
    .set 8 (.cast 8 (.land (.x 40) (.lit 31 0xff))),
    .set 64 (.shr (.x 40) 8),
    .set 8 (.cast 8 (.land (.x 42) (.lit 31 0xff))),
    .set 8 (.cast 8 (.shr (.x 42) 8)),
    .set 8 (.cast 8 (.land (.x 19) (.lit 31 0xff))),
    .set 64 (.shr (.x 19) 8),
    .set 8 (.cast 8 (.land (.x 46) (.lit 31 0xff))),
    .set 64 (.shr (.x 46) 8),
    .set 8 (.cast 8 (.land (.x 48) (.lit 31 0xff))),
    .set 64 (.shr (.x 48) 8),
    .set 8 (.cast 8 (.land (.x 50) (.lit 31 0xff))),
    .set 64 (.shr (.x 50) 8),
    .set 8 (.cast 8 (.land (.x 52) (.lit 31 0xff))),
    .set 64 (.shr (.x 52) 8),
    .set 8 (.cast 8 (.land (.x 54) (.lit 31 0xff))),
    .set 8 (.cast 8 (.shr (.x 54) 8)),
    .set 8 (.cast 8 (.land (.x 21) (.lit 31 0xff))),
    .set 64 (.shr (.x 21) 8),
    .set 8 (.cast 8 (.land (.x 58) (.lit 31 0xff))),
    .set 64 (.shr (.x 58) 8),
    .set 8 (.cast 8 (.land (.x 60) (.lit 31 0xff))),
    .set 64 (.shr (.x 60) 8),
    .set 8 (.cast 8 (.land (.x 62) (.lit 31 0xff))),
    .set 64 (.shr (.x 62) 8),
    .set 8 (.cast 8 (.land (.x 64) (.lit 31 0xff))),
    .set 64 (.shr (.x 64) 8),
    .set 8 (.cast 8 (.land (.x 66) (.lit 31 0xff))),
    .set 8 (.cast 8 (.shr (.x 66) 8)),
    .set 8 (.cast 8 (.land (.x 23) (.lit 31 0xff))),
    .set 64 (.shr (.x 23) 8),
    .set 8 (.cast 8 (.land (.x 70) (.lit 31 0xff))),
    .set 64 (.shr (.x 70) 8),
    .set 8 (.cast 8 (.land (.x 72) (.lit 31 0xff))),
    .set 64 (.shr (.x 72) 8),
    .set 8 (.cast 8 (.land (.x 74) (.lit 31 0xff))),
    .set 64 (.shr (.x 74) 8),
    .set 8 (.cast 8 (.land (.x 76) (.lit 31 0xff))),
    .set 64 (.shr (.x 76) 8),
    .set 8 (.cast 8 (.land (.x 78) (.lit 31 0xff))),
    .set 8 (.cast 8 (.shr (.x 78) 8)),
    .set 8 (.cast 8 (.land (.x 25) (.lit 31 0xff))),
    .set 64 (.shr (.x 25) 8),
    .set 8 (.cast 8 (.land (.x 82) (.lit 31 0xff))),
    .set 64 (.shr (.x 82) 8),
    .set 8 (.cast 8 (.land (.x 84) (.lit 31 0xff))),
    .set 64 (.shr (.x 84) 8),
    .set 8 (.cast 8 (.land (.x 86) (.lit 31 0xff))),
    .set 64 (.shr (.x 86) 8),
    .set 8 (.cast 8 (.land (.x 88) (.lit 31 0xff))),
    .set 64 (.shr (.x 88) 8),
    .set 8 (.cast 8 (.land (.x 90) (.lit 31 0xff))),
    .set 8 (.cast 8 (.shr (.x 90) 8)),
    .set 8 (.cast 8 (.land (.x 27) (.lit 31 0xff))),
    .set 64 (.shr (.x 27) 8),
    .set 8 (.cast 8 (.land (.x 94) (.lit 31 0xff))),
    .set 64 (.shr (.x 94) 8),
    .set 8 (.cast 8 (.land (.x 96) (.lit 31 0xff))),
    .set 64 (.shr (.x 96) 8),
    .set 8 (.cast 8 (.land (.x 98) (.lit 31 0xff))),
    .set 64 (.shr (.x 98) 8),
    .set 8 (.cast 8 (.land (.x 100) (.lit 31 0xff))),
    .set 64 (.shr (.x 100) 8),
    .set 8 (.cast 8 (.land (.x 102) (.lit 31 0xff))),
    .set 8 (.cast 8 (.shr (.x 102) 8)),
    .set 8 (.cast 8 (.land (.x 29) (.lit 31 0xff))),
    .set 64 (.shr (.x 29) 8),
    .set 8 (.cast 8 (.land (.x 106) (.lit 31 0xff))),
    .set 64 (.shr (.x 106) 8),
    .set 8 (.cast 8 (.land (.x 108) (.lit 31 0xff))),
    .set 64 (.shr (.x 108) 8),
    .set 8 (.cast 8 (.land (.x 110) (.lit 31 0xff))),
    .set 64 (.shr (.x 110) 8),
    .set 8 (.cast 8 (.land (.x 112) (.lit 31 0xff))),
    .set 64 (.shr (.x 112) 8),
    .set 8 (.cast 8 (.land (.x 114) (.lit 31 0xff))),
    .set 8 (.cast 8 (.shr (.x 114) 8)),
    .set 8 (.cast 8 (.land (.x 31) (.lit 31 0xff))),
    .set 64 (.shr (.x 31) 8),
    .set 8 (.cast 8 (.land (.x 118) (.lit 31 0xff))),
    .set 64 (.shr (.x 118) 8),
    .set 8 (.cast 8 (.land (.x 120) (.lit 31 0xff))),
    .set 64 (.shr (.x 120) 8),
    .set 8 (.cast 8 (.land (.x 122) (.lit 31 0xff))),
    .set 64 (.shr (.x 122) 8),
    .set 8 (.cast 8 (.land (.x 124) (.lit 31 0xff))),
    .set 64 (.shr (.x 124) 8),
    .set 8 (.cast 8 (.land (.x 126) (.lit 31 0xff))),
    .set 8 (.cast 8 (.shr (.x 126) 8))]
  outs := [.x 33, .x 35, .x 37, .x 39, .x 41, .x 43, .x 44, .x 45, .x 47, .x 49, .x 51, .x 53, .x 55, .x 56, .x 57, .x 59, .x 61, .x 63, .x 65, .x 67, .x 68, .x 69, .x 71, .x 73, .x 75, .x 77, .x 79, .x 80, .x 81, .x 83, .x 85, .x 87, .x 89, .x 91, .x 92, .x 93, .x 95, .x 97, .x 99, .x 101, .x 103, .x 104, .x 105, .x 107, .x 109, .x 111, .x 113, .x 115, .x 116, .x 117, .x 119, .x 121, .x 123, .x 125, .x 127, .x 128]

/-- src/fields/p448_64.h:1778-1995 `fiat_p448_from_bytes`. -/
def p448_from_bytes : Prog where
  body := [
    .set 64 (.shl (.cast 64 (.a 8 0 55)) 48),
    .set 64 (.shl (.cast 64 (.a 8 0 54)) 40),
    .set 64 (.shl (.cast 64 (.a 8 0 53)) 32),
    .set 64 (.shl (.cast 64 (.a 8 0 52)) 24),
    .set 64 (.shl (.cast 64 (.a 8 0 51)) 16),
    .set 64 (.shl (.cast 64 (.a 8 0 50)) 8),
    .set 8 (.a 8 0 49),
    .set 64 (.shl (.cast 64 (.a 8 0 48)) 48),
    .set 64 (.shl (.cast 64 (.a 8 0 47)) 40),
    .set 64 (.shl (.cast 64 (.a 8 0 46)) 32),
    .set 64 (.shl (.cast 64 (.a 8 0 45)) 24),
    .set 64 (.shl (.cast 64 (.a 8 0 44)) 16),
    .set 64 (.shl (.cast 64 (.a 8 0 43)) 8),
    .set 8 (.a 8 0 42),
    .set 64 (.shl (.cast 64 (.a 8 0 41)) 48),
    .set 64 (.shl (.cast 64 (.a 8 0 40)) 40),
    .set 64 (.shl (.cast 64 (.a 8 0 39)) 32),
    .set 64 (.shl (.cast 64 (.a 8 0 38)) 24),
    .set 64 (.shl (.cast 64 (.a 8 0 37)) 16),
    .set 64 (.shl (.cast 64 (.a 8 0 36)) 8),
    .set 8 (.a 8 0 35),
    .set 64 (.shl (.cast 64 (.a 8 0 34)) 48),
    .set 64 (.shl (.cast 64 (.a 8 0 33)) 40),
    .set 64 (.shl (.cast 64 (.a 8 0 32)) 32),
    .set 64 (.shl (.cast 64 (.a 8 0 31)) 24),
    .set 64 (.shl (.cast 64 (.a 8 0 30)) 16),
    .set 64 (.shl (.cast 64 (.a 8 0 29)) 8),
    .set 8 (.a 8 0 28),
    .set 64 (.shl (.cast 64 (.a 8 0 27)) 48),
    .set 64 (.shl (.cast 64 (.a 8 0 26)) 40),
    .set 64 (.shl (.cast 64 (.a 8 0 25)) 32),
    .set 64 (.shl (.cast 64 (.a 8 0 24)) 24),
    .set 64 (.shl (.cast 64 (.a 8 0 23)) 16),
    .set 64 (.shl (.cast 64 (.a 8 0 22)) 8),
    .set 8 (.a 8 0 21),
    .set 64 (.shl (.cast 64 (.a 8 0 20)) 48),
    .set 64 (.shl (.cast 64 (.a 8 0 19)) 40),
    .set 64 (.shl (.cast 64 (.a 8 0 18)) 32),
    .set 64 (.shl (.cast 64 (.a 8 0 17)) 24),
    .set 64 (.shl (.cast 64 (.a 8 0 16)) 16),
    .set 64 (.shl (.cast 64 (.a 8 0 15)) 8),
    .set 8 (.a 8 0 14),
    .set 64 (.shl (.cast 64 (.a 8 0 13)) 48),
    .set 64 (.shl (.cast 64 (.a 8 0 12)) 40),
    .set 64 (.shl (.cast 64 (.a 8 0 11)) 32),
    .set 64 (.shl (.cast 64 (.a 8 0 10)) 24),
    .set 64 (.shl (.cast 64 (.a 8 0 9)) 16),
    .set 64 (.shl (.cast 64 (.a 8 0 8)) 8),
    .set 8 (.a 8 0 7),
    .set 64 (.shl (.cast 64 (.a 8 0 6)) 48),
    .set 64 (.shl (.cast 64 (.a 8 0 5)) 40),
    .set 64 (.shl (.cast 64 (.a 8 0 4)) 32),
    .set 64 (.shl (.cast 64 (.a 8 0 3)) 24),
    .set 64 (.shl (.cast 64 (.a 8 0 2)) 16),
    .set 64 (.shl (.cast 64 (.a 8 0 1)) 8),
    .set 8 (.a 8 0 0),
    .set 64 (.add (.x 54) (.cast 64 (.x 55))),
    .set 64 (.add (.x 53) (.x 56)),
    .set 64 (.add (.x 52) (.x 57)),
    .set 64 (.add (.x 51) (.x 58)),
    .set 64 (.add (.x 50) (.x 59)),
    .set 64 (.add (.x 49) (.x 60)),
    .set 64 (.add (.x 47) (.cast 64 (.x 48))),
    .set 64 (.add (.x 46) (.x 62)),
    .set 64 (.add (.x 45) (.x 63)),
    .set 64 (.add (.x 44) (.x 64)),
    .set 64 (.add (.x 43) (.x 65)),
    .set 64 (.add (.x 42) (.x 66)),
    .set 64 (.add (.x 40) (.cast 64 (.x 41))),
    .set 64 (.add (.x 39) (.x 68)),
    .set 64 (.add (.x 38) (.x 69)),
    .set 64 (.add (.x 37) (.x 70)),
    .set 64 (.add (.x 36) (.x 71)),
    .set 64 (.add (.x 35) (.x 72)),
    .set 64 (.add (.x 33) (.cast 64 (.x 34))),
    .set 64 (.add (.x 32) (.x 74)),
    .set 64 (.add (.x 31) (.x 75)),
    .set 64 (.add (.x 30) (.x 76)),
    .set 64 (.add (.x 29) (.x 77)),
    .set 64 (.add (.x 28) (.x 78)),
    .set 64 (.add (.x 26) (.cast 64 (.x 27))),
    .set 64 (.add (.x 25) (.x 80)),
    .set 64 (.add (.x 24) (.x 81)),
    .set 64 (.add (.x 23) (.x 82)),
    .set 64 (.add (.x 22) (.x 83)),
    .set 64 (.add (.x 21) (.x 84)),
    .set 64 (.add (.x 19) (.cast 64 (.x 20))),
    .set 64 (.add (.x 18) (.x 86)),
    .set 64 (.add (.x 17) (.x 87)),
    .set 64 (.add (.x 16) (.x 88)),
    .set 64 (.add (.x 15) (.x 89)),
    .set 64 (.add (.x 14) (.x 90)),
    .set 64 (.add (.x 12) (.cast 64 (.x 13))),
    .set 64 (.add (.x 11) (.x 92)),
    .set 64 (.add (.x 10) (.x 93)),
    .set 64 (.add (.x 9) (.x 94)),
    .set 64 (.add (.x 8) (.x 95)),
    .set 64 (.add (.x 7) (.x 96)),
    .set 64 (.add (.x 5) (.cast 64 (.x 6))),
    .set 64 (.add (.x 4) (.x 98)),
    .set 64 (.add (.x 3) (.x 99)),
    .set 64 (.add (.x 2) (.x 100)),
    .set 64 (.add (.x 1) (.x 101)),
    .set 64 (.add (.x 0) (.x 102))]
  outs := [.x 61, .x 67, .x 73, .x 79, .x 85, .x 91, .x 97, .x 103]

end Torsion.Fiat
