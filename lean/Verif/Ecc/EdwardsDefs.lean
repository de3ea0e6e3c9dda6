import Verif.Ecc.MontDefs
import Verif.Hash.Dispatch

/-!
# Model: the tables of the Edwards curves (src/ecc.c, src/subgroups.h)

The numbers are copied byte by byte. The constants for Ristretto are not included.
-/
namespace Torsion

/-- src/ecc.c:575-591, `edwards_def_t`; and the constant by which the function `scmul_d` of the field multiplies, which is part of
its name. `pfx` are the first `prefix_len` bytes of `prefix`. -/
structure EdwardsDef where
  hash : HashId
  context : Bool
  pfx : List Byte
  fe : FieldCode
  sc : Sc.ScDef
  h : Nat
  z : Int
  invert : Bool
  a : List Byte
  d : List Byte
  x : List Byte
  y : List Byte
  c : List Byte
  torsion : List SubgroupDef
  scmul : Option Int

/-- src/subgroups.h:221-342, `subgroups_ed25519`. -/
def subgroups_ed25519 : List SubgroupDef :=
  [{ x := [0x00, 0x00, 0x00, 0x00, 0x00, 0x00, 0x00, 0x00, 0x00, 0x00, 0x00, 0x00, 0x00, 0x00, 0x00, 0x00,
           0x00, 0x00, 0x00, 0x00, 0x00, 0x00, 0x00, 0x00, 0x00, 0x00, 0x00, 0x00, 0x00, 0x00, 0x00, 0x00],
     y := [0x00, 0x00, 0x00, 0x00, 0x00, 0x00, 0x00, 0x00, 0x00, 0x00, 0x00, 0x00, 0x00, 0x00, 0x00, 0x00,
           0x00, 0x00, 0x00, 0x00, 0x00, 0x00, 0x00, 0x00, 0x00, 0x00, 0x00, 0x00, 0x00, 0x00, 0x00, 0x01],
     inf := true },
   { x := [0x00, 0x00, 0x00, 0x00, 0x00, 0x00, 0x00, 0x00, 0x00, 0x00, 0x00, 0x00, 0x00, 0x00, 0x00, 0x00,
           0x00, 0x00, 0x00, 0x00, 0x00, 0x00, 0x00, 0x00, 0x00, 0x00, 0x00, 0x00, 0x00, 0x00, 0x00, 0x00],
     y := [0x7f, 0xff, 0xff, 0xff, 0xff, 0xff, 0xff, 0xff, 0xff, 0xff, 0xff, 0xff, 0xff, 0xff, 0xff, 0xff,
           0xff, 0xff, 0xff, 0xff, 0xff, 0xff, 0xff, 0xff, 0xff, 0xff, 0xff, 0xff, 0xff, 0xff, 0xff, 0xec],
     inf := false },
   { x := [0x2b, 0x83, 0x24, 0x80, 0x4f, 0xc1, 0xdf, 0x0b, 0x2b, 0x4d, 0x00, 0x99, 0x3d, 0xfb, 0xd7, 0xa7,
           0x2f, 0x43, 0x18, 0x06, 0xad, 0x2f, 0xe4, 0x78, 0xc4, 0xee, 0x1b, 0x27, 0x4a, 0x0e, 0xa0, 0xb0],
     y := [0x00, 0x00, 0x00, 0x00, 0x00, 0x00, 0x00, 0x00, 0x00, 0x00, 0x00, 0x00, 0x00, 0x00, 0x00, 0x00,
           0x00, 0x00, 0x00, 0x00, 0x00, 0x00, 0x00, 0x00, 0x00, 0x00, 0x00, 0x00, 0x00, 0x00, 0x00, 0x00],
     inf := false },
   { x := [0x54, 0x7c, 0xdb, 0x7f, 0xb0, 0x3e, 0x20, 0xf4, 0xd4, 0xb2, 0xff, 0x66, 0xc2, 0x04, 0x28, 0x58,
           0xd0, 0xbc, 0xe7, 0xf9, 0x52, 0xd0, 0x1b, 0x87, 0x3b, 0x11, 0xe4, 0xd8, 0xb5, 0xf1, 0x5f, 0x3d],
     y := [0x00, 0x00, 0x00, 0x00, 0x00, 0x00, 0x00, 0x00, 0x00, 0x00, 0x00, 0x00, 0x00, 0x00, 0x00, 0x00,
           0x00, 0x00, 0x00, 0x00, 0x00, 0x00, 0x00, 0x00, 0x00, 0x00, 0x00, 0x00, 0x00, 0x00, 0x00, 0x00],
     inf := false },
   { x := [0x1f, 0xd5, 0xb9, 0xa0, 0x06, 0x39, 0x4a, 0x28, 0xe9, 0x33, 0x99, 0x32, 0x38, 0xde, 0x4a, 0xbb,
           0x5c, 0x19, 0x3c, 0x70, 0x13, 0xe5, 0xe2, 0x38, 0xde, 0xa1, 0x46, 0x46, 0xc5, 0x45, 0xd1, 0x4a],
     y := [0x05, 0xfc, 0x53, 0x6d, 0x88, 0x02, 0x38, 0xb1, 0x39, 0x33, 0xc6, 0xd3, 0x05, 0xac, 0xdf, 0xd5,
           0xf0, 0x98, 0xef, 0xf2, 0x89, 0xf4, 0xc3, 0x45, 0xb0, 0x27, 0xb2, 0xc2, 0x8f, 0x95, 0xe8, 0x26],
     inf := false },
   { x := [0x60, 0x2a, 0x46, 0x5f, 0xf9, 0xc6, 0xb5, 0xd7, 0x16, 0xcc, 0x66, 0xcd, 0xc7, 0x21, 0xb5, 0x44,
           0xa3, 0xe6, 0xc3, 0x8f, 0xec, 0x1a, 0x1d, 0xc7, 0x21, 0x5e, 0xb9, 0xb9, 0x3a, 0xba, 0x2e, 0xa3],
     y := [0x05, 0xfc, 0x53, 0x6d, 0x88, 0x02, 0x38, 0xb1, 0x39, 0x33, 0xc6, 0xd3, 0x05, 0xac, 0xdf, 0xd5,
           0xf0, 0x98, 0xef, 0xf2, 0x89, 0xf4, 0xc3, 0x45, 0xb0, 0x27, 0xb2, 0xc2, 0x8f, 0x95, 0xe8, 0x26],
     inf := false },
   { x := [0x1f, 0xd5, 0xb9, 0xa0, 0x06, 0x39, 0x4a, 0x28, 0xe9, 0x33, 0x99, 0x32, 0x38, 0xde, 0x4a, 0xbb,
           0x5c, 0x19, 0x3c, 0x70, 0x13, 0xe5, 0xe2, 0x38, 0xde, 0xa1, 0x46, 0x46, 0xc5, 0x45, 0xd1, 0x4a],
     y := [0x7a, 0x03, 0xac, 0x92, 0x77, 0xfd, 0xc7, 0x4e, 0xc6, 0xcc, 0x39, 0x2c, 0xfa, 0x53, 0x20, 0x2a,
           0x0f, 0x67, 0x10, 0x0d, 0x76, 0x0b, 0x3c, 0xba, 0x4f, 0xd8, 0x4d, 0x3d, 0x70, 0x6a, 0x17, 0xc7],
     inf := false },
   { x := [0x60, 0x2a, 0x46, 0x5f, 0xf9, 0xc6, 0xb5, 0xd7, 0x16, 0xcc, 0x66, 0xcd, 0xc7, 0x21, 0xb5, 0x44,
           0xa3, 0xe6, 0xc3, 0x8f, 0xec, 0x1a, 0x1d, 0xc7, 0x21, 0x5e, 0xb9, 0xb9, 0x3a, 0xba, 0x2e, 0xa3],
     y := [0x7a, 0x03, 0xac, 0x92, 0x77, 0xfd, 0xc7, 0x4e, 0xc6, 0xcc, 0x39, 0x2c, 0xfa, 0x53, 0x20, 0x2a,
           0x0f, 0x67, 0x10, 0x0d, 0x76, 0x0b, 0x3c, 0xba, 0x4f, 0xd8, 0x4d, 0x3d, 0x70, 0x6a, 0x17, 0xc7],
     inf := false }]

/-- src/subgroups.h:344-429, `subgroups_ed448`. -/
def subgroups_ed448 : List SubgroupDef :=
  [{ x := [0x00, 0x00, 0x00, 0x00, 0x00, 0x00, 0x00, 0x00, 0x00, 0x00, 0x00, 0x00, 0x00, 0x00, 0x00, 0x00,
           0x00, 0x00, 0x00, 0x00, 0x00, 0x00, 0x00, 0x00, 0x00, 0x00, 0x00, 0x00, 0x00, 0x00, 0x00, 0x00,
           0x00, 0x00, 0x00, 0x00, 0x00, 0x00, 0x00, 0x00, 0x00, 0x00, 0x00, 0x00, 0x00, 0x00, 0x00, 0x00,
           0x00, 0x00, 0x00, 0x00, 0x00, 0x00, 0x00, 0x00],
     y := [0x00, 0x00, 0x00, 0x00, 0x00, 0x00, 0x00, 0x00, 0x00, 0x00, 0x00, 0x00, 0x00, 0x00, 0x00, 0x00,
           0x00, 0x00, 0x00, 0x00, 0x00, 0x00, 0x00, 0x00, 0x00, 0x00, 0x00, 0x00, 0x00, 0x00, 0x00, 0x00,
           0x00, 0x00, 0x00, 0x00, 0x00, 0x00, 0x00, 0x00, 0x00, 0x00, 0x00, 0x00, 0x00, 0x00, 0x00, 0x00,
           0x00, 0x00, 0x00, 0x00, 0x00, 0x00, 0x00, 0x01],
     inf := true },
   { x := [0x00, 0x00, 0x00, 0x00, 0x00, 0x00, 0x00, 0x00, 0x00, 0x00, 0x00, 0x00, 0x00, 0x00, 0x00, 0x00,
           0x00, 0x00, 0x00, 0x00, 0x00, 0x00, 0x00, 0x00, 0x00, 0x00, 0x00, 0x00, 0x00, 0x00, 0x00, 0x00,
           0x00, 0x00, 0x00, 0x00, 0x00, 0x00, 0x00, 0x00, 0x00, 0x00, 0x00, 0x00, 0x00, 0x00, 0x00, 0x00,
           0x00, 0x00, 0x00, 0x00, 0x00, 0x00, 0x00, 0x00],
     y := [0xff, 0xff, 0xff, 0xff, 0xff, 0xff, 0xff, 0xff, 0xff, 0xff, 0xff, 0xff, 0xff, 0xff, 0xff, 0xff,
           0xff, 0xff, 0xff, 0xff, 0xff, 0xff, 0xff, 0xff, 0xff, 0xff, 0xff, 0xfe, 0xff, 0xff, 0xff, 0xff,
           0xff, 0xff, 0xff, 0xff, 0xff, 0xff, 0xff, 0xff, 0xff, 0xff, 0xff, 0xff, 0xff, 0xff, 0xff, 0xff,
           0xff, 0xff, 0xff, 0xff, 0xff, 0xff, 0xff, 0xfe],
     inf := false },
   { x := [0x00, 0x00, 0x00, 0x00, 0x00, 0x00, 0x00, 0x00, 0x00, 0x00, 0x00, 0x00, 0x00, 0x00, 0x00, 0x00,
           0x00, 0x00, 0x00, 0x00, 0x00, 0x00, 0x00, 0x00, 0x00, 0x00, 0x00, 0x00, 0x00, 0x00, 0x00, 0x00,
           0x00, 0x00, 0x00, 0x00, 0x00, 0x00, 0x00, 0x00, 0x00, 0x00, 0x00, 0x00, 0x00, 0x00, 0x00, 0x00,
           0x00, 0x00, 0x00, 0x00, 0x00, 0x00, 0x00, 0x01],
     y := [0x00, 0x00, 0x00, 0x00, 0x00, 0x00, 0x00, 0x00, 0x00, 0x00, 0x00, 0x00, 0x00, 0x00, 0x00, 0x00,
           0x00, 0x00, 0x00, 0x00, 0x00, 0x00, 0x00, 0x00, 0x00, 0x00, 0x00, 0x00, 0x00, 0x00, 0x00, 0x00,
           0x00, 0x00, 0x00, 0x00, 0x00, 0x00, 0x00, 0x00, 0x00, 0x00, 0x00, 0x00, 0x00, 0x00, 0x00, 0x00,
           0x00, 0x00, 0x00, 0x00, 0x00, 0x00, 0x00, 0x00],
     inf := false },
   { x := [0xff, 0xff, 0xff, 0xff, 0xff, 0xff, 0xff, 0xff, 0xff, 0xff, 0xff, 0xff, 0xff, 0xff, 0xff, 0xff,
           0xff, 0xff, 0xff, 0xff, 0xff, 0xff, 0xff, 0xff, 0xff, 0xff, 0xff, 0xfe, 0xff, 0xff, 0xff, 0xff,
           0xff, 0xff, 0xff, 0xff, 0xff, 0xff, 0xff, 0xff, 0xff, 0xff, 0xff, 0xff, 0xff, 0xff, 0xff, 0xff,
           0xff, 0xff, 0xff, 0xff, 0xff, 0xff, 0xff, 0xfe],
     y := [0x00, 0x00, 0x00, 0x00, 0x00, 0x00, 0x00, 0x00, 0x00, 0x00, 0x00, 0x00, 0x00, 0x00, 0x00, 0x00,
           0x00, 0x00, 0x00, 0x00, 0x00, 0x00, 0x00, 0x00, 0x00, 0x00, 0x00, 0x00, 0x00, 0x00, 0x00, 0x00,
           0x00, 0x00, 0x00, 0x00, 0x00, 0x00, 0x00, 0x00, 0x00, 0x00, 0x00, 0x00, 0x00, 0x00, 0x00, 0x00,
           0x00, 0x00, 0x00, 0x00, 0x00, 0x00, 0x00, 0x00],
     inf := false }]

/-- src/subgroups.h:431-492, `subgroups_ed1174`. -/
def subgroups_ed1174 : List SubgroupDef :=
  [{ x := [0x00, 0x00, 0x00, 0x00, 0x00, 0x00, 0x00, 0x00, 0x00, 0x00, 0x00, 0x00, 0x00, 0x00, 0x00, 0x00,
           0x00, 0x00, 0x00, 0x00, 0x00, 0x00, 0x00, 0x00, 0x00, 0x00, 0x00, 0x00, 0x00, 0x00, 0x00, 0x00],
     y := [0x00, 0x00, 0x00, 0x00, 0x00, 0x00, 0x00, 0x00, 0x00, 0x00, 0x00, 0x00, 0x00, 0x00, 0x00, 0x00,
           0x00, 0x00, 0x00, 0x00, 0x00, 0x00, 0x00, 0x00, 0x00, 0x00, 0x00, 0x00, 0x00, 0x00, 0x00, 0x01],
     inf := true },
   { x := [0x00, 0x00, 0x00, 0x00, 0x00, 0x00, 0x00, 0x00, 0x00, 0x00, 0x00, 0x00, 0x00, 0x00, 0x00, 0x00,
           0x00, 0x00, 0x00, 0x00, 0x00, 0x00, 0x00, 0x00, 0x00, 0x00, 0x00, 0x00, 0x00, 0x00, 0x00, 0x00],
     y := [0x07, 0xff, 0xff, 0xff, 0xff, 0xff, 0xff, 0xff, 0xff, 0xff, 0xff, 0xff, 0xff, 0xff, 0xff, 0xff,
           0xff, 0xff, 0xff, 0xff, 0xff, 0xff, 0xff, 0xff, 0xff, 0xff, 0xff, 0xff, 0xff, 0xff, 0xff, 0xf6],
     inf := false },
   { x := [0x00, 0x00, 0x00, 0x00, 0x00, 0x00, 0x00, 0x00, 0x00, 0x00, 0x00, 0x00, 0x00, 0x00, 0x00, 0x00,
           0x00, 0x00, 0x00, 0x00, 0x00, 0x00, 0x00, 0x00, 0x00, 0x00, 0x00, 0x00, 0x00, 0x00, 0x00, 0x01],
     y := [0x00, 0x00, 0x00, 0x00, 0x00, 0x00, 0x00, 0x00, 0x00, 0x00, 0x00, 0x00, 0x00, 0x00, 0x00, 0x00,
           0x00, 0x00, 0x00, 0x00, 0x00, 0x00, 0x00, 0x00, 0x00, 0x00, 0x00, 0x00, 0x00, 0x00, 0x00, 0x00],
     inf := false },
   { x := [0x07, 0xff, 0xff, 0xff, 0xff, 0xff, 0xff, 0xff, 0xff, 0xff, 0xff, 0xff, 0xff, 0xff, 0xff, 0xff,
           0xff, 0xff, 0xff, 0xff, 0xff, 0xff, 0xff, 0xff, 0xff, 0xff, 0xff, 0xff, 0xff, 0xff, 0xff, 0xf6],
     y := [0x00, 0x00, 0x00, 0x00, 0x00, 0x00, 0x00, 0x00, 0x00, 0x00, 0x00, 0x00, 0x00, 0x00, 0x00, 0x00,
           0x00, 0x00, 0x00, 0x00, 0x00, 0x00, 0x00, 0x00, 0x00, 0x00, 0x00, 0x00, 0x00, 0x00, 0x00, 0x00],
     inf := false }]

/-- src/ecc.c:10099-10155, `curve_ed25519`. -/
def curve_ed25519 : EdwardsDef :=
  { hash := .SHA512,
    context := false,
    pfx := [0x53, 0x69, 0x67, 0x45, 0x64, 0x32, 0x35, 0x35, 0x31, 0x39, 0x20, 0x6e, 0x6f, 0x20, 0x45, 0x64,
            0x32, 0x35, 0x35, 0x31, 0x39, 0x20, 0x63, 0x6f, 0x6c, 0x6c, 0x69, 0x73, 0x69, 0x6f, 0x6e, 0x73],
    fe := field_p25519,
    sc := Sc.field_q25519,
    h := 8,
    z := 2,
    invert := false,
    a := [0x7f, 0xff, 0xff, 0xff, 0xff, 0xff, 0xff, 0xff, 0xff, 0xff, 0xff, 0xff, 0xff, 0xff, 0xff, 0xff,
         0xff, 0xff, 0xff, 0xff, 0xff, 0xff, 0xff, 0xff, 0xff, 0xff, 0xff, 0xff, 0xff, 0xff, 0xff, 0xec],
    d := [0x52, 0x03, 0x6c, 0xee, 0x2b, 0x6f, 0xfe, 0x73, 0x8c, 0xc7, 0x40, 0x79, 0x77, 0x79, 0xe8, 0x98,
         0x00, 0x70, 0x0a, 0x4d, 0x41, 0x41, 0xd8, 0xab, 0x75, 0xeb, 0x4d, 0xca, 0x13, 0x59, 0x78, 0xa3],
    x := [0x21, 0x69, 0x36, 0xd3, 0xcd, 0x6e, 0x53, 0xfe, 0xc0, 0xa4, 0xe2, 0x31, 0xfd, 0xd6, 0xdc, 0x5c,
         0x69, 0x2c, 0xc7, 0x60, 0x95, 0x25, 0xa7, 0xb2, 0xc9, 0x56, 0x2d, 0x60, 0x8f, 0x25, 0xd5, 0x1a],
    y := [0x66, 0x66, 0x66, 0x66, 0x66, 0x66, 0x66, 0x66, 0x66, 0x66, 0x66, 0x66, 0x66, 0x66, 0x66, 0x66,
         0x66, 0x66, 0x66, 0x66, 0x66, 0x66, 0x66, 0x66, 0x66, 0x66, 0x66, 0x66, 0x66, 0x66, 0x66, 0x58],
    c := [0x0f, 0x26, 0xed, 0xf4, 0x60, 0xa0, 0x06, 0xbb, 0xd2, 0x7b, 0x08, 0xdc, 0x03, 0xfc, 0x4f, 0x7e,
         0xc5, 0xa1, 0xd3, 0xd1, 0x4b, 0x7d, 0x1a, 0x82, 0xcc, 0x6e, 0x04, 0xaa, 0xff, 0x45, 0x7e, 0x06],
    torsion := subgroups_ed25519,
    scmul := none }

/-- src/ecc.c:10157-10226, `curve_ed448`. -/
def curve_ed448 : EdwardsDef :=
  { hash := .SHAKE256,
    context := true,
    pfx := [0x53, 0x69, 0x67, 0x45, 0x64, 0x34, 0x34, 0x38],
    fe := field_p448,
    sc := Sc.field_q448,
    h := 4,
    z := -1,
    invert := true,
    a := [0x00, 0x00, 0x00, 0x00, 0x00, 0x00, 0x00, 0x00, 0x00, 0x00, 0x00, 0x00, 0x00, 0x00, 0x00, 0x00,
         0x00, 0x00, 0x00, 0x00, 0x00, 0x00, 0x00, 0x00, 0x00, 0x00, 0x00, 0x00, 0x00, 0x00, 0x00, 0x00,
         0x00, 0x00, 0x00, 0x00, 0x00, 0x00, 0x00, 0x00, 0x00, 0x00, 0x00, 0x00, 0x00, 0x00, 0x00, 0x00,
         0x00, 0x00, 0x00, 0x00, 0x00, 0x00, 0x00, 0x01],
    d := [0xff, 0xff, 0xff, 0xff, 0xff, 0xff, 0xff, 0xff, 0xff, 0xff, 0xff, 0xff, 0xff, 0xff, 0xff, 0xff,
         0xff, 0xff, 0xff, 0xff, 0xff, 0xff, 0xff, 0xff, 0xff, 0xff, 0xff, 0xfe, 0xff, 0xff, 0xff, 0xff,
         0xff, 0xff, 0xff, 0xff, 0xff, 0xff, 0xff, 0xff, 0xff, 0xff, 0xff, 0xff, 0xff, 0xff, 0xff, 0xff,
         0xff, 0xff, 0xff, 0xff, 0xff, 0xff, 0x67, 0x56],
    x := [0x4f, 0x19, 0x70, 0xc6, 0x6b, 0xed, 0x0d, 0xed, 0x22, 0x1d, 0x15, 0xa6, 0x22, 0xbf, 0x36, 0xda,
         0x9e, 0x14, 0x65, 0x70, 0x47, 0x0f, 0x17, 0x67, 0xea, 0x6d, 0xe3, 0x24, 0xa3, 0xd3, 0xa4, 0x64,
         0x12, 0xae, 0x1a, 0xf7, 0x2a, 0xb6, 0x65, 0x11, 0x43, 0x3b, 0x80, 0xe1, 0x8b, 0x00, 0x93, 0x8e,
         0x26, 0x26, 0xa8, 0x2b, 0xc7, 0x0c, 0xc0, 0x5e],
    y := [0x69, 0x3f, 0x46, 0x71, 0x6e, 0xb6, 0xbc, 0x24, 0x88, 0x76, 0x20, 0x37, 0x56, 0xc9, 0xc7, 0x62,
         0x4b, 0xea, 0x73, 0x73, 0x6c, 0xa3, 0x98, 0x40, 0x87, 0x78, 0x9c, 0x1e, 0x05, 0xa0, 0xc2, 0xd7,
         0x3a, 0xd3, 0xff, 0x1c, 0xe6, 0x7c, 0x39, 0xc4, 0xfd, 0xbd, 0x13, 0x2c, 0x4e, 0xd7, 0xc8, 0xad,
         0x98, 0x08, 0x79, 0x5b, 0xf2, 0x30, 0xfa, 0x14],
    c := [0x41, 0x36, 0xd0, 0x2f, 0x92, 0x5d, 0x53, 0x0d, 0x4b, 0x1d, 0x9e, 0x17, 0x83, 0x10, 0xf2, 0xcb,
         0xdd, 0x18, 0xa3, 0xe7, 0xc3, 0xa7, 0x67, 0xa8, 0x48, 0xe6, 0xdb, 0x19, 0x8c, 0x3d, 0x06, 0x31,
         0x1e, 0x72, 0x5a, 0x0d, 0xb9, 0x91, 0xd0, 0xc6, 0xc3, 0xd1, 0x12, 0x0f, 0x0e, 0xfa, 0x59, 0xf5,
         0x4b, 0xf3, 0x8e, 0x82, 0xb0, 0xe1, 0xe0, 0x28],
    torsion := subgroups_ed448,
    scmul := some (-39081) }

/-- src/ecc.c:10228-10282, `curve_ed1174`. -/
def curve_ed1174 : EdwardsDef :=
  { hash := .SHA512,
    context := true,
    pfx := [0x53, 0x69, 0x67, 0x45, 0x64, 0x31, 0x31, 0x37, 0x34],
    fe := field_p251,
    sc := Sc.field_q251,
    h := 4,
    z := -1,
    invert := true,
    a := [0x00, 0x00, 0x00, 0x00, 0x00, 0x00, 0x00, 0x00, 0x00, 0x00, 0x00, 0x00, 0x00, 0x00, 0x00, 0x00,
         0x00, 0x00, 0x00, 0x00, 0x00, 0x00, 0x00, 0x00, 0x00, 0x00, 0x00, 0x00, 0x00, 0x00, 0x00, 0x01],
    d := [0x07, 0xff, 0xff, 0xff, 0xff, 0xff, 0xff, 0xff, 0xff, 0xff, 0xff, 0xff, 0xff, 0xff, 0xff, 0xff,
         0xff, 0xff, 0xff, 0xff, 0xff, 0xff, 0xff, 0xff, 0xff, 0xff, 0xff, 0xff, 0xff, 0xff, 0xfb, 0x61],
    x := [0x03, 0x7f, 0xbb, 0x0c, 0xea, 0x30, 0x8c, 0x47, 0x93, 0x43, 0xae, 0xe7, 0xc0, 0x29, 0xa1, 0x90,
         0xc0, 0x21, 0xd9, 0x6a, 0x49, 0x2e, 0xcd, 0x65, 0x16, 0x12, 0x3f, 0x27, 0xbc, 0xe2, 0x9e, 0xda],
    y := [0x06, 0xb7, 0x2f, 0x82, 0xd4, 0x7f, 0xb7, 0xcc, 0x66, 0x56, 0x84, 0x11, 0x69, 0x84, 0x0e, 0x0c,
         0x4f, 0xe2, 0xde, 0xe2, 0xaf, 0x3f, 0x97, 0x6b, 0xa4, 0xcc, 0xb1, 0xbf, 0x9b, 0x46, 0x36, 0x0e],
    c := [0x00, 0x5a, 0x7a, 0x03, 0xfb, 0x02, 0xf7, 0x19, 0x5e, 0x44, 0x1c, 0xd2, 0xe3, 0xf7, 0x08, 0xf9,
         0x6f, 0x8f, 0xfb, 0xe8, 0x35, 0x95, 0x48, 0xba, 0x82, 0x76, 0xac, 0xe6, 0xbb, 0xe7, 0xdf, 0xd2],
    torsion := subgroups_ed1174,
    scmul := some (-1174) }

/-- src/ecc.c:10302-10306, `edwards_curves`. -/
def edDefs : List EdwardsDef :=
  [curve_ed25519, curve_ed448, curve_ed1174]

end Torsion
