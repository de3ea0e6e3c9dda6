import Verif.Ecc.Scalar

/-!
# Model: the scalar fields (src/ecc.c)

The tables with the orders of the groups; the numbers are copied byte by byte.
-/
namespace Torsion.Sc

open Torsion

/-- src/ecc.c:9098-9106, `field_q192`. -/
def field_q192 : ScDef :=
  { bits := 192,
    n := [0xff, 0xff, 0xff, 0xff, 0xff, 0xff, 0xff, 0xff, 0xff, 0xff, 0xff, 0xff, 0x99, 0xde, 0xf8, 0x36,
          0x14, 0x6b, 0xc9, 0xb1, 0xb4, 0xd2, 0x28, 0x31],
    invert := some q192_sc_invert }

/-- src/ecc.c:9147-9156, `field_q224`. -/
def field_q224 : ScDef :=
  { bits := 224,
    n := [0xff, 0xff, 0xff, 0xff, 0xff, 0xff, 0xff, 0xff, 0xff, 0xff, 0xff, 0xff, 0xff, 0xff, 0x16, 0xa2,
          0xe0, 0xb8, 0xf0, 0x3e, 0x13, 0xdd, 0x29, 0x45, 0x5c, 0x5c, 0x2a, 0x3d],
    invert := some q224_sc_invert }

/-- src/ecc.c:9197-9206, `field_q256`. -/
def field_q256 : ScDef :=
  { bits := 256,
    n := [0xff, 0xff, 0xff, 0xff, 0x00, 0x00, 0x00, 0x00, 0xff, 0xff, 0xff, 0xff, 0xff, 0xff, 0xff, 0xff,
          0xbc, 0xe6, 0xfa, 0xad, 0xa7, 0x17, 0x9e, 0x84, 0xf3, 0xb9, 0xca, 0xc2, 0xfc, 0x63, 0x25, 0x51],
    invert := some q256_sc_invert }

/-- src/ecc.c:9249-9260, `field_q384`. -/
def field_q384 : ScDef :=
  { bits := 384,
    n := [0xff, 0xff, 0xff, 0xff, 0xff, 0xff, 0xff, 0xff, 0xff, 0xff, 0xff, 0xff, 0xff, 0xff, 0xff, 0xff,
          0xff, 0xff, 0xff, 0xff, 0xff, 0xff, 0xff, 0xff, 0xc7, 0x63, 0x4d, 0x81, 0xf4, 0x37, 0x2d, 0xdf,
          0x58, 0x1a, 0x0d, 0xb2, 0x48, 0xb0, 0xa7, 0x7a, 0xec, 0xec, 0x19, 0x6a, 0xcc, 0xc5, 0x29, 0x73],
    invert := some q384_sc_invert }

/-- src/ecc.c:9306-9320, `field_q521`. -/
def field_q521 : ScDef :=
  { bits := 521,
    n := [0x01, 0xff, 0xff, 0xff, 0xff, 0xff, 0xff, 0xff, 0xff, 0xff, 0xff, 0xff, 0xff, 0xff, 0xff, 0xff,
          0xff, 0xff, 0xff, 0xff, 0xff, 0xff, 0xff, 0xff, 0xff, 0xff, 0xff, 0xff, 0xff, 0xff, 0xff, 0xff,
          0xff, 0xfa, 0x51, 0x86, 0x87, 0x83, 0xbf, 0x2f, 0x96, 0x6b, 0x7f, 0xcc, 0x01, 0x48, 0xf7, 0x09,
          0xa5, 0xd0, 0x3b, 0xb5, 0xc9, 0xb8, 0x89, 0x9c, 0x47, 0xae, 0xbb, 0x6f, 0xb7, 0x1e, 0x91, 0x38,
          0x64, 0x09],
    invert := some q521_sc_invert }

/-- src/ecc.c:9361-9370, `field_secq256k1`. -/
def field_secq256k1 : ScDef :=
  { bits := 256,
    n := [0xff, 0xff, 0xff, 0xff, 0xff, 0xff, 0xff, 0xff, 0xff, 0xff, 0xff, 0xff, 0xff, 0xff, 0xff, 0xfe,
          0xba, 0xae, 0xdc, 0xe6, 0xaf, 0x48, 0xa0, 0x3b, 0xbf, 0xd2, 0x5e, 0x8c, 0xd0, 0x36, 0x41, 0x41],
    invert := some secq256k1_sc_invert }

/-- src/ecc.c:9411-9420, `field_q25519`. -/
def field_q25519 : ScDef :=
  { bits := 253,
    n := [0x10, 0x00, 0x00, 0x00, 0x00, 0x00, 0x00, 0x00, 0x00, 0x00, 0x00, 0x00, 0x00, 0x00, 0x00, 0x00,
          0x14, 0xde, 0xf9, 0xde, 0xa2, 0xf7, 0x9c, 0xd6, 0x58, 0x12, 0x63, 0x1a, 0x5c, 0xf5, 0xd3, 0xed],
    invert := some q25519_sc_invert }

/-- src/ecc.c:9464-9476, `field_q448`. -/
def field_q448 : ScDef :=
  { bits := 446,
    n := [0x3f, 0xff, 0xff, 0xff, 0xff, 0xff, 0xff, 0xff, 0xff, 0xff, 0xff, 0xff, 0xff, 0xff, 0xff, 0xff,
          0xff, 0xff, 0xff, 0xff, 0xff, 0xff, 0xff, 0xff, 0xff, 0xff, 0xff, 0xff, 0x7c, 0xca, 0x23, 0xe9,
          0xc4, 0x4e, 0xdb, 0x49, 0xae, 0xd6, 0x36, 0x90, 0x21, 0x6c, 0xc2, 0x72, 0x8d, 0xc5, 0x8f, 0x55,
          0x23, 0x78, 0xc2, 0x92, 0xab, 0x58, 0x44, 0xf3],
    invert := some q448_sc_invert }

/-- src/ecc.c:9517-9526, `field_q251`. -/
def field_q251 : ScDef :=
  { bits := 249,
    n := [0x01, 0xff, 0xff, 0xff, 0xff, 0xff, 0xff, 0xff, 0xff, 0xff, 0xff, 0xff, 0xff, 0xff, 0xff, 0xff,
          0xf7, 0x79, 0x65, 0xc4, 0xdf, 0xd3, 0x07, 0x34, 0x89, 0x44, 0xd4, 0x5f, 0xd1, 0x66, 0xc9, 0x71],
    invert := some q251_sc_invert }

/-- src/ecc.c:9098-9526: the scalar fields. -/
def scDefs : List ScDef :=
  [field_q192, field_q224, field_q256, field_q384, field_q521, field_secq256k1, field_q25519, field_q448, field_q251]

end Torsion.Sc
