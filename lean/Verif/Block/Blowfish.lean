import Verif.Block.BlowfishTables
import Verif.Block.Base

/-!
# Model of Blowfish, src/cipher.c
-/
namespace Torsion

/-- include/torsion/cipher.h:200-203, `blowfish_s`; the array `S` row after row. -/
structure Blowfish where
  S : Vector (BitVec 32) 1024
  P : Vector (BitVec 32) 18

/-- src/cipher.c:1362-1637, `blowfish_initial`. -/
def blowfish_initial : Blowfish :=
  ⟨(blowfish_S0 ++ blowfish_S1 ++ blowfish_S2 ++ blowfish_S3 : Vector (BitVec 32) (256 + 256 + 256 + 256)),
   blowfish_P⟩

/-- An access `ctx->S[i][b]` of src/cipher.c:1657-1660, `substitute`. -/
def blowfish_at (ctx : Blowfish) (i : Fin 4) (b : Byte) : BitVec 32 :=
  ctx.S[256 * i.val + b.toNat]'(by have := i.isLt; have := b.isLt; omega)

/-- The macro src/cipher.c:1657-1660, `substitute`. -/
def blowfish_sub (ctx : Blowfish) (x : BitVec 32) : BitVec 32 :=
  ((blowfish_at ctx 0 (byt x 24) + blowfish_at ctx 1 (byt x 16)) ^^^
    blowfish_at ctx 2 (byt x 8)) + blowfish_at ctx 3 (byt x 0)

/-- Two consecutive assignments `r ^= substitute(l) ^ ctx->P[i]; l ^= substitute(r) ^ ctx->P[j];` of
src/cipher.c:1661-1685 `blowfish_encipher`. -/
def blowfish_two (ctx : Blowfish) (s : Two) (ij : Fin 18 × Fin 18) : Two :=
  let r := s.r ^^^ (blowfish_sub ctx s.l ^^^ ctx.P[ij.1])
  let l := s.l ^^^ (blowfish_sub ctx r ^^^ ctx.P[ij.2])
  ⟨l, r⟩

/-- src/cipher.c:1661-1685 `blowfish_encipher`. -/
def blowfish_encipher (ctx : Blowfish) (x : Two) : Two :=
  let s : Two := ⟨x.l ^^^ ctx.P[0], x.r⟩
  let s := [(1, 2), (3, 4), (5, 6), (7, 8), (9, 10), (11, 12), (13, 14), (15, 16)].foldl
    (blowfish_two ctx) s
  ⟨s.r ^^^ ctx.P[17], s.l⟩

/-- src/cipher.c:1687-1711 `blowfish_decipher`. -/
def blowfish_decipher (ctx : Blowfish) (x : Two) : Two :=
  let s : Two := ⟨x.l ^^^ ctx.P[17], x.r⟩
  let s := [(16, 15), (14, 13), (12, 11), (10, 9), (8, 7), (6, 5), (4, 3), (2, 1)].foldl
    (blowfish_two ctx) s
  ⟨s.r ^^^ ctx.P[0], s.l⟩

/-- src/cipher.c:1715-1732 `blowfish_stream2word`; returns the word and the new offset. -/
def blowfish_stream2word (data : List Byte) (off : Nat) : BitVec 32 × Nat :=
  if h : data.length = 0 then (0, 0)
  else
    have hp : 0 < data.length := Nat.pos_of_ne_zero h
    (((data[(off + 0) % data.length]'(Nat.mod_lt _ hp)).zeroExtend 32 <<< 24) |||
     ((data[(off + 1) % data.length]'(Nat.mod_lt _ hp)).zeroExtend 32 <<< 16) |||
     ((data[(off + 2) % data.length]'(Nat.mod_lt _ hp)).zeroExtend 32 <<< 8) |||
     ((data[(off + 3) % data.length]'(Nat.mod_lt _ hp)).zeroExtend 32 <<< 0),
     (off + 4) % data.length)

/-- The first loop of src/cipher.c:1734-1761 `blowfish_expand0state`, over the indices listed. -/
def blowfish_key (key : List Byte) : List (Fin 18) → Nat → Vector (BitVec 32) 18 →
    Vector (BitVec 32) 18
  | [], _, P => P
  | i :: is, off, P =>
    let w := blowfish_stream2word key off
    blowfish_key key is w.2 (P.set i (P[i] ^^^ w.1))

/-- The state of the loops of src/cipher.c:1763-1798 `blowfish_expandstate`. -/
structure BfLoop where
  ctx : Blowfish
  x : Two
  off : Nat

/-- The two `xl ^= ...; xr ^= ...` and the encipherment of the loops of
src/cipher.c:1763-1798 `blowfish_expandstate`; for empty data the words are 0, which is
src/cipher.c:1734-1761 `blowfish_expand0state`. -/
def blowfish_next (data : List Byte) (s : BfLoop) : BfLoop :=
  let w0 := blowfish_stream2word data s.off
  let w1 := blowfish_stream2word data w0.2
  { s with x := blowfish_encipher s.ctx ⟨s.x.l ^^^ w0.1, s.x.r ^^^ w1.1⟩, off := w1.2 }

/-- The loop body filling `P` of src/cipher.c:1763-1798 `blowfish_expandstate`. -/
def blowfish_fillP (data : List Byte) (s : BfLoop) (i : Fin 9) : BfLoop :=
  let s := blowfish_next data s
  { s with ctx := { s.ctx with P := (s.ctx.P.set (2 * i.val) s.x.l).set (2 * i.val + 1) s.x.r } }

/-- The loop body filling `S` of src/cipher.c:1763-1798 `blowfish_expandstate`; `i` counts the pairs of all
four rows. -/
def blowfish_fillS (data : List Byte) (s : BfLoop) (i : Fin 512) : BfLoop :=
  let s := blowfish_next data s
  { s with ctx := { s.ctx with S := (s.ctx.S.set (2 * i.val) s.x.l).set (2 * i.val + 1) s.x.r } }

/-- src/cipher.c:1763-1798 `blowfish_expandstate`. -/
def blowfish_expandstate (ctx : Blowfish) (key data : List Byte) : Blowfish :=
  let ctx := { ctx with P := blowfish_key key (List.finRange 18) 0 ctx.P }
  let s : BfLoop := ⟨ctx, ⟨0, 0⟩, 0⟩
  let s := (List.finRange 9).foldl (blowfish_fillP data) s
  let s := (List.finRange 512).foldl (blowfish_fillS data) s
  s.ctx

/-- src/cipher.c:1734-1761 `blowfish_expand0state`; the loops are those of
src/cipher.c:1763-1798 `blowfish_expandstate` without data. -/
def blowfish_expand0state (ctx : Blowfish) (key : List Byte) : Blowfish :=
  blowfish_expandstate ctx key []

/-- src/cipher.c:1638-1654 `blowfish_init`. -/
def blowfish_init (key salt : List Byte) : Blowfish :=
  let key := if key.length > 72 then key.take 72 else key
  let salt := if salt.length > 1096 then salt.take 1096 else salt
  if salt.length > 0 then blowfish_expandstate blowfish_initial key salt
  else blowfish_expand0state blowfish_initial key

/-- src/cipher.c:1820-1831 `blowfish_encrypt`. -/
def blowfish_encrypt (ctx : Blowfish) (src : Vector Byte 8) : Vector Byte 8 :=
  store2be (blowfish_encipher ctx (load2be src))

/-- src/cipher.c:1833-1844 `blowfish_decrypt`. -/
def blowfish_decrypt (ctx : Blowfish) (src : Vector Byte 8) : Vector Byte 8 :=
  store2be (blowfish_decipher ctx (load2be src))

end Torsion
