import Verif.Util.Bio
import Verif.Common.Buffer
import Verif.Stream.Model
import Verif.Mac.Model
import Verif.Hash.Tables

/-!
# Model of the compression functions of src/hash.c

Chaining values are vectors of words. A chunk is the block of bytes at the pointer passed; all
accesses are inside the arrays by their types. The macros `ROTL32` and `ROTL64` of src/hash.c are
`rotl32` and `rotl64` of Verif/Stream/Model.lean and Verif/Mac/Model.lean (same text).
-/
namespace Torsion

/-- The macro src/hash.c:28-28 `ROTR32`. -/
def rotr32 (w : BitVec 32) (b : Nat) : BitVec 32 := (w >>> b) ||| (w <<< (32 - b))

/-- The macro src/hash.c:29-29 `ROTR64`. -/
def rotr64 (w : BitVec 64) (b : Nat) : BitVec 64 := (w >>> b) ||| (w <<< (64 - b))

/-- `W[i] = read32le(chunk + i * 4)` for all `i`, as in src/hash.c:1464-1487 `md5_transform`. -/
def words32le {n : Nat} (chunk : Vector Byte (4 * n)) : Vector (BitVec 32) n :=
  Vector.ofFn fun i : Fin n => read32le (vsub chunk (4 * i.val) 4 (by omega))

/-- `read32be(chunk + i * 4)` for all `i`, as in src/hash.c:2274-2344 `sha256_transform`. -/
def words32be {n : Nat} (chunk : Vector Byte (4 * n)) : Vector (BitVec 32) n :=
  Vector.ofFn fun i : Fin n => read32be (vsub chunk (4 * i.val) 4 (by omega))

/-- `read64le(chunk + i * 8)` for all `i`, as in src/hash.c:84-137 `blake2b_compress`. -/
def words64le {n : Nat} (chunk : Vector Byte (8 * n)) : Vector (BitVec 64) n :=
  Vector.ofFn fun i : Fin n => read64le (vsub chunk (8 * i.val) 8 (by omega))

/-- `read64be(chunk + i * 8)` for all `i`, as in src/hash.c:2549-2619 `sha512_transform`. -/
def words64be {n : Nat} (chunk : Vector Byte (8 * n)) : Vector (BitVec 64) n :=
  Vector.ofFn fun i : Fin n => read64be (vsub chunk (8 * i.val) 8 (by omega))

/-! ## MD4 and MD5 -/

/-- The macros `F1`, `F2`, `F3` of src/hash.c:1297-1323 `md4_transform` (there is no `F4`). -/
def md4_F (f : Fin 4) (x y z : BitVec 32) : BitVec 32 :=
  match f with
  | 0 => (x &&& y) ||| (~~~x &&& z)
  | 1 => (x &&& y) ||| (x &&& z) ||| (y &&& z)
  | _ => x ^^^ y ^^^ z

/-- The macro `R` of src/hash.c:1297-1323 `md4_transform`. -/
def md4_R (W : Vector (BitVec 32) 16) (s : Vector (BitVec 32) 4) (r : Md5R) :
    Vector (BitVec 32) 4 :=
  let a := s[r.a] + (md4_F r.f s[r.b] s[r.c] s[r.d] + W[r.i] + r.k)
  s.set r.a (rotl32 a r.s)

/-- src/hash.c:1297-1323 `md4_transform`. -/
def md4_transform (st : Vector (BitVec 32) 4) (chunk : Vector Byte 64) : Vector (BitVec 32) 4 :=
  let W := words32le (n := 16) chunk
  let s := md4_rounds.foldl (md4_R W) st
  Vector.ofFn fun i => st[i] + s[i]

/-- The macros `F1` ... `F4` of src/hash.c:1464-1487 `md5_transform`. -/
def md5_F (f : Fin 4) (x y z : BitVec 32) : BitVec 32 :=
  match f with
  | 0 => (x &&& y) ||| (~~~x &&& z)
  | 1 => (x &&& z) ||| (y &&& ~~~z)
  | 2 => x ^^^ y ^^^ z
  | 3 => y ^^^ (x ||| ~~~z)

/-- The macro `R` of src/hash.c:1464-1487 `md5_transform`. -/
def md5_R (W : Vector (BitVec 32) 16) (s : Vector (BitVec 32) 4) (r : Md5R) :
    Vector (BitVec 32) 4 :=
  let a := s[r.a] + (md5_F r.f s[r.b] s[r.c] s[r.d] + W[r.i] + r.k)
  s.set r.a (s[r.b] + rotl32 a r.s)

/-- src/hash.c:1464-1487 `md5_transform`. -/
def md5_transform (st : Vector (BitVec 32) 4) (chunk : Vector Byte 64) : Vector (BitVec 32) 4 :=
  let W := words32le (n := 16) chunk
  let s := md5_rounds.foldl (md5_R W) st
  Vector.ofFn fun i => st[i] + s[i]

/-! ## RIPEMD-160 -/

/-- The macros `F1` ... `F5` of src/hash.c:1666-1724 `ripemd160_transform`. -/
def rmd_F (f : Fin 5) (x y z : BitVec 32) : BitVec 32 :=
  match f with
  | 0 => x ^^^ y ^^^ z
  | 1 => (x &&& y) ||| (~~~x &&& z)
  | 2 => (x ||| ~~~y) ^^^ z
  | 3 => (x &&& z) ||| (y &&& ~~~z)
  | 4 => x ^^^ (y ||| ~~~z)

/-- The macro `R` of src/hash.c:1666-1724 `ripemd160_transform`. -/
def rmd_R (W : Vector (BitVec 32) 16) (s : Vector (BitVec 32) 5) (r : RmdR) :
    Vector (BitVec 32) 5 :=
  let a := s[r.a] + (rmd_F r.f s[r.b] s[r.c] s[r.d] + W[r.i] + r.k)
  let s := s.set r.a (rotl32 a r.s + s[r.e])
  s.set r.c (rotl32 s[r.c] 10)

/-- src/hash.c:1666-1724 `ripemd160_transform`. -/
def ripemd160_transform (st : Vector (BitVec 32) 5) (chunk : Vector Byte 64) :
    Vector (BitVec 32) 5 :=
  let W := words32le (n := 16) chunk
  let s := rmd_rounds.foldl (rmd_R W) st
  let h := rmd_roundsH.foldl (rmd_R W) st
  #v[st[1] + s[2] + h[3], st[2] + s[3] + h[4], st[3] + s[4] + h[0], st[4] + s[0] + h[1],
    st[0] + s[1] + h[2]]

/-! ## SHA-1 -/

/-- The macros `F1` ... `F4` of src/hash.c:1990-2055 `sha1_transform`. -/
def sha1_F (f : Fin 4) (x y z : BitVec 32) : BitVec 32 :=
  match f with
  | 0 => (x &&& (y ^^^ z)) ^^^ z
  | 1 => x ^^^ y ^^^ z
  | 2 => (x &&& (y ||| z)) ||| (y &&& z)
  | 3 => x ^^^ y ^^^ z

/-- `W[i & 15]` for a nonnegative `i`, src/hash.c:2274-2344 `sha256_transform`. -/
def ring {w : Nat} (W : Vector (BitVec w) 16) (i : Nat) : BitVec w := W[i % 16]

/-- The macro `R` of src/hash.c:1990-2055 `sha1_transform`, with `WORD`; the state is the registers and the array
`W`. The indices `(i - k) & 15` with `k ≤ 16` are written `(i + 16 - k) % 16`; the uninitialised `W`
is whatever `W` is given. -/
def sha1_R (X : Vector (BitVec 32) 16) (s : Vector (BitVec 32) 5 × Vector (BitVec 32) 16)
    (r : Sha1R) : Vector (BitVec 32) 5 × Vector (BitVec 32) 16 :=
  let W := s.2
  let s := s.1
  let w :=
    if r.i < 16 then ring X r.i
    else rotl32 (ring W (r.i + 16 - 3) ^^^ ring W (r.i + 16 - 8) ^^^ ring W (r.i + 16 - 14) ^^^
      ring W (r.i + 16 - 16)) 1
  let W := W.set (r.i % 16) w
  let s := s.set r.e (s[r.e] + (rotl32 s[r.a] 5 + sha1_F r.f s[r.b] s[r.c] s[r.d] + w + r.k))
  let s := s.set r.b (rotl32 s[r.b] 30)
  (s, W)

/-- src/hash.c:1990-2055 `sha1_transform`. -/
def sha1_transform (st : Vector (BitVec 32) 5) (chunk : Vector Byte 64) : Vector (BitVec 32) 5 :=
  let s := (sha1_rounds.foldl (sha1_R (words32be (n := 16) chunk)) (st, Vector.replicate 16 0)).1
  Vector.ofFn fun i => st[i] + s[i]

/-! ## SHA-2 -/

/-- The word-size dependent macros of src/hash.c:2274-2344 `sha256_transform` and src/hash.c:2549-2619 `sha512_transform`. -/
structure Sha2Fns (w : Nat) where
  Sigma0 : BitVec w → BitVec w
  Sigma1 : BitVec w → BitVec w
  sigma0 : BitVec w → BitVec w
  sigma1 : BitVec w → BitVec w

/-- `Sigma0`, `Sigma1`, `sigma0`, `sigma1` of src/hash.c:2274-2344 `sha256_transform`. -/
def sha256_fns : Sha2Fns 32 where
  Sigma0 x := rotr32 x 2 ^^^ rotr32 x 13 ^^^ rotr32 x 22
  Sigma1 x := rotr32 x 6 ^^^ rotr32 x 11 ^^^ rotr32 x 25
  sigma0 x := rotr32 x 7 ^^^ rotr32 x 18 ^^^ (x >>> 3)
  sigma1 x := rotr32 x 17 ^^^ rotr32 x 19 ^^^ (x >>> 10)

/-- `Sigma0`, `Sigma1`, `sigma0`, `sigma1` of src/hash.c:2549-2619 `sha512_transform`. -/
def sha512_fns : Sha2Fns 64 where
  Sigma0 x := rotr64 x 28 ^^^ rotr64 x 34 ^^^ rotr64 x 39
  Sigma1 x := rotr64 x 14 ^^^ rotr64 x 18 ^^^ rotr64 x 41
  sigma0 x := rotr64 x 1 ^^^ rotr64 x 8 ^^^ (x >>> 7)
  sigma1 x := rotr64 x 19 ^^^ rotr64 x 61 ^^^ (x >>> 6)

/-- The macro `R` of src/hash.c:2274-2344 `sha256_transform` and src/hash.c:2549-2619 `sha512_transform`, with `WORD`, `Ch`, `Maj`
(see `sha1_R` for the array `W`). -/
def sha2_R {w : Nat} (S : Sha2Fns w) (X : Vector (BitVec w) 16)
    (s : Vector (BitVec w) 8 × Vector (BitVec w) 16) (r : Sha2R w) :
    Vector (BitVec w) 8 × Vector (BitVec w) 16 :=
  let W := s.2
  let s := s.1
  let wd :=
    if r.i < 16 then ring X r.i
    else S.sigma1 (ring W (r.i + 16 - 2)) + ring W (r.i + 16 - 7) +
      S.sigma0 (ring W (r.i + 16 - 15)) + ring W (r.i + 16 - 16)
  let W := W.set (r.i % 16) wd
  let ch := (s[r.e] &&& (s[r.f] ^^^ s[r.g])) ^^^ s[r.g]
  let s := s.set r.h (s[r.h] + (S.Sigma1 s[r.e] + ch + r.k + wd))
  let s := s.set r.d (s[r.d] + s[r.h])
  let maj := (s[r.a] &&& (s[r.b] ||| s[r.c])) ||| (s[r.b] &&& s[r.c])
  let s := s.set r.h (s[r.h] + (S.Sigma0 s[r.a] + maj))
  (s, W)

/-- src/hash.c:2274-2344 `sha256_transform`. -/
def sha256_transform (st : Vector (BitVec 32) 8) (chunk : Vector Byte 64) :
    Vector (BitVec 32) 8 :=
  let s := (sha256_rounds.foldl (sha2_R sha256_fns (words32be (n := 16) chunk))
    (st, Vector.replicate 16 0)).1
  Vector.ofFn fun i => st[i] + s[i]

/-- src/hash.c:2549-2619 `sha512_transform`. -/
def sha512_transform (st : Vector (BitVec 64) 8) (chunk : Vector Byte 128) :
    Vector (BitVec 64) 8 :=
  let s := (sha512_rounds.foldl (sha2_R sha512_fns (words64be (n := 16) chunk))
    (st, Vector.replicate 16 0)).1
  Vector.ofFn fun i => st[i] + s[i]

/-! ## BLAKE2 -/

/-- The macro `G` of src/hash.c:84-137 `blake2b_compress` and src/hash.c:305-356 `blake2s_compress`: `rot` is the rotation to
the right, `R1` ... `R4` its amounts, `x`, `y` the two message words. -/
def blake2_G {w : Nat} (rot : BitVec w → Nat → BitVec w) (R1 R2 R3 R4 : Nat) (x y : BitVec w)
    (V : Vector (BitVec w) 16) (a b c d : Fin 16) : Vector (BitVec w) 16 :=
  let V := V.set a (V[a] + (V[b] + x))
  let V := V.set d (rot (V[d] ^^^ V[a]) R1)
  let V := V.set c (V[c] + V[d])
  let V := V.set b (rot (V[b] ^^^ V[c]) R2)
  let V := V.set a (V[a] + (V[b] + y))
  let V := V.set d (rot (V[d] ^^^ V[a]) R3)
  let V := V.set c (V[c] + V[d])
  V.set b (rot (V[b] ^^^ V[c]) R4)

/-- The macro `R` of src/hash.c:84-137 `blake2b_compress` and src/hash.c:305-356 `blake2s_compress`; `S i` is `S[r][i]`. -/
def blake2_R {w : Nat} (rot : BitVec w → Nat → BitVec w) (R1 R2 R3 R4 : Nat)
    (W : Vector (BitVec w) 16) (S : Fin 16 → Fin 16) (V : Vector (BitVec w) 16) :
    Vector (BitVec w) 16 :=
  let G := fun V (i : Fin 8) a b c d =>
    blake2_G rot R1 R2 R3 R4 W[S ⟨2 * i.val, by omega⟩] W[S ⟨2 * i.val + 1, by omega⟩] V a b c d
  let V := G V 0 0 4 8 12
  let V := G V 1 1 5 9 13
  let V := G V 2 2 6 10 14
  let V := G V 3 3 7 11 15
  let V := G V 4 0 5 10 15
  let V := G V 5 1 6 11 12
  let V := G V 6 2 7 8 13
  G V 7 3 4 9 14

/-- src/hash.c:84-137 `blake2b_compress`: state `h`, counter words, chunk, flag word. -/
def blake2b_compress (h : Vector (BitVec 64) 8) (t0 t1 : BitVec 64) (chunk : Vector Byte 128)
    (f0 : BitVec 64) : Vector (BitVec 64) 8 :=
  let W := words64le (n := 16) chunk
  let iv := blake2b_iv
  let V : Vector (BitVec 64) 16 := #v[h[0], h[1], h[2], h[3], h[4], h[5], h[6], h[7], iv[0], iv[1],
    iv[2], iv[3], iv[4] ^^^ t0, iv[5] ^^^ t1, iv[6] ^^^ f0, iv[7]]
  let V := (List.finRange 12).foldl (fun V r => blake2_R rotr64 32 24 16 63 W
    (fun i => blake2b_S[16 * r.val + i.val]) V) V
  Vector.ofFn fun i : Fin 8 => h[i] ^^^ (V[i.val] ^^^ V[i.val + 8])

/-- src/hash.c:305-356 `blake2s_compress`: state `h`, counter words, chunk, flag word. -/
def blake2s_compress (h : Vector (BitVec 32) 8) (t0 t1 : BitVec 32) (chunk : Vector Byte 64)
    (f0 : BitVec 32) : Vector (BitVec 32) 8 :=
  let W := words32le (n := 16) chunk
  let iv := blake2s_iv
  let V : Vector (BitVec 32) 16 := #v[h[0], h[1], h[2], h[3], h[4], h[5], h[6], h[7], iv[0], iv[1],
    iv[2], iv[3], iv[4] ^^^ t0, iv[5] ^^^ t1, iv[6] ^^^ f0, iv[7]]
  let V := (List.finRange 10).foldl (fun V r => blake2_R rotr32 16 12 8 7 W
    (fun i => blake2s_S[16 * r.val + i.val]) V) V
  Vector.ofFn fun i : Fin 8 => h[i] ^^^ (V[i.val] ^^^ V[i.val + 8])

/-! ## GOST94 -/

/-- `S[n][(t >> 4 * n) & 15] << 4 * n` of src/hash.c:463-487 `gost94_g`. -/
def gost94_s (t : BitVec 32) (n : Fin 8) : BitVec 32 :=
  gost94_S[16 * n.val + (t >>> (4 * n.val) &&& 15).toNat]'(by
    have : (t >>> (4 * n.val) &&& 15).toNat < 16 := by
      rw [BitVec.toNat_and]
      exact Nat.lt_of_le_of_lt Nat.and_le_right (by decide)
    omega) <<< (4 * n.val)

/-- src/hash.c:463-487 `gost94_g`. -/
def gost94_g (x y : BitVec 32) : BitVec 32 :=
  let t := x + y
  let z := gost94_s t 7 ||| gost94_s t 6 ||| gost94_s t 5 ||| gost94_s t 4 ||| gost94_s t 3 |||
    gost94_s t 2 ||| gost94_s t 1 ||| gost94_s t 0
  rotl32 z 11

/-- One round `t = b ^ gost94_g(a, k); b = a; a = t;` of src/hash.c:489-516 `gost94_e`. -/
def gost94_round (s : BitVec 32 × BitVec 32) (k : BitVec 32) : BitVec 32 × BitVec 32 :=
  (s.2 ^^^ gost94_g s.1 k, s.1)

/-- src/hash.c:489-516 `gost94_e`: the 8 bytes stored at `msg`. -/
def gost94_e (msg : Vector Byte 8) (key : Vector Byte 32) : Vector Byte 8 :=
  let k := (words32le (n := 8) key).toList
  let s := (k ++ k ++ k ++ k.reverse).foldl gost94_round
    (read32le (vsub msg 0 4), read32le (vsub msg 4 4))
  write32le s.2 ++ write32le s.1

/-- src/hash.c:518-524 `gost94_x`. -/
def gost94_x (xp yp : Vector Byte 32) : Vector Byte 32 := Vector.zipWith (· ^^^ ·) xp yp

/-- src/hash.c:526-539 `gost94_a`. -/
def gost94_a (xp : Vector Byte 32) : Vector Byte 32 :=
  Vector.ofFn fun i : Fin 32 =>
    if h : i.val < 24 then xp[8 + i.val] else xp[i.val - 24] ^^^ xp[i.val - 24 + 8]

/-- src/hash.c:541-553 `gost94_p`: `zp[i + 4 * k] = tp[8 * i + k]`, so `zp[j] = tp[8 * (j % 4) + j / 4]`. -/
def gost94_p (xp : Vector Byte 32) : Vector Byte 32 :=
  Vector.ofFn fun j : Fin 32 => xp[8 * (j.val % 4) + j.val / 4]

/-- src/hash.c:555-566 `gost94_z`. -/
def gost94_z (xp : Vector Byte 32) : Vector Byte 32 :=
  Vector.ofFn fun i : Fin 32 =>
    if h : i.val < 30 then xp[2 + i.val]
    else if i.val = 30 then xp[0] ^^^ xp[2] ^^^ xp[4] ^^^ xp[6] ^^^ xp[24] ^^^ xp[30]
    else xp[1] ^^^ xp[3] ^^^ xp[5] ^^^ xp[7] ^^^ xp[25] ^^^ xp[31]

/-- `gost94_z` applied `n` times, as by the loops of src/hash.c:568-619 `gost94_compress`. -/
def gost94_zs : Nat → Vector Byte 32 → Vector Byte 32
  | 0, x => x
  | n + 1, x => gost94_zs n (gost94_z x)

/-- src/hash.c:568-619 `gost94_compress`: the new state. The four calls `gost94_e(tp + 8 * i, kp)` work on
disjoint parts of `tp`, which starts as a copy of the state. -/
def gost94_compress (sp mp : Vector Byte 32) : Vector Byte 32 :=
  let kp := gost94_p (gost94_x sp mp)
  let t0 := gost94_e (vsub sp 0 8) kp
  let up := gost94_a sp
  let vp := gost94_a (gost94_a mp)
  let kp := gost94_p (gost94_x up vp)
  let t1 := gost94_e (vsub sp 8 8) kp
  let up := gost94_x (gost94_a up) gost94_cp
  let vp := gost94_a (gost94_a vp)
  let kp := gost94_p (gost94_x up vp)
  let t2 := gost94_e (vsub sp 16 8) kp
  let up := gost94_a up
  let vp := gost94_a (gost94_a vp)
  let kp := gost94_p (gost94_x up vp)
  let t3 := gost94_e (vsub sp 24 8) kp
  let tp : Vector Byte 32 := t0 ++ t1 ++ t2 ++ t3
  let tp := gost94_zs 12 tp
  let tp := gost94_z (gost94_x tp mp)
  gost94_zs 61 (gost94_x sp tp)

/-- The loop of src/hash.c:621-631 `gost94_sum`: carry and the bytes still to do. -/
def gost94_sum_loop : Nat → List Byte → List Byte → List Byte
  | c, s :: ss, m :: ms =>
    let c := c + s.toNat + m.toNat
    BitVec.ofNat 8 c :: gost94_sum_loop (c / 256) ss ms
  | _, _, _ => []

theorem gost94_sum_loop_length (c : Nat) (s m : List Byte) (h : s.length = m.length) :
    (gost94_sum_loop c s m).length = s.length := by
  induction s generalizing c m with
  | nil => simp [gost94_sum_loop]
  | cons x xs ih =>
    match m, h with
    | y :: ys, h => simp only [gost94_sum_loop, List.length_cons]; rw [ih _ ys (by simpa using h)]

/-- src/hash.c:621-631 `gost94_sum`: the new `sigma`. -/
def gost94_sum (sigma mp : Vector Byte 32) : Vector Byte 32 :=
  ⟨(gost94_sum_loop 0 sigma.toList mp.toList).toArray, by
    rw [List.size_toArray, gost94_sum_loop_length _ _ _ (by simp)]
    simp⟩

/-! ## Keccak -/

/-- The theta step of src/hash.c:791-974 `keccak_compress`. -/
def keccak_theta (A : Vector (BitVec 64) 25) : Vector (BitVec 64) 25 :=
  let C0 := A[0] ^^^ A[5] ^^^ A[10] ^^^ A[15] ^^^ A[20]
  let C1 := A[1] ^^^ A[6] ^^^ A[11] ^^^ A[16] ^^^ A[21]
  let C2 := A[2] ^^^ A[7] ^^^ A[12] ^^^ A[17] ^^^ A[22]
  let C3 := A[3] ^^^ A[8] ^^^ A[13] ^^^ A[18] ^^^ A[23]
  let C4 := A[4] ^^^ A[9] ^^^ A[14] ^^^ A[19] ^^^ A[24]
  let D0 := C4 ^^^ rotl64 C1 1
  let D1 := C0 ^^^ rotl64 C2 1
  let D2 := C1 ^^^ rotl64 C3 1
  let D3 := C2 ^^^ rotl64 C4 1
  let D4 := C3 ^^^ rotl64 C0 1
  #v[A[0] ^^^ D0, A[1] ^^^ D1, A[2] ^^^ D2, A[3] ^^^ D3, A[4] ^^^ D4, A[5] ^^^ D0, A[6] ^^^ D1,
   A[7] ^^^ D2, A[8] ^^^ D3, A[9] ^^^ D4, A[10] ^^^ D0, A[11] ^^^ D1, A[12] ^^^ D2, A[13] ^^^ D3,
   A[14] ^^^ D4, A[15] ^^^ D0, A[16] ^^^ D1, A[17] ^^^ D2, A[18] ^^^ D3, A[19] ^^^ D4,
   A[20] ^^^ D0, A[21] ^^^ D1, A[22] ^^^ D2, A[23] ^^^ D3, A[24] ^^^ D4]

/-- The statements `A[i] = ROTL64(A[i], s)` of the rho step of src/hash.c:791-974 `keccak_compress`, as the
pairs of `i` and `s` in order. -/
def keccak_rho_list : List (Fin 25 × Nat) :=
  [(1, 1), (10, 3), (7, 6), (11, 10), (17, 15), (18, 21), (3, 28), (5, 36), (16, 45), (8, 55),
   (21, 2), (24, 14), (4, 27), (15, 41), (23, 56), (19, 8), (13, 25), (12, 43), (2, 62),
   (20, 18), (14, 39), (22, 61), (9, 20), (6, 44)]

/-- The rho step of src/hash.c:791-974 `keccak_compress`. -/
def keccak_rho (A : Vector (BitVec 64) 25) : Vector (BitVec 64) 25 :=
  keccak_rho_list.foldl (fun A p => A.set p.1 (rotl64 A[p.1] p.2)) A

/-- The statements `A[i] = A[j]` of the pi step of src/hash.c:791-974 `keccak_compress`, as the pairs of `i` and
`j` in order. -/
def keccak_pi_list : List (Fin 25 × Fin 25) :=
  [(1, 6), (6, 9), (9, 22), (22, 14), (14, 20), (20, 2), (2, 12), (12, 13), (13, 19), (19, 23),
   (23, 15), (15, 4), (4, 24), (24, 21), (21, 8), (8, 16), (16, 5), (5, 3), (3, 18), (18, 17),
   (17, 11), (11, 7), (7, 10)]

/-- The pi step of src/hash.c:791-974 `keccak_compress`: `C[0] = A[1]`, the list of moves, `A[10] = C[0]`. -/
def keccak_pi (A : Vector (BitVec 64) 25) : Vector (BitVec 64) 25 :=
  (keccak_pi_list.foldl (fun A p => A.set p.1 A[p.2]) A).set 10 A[1]

/-- The chi step of src/hash.c:791-974 `keccak_compress`: for each row all five values `C[i]` are computed before
the row is changed. -/
def keccak_chi (A : Vector (BitVec 64) 25) : Vector (BitVec 64) 25 :=
  #v[A[0] ^^^ (~~~A[1] &&& A[2]), A[1] ^^^ (~~~A[2] &&& A[3]), A[2] ^^^ (~~~A[3] &&& A[4]),
   A[3] ^^^ (~~~A[4] &&& A[0]), A[4] ^^^ (~~~A[0] &&& A[1]), A[5] ^^^ (~~~A[6] &&& A[7]),
   A[6] ^^^ (~~~A[7] &&& A[8]), A[7] ^^^ (~~~A[8] &&& A[9]), A[8] ^^^ (~~~A[9] &&& A[5]),
   A[9] ^^^ (~~~A[5] &&& A[6]), A[10] ^^^ (~~~A[11] &&& A[12]), A[11] ^^^ (~~~A[12] &&& A[13]),
   A[12] ^^^ (~~~A[13] &&& A[14]), A[13] ^^^ (~~~A[14] &&& A[10]),
   A[14] ^^^ (~~~A[10] &&& A[11]), A[15] ^^^ (~~~A[16] &&& A[17]),
   A[16] ^^^ (~~~A[17] &&& A[18]), A[17] ^^^ (~~~A[18] &&& A[19]),
   A[18] ^^^ (~~~A[19] &&& A[15]), A[19] ^^^ (~~~A[15] &&& A[16]),
   A[20] ^^^ (~~~A[21] &&& A[22]), A[21] ^^^ (~~~A[22] &&& A[23]),
   A[22] ^^^ (~~~A[23] &&& A[24]), A[23] ^^^ (~~~A[24] &&& A[20]), A[24] ^^^ (~~~A[20] &&& A[21])]

/-- One round of src/hash.c:791-974 `keccak_compress`, round constant `rc`. -/
def keccak_round (A : Vector (BitVec 64) 25) (rc : BitVec 64) : Vector (BitVec 64) 25 :=
  let A := keccak_chi (keccak_pi (keccak_rho (keccak_theta A)))
  A.set 0 (A[0] ^^^ rc)

/-- src/hash.c:791-974 `keccak_compress`. -/
def keccak_compress (A : Vector (BitVec 64) 25) : Vector (BitVec 64) 25 :=
  keccak_RC.toList.foldl keccak_round A

/-- `ctx->state[i] ^= read64le(chunk + 8 * i)`, src/hash.c:1035-1044 `keccak_transform1`; `ub` if the chunk or the
state is too short for it. -/
def keccak_absorb (A : Vector (BitVec 64) 25) (chunk : List Byte) (i : Nat) :
    C (Vector (BitVec 64) 25) :=
  if h : i < 25 then do
    let v ← C.vec 8 (chunk.drop (8 * i))
    .ok (A.set i (A[i] ^^^ read64le v))
  else .ub

/-- The statements `ctx->state[i] ^= read64le(chunk + 8 * i)` for `i` from `i` on, `n` of them,
src/hash.c:1035-1044 `keccak_transform1` and src/hash.c:976-1033 `keccak_transform0`. -/
def keccak_absorbs (chunk : List Byte) : Nat → Nat → Vector (BitVec 64) 25 →
    C (Vector (BitVec 64) 25)
  | 0, _, A => .ok A
  | n + 1, i, A => do
    let A ← keccak_absorb A chunk i
    keccak_absorbs chunk n (i + 1) A

/-- src/hash.c:976-1033 `keccak_transform0`, `bs` = `ctx->bs`. -/
def keccak_transform0 (bs : Nat) (A : Vector (BitVec 64) 25) (chunk : List Byte) :
    C (Vector (BitVec 64) 25) := do
  let A ← keccak_absorbs chunk 9 0 A
  if bs < 104 then .ok (keccak_compress A) else do
  let A ← keccak_absorbs chunk 4 9 A
  if bs < 136 then .ok (keccak_compress A) else do
  let A ← keccak_absorbs chunk 4 13 A
  if bs < 144 then .ok (keccak_compress A) else do
  let A ← keccak_absorbs chunk 1 17 A
  if bs < 152 then .ok (keccak_compress A) else do
  let A ← keccak_absorbs chunk 1 18 A
  if bs < 160 then .ok (keccak_compress A) else do
  let A ← keccak_absorbs chunk 1 19 A
  if bs < 168 then .ok (keccak_compress A) else do
  let A ← keccak_absorbs chunk 1 20 A
  .ok (keccak_compress A)

/-- src/hash.c:1035-1044 `keccak_transform1`, `bs` = `ctx->bs`. -/
def keccak_transform1 (bs : Nat) (A : Vector (BitVec 64) 25) (chunk : List Byte) :
    C (Vector (BitVec 64) 25) := do
  let A ← keccak_absorbs chunk (bs / 8) 0 A
  .ok (keccak_compress A)

/-- src/hash.c:1046-1053 `keccak_transform`. -/
def keccak_transform (std : Bool) (bs : Nat) (A : Vector (BitVec 64) 25) (chunk : List Byte) :
    C (Vector (BitVec 64) 25) :=
  if std then keccak_transform0 bs A chunk else keccak_transform1 bs A chunk

/-! ## MD2 -/

/-- `K[t]` of src/hash.c:1156-1232 `md2_transform`; `t` is a value below 256, held as a byte. -/
def md2_k (t : Byte) : Byte := md2_K[t.toNat]

/-- The inner loop `for (k = 0; k < 48; k++)` of src/hash.c:1156-1232 `md2_transform`: the new `t` and `S`. -/
def md2_pass : List Byte → Byte → Byte × List Byte
  | [], t => (t, [])
  | s :: ss, t =>
    let t := s ^^^ md2_k t
    let r := md2_pass ss t
    (r.1, t :: r.2)

/-- The loop `for (j = 0; j < 18; j++)` of src/hash.c:1156-1232 `md2_transform` from round `j` on, `n` rounds left. -/
def md2_rounds : Nat → Nat → Byte → List Byte → List Byte
  | 0, _, _, S => S
  | n + 1, j, t, S =>
    let r := md2_pass S t
    md2_rounds n (j + 1) (r.1 + BitVec.ofNat 8 j) r.2

/-- The checksum loop of src/hash.c:1156-1232 `md2_transform`: `l`, the rest of `C`, the rest of the chunk. In the call
`md2_transform(ctx, ctx->checksum)` the chunk is the array being written; each `W[j]` is read before
`C[j]` is written, so the bytes read are the old ones. -/
def md2_check : Byte → List Byte → List Byte → List Byte
  | l, c :: cs, w :: ws =>
    let l := c ^^^ md2_k (w ^^^ l)
    l :: md2_check l cs ws
  | _, _, _ => []

theorem md2_pass_length (S : List Byte) (t : Byte) : (md2_pass S t).2.length = S.length := by
  induction S generalizing t with
  | nil => rfl
  | cons s ss ih => simp [md2_pass, ih]

theorem md2_rounds_length (n j : Nat) (t : Byte) (S : List Byte) :
    (md2_rounds n j t S).length = S.length := by
  induction n generalizing j t S with
  | zero => rfl
  | succ n ih => simp only [md2_rounds]; rw [ih, md2_pass_length]

theorem md2_check_length (l : Byte) (c w : List Byte) (h : c.length = w.length) :
    (md2_check l c w).length = c.length := by
  induction c generalizing l w with
  | nil => simp [md2_check]
  | cons c cs ih =>
    match w, h with
    | w :: ws, h => simp only [md2_check, List.length_cons]; rw [ih _ ws (by simpa using h)]

/-- src/hash.c:1156-1232 `md2_transform`: the state (`state` of 48 bytes, of which the last 32 are overwritten, so
only the first 16 are kept here, and `checksum` of 16 bytes). -/
def md2_transform (st : Vector Byte 16 × Vector Byte 16) (chunk : Vector Byte 16) :
    Vector Byte 16 × Vector Byte 16 :=
  let S := st.1.toList ++ chunk.toList ++ List.zipWith (· ^^^ ·) chunk.toList st.1.toList
  let S' := md2_rounds 18 0 0 S
  let C := md2_check st.2[15] st.2.toList chunk.toList
  (Vector.ofFn fun i : Fin 16 => S'[i.val]'(by
      simp only [S', S, List.length_zipWith, md2_rounds_length, List.length_append, Vector.length_toList]
      omega),
    Vector.ofFn fun i : Fin 16 => C[i.val]'(by
      rw [md2_check_length _ _ _ (by simp)]
      simp))

/-! ## Whirlpool -/

/-- The byte `(x >> s) & 0xff`, as an index, of src/hash.c:3905-3953 `whirlpool_transform`. -/
def byteAt (x : BitVec 64) (s : Nat) : Fin 256 :=
  ⟨(x >>> s &&& 0xff).toNat, by
    rw [BitVec.toNat_and]
    exact Nat.lt_of_le_of_lt Nat.and_le_right (by decide)⟩

/-- The row computed in src/hash.c:3905-3953 `whirlpool_transform` from `K` (and from `S`). -/
def whirlpool_row (K : Vector (BitVec 64) 8) (i : Nat) : BitVec 64 :=
  whirlpool_C0[byteAt K[(0 + i) % 8] 56] ^^^
  whirlpool_C1[byteAt K[(7 + i) % 8] 48] ^^^
  whirlpool_C2[byteAt K[(6 + i) % 8] 40] ^^^
  whirlpool_C3[byteAt K[(5 + i) % 8] 32] ^^^
  whirlpool_C4[byteAt K[(4 + i) % 8] 24] ^^^
  whirlpool_C5[byteAt K[(3 + i) % 8] 16] ^^^
  whirlpool_C6[byteAt K[(2 + i) % 8] 8] ^^^
  whirlpool_C7[byteAt K[(1 + i) % 8] 0]

/-- One round of src/hash.c:3905-3953 `whirlpool_transform` on `K` and `S`. -/
def whirlpool_round (s : Vector (BitVec 64) 8 × Vector (BitVec 64) 8) (rc : BitVec 64) :
    Vector (BitVec 64) 8 × Vector (BitVec 64) 8 :=
  let L : Vector (BitVec 64) 8 := Vector.ofFn fun i : Fin 8 => whirlpool_row s.1 i.val
  let K := L.set 0 (L[0] ^^^ rc)
  (K, Vector.ofFn fun i : Fin 8 => whirlpool_row s.2 i.val ^^^ K[i])

/-- src/hash.c:3905-3953 `whirlpool_transform`. -/
def whirlpool_transform (st : Vector (BitVec 64) 8) (chunk : Vector Byte 64) :
    Vector (BitVec 64) 8 :=
  let B := words64be (n := 8) chunk
  let s := whirlpool_RC.toList.foldl whirlpool_round (st, Vector.ofFn fun i => B[i] ^^^ st[i])
  Vector.ofFn fun i => st[i] ^^^ (s.2[i] ^^^ B[i])

end Torsion
