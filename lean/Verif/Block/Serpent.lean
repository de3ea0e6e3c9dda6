import Verif.Block.Base

/-!
# Model of Serpent, src/cipher.c

The 132 words `subkeys` are kept as 33 groups of four words, as they are used.
-/
namespace Torsion

/-- include/torsion/cipher.h:235-237, `serpent_s`. -/
structure Serpent where
  subkeys : Vector Quad 33

/-- src/cipher.c:4337-4350, `linear`. -/
def serpent_linear (q : Quad) : Quad :=
  let v0 := q.a
  let v1 := q.b
  let v2 := q.c
  let v3 := q.d
  let t0 := ((v0 <<< 13) ||| (v0 >>> (32 - 13)))
  let t2 := ((v2 <<< 3) ||| (v2 >>> (32 - 3)))
  let t1 := v1 ^^^ t0 ^^^ t2
  let t3 := v3 ^^^ t2 ^^^ (t0 <<< 3)
  let v1 := (t1 <<< 1) ||| (t1 >>> (32 - 1))
  let v3 := (t3 <<< 7) ||| (t3 >>> (32 - 7))
  let t0 := t0 ^^^ (v1 ^^^ v3)
  let t2 := t2 ^^^ (v3 ^^^ (v1 <<< 7))
  let v0 := (t0 <<< 5) ||| (t0 >>> (32 - 5))
  let v2 := (t2 <<< 22) ||| (t2 >>> (32 - 22))
  ⟨v0, v1, v2, v3⟩

/-- src/cipher.c:4352-4366, `linearinv`. -/
def serpent_linearinv (q : Quad) : Quad :=
  let v0 := q.a
  let v1 := q.b
  let v2 := q.c
  let v3 := q.d
  let t2 := (v2 >>> 22) ||| (v2 <<< (32 - 22))
  let t0 := (v0 >>> 5) ||| (v0 <<< (32 - 5))
  let t2 := t2 ^^^ (v3 ^^^ (v1 <<< 7))
  let t0 := t0 ^^^ (v1 ^^^ v3)
  let t3 := (v3 >>> 7) ||| (v3 <<< (32 - 7))
  let t1 := (v1 >>> 1) ||| (v1 <<< (32 - 1))
  let v3 := t3 ^^^ t2 ^^^ (t0 <<< 3)
  let v1 := t1 ^^^ t0 ^^^ t2
  let v2 := (t2 >>> 3) ||| (t2 <<< (32 - 3))
  let v0 := (t0 >>> 13) ||| (t0 <<< (32 - 13))
  ⟨v0, v1, v2, v3⟩

/-- src/cipher.c:4368-4381, `sb0`. -/
def serpent_sb0 (q : Quad) : Quad :=
  let r0 := q.a
  let r1 := q.b
  let r2 := q.c
  let r3 := q.d
  let t0 := r0 ^^^ r3
  let t1 := r2 ^^^ t0
  let t2 := r1 ^^^ t1
  let r3 := (r0 &&& r3) ^^^ t2
  let t3 := r0 ^^^ (r1 &&& t0)
  let r2 := t2 ^^^ (r2 ||| t3)
  let t4 := r3 &&& (t1 ^^^ t3)
  let r1 := (~~~t1) ^^^ t4
  let r0 := t4 ^^^ (~~~t3)
  ⟨r0, r1, r2, r3⟩

/-- src/cipher.c:4383-4396, `sb0inv`. -/
def serpent_sb0inv (q : Quad) : Quad :=
  let r0 := q.a
  let r1 := q.b
  let r2 := q.c
  let r3 := q.d
  let t0 := ~~~(r0)
  let t1 := r0 ^^^ r1
  let t2 := r3 ^^^ (t0 ||| t1)
  let t3 := r2 ^^^ t2
  let r2 := t1 ^^^ t3
  let t4 := t0 ^^^ (r3 &&& t1)
  let r1 := t2 ^^^ (r2 &&& t4)
  let r3 := (r0 &&& t2) ^^^ (t3 ||| r1)
  let r0 := r3 ^^^ (t3 ^^^ t4)
  ⟨r0, r1, r2, r3⟩

/-- src/cipher.c:4398-4411, `sb1`. -/
def serpent_sb1 (q : Quad) : Quad :=
  let r0 := q.a
  let r1 := q.b
  let r2 := q.c
  let r3 := q.d
  let t0 := r1 ^^^ (~~~(r0))
  let t1 := r2 ^^^ (r0 ||| t0)
  let r2 := r3 ^^^ t1
  let t2 := r1 ^^^ (r3 ||| t0)
  let t3 := t0 ^^^ r2
  let r3 := t3 ^^^ (t1 &&& t2)
  let t4 := t1 ^^^ t2
  let r1 := r3 ^^^ t4
  let r0 := t1 ^^^ (t3 &&& t4)
  ⟨r0, r1, r2, r3⟩

/-- src/cipher.c:4413-4428, `sb1inv`. -/
def serpent_sb1inv (q : Quad) : Quad :=
  let r0 := q.a
  let r1 := q.b
  let r2 := q.c
  let r3 := q.d
  let t0 := r1 ^^^ r3
  let t1 := r0 ^^^ (r1 &&& t0)
  let t2 := t0 ^^^ t1
  let r3 := r2 ^^^ t2
  let t3 := r1 ^^^ (t0 &&& t1)
  let t4 := r3 ||| t3
  let r1 := t1 ^^^ t4
  let t5 := ~~~(r1)
  let t6 := r3 ^^^ t3
  let r0 := t5 ^^^ t6
  let r2 := t2 ^^^ (t5 ||| t6)
  ⟨r0, r1, r2, r3⟩

/-- src/cipher.c:4430-4446, `sb2`. -/
def serpent_sb2 (q : Quad) : Quad :=
  let r0 := q.a
  let r1 := q.b
  let r2 := q.c
  let r3 := q.d
  let v0 := r0
  let v3 := r3
  let t0 := ~~~v0
  let t1 := r1 ^^^ v3
  let t2 := r2 &&& t0
  let r0 := t1 ^^^ t2
  let t3 := r2 ^^^ t0
  let t4 := r2 ^^^ r0
  let t5 := r1 &&& t4
  let r3 := t3 ^^^ t5
  let r2 := v0 ^^^ ((v3 ||| t5) &&& (r0 ||| t3))
  let r1 := (t1 ^^^ r3) ^^^ (r2 ^^^ (v3 ||| t0))
  ⟨r0, r1, r2, r3⟩

/-- src/cipher.c:4448-4468, `sb2inv`. -/
def serpent_sb2inv (q : Quad) : Quad :=
  let r0 := q.a
  let r1 := q.b
  let r2 := q.c
  let r3 := q.d
  let v0 := r0
  let v3 := r3
  let t0 := r1 ^^^ v3
  let t1 := ~~~t0
  let t2 := v0 ^^^ r2
  let t3 := r2 ^^^ t0
  let t4 := r1 &&& t3
  let r0 := t2 ^^^ t4
  let t5 := v0 ||| t1
  let t6 := v3 ^^^ t5
  let t7 := t2 ||| t6
  let r3 := t0 ^^^ t7
  let t8 := ~~~t3
  let t9 := r0 ||| r3
  let r1 := t8 ^^^ t9
  let r2 := (v3 &&& t8) ^^^ (t2 ^^^ t9)
  ⟨r0, r1, r2, r3⟩

/-- src/cipher.c:4470-4490, `sb3`. -/
def serpent_sb3 (q : Quad) : Quad :=
  let r0 := q.a
  let r1 := q.b
  let r2 := q.c
  let r3 := q.d
  let v1 := r1
  let v3 := r3
  let t0 := r0 ^^^ r1
  let t1 := r0 &&& r2
  let t2 := r0 ||| r3
  let t3 := r2 ^^^ r3
  let t4 := t0 &&& t2
  let t5 := t1 ||| t4
  let r2 := t3 ^^^ t5
  let t6 := r1 ^^^ t2
  let t7 := t5 ^^^ t6
  let t8 := t3 &&& t7
  let r0 := t0 ^^^ t8
  let t9 := r2 &&& r0
  let r1 := t7 ^^^ t9
  let r3 := (v1 ||| v3) ^^^ (t3 ^^^ t9)
  ⟨r0, r1, r2, r3⟩

/-- src/cipher.c:4492-4510, `sb3inv`. -/
def serpent_sb3inv (q : Quad) : Quad :=
  let r0 := q.a
  let r1 := q.b
  let r2 := q.c
  let r3 := q.d
  let t0 := r0 ||| r1
  let t1 := r1 ^^^ r2
  let t2 := r1 &&& t1
  let t3 := r0 ^^^ t2
  let t4 := r2 ^^^ t3
  let t5 := r3 ||| t3
  let r0 := t1 ^^^ t5
  let t6 := t1 ||| t5
  let t7 := r3 ^^^ t6
  let r2 := t4 ^^^ t7
  let t8 := t0 ^^^ t7
  let t9 := r0 &&& t8
  let r3 := t3 ^^^ t9
  let r1 := r3 ^^^ (r0 ^^^ t8)
  ⟨r0, r1, r2, r3⟩

/-- src/cipher.c:4512-4530, `sb4`. -/
def serpent_sb4 (q : Quad) : Quad :=
  let r0 := q.a
  let r1 := q.b
  let r2 := q.c
  let r3 := q.d
  let v0 := r0
  let t0 := v0 ^^^ r3
  let t1 := r3 &&& t0
  let t2 := r2 ^^^ t1
  let t3 := r1 ||| t2
  let r3 := t0 ^^^ t3
  let t4 := ~~~(r1)
  let t5 := t0 ||| t4
  let r0 := t2 ^^^ t5
  let t6 := v0 &&& r0
  let t7 := t0 ^^^ t4
  let t8 := t3 &&& t7
  let r2 := t6 ^^^ t8
  let r1 := (v0 ^^^ t2) ^^^ (t7 &&& r2)
  ⟨r0, r1, r2, r3⟩

/-- src/cipher.c:4532-4550, `sb4inv`. -/
def serpent_sb4inv (q : Quad) : Quad :=
  let r0 := q.a
  let r1 := q.b
  let r2 := q.c
  let r3 := q.d
  let v3 := r3
  let t0 := r2 ||| v3
  let t1 := r0 &&& t0
  let t2 := r1 ^^^ t1
  let t3 := r0 &&& t2
  let t4 := r2 ^^^ t3
  let r1 := v3 ^^^ t4
  let t5 := ~~~(r0)
  let t6 := t4 &&& r1
  let r3 := t2 ^^^ t6
  let t7 := r1 ||| t5
  let t8 := v3 ^^^ t7
  let r0 := r3 ^^^ t8
  let r2 := (t2 &&& t8) ^^^ (r1 ^^^ t5)
  ⟨r0, r1, r2, r3⟩

/-- src/cipher.c:4552-4571, `sb5`. -/
def serpent_sb5 (q : Quad) : Quad :=
  let r0 := q.a
  let r1 := q.b
  let r2 := q.c
  let r3 := q.d
  let v1 := r1
  let t0 := ~~~(r0)
  let t1 := r0 ^^^ v1
  let t2 := r0 ^^^ r3
  let t3 := r2 ^^^ t0
  let t4 := t1 ||| t2
  let r0 := t3 ^^^ t4
  let t5 := r3 &&& r0
  let t6 := t1 ^^^ r0
  let r1 := t5 ^^^ t6
  let t7 := t0 ||| r0
  let t8 := t1 ||| t5
  let t9 := t2 ^^^ t7
  let r2 := t8 ^^^ t9
  let r3 := (v1 ^^^ t5) ^^^ (r1 &&& t9)
  ⟨r0, r1, r2, r3⟩

/-- src/cipher.c:4573-4593, `sb5inv`. -/
def serpent_sb5inv (q : Quad) : Quad :=
  let r0 := q.a
  let r1 := q.b
  let r2 := q.c
  let r3 := q.d
  let v0 := r0
  let v1 := r1
  let v3 := r3
  let t0 := ~~~(r2)
  let t1 := v1 &&& t0
  let t2 := v3 ^^^ t1
  let t3 := v0 &&& t2
  let t4 := v1 ^^^ t0
  let r3 := t3 ^^^ t4
  let t5 := v1 ||| r3
  let t6 := v0 &&& t5
  let r1 := t2 ^^^ t6
  let t7 := v0 ||| v3
  let t8 := t0 ^^^ t5
  let r0 := t7 ^^^ t8
  let r2 := (v1 &&& t7) ^^^ (t3 ||| (v0 ^^^ r2))
  ⟨r0, r1, r2, r3⟩

/-- src/cipher.c:4595-4612, `sb6`. -/
def serpent_sb6 (q : Quad) : Quad :=
  let r0 := q.a
  let r1 := q.b
  let r2 := q.c
  let r3 := q.d
  let t0 := ~~~(r0)
  let t1 := r0 ^^^ r3
  let t2 := r1 ^^^ t1
  let t3 := t0 ||| t1
  let t4 := r2 ^^^ t3
  let r1 := r1 ^^^ t4
  let t5 := t1 ||| r1
  let t6 := r3 ^^^ t5
  let t7 := t4 &&& t6
  let r2 := t2 ^^^ t7
  let t8 := t4 ^^^ t6
  let r0 := r2 ^^^ t8
  let r3 := (~~~t4) ^^^ (t2 &&& t8)
  ⟨r0, r1, r2, r3⟩

/-- src/cipher.c:4614-4633, `sb6inv`. -/
def serpent_sb6inv (q : Quad) : Quad :=
  let r0 := q.a
  let r1 := q.b
  let r2 := q.c
  let r3 := q.d
  let v1 := r1
  let v3 := r3
  let t0 := ~~~(r0)
  let t1 := r0 ^^^ v1
  let t2 := r2 ^^^ t1
  let t3 := r2 ||| t0
  let t4 := v3 ^^^ t3
  let r1 := t2 ^^^ t4
  let t5 := t2 &&& t4
  let t6 := t1 ^^^ t5
  let t7 := v1 ||| t6
  let r3 := t4 ^^^ t7
  let t8 := v1 ||| r3
  let r0 := t6 ^^^ t8
  let r2 := (v3 &&& t0) ^^^ (t2 ^^^ t8)
  ⟨r0, r1, r2, r3⟩

/-- src/cipher.c:4635-4653, `sb7`. -/
def serpent_sb7 (q : Quad) : Quad :=
  let r0 := q.a
  let r1 := q.b
  let r2 := q.c
  let r3 := q.d
  let t0 := r1 ^^^ r2
  let t1 := r2 &&& t0
  let t2 := r3 ^^^ t1
  let t3 := r0 ^^^ t2
  let t4 := r3 ||| t0
  let t5 := t3 &&& t4
  let r1 := r1 ^^^ t5
  let t6 := t2 ||| r1
  let t7 := r0 &&& t3
  let r3 := t0 ^^^ t7
  let t8 := t3 ^^^ t6
  let t9 := r3 &&& t8
  let r2 := t2 ^^^ t9
  let r0 := (~~~t8) ^^^ (r3 &&& r2)
  ⟨r0, r1, r2, r3⟩

/-- src/cipher.c:4655-4670, `sb7inv`. -/
def serpent_sb7inv (q : Quad) : Quad :=
  let r0 := q.a
  let r1 := q.b
  let r2 := q.c
  let r3 := q.d
  let v0 := r0
  let v3 := r3
  let t0 := r2 ||| (v0 &&& r1)
  let t1 := v3 &&& (v0 ||| r1)
  let r3 := t0 ^^^ t1
  let t2 := ~~~v3
  let t3 := r1 ^^^ t1
  let t4 := t3 ||| (r3 ^^^ t2)
  let r1 := v0 ^^^ t4
  let r0 := (r2 ^^^ t3) ^^^ (v3 ||| r1)
  let r2 := (t0 ^^^ r1) ^^^ (r0 ^^^ (v0 &&& r3))
  ⟨r0, r1, r2, r3⟩

/-- src/cipher.c:4672-4679, `xor4`. -/
def serpent_xor4 (q k : Quad) : Quad := ⟨q.a ^^^ k.a, q.b ^^^ k.b, q.c ^^^ k.c, q.d ^^^ k.d⟩

/-- The key schedule loops `x = k[i - 8] ^ k[i - 5] ^ k[i - 3] ^ k[i - 1] ^ phi ^ n` of
src/cipher.c:4681-4753 `serpent_init`; `K` = the words written so far, the next one gets the number `n`.
The loops over `k[16]` and over `s` use the same recurrence (`s[i]` is `k[i + 8]`). -/
def serpent_expand : Nat → Nat → List (BitVec 32) → C (List (BitVec 32))
  | 0, _, K => .ok K
  | m + 1, n, K => do
    let w0 ← C.rd K n
    let w3 ← C.rd K (n + 3)
    let w5 ← C.rd K (n + 5)
    let w7 ← C.rd K (n + 7)
    let x := w0 ^^^ w3 ^^^ w5 ^^^ w7 ^^^ (0x9e3779b9 : BitVec 32) ^^^ BitVec.ofNat 32 n
    serpent_expand m (n + 1) (K ++ [(x <<< 11) ||| (x >>> 21)])

/-- The first loop of src/cipher.c:4681-4753 `serpent_init` for `n` words from word `i` on. -/
def serpent_words (key : List Byte) : Nat → Nat → C (List (BitVec 32))
  | 0, _ => .ok []
  | n + 1, i => do
    let w ← key_le key (4 * i)
    let ws ← serpent_words key n (i + 1)
    .ok (w :: ws)

/-- The S-boxes by number, as they are called in src/cipher.c:4755-4871 `serpent_encrypt`. -/
def serpent_sb (i : Fin 8) : Quad → Quad :=
  #v[serpent_sb0, serpent_sb1, serpent_sb2, serpent_sb3, serpent_sb4, serpent_sb5, serpent_sb6,
     serpent_sb7][i]

/-- The inverse S-boxes by number, as they are called in src/cipher.c:4873-4989 `serpent_decrypt`. -/
def serpent_sbinv (i : Fin 8) : Quad → Quad :=
  #v[serpent_sb0inv, serpent_sb1inv, serpent_sb2inv, serpent_sb3inv, serpent_sb4inv, serpent_sb5inv,
     serpent_sb6inv, serpent_sb7inv][i]

/-- The S-boxes applied to the groups of four words of the key at the end of
src/cipher.c:4681-4753 `serpent_init`: group `i` gets the S-box `3 - i` modulo 8. -/
def serpent_groups (s : Vector (BitVec 32) 132) : Vector Quad 33 :=
  Vector.ofFn fun i : Fin 33 => serpent_sb (Fin.ofNat 8 (35 - i.val))
    ⟨s[4 * i.val], s[4 * i.val + 1], s[4 * i.val + 2], s[4 * i.val + 3]⟩

/-- src/cipher.c:4681-4753 `serpent_init`. -/
def serpent_init (bits : Nat) (key : List Byte) : C Serpent := do
  C.check (decide (bits = 128 ∨ bits = 192 ∨ bits = 256))
  let k ← serpent_words key (bits / 32) 0
  let k := if k.length < 8 then k ++ [1] else k
  let k := k ++ List.replicate (8 - k.length) 0
  let k ← serpent_expand 132 0 k
  let s ← C.arr 132 (k.drop 8)
  .ok ⟨serpent_groups s⟩

/-- One `xor4`, S-box and `linear` of src/cipher.c:4755-4871 `serpent_encrypt`. -/
def serpent_round (ctx : Serpent) (q : Quad) (i : Fin 31) : Quad :=
  serpent_linear (serpent_sb (Fin.ofNat 8 i.val) (serpent_xor4 q ctx.subkeys[i.val]))

/-- src/cipher.c:4755-4871 `serpent_encrypt`; the 31 rounds with `linear` are written out in C. -/
def serpent_encrypt (ctx : Serpent) (src : Vector Byte 16) : Vector Byte 16 :=
  let q := load4le src
  let q := (List.finRange 31).foldl (serpent_round ctx) q
  let q := serpent_sb7 (serpent_xor4 q ctx.subkeys[31])
  store4le (serpent_xor4 q ctx.subkeys[32])

/-- One `linearinv`, inverse S-box and `xor4` of src/cipher.c:4873-4989 `serpent_decrypt`. -/
def serpent_unround (ctx : Serpent) (q : Quad) (i : Fin 31) : Quad :=
  serpent_xor4 (serpent_sbinv (Fin.ofNat 8 i.val) (serpent_linearinv q)) ctx.subkeys[i.val]

/-- src/cipher.c:4873-4989 `serpent_decrypt`; the 31 rounds with `linearinv` are written out in C. -/
def serpent_decrypt (ctx : Serpent) (src : Vector Byte 16) : Vector Byte 16 :=
  let q := load4le src
  let q := serpent_xor4 q ctx.subkeys[32]
  let q := serpent_xor4 (serpent_sb7inv q) ctx.subkeys[31]
  let q := (List.finRange 31).reverse.foldl (serpent_unround ctx) q
  store4le q

end Torsion
