import Verif.Block.Concrete
import Verif.Cipher.StreamProps

/-!
# Block ciphers: properties C45 and C56

The statements use `Spec.keyLengths`, `Spec.blockLength`, `Spec.Computes` (Block/Spec.lean),
`Spec.Invertible` (Cipher/Spec.lean) and FIPS 197 as written down in Block/AesSpec.lean.
-/
namespace Torsion
open Spec Blkc Ciph

/-- `cipher_init` never runs into undefined behaviour and succeeds exactly for the permitted key
lengths. -/
theorem cipher_init_exact (type : CipherId) (key : List Byte) :
    (key.length ∈ keyLengths type → ∃ ctx, cipher_init type key = .ok (some ctx) ∧ ctx.type = type ∧
      ctx.size = blockLength type) ∧
    (key.length ∉ keyLengths type → cipher_init type key = .ok none) := by
  refine ⟨fun h => ?_, bad type key⟩
  obtain ⟨ctx, h1, h2, h3, -⟩ := good type key h
  exact ⟨ctx, h1, h2, h3⟩

/-- The announced sizes: the block length, and a key length that is accepted. -/
theorem cipher_sizes_exact (type : CipherId) : cipher_block_size type = blockLength type ∧
    (type ≠ .other → cipher_key_size type ∈ keyLengths type) := by
  cases type <;> decide

/-- Every block cipher of the library, for every key: encryption and decryption are total on blocks
and inverse to each other. -/
theorem cipher_round_trip {type : CipherId} {key : List Byte} {ctx : CipherT}
    (h : cipher_init type key = .ok (some ctx)) {b : List Byte} (hb : b.length = cipher_block_size type) :
    (∃ c, cipher_encrypt ctx b = .ok c ∧ c.length = b.length ∧ cipher_decrypt ctx c = .ok b) ∧
    (∃ p, cipher_decrypt ctx b = .ok p ∧ p.length = b.length ∧ cipher_encrypt ctx p = .ok b) := by
  have hk : key.length ∈ keyLengths type := by
    by_contra hn
    rw [bad type key hn] at h
    cases h
  obtain ⟨ctx', h1, -, -, c, hc, hi⟩ := good type key hk
  rw [h] at h1
  cases h1
  rw [(cipher_sizes_exact type).1] at hb
  obtain ⟨v, rfl⟩ : ∃ v : Vector Byte (blockLength type), v.toList = b :=
    ⟨⟨b.toArray, by simpa using hb⟩, by simp⟩
  refine ⟨⟨_, (hc v).1, by simp, ?_⟩, ⟨_, (hc v).2, by simp, ?_⟩⟩
  · rw [(hc (c.enc v)).2, hi]
  · rw [(hc (c.dec v)).1, inv_both hi]

/-- Different blocks have different encryptions. -/
theorem cipher_injective {type : CipherId} {key : List Byte} {ctx : CipherT}
    (h : cipher_init type key = .ok (some ctx)) {b b' : List Byte} (hb : b.length = cipher_block_size type)
    (hb' : b'.length = cipher_block_size type) (he : cipher_encrypt ctx b = cipher_encrypt ctx b') : b = b' := by
  obtain ⟨⟨c, h1, -, h2⟩, -⟩ := cipher_round_trip h hb
  obtain ⟨⟨c', h3, -, h4⟩, -⟩ := cipher_round_trip h hb'
  rw [h1, h3] at he
  cases he
  rw [h2] at h4
  exact C.ok.inj h4

/-- AES with keys of 16, 24 and 32 bytes is the cipher of FIPS 197, and decryption is its inverse
cipher; `isb` is the inverse of the S-box. -/
theorem aes_fips197 {type : CipherId} {nk : Nat}
    (ht : (type, nk) ∈ [(CipherId.aes128, 4), (CipherId.aes192, 6), (CipherId.aes256, 8)])
    (key : Vector Byte (4 * nk)) {isb : Byte → Byte} (hs : ∀ x, isb (sbox x) = x) :
    ∃ ctx, cipher_init type key.toList = .ok (some ctx) ∧ ∀ b : Vector Byte 16,
      cipher_encrypt ctx b.toList = .ok (aesCipher (nk + 6) (aesRoundKey nk key) b).toList ∧
      cipher_decrypt ctx b.toList = .ok (aesInvCipher isb (nk + 6) (aesRoundKey nk key) b).toList := by
  have hsurj : isb = Blkc.isb := by
    funext y
    obtain ⟨x, rfl⟩ : ∃ x, sbox x = y := by
      have hinj : Function.Injective sbox := fun a b h => by rw [← hs a, ← hs b, h]
      have : Finite Byte := Finite.of_injective BitVec.toFin (fun a b h => BitVec.eq_of_toFin_eq h)
      exact (Finite.injective_iff_surjective.1 hinj) y
    rw [hs, ← sb_eq_sbox, isb_sb]
  subst hsurj
  have main : ∀ (hk : nk = 4 ∨ nk = 6 ∨ nk = 8) (ctx : Aes → CipherT),
      (∀ a b, cipher_encrypt (ctx a) b = (do let b ← C.vec 16 b; let r ← aes_encrypt a b; .ok r.toList)) →
      (∀ a b, cipher_decrypt (ctx a) b = (do let b ← C.vec 16 b; let r ← aes_decrypt a b; .ok r.toList)) →
      (∀ a, aes_init (32 * nk) key.toList = .ok a → cipher_init type key.toList = .ok (some (ctx a))) →
      ∃ ctx, cipher_init type key.toList = .ok (some ctx) ∧ ∀ b : Vector Byte 16,
        cipher_encrypt ctx b.toList = .ok (aesCipher (nk + 6) (aesRoundKey nk key) b).toList ∧
        cipher_decrypt ctx b.toList = .ok (aesInvCipher Blkc.isb (nk + 6) (aesRoundKey nk key) b).toList := by
    intro hk ctx he hd hi
    refine ⟨ctx (aesCtx nk key), hi _ (aes_init_ok nk hk key), fun b => ?_⟩
    rw [he, hd, Blkc.vec_toList, C.ok_bind, C.ok_bind, aes_enc nk hk, aes_dec nk hk, C.ok_bind, C.ok_bind]
    exact ⟨rfl, rfl⟩
  simp only [List.mem_cons, Prod.mk.injEq, List.not_mem_nil, or_false] at ht
  rcases ht with ⟨rfl, rfl⟩ | ⟨rfl, rfl⟩ | ⟨rfl, rfl⟩
  · exact main (by decide) (fun a => ⟨.aes128, 16, .aes a⟩) (fun _ _ => rfl) (fun _ _ => rfl)
      (fun a ha => case_ok (by simp) ha)
  · exact main (by decide) (fun a => ⟨.aes192, 16, .aes a⟩) (fun _ _ => rfl) (fun _ _ => rfl)
      (fun a ha => case_ok (by simp) ha)
  · exact main (by decide) (fun a => ⟨.aes256, 16, .aes a⟩) (fun _ _ => rfl) (fun _ _ => rfl)
      (fun a ha => case_ok (by simp) ha)

/-- The hypothesis on the inverse S-box can be met. -/
theorem aes_inverse_sbox : ∃ isb : Byte → Byte, ∀ x, isb (sbox x) = x :=
  ⟨Blkc.isb, fun x => by rw [← sb_eq_sbox, isb_sb]⟩

/-- The bit-sliced S-box functions of Serpent are the published tables, and the inverse ones undo
them. -/
theorem serpent_sboxes_exact (i : Fin 8) (q : Quad) :
    serpent_sb i q = sliceBox serpentS[i] q ∧ serpent_sbinv i (serpent_sb i q) = q :=
  ⟨sb_eq i q, sb_undo i q⟩

/-- The multiplication of IDEA is the one modulo 65537, where the word 0 stands for 65536, and
`idea_inv` is the inverse for it; both versions of the code agree. -/
theorem idea_mul_exact (x y : BitVec 16) :
    ideaVal (idea_mul x y) = ideaVal x * ideaVal y % 65537 ∧
    ideaVal (idea_inv x) * ideaVal x % 65537 = 1 ∧
    idea_mul_portable x y = idea_mul x y ∧ idea_inv_portable x = idea_inv x :=
  ⟨idea_mul_val x y, idea_inv_val x, portable_mul x y, portable_inv x⟩

/-! ## The modes over the concrete ciphers -/

/-- The function on blocks that `cipher_encrypt` or `cipher_decrypt` computes; `concrete_exact` shows
that only the first branch is taken. -/
def blockFn (n : Nat) (f : List Byte → C (List Byte)) (b : Vector Byte n) : Vector Byte n :=
  match f b.toList with
  | .ok r => if h : r.length = n then ⟨r.toArray, by simpa using h⟩ else b
  | _ => b

/-- A member of the enumeration of src/cipher.c as the `CipherType` over which the modes are
modelled. -/
def concrete (type : CipherId) : CipherType where
  size := blockLength type
  init key := match cipher_init type key with
    | .ok (some ctx) => some ⟨blockFn _ (cipher_encrypt ctx), blockFn _ (cipher_decrypt ctx)⟩
    | _ => none

/-- The ciphers of `concrete` are those of `cipher_init`, `cipher_encrypt` and `cipher_decrypt`; they
are invertible, so that the theorems about the modes hold for them. -/
theorem concrete_exact (type : CipherId) (key : List Byte) :
    ((concrete type).init key = none ↔ key.length ∉ keyLengths type) ∧
    ∀ c, (concrete type).init key = some c →
      Invertible c ∧ ∃ ctx, cipher_init type key = .ok (some ctx) ∧ Computes ctx c := by
  by_cases hk : key.length ∈ keyLengths type
  · obtain ⟨ctx, h1, -, -, c, hc, hi⟩ := good type key hk
    have he : blockFn (blockLength type) (cipher_encrypt ctx) = c.enc := by
      funext b
      rw [blockFn, (hc b).1]
      simp [Vector.toList]
    have hd : blockFn (blockLength type) (cipher_decrypt ctx) = c.dec := by
      funext b
      rw [blockFn, (hc b).2]
      simp [Vector.toList]
    have e : (concrete type).init key = some c := by
      show (match cipher_init type key with
        | .ok (some ctx) => some (⟨blockFn _ (cipher_encrypt ctx), blockFn _ (cipher_decrypt ctx)⟩ :
            Cipher (blockLength type))
        | _ => none) = some c
      rw [h1]
      simp only [he, hd]
    refine ⟨⟨fun h => ?_, fun h => absurd hk h⟩, fun c' h => ?_⟩
    · rw [e] at h; cases h
    · rw [e] at h
      cases h
      exact ⟨hi, ctx, h1, hc⟩
  · have e : (concrete type).init key = none := by
      show (match cipher_init type key with
        | .ok (some ctx) => some (⟨blockFn _ (cipher_encrypt ctx), blockFn _ (cipher_decrypt ctx)⟩ :
            Cipher (blockLength type))
        | _ => none) = none
      rw [bad type key hk]
    exact ⟨⟨fun _ => hk, fun _ => e⟩, fun c h => by rw [e] at h; cases h⟩

theorem concrete_size {type : CipherId} (h : type ≠ .other) :
    (concrete type).size = 8 ∨ (concrete type).size = 16 := by
  cases type <;> first | exact absurd rfl h | (left; rfl) | (right; rfl)

/-- Every cipher of the library in every mode before GCM: what an encrypting session returned, a
decrypting session with the same key turns back into the message, both split in any way. -/
theorem concrete_round_trip {type : CipherId} (ht : type ≠ .other) {mode : ModeId}
    (hm : mode.num < ModeId.gcm.num) {key iv : List Byte} {ctx ctx' : CipherStream (concrete type).size}
    (h : cipher_stream_init (concrete type) mode true key iv = .ok (some ctx))
    (h' : cipher_stream_init (concrete type) mode false key iv = .ok (some ctx')) (pad same same' : Bool)
    {chunks chunks' : List (List Byte)} (hc : ∀ x ∈ chunks, x.length < 2 ^ 64)
    (hc' : ∀ x ∈ chunks', x.length < 2 ^ 64)
    (hs : session ctx pad same chunks = .ok (true, chunks'.flatten)) :
    session ctx' pad same' chunks' = .ok (true, chunks.flatten) :=
  cipher_stream_round_trip (concrete type) (concrete_size ht) hm
    (fun k c hk => ((concrete_exact type k).2 c hk).1) h h' pad same same' hc hc' hs

/-! ## Examples -/

example : ([0x2b, 0x7e, 0x15, 0x16, 0x28, 0xae, 0xd2, 0xa6, 0xab, 0xf7, 0x15, 0x88, 0x09, 0xcf, 0x4f,
    0x3c] : List Byte).length ∈ keyLengths .aes128 := by decide

/-- FIPS 197, appendix C.1. -/
example : (do
    let c ← aes_init 128 [0, 1, 2, 3, 4, 5, 6, 7, 8, 9, 10, 11, 12, 13, 14, 15]
    aes_encrypt c #v[0x00, 0x11, 0x22, 0x33, 0x44, 0x55, 0x66, 0x77, 0x88, 0x99, 0xaa, 0xbb, 0xcc, 0xdd,
      0xee, 0xff]) = C.ok #v[0x69, 0xc4, 0xe0, 0xd8, 0x6a, 0x7b, 0x04, 0x30, 0xd8, 0xcd, 0xb7, 0x80,
        0x70, 0xb4, 0xc5, 0x5a] := by decide +kernel

/-- The examples of FIPS 197, 4.2 and 5.1.1. -/
example : gmul 0x57 0x83 = 0xc1 ∧ gmul 0x57 0x13 = 0xfe ∧ sbox 0x53 = 0xed := by decide +kernel

example : (do
    let c ← des_init [0x13, 0x34, 0x57, 0x79, 0x9b, 0xbc, 0xdf, 0xf1]
    .ok (des_encrypt c #v[0x01, 0x23, 0x45, 0x67, 0x89, 0xab, 0xcd, 0xef])) =
    C.ok #v[0x85, 0xe8, 0x13, 0x54, 0x0f, 0x0a, 0xb4, 0x05] := by decide +kernel

end Torsion
