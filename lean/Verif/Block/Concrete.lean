import Verif.Block.Init
import Verif.Block.Spec
import Verif.Cipher.ModeLemmas

/-!
Each context made by `cipher_init` computes a permutation of the blocks.
-/
namespace Torsion.Blkc
open Spec

theorem vec_toList {n : Nat} (b : Vector Byte n) : C.vec n b.toList = .ok b := by
  rw [C.vec, dif_pos (by simp)]
  congr 1
  apply Vector.ext
  intro i hi
  simp

theorem call_ok {n : Nat} (f : Vector Byte n → Vector Byte n) (b : Vector Byte n) :
    cipher_call n f b.toList = .ok (f b).toList := by
  rw [cipher_call, vec_toList, C.ok_bind]

/-- The outcome of a permitted case. -/
def Good (type : CipherId) (key : List Byte) : Prop :=
  ∃ ctx, cipher_init type key = .ok (some ctx) ∧ ctx.type = type ∧ ctx.size = blockLength type ∧
    ∃ c : Cipher (blockLength type), Computes ctx c ∧ Invertible c

theorem good_aes (type : CipherId) (nk : Nat) (hk : nk = 4 ∨ nk = 6 ∨ nk = 8) (key : List Byte)
    (h : key.length = 4 * nk) (ctx : Aes → CipherT)
    (he : ∀ a b, cipher_encrypt (ctx a) b = (do let b ← C.vec 16 b; let r ← aes_encrypt a b; .ok r.toList))
    (hd : ∀ a b, cipher_decrypt (ctx a) b = (do let b ← C.vec 16 b; let r ← aes_decrypt a b; .ok r.toList))
    (hi : ∀ a, aes_init (32 * nk) key = .ok a → cipher_init type key = .ok (some (ctx a)))
    (ht : ∀ a, (ctx a).type = type ∧ (ctx a).size = 16) (hs : blockLength type = 16) : Good type key := by
  obtain ⟨k, -, h2⟩ := aes_def nk hk key h
  refine ⟨ctx (aesCtx nk k), hi _ h2, (ht _).1, (ht _).2.trans hs.symm, ?_⟩
  rw [hs]
  refine ⟨⟨aesCipher (nk + 6) (aesRoundKey nk k), aesInvCipher isb (nk + 6) (aesRoundKey nk k)⟩, ?_, ?_⟩
  · intro b
    rw [he, hd, vec_toList, C.ok_bind, C.ok_bind, aes_enc nk hk, aes_dec nk hk, C.ok_bind, C.ok_bind]
    exact ⟨rfl, rfl⟩
  · intro b
    exact aes_inv nk k b

theorem good_call {α : Type} (type : CipherId) (n : Nat) (key : List Byte) (init : C α) (hi : Def init)
    (ctx : α → CipherT) (e d : α → Vector Byte n → Vector Byte n)
    (he : ∀ a b, cipher_encrypt (ctx a) b = cipher_call n (e a) b)
    (hd : ∀ a b, cipher_decrypt (ctx a) b = cipher_call n (d a) b)
    (hc : ∀ a, init = .ok a → cipher_init type key = .ok (some (ctx a)))
    (ht : ∀ a, (ctx a).type = type ∧ (ctx a).size = n) (hs : blockLength type = n)
    (hinv : ∀ a, init = .ok a → ∀ b, d a (e a b) = b) : Good type key := by
  obtain ⟨a, ha⟩ := hi
  refine ⟨ctx a, hc a ha, (ht _).1, (ht _).2.trans hs.symm, ?_⟩
  subst hs
  refine ⟨⟨e a, d a⟩, ?_, ?_⟩
  · intro b
    rw [he, hd, call_ok, call_ok]
    exact ⟨rfl, rfl⟩
  · exact hinv a ha

theorem case_ok {α : Type} {type : CipherId} {init : C α} {m : α → CipherUnion} {a : α} {ok : Bool} (h : ok = true)
    (hi : init = .ok a) : cipher_case type ok init m = .ok (some ⟨type, cipher_block_size type, m a⟩) := by
  rw [cipher_case, if_pos h, hi, C.ok_bind]

theorem len_range {n k m : Nat} (h : n ∈ List.range' k m) : k ≤ n ∧ n < k + m := by
  simpa using h

theorem good (type : CipherId) (key : List Byte) (h : key.length ∈ keyLengths type) : Good type key := by
  cases type
  case aes128 =>
    have h' : key.length = 16 := by simpa [keyLengths] using h
    exact good_aes _ 4 (by decide) key h' (fun a => ⟨.aes128, 16, .aes a⟩) (fun _ _ => rfl) (fun _ _ => rfl)
      (fun a ha => case_ok (by simp [h']) ha) (fun _ => ⟨rfl, rfl⟩) rfl
  case aes192 =>
    have h' : key.length = 24 := by simpa [keyLengths] using h
    exact good_aes _ 6 (by decide) key h' (fun a => ⟨.aes192, 16, .aes a⟩) (fun _ _ => rfl) (fun _ _ => rfl)
      (fun a ha => case_ok (by simp [h']) ha) (fun _ => ⟨rfl, rfl⟩) rfl
  case aes256 =>
    have h' : key.length = 32 := by simpa [keyLengths] using h
    exact good_aes _ 8 (by decide) key h' (fun a => ⟨.aes256, 16, .aes a⟩) (fun _ _ => rfl) (fun _ _ => rfl)
      (fun a ha => case_ok (by simp [h']) ha) (fun _ => ⟨rfl, rfl⟩) rfl
  case arc2 =>
    have h' := len_range h
    exact good_call _ 8 key _ (arc2_def key (key.length * 8) (by omega) (by omega) (by omega))
      (fun a => ⟨.arc2, 8, .arc2 a⟩) arc2_encrypt arc2_decrypt
      (fun _ _ => rfl) (fun _ _ => rfl) (fun a ha => case_ok (by simp; omega) ha) (fun _ => ⟨rfl, rfl⟩) rfl
      (fun a _ => arc2_inv a)
  case arc2_gutmann =>
    have h' := len_range h
    exact good_call _ 8 key _ (arc2_def key 0 (by omega) (by omega) (by omega))
      (fun a => ⟨.arc2_gutmann, 8, .arc2 a⟩) arc2_encrypt arc2_decrypt
      (fun _ _ => rfl) (fun _ _ => rfl) (fun a ha => case_ok (by simp; omega) ha) (fun _ => ⟨rfl, rfl⟩) rfl
      (fun a _ => arc2_inv a)
  case arc2_40 =>
    have h' : key.length = 5 := by simpa [keyLengths] using h
    exact good_call _ 8 key _ (arc2_def key 40 (by omega) (by omega) (by omega))
      (fun a => ⟨.arc2_40, 8, .arc2 a⟩) arc2_encrypt arc2_decrypt
      (fun _ _ => rfl) (fun _ _ => rfl) (fun a ha => case_ok (by simp [h']) ha) (fun _ => ⟨rfl, rfl⟩) rfl
      (fun a _ => arc2_inv a)
  case arc2_64 =>
    have h' : key.length = 8 := by simpa [keyLengths] using h
    exact good_call _ 8 key _ (arc2_def key 64 (by omega) (by omega) (by omega))
      (fun a => ⟨.arc2_64, 8, .arc2 a⟩) arc2_encrypt arc2_decrypt
      (fun _ _ => rfl) (fun _ _ => rfl) (fun a ha => case_ok (by simp [h']) ha) (fun _ => ⟨rfl, rfl⟩) rfl
      (fun a _ => arc2_inv a)
  case arc2_128 =>
    have h' : key.length = 16 := by simpa [keyLengths] using h
    exact good_call _ 8 key _ (arc2_def key 128 (by omega) (by omega) (by omega))
      (fun a => ⟨.arc2_128, 8, .arc2 a⟩) arc2_encrypt arc2_decrypt
      (fun _ _ => rfl) (fun _ _ => rfl) (fun a ha => case_ok (by simp [h']) ha) (fun _ => ⟨rfl, rfl⟩) rfl
      (fun a _ => arc2_inv a)
  case arc2_128_gutmann =>
    have h' : key.length = 16 := by simpa [keyLengths] using h
    exact good_call _ 8 key _ (arc2_def key 1024 (by omega) (by omega) (by omega))
      (fun a => ⟨.arc2_128_gutmann, 8, .arc2 a⟩) arc2_encrypt arc2_decrypt
      (fun _ _ => rfl) (fun _ _ => rfl) (fun a ha => case_ok (by simp [h']) ha) (fun _ => ⟨rfl, rfl⟩) rfl
      (fun a _ => arc2_inv a)
  case blowfish =>
    have h' := len_range h
    exact good_call _ 8 key _ (Def.ok (blowfish_init key []))
      (fun a => ⟨.blowfish, 8, .blowfish a⟩) blowfish_encrypt blowfish_decrypt
      (fun _ _ => rfl) (fun _ _ => rfl) (fun a ha => case_ok (by simp; omega) ha) (fun _ => ⟨rfl, rfl⟩) rfl
      (fun a _ => blowfish_inv a)
  case camellia128 =>
    have h' : key.length = 16 := by simpa [keyLengths] using h
    exact good_call _ 16 key _ (camellia128_def key h')
      (fun a => ⟨.camellia128, 16, .camellia a⟩) camellia_encrypt camellia_decrypt
      (fun _ _ => rfl) (fun _ _ => rfl) (fun a ha => case_ok (by simp [h']) ha) (fun _ => ⟨rfl, rfl⟩) rfl
      (fun a _ => camellia_inv a)
  case camellia192 =>
    have h' : key.length = 24 := by simpa [keyLengths] using h
    exact good_call _ 16 key _ (camellia192_def key h')
      (fun a => ⟨.camellia192, 16, .camellia a⟩) camellia_encrypt camellia_decrypt
      (fun _ _ => rfl) (fun _ _ => rfl) (fun a ha => case_ok (by simp [h']) ha) (fun _ => ⟨rfl, rfl⟩) rfl
      (fun a _ => camellia_inv a)
  case camellia256 =>
    have h' : key.length = 32 := by simpa [keyLengths] using h
    exact good_call _ 16 key _ (camellia256_def key h')
      (fun a => ⟨.camellia256, 16, .camellia a⟩) camellia_encrypt camellia_decrypt
      (fun _ _ => rfl) (fun _ _ => rfl) (fun a ha => case_ok (by simp [h']) ha) (fun _ => ⟨rfl, rfl⟩) rfl
      (fun a _ => camellia_inv a)
  case cast5 =>
    have h' : key.length = 16 := by simpa [keyLengths] using h
    exact good_call _ 8 key _ (cast5_def key h')
      (fun a => ⟨.cast5, 8, .cast5 a⟩) cast5_encrypt cast5_decrypt
      (fun _ _ => rfl) (fun _ _ => rfl) (fun a ha => case_ok (by simp [h']) ha) (fun _ => ⟨rfl, rfl⟩) rfl
      (fun a _ => cast5_inv a)
  case des =>
    have h' : key.length = 8 := by simpa [keyLengths] using h
    exact good_call _ 8 key _ (des_def key (by omega))
      (fun a => ⟨.des, 8, .des a⟩) des_encrypt des_decrypt
      (fun _ _ => rfl) (fun _ _ => rfl) (fun a ha => case_ok (by simp [h']) ha) (fun _ => ⟨rfl, rfl⟩) rfl
      (fun a _ => des_inv a)
  case des_ede =>
    have h' : key.length = 16 := by simpa [keyLengths] using h
    exact good_call _ 8 key _ (ede_def key (by omega))
      (fun a => ⟨.des_ede, 8, .ede a⟩) des_ede_encrypt des_ede_decrypt
      (fun _ _ => rfl) (fun _ _ => rfl) (fun a ha => case_ok (by simp [h']) ha) (fun _ => ⟨rfl, rfl⟩) rfl
      (fun a _ => des_ede_inv a)
  case des_ede3 =>
    have h' : key.length = 24 := by simpa [keyLengths] using h
    exact good_call _ 8 key _ (ede3_def key (by omega))
      (fun a => ⟨.des_ede3, 8, .ede3 a⟩) des_ede3_encrypt des_ede3_decrypt
      (fun _ _ => rfl) (fun _ _ => rfl) (fun a ha => case_ok (by simp [h']) ha) (fun _ => ⟨rfl, rfl⟩) rfl
      (fun a _ => des_ede3_inv a)
  case idea =>
    have h' : key.length = 16 := by simpa [keyLengths] using h
    obtain ⟨K, hK⟩ := idea_def key h'
    refine good_call _ 8 key _ ⟨_, hK⟩
      (fun a => ⟨.idea, 8, .idea a⟩) idea_encrypt idea_decrypt
      (fun _ _ => rfl) (fun _ _ => rfl) (fun a ha => case_ok (by simp [h']) ha) (fun _ => ⟨rfl, rfl⟩) rfl ?_
    intro a ha b
    rw [hK] at ha
    cases ha
    exact idea_crypt_inv K b
  case serpent128 =>
    have h' : key.length = 16 := by simpa [keyLengths] using h
    exact good_call _ 16 key _ (serpent_def 4 (by decide) key h')
      (fun a => ⟨.serpent128, 16, .serpent a⟩) serpent_encrypt serpent_decrypt
      (fun _ _ => rfl) (fun _ _ => rfl) (fun a ha => case_ok (by simp [h']) ha) (fun _ => ⟨rfl, rfl⟩) rfl
      (fun a _ => serpent_inv a)
  case serpent192 =>
    have h' : key.length = 24 := by simpa [keyLengths] using h
    exact good_call _ 16 key _ (serpent_def 6 (by decide) key h')
      (fun a => ⟨.serpent192, 16, .serpent a⟩) serpent_encrypt serpent_decrypt
      (fun _ _ => rfl) (fun _ _ => rfl) (fun a ha => case_ok (by simp [h']) ha) (fun _ => ⟨rfl, rfl⟩) rfl
      (fun a _ => serpent_inv a)
  case serpent256 =>
    have h' : key.length = 32 := by simpa [keyLengths] using h
    exact good_call _ 16 key _ (serpent_def 8 (by decide) key h')
      (fun a => ⟨.serpent256, 16, .serpent a⟩) serpent_encrypt serpent_decrypt
      (fun _ _ => rfl) (fun _ _ => rfl) (fun a ha => case_ok (by simp [h']) ha) (fun _ => ⟨rfl, rfl⟩) rfl
      (fun a _ => serpent_inv a)
  case twofish128 =>
    have h' : key.length = 16 := by simpa [keyLengths] using h
    exact good_call _ 16 key _ (twofish_def 2 (by decide) key h')
      (fun a => ⟨.twofish128, 16, .twofish a⟩) twofish_encrypt twofish_decrypt
      (fun _ _ => rfl) (fun _ _ => rfl) (fun a ha => case_ok (by simp [h']) ha) (fun _ => ⟨rfl, rfl⟩) rfl
      (fun a _ => twofish_inv a)
  case twofish192 =>
    have h' : key.length = 24 := by simpa [keyLengths] using h
    exact good_call _ 16 key _ (twofish_def 3 (by decide) key h')
      (fun a => ⟨.twofish192, 16, .twofish a⟩) twofish_encrypt twofish_decrypt
      (fun _ _ => rfl) (fun _ _ => rfl) (fun a ha => case_ok (by simp [h']) ha) (fun _ => ⟨rfl, rfl⟩) rfl
      (fun a _ => twofish_inv a)
  case twofish256 =>
    have h' : key.length = 32 := by simpa [keyLengths] using h
    exact good_call _ 16 key _ (twofish_def 4 (by decide) key h')
      (fun a => ⟨.twofish256, 16, .twofish a⟩) twofish_encrypt twofish_decrypt
      (fun _ _ => rfl) (fun _ _ => rfl) (fun a ha => case_ok (by simp [h']) ha) (fun _ => ⟨rfl, rfl⟩) rfl
      (fun a _ => twofish_inv a)
  case other => simp [keyLengths] at h

theorem bad (type : CipherId) (key : List Byte) (h : key.length ∉ keyLengths type) :
    cipher_init type key = .ok none := by
  have hc : ∀ {α : Type} {t : CipherId} {ok : Bool} {init : C α} {m : α → CipherUnion}, ok = false →
      cipher_case t ok init m = .ok none := by
    intro α t ok init m h
    rw [cipher_case, h]; rfl
  cases type
  case other => rfl
  case arc2 => exact hc (by simp [keyLengths] at h; simp; omega)
  case arc2_gutmann => exact hc (by simp [keyLengths] at h; simp; omega)
  case blowfish => exact hc (by simp [keyLengths] at h; simp; omega)
  all_goals exact hc (by simpa [keyLengths] using h)

end Torsion.Blkc
