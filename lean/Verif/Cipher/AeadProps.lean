import Verif.Cipher.CcmSession

/-!
# C44: the authenticated modes GCM, CCM and EAX

A session is `cipher_stream_init`, the associated data (`cipher_stream_set_aad` or `cipher_stream_set_ccm`),
`cipher_stream_set_tag` when decrypting, any number of `cipher_stream_update` calls with chunks of any size,
`cipher_stream_final` and `cipher_stream_get_tag` (`Spec.aeadSession`). The theorems give everything the
caller sees in terms of the standards (`Spec.gcmCrypt`, `Spec.gcmTag`, ...), for an arbitrary block cipher.
-/
namespace Torsion
open Spec

namespace Ciph

theorem session_eq (t : CipherType) {mode : ModeId} (hx : mode ≠ .xts) {e : Bool} {key iv : List Byte} {c : Cipher t.size}
    (hk : t.init key = some c) {m : CipherMode t.size} (hm : cipher_mode_init c mode iv = .ok (some m))
    (prep : CipherStream t.size → C (Bool × CipherStream t.size)) (tag : Option (List Byte)) (same : Bool)
    (chunks : List (List Byte)) {r : AeadResult} (hr : aeadRun prep tag same chunks (cipher_stream_new e c m) = .ok r) :
    aeadSession t mode e key iv prep tag same chunks = .ok (some r) := by
  rw [aeadSession, cipher_stream_init, if_neg hx, hk]
  dsimp only
  rw [hm, C.ok_bind, C.ok_bind]
  dsimp only [Option.map]
  rw [hr, C.ok_bind]

end Ciph

open Ciph

/-- `cipher_stream_init` for the authenticated modes: it never aborts, and succeeds exactly when the cipher
accepts the key and: GCM needs blocks of 16 bytes (any nonce), CCM such blocks and a nonce of at least 7
bytes, EAX a nonce that is not empty. -/
theorem aead_init_iff (t : CipherType) (hs : t.size = 8 ∨ t.size = 16) (mode : ModeId) (hm : ModeId.gcm.num ≤ mode.num)
    (encrypt : Bool) (key iv : List Byte) :
    (∃ r, cipher_stream_init t mode encrypt key iv = .ok r) ∧
    ((∃ ctx, cipher_stream_init t mode encrypt key iv = .ok (some ctx)) ↔
      (∃ c, t.init key = some c) ∧
      ((mode = .gcm ∧ t.size = 16) ∨ (mode = .ccm ∧ t.size = 16 ∧ 7 ≤ iv.length) ∨ (mode = .eax ∧ iv ≠ []))) := by
  have hx : mode ≠ .xts := by intro h; subst h; exact absurd hm (by decide)
  rw [cipher_stream_init, if_neg hx]
  cases hk : t.init key with
  | none => simp
  | some c =>
    obtain ⟨n, init⟩ := t
    dsimp only at hs c ⊢
    have main : ∃ r, cipher_mode_init c mode iv = .ok r ∧ (r.isSome ↔
        ((mode = .gcm ∧ n = 16) ∨ (mode = .ccm ∧ n = 16 ∧ 7 ≤ iv.length) ∨ (mode = .eax ∧ iv ≠ []))) := by
      cases mode
      case gcm =>
        by_cases h16 : n = 16
        · subst h16
          refine ⟨some (.gcm (gcmNew c iv)), ?_, by simp⟩
          rw [cipher_mode_init, mode_some, gcm_init_eq]; rfl
        · refine ⟨none, ?_, by simp [h16]⟩
          rw [cipher_mode_init, mode_some, gcm_init, if_pos h16]; rfl
      case ccm =>
        by_cases h16 : n = 16
        · subst h16
          rw [cipher_mode_init, mode_some, ccm_init_eq, C.ok_bind]
          by_cases h7 : iv.length < 7
          · rw [if_pos h7]
            exact ⟨none, rfl, by simp; omega⟩
          · rw [if_neg h7]
            exact ⟨_, rfl, by simp; omega⟩
        · refine ⟨none, ?_, by simp [h16]⟩
          rw [cipher_mode_init, mode_some, ccm_init, if_pos h16]; rfl
      case eax =>
        by_cases hiv : iv = []
        · subst hiv
          exact ⟨none, rfl, by simp⟩
        · obtain ⟨m, h1, -⟩ := eax_init_eq hs c hiv
          refine ⟨some (.eax m), ?_, by simp [hiv]⟩
          rw [cipher_mode_init, mode_some, h1]; rfl
      all_goals exact absurd hm (by decide)
    obtain ⟨r, h1, h2⟩ := main
    rw [h1, C.ok_bind]
    refine ⟨⟨_, rfl⟩, ?_⟩
    cases r with
    | none => simpa using h2
    | some m => simpa using h2

/-! ## GCM -/

/-- GCM encryption: every session succeeds, the output is the ciphertext of the standard and the tag its
16-byte tag, however data and message are split, whatever the nonce length. -/
theorem gcm_encrypt_exact (init : List Byte → Option (Cipher 16)) {key : List Byte} {c : Cipher 16} (hk : init key = some c)
    (iv : List Byte) (aads : List (List Byte)) (same : Bool) (chunks : List (List Byte)) :
    aeadSession ⟨16, init⟩ .gcm true key iv (setAads aads) none same chunks =
      .ok (some ⟨true, true, true, gcmCrypt c.enc iv chunks.flatten,
        some (gcmTag c.enc iv aads.flatten (gcmCrypt c.enc iv chunks.flatten))⟩) := by
  obtain ⟨ctx, h1, h2, h3, h4⟩ := gcm_runs c true same iv aads chunks
  refine session_eq ⟨16, init⟩ (by decide) hk (m := .gcm (gcmNew c iv)) (by
    rw [cipher_mode_init, mode_some, gcm_init_eq]; rfl) _ _ _ _ ?_
  rw [run_seal h1 h2 h4, List.take_of_length_le (by rw [gcmTag_length])]
  rfl

/-- GCM decryption: the output is the decryption, and the final call returns 1 exactly when a tag of 4, 8 or
12 to 16 bytes was set and it is the beginning of the tag for the associated data and the ciphertext. Tags of
other lengths are refused when they are set. -/
theorem gcm_decrypt_exact (init : List Byte → Option (Cipher 16)) {key : List Byte} {c : Cipher 16} (hk : init key = some c)
    (iv : List Byte) (aads : List (List Byte)) (tag : List Byte) (same : Bool) (chunks : List (List Byte)) (ok : Bool)
    (hok : ok = true ↔ tag.length = 4 ∨ tag.length = 8 ∨ (12 ≤ tag.length ∧ tag.length ≤ 16)) :
    aeadSession ⟨16, init⟩ .gcm false key iv (setAads aads) (some tag) same chunks =
      .ok (some ⟨true, ok, ok && decide (tag = (gcmTag c.enc iv aads.flatten chunks.flatten).take tag.length),
        gcmCrypt c.enc iv chunks.flatten, none⟩) := by
  obtain ⟨ctx, h1, h2, h3, h4⟩ := gcm_runs c false same iv aads chunks
  refine session_eq ⟨16, init⟩ (by decide) hk (m := .gcm (gcmNew c iv)) (by
    rw [cipher_mode_init, mode_some, gcm_init_eq]; rfl) _ _ _ _ ?_
  rw [run_open h1 h2 h4 gcmOk (gcmOk_eq h3) (fun l h => by simp [gcmOk] at h; omega)]
  have : ok = gcmOk tag.length := by
    rw [Bool.eq_iff_iff, hok, gcmOk, decide_eq_true_iff]
  rw [this]
  rfl

/-- GCM decryption without a tag never succeeds. -/
theorem gcm_decrypt_untagged (init : List Byte → Option (Cipher 16)) {key : List Byte} {c : Cipher 16} (hk : init key = some c)
    (iv : List Byte) (aads : List (List Byte)) (same : Bool) (chunks : List (List Byte)) :
    aeadSession ⟨16, init⟩ .gcm false key iv (setAads aads) none same chunks =
      .ok (some ⟨true, true, false, gcmCrypt c.enc iv chunks.flatten, none⟩) := by
  obtain ⟨ctx, h1, h2, h3, h4⟩ := gcm_runs c false same iv aads chunks
  refine session_eq ⟨16, init⟩ (by decide) hk (m := .gcm (gcmNew c iv)) (by
    rw [cipher_mode_init, mode_some, gcm_init_eq]; rfl) _ _ _ _ ?_
  rw [run_open_none h1 h2 h4]
  rfl

/-! ## EAX -/

/-- EAX encryption, for 8- and 16-byte blocks. -/
theorem eax_encrypt_exact (t : CipherType) (hs : t.size = 8 ∨ t.size = 16) {key iv : List Byte} {c : Cipher t.size}
    (hk : t.init key = some c) (hiv : iv ≠ []) (aads : List (List Byte)) (same : Bool) (chunks : List (List Byte)) :
    aeadSession t .eax true key iv (setAads aads) none same chunks =
      .ok (some ⟨true, true, true, eaxCrypt c.enc iv chunks.flatten,
        some (eaxTag c.enc iv aads.flatten (eaxCrypt c.enc iv chunks.flatten))⟩) := by
  obtain ⟨m, e1, i1⟩ := eax_init_eq hs c hiv
  obtain ⟨ctx, h1, h2, h3, h4⟩ := eax_runs hs c true same m i1 aads chunks
  refine session_eq t (by decide) hk (m := .eax m) (by
    rw [cipher_mode_init, mode_some, e1]; rfl) _ _ _ _ ?_
  rw [run_seal h1 h2 h4, List.take_of_length_le (by rw [eaxTag_length])]
  rfl

/-- EAX decryption: success exactly when a tag of 1 to `size` bytes was set and it is the beginning of the
right tag. -/
theorem eax_decrypt_exact (t : CipherType) (hs : t.size = 8 ∨ t.size = 16) {key iv : List Byte} {c : Cipher t.size}
    (hk : t.init key = some c) (hiv : iv ≠ []) (aads : List (List Byte)) (tag : List Byte) (same : Bool)
    (chunks : List (List Byte)) (ok : Bool) (hok : ok = true ↔ 0 < tag.length ∧ tag.length ≤ t.size) :
    aeadSession t .eax false key iv (setAads aads) (some tag) same chunks =
      .ok (some ⟨true, ok, ok && decide (tag = (eaxTag c.enc iv aads.flatten chunks.flatten).take tag.length),
        eaxCrypt c.enc iv chunks.flatten, none⟩) := by
  obtain ⟨m, e1, i1⟩ := eax_init_eq hs c hiv
  obtain ⟨ctx, h1, h2, h3, h4⟩ := eax_runs hs c false same m i1 aads chunks
  refine session_eq t (by decide) hk (m := .eax m) (by
    rw [cipher_mode_init, mode_some, e1]; rfl) _ _ _ _ ?_
  rw [run_open h1 h2 h4 (eaxOk t.size) (eaxOk_eq h3) (fun l h => by simpa [eaxOk] using h)]
  have : ok = eaxOk t.size tag.length := by
    rw [Bool.eq_iff_iff, hok, eaxOk, decide_eq_true_iff]
  rw [this]
  rfl

/-- EAX decryption without a tag never succeeds. -/
theorem eax_decrypt_untagged (t : CipherType) (hs : t.size = 8 ∨ t.size = 16) {key iv : List Byte} {c : Cipher t.size}
    (hk : t.init key = some c) (hiv : iv ≠ []) (aads : List (List Byte)) (same : Bool) (chunks : List (List Byte)) :
    aeadSession t .eax false key iv (setAads aads) none same chunks =
      .ok (some ⟨true, true, false, eaxCrypt c.enc iv chunks.flatten, none⟩) := by
  obtain ⟨m, e1, i1⟩ := eax_init_eq hs c hiv
  obtain ⟨ctx, h1, h2, h3, h4⟩ := eax_runs hs c false same m i1 aads chunks
  refine session_eq t (by decide) hk (m := .eax m) (by
    rw [cipher_mode_init, mode_some, e1]; rfl) _ _ _ _ ?_
  rw [run_open_none h1 h2 h4]
  rfl

/-! ## CCM -/

/-- `cipher_stream_set_ccm` on a new session: 1 exactly for the tag lengths 4, 6, ..., 16. If it returns 0,
nothing has changed. -/
theorem ccm_set_iff (init : List Byte → Option (Cipher 16)) {key iv : List Byte} {e : Bool} {ctx : CipherStream 16}
    (hc : cipher_stream_init ⟨16, init⟩ .ccm e key iv = .ok (some ctx)) {len : Nat} (hlen : len < 2 ^ 64) (t : Nat)
    {aad : List Byte} (ha : aad.length < 2 ^ 64) :
    ∃ ok ctx', cipher_stream_set_ccm ctx len t aad = .ok (ok, ctx') ∧ (ok = true ↔ 4 ≤ t ∧ t ≤ 16 ∧ t % 2 = 0) ∧
      (ok = false → ctx' = ctx) := by
  rw [cipher_stream_init, if_neg (by decide)] at hc
  dsimp only at hc
  cases hk : init key with
  | none => rw [hk] at hc; cases hc
  | some c =>
    rw [hk] at hc
    dsimp only at hc
    rw [cipher_mode_init, mode_some] at hc
    have h7 : 7 ≤ iv.length := by
      by_contra h
      rw [ccm_init_eq, if_pos (by omega)] at hc
      cases hc
    obtain ⟨m0, hm⟩ : ∃ m0, ccm_init 16 iv = .ok (some m0) := ⟨_, by rw [ccm_init_eq, if_neg (by omega)]⟩
    rw [hm] at hc
    have hc' : cipher_stream_new e c (.ccm m0) = ctx := Option.some.inj (C.ok.inj hc)
    subst hc'
    obtain ⟨r, h1, h2, h3⟩ := ccm_setup_eq c h7 hlen (t := t) ha hm
    rw [cipher_stream_set_ccm]
    dsimp only [cipher_stream_new]
    rw [h1, C.ok_bind]
    have hiff : ccmOk t = true ↔ 4 ≤ t ∧ t ≤ 16 ∧ t % 2 = 0 := by simp [ccmOk]
    cases hok : ccmOk t with
    | false =>
      rw [h2 hok]
      refine ⟨false, _, rfl, ?_, fun _ => rfl⟩
      rw [← hiff, hok]
    | true =>
      obtain ⟨m', rfl, -⟩ := h3 hok
      refine ⟨true, _, rfl, ?_, fun h => (by cases h)⟩
      rw [← hiff, hok]

/-- CCM encryption of at most `len` bytes after `cipher_stream_set_ccm(len, t, aad)`. CCM itself is the case of
exactly `len` bytes; the library does not enforce it. -/
theorem ccm_encrypt_exact (init : List Byte → Option (Cipher 16)) {key iv : List Byte} {c : Cipher 16} (hk : init key = some c)
    (hiv : 7 ≤ iv.length) {len t : Nat} (hlen : len < 2 ^ 64) (ht : 4 ≤ t ∧ t ≤ 16 ∧ t % 2 = 0) {aad : List Byte}
    (ha : aad.length < 2 ^ 64) (same : Bool) {chunks : List (List Byte)} (hch : chunks.flatten.length ≤ len) :
    aeadSession ⟨16, init⟩ .ccm true key iv (fun ctx => cipher_stream_set_ccm ctx len t aad) none same chunks =
      .ok (some ⟨true, true, true, ccmCrypt c.enc iv len chunks.flatten,
        some (ccmTag c.enc iv len t aad chunks.flatten)⟩) := by
  obtain ⟨m0, hm⟩ : ∃ m0, ccm_init 16 iv = .ok (some m0) := ⟨_, by rw [ccm_init_eq, if_neg (by omega)]⟩
  obtain ⟨ctx, d, h1, h2, h3, h4, h5, h6⟩ := ccm_runs c true same hiv hm hlen ha (t := t) (by simpa [ccmOk] using ht) hch
  refine session_eq ⟨16, init⟩ (by decide) hk (m := .ccm m0) (by
    rw [cipher_mode_init, mode_some, hm]; rfl) _ _ _ _ ?_
  rw [run_seal (prep := fun ctx => cipher_stream_set_ccm ctx len t aad) h1 h2 h6, h5 t (Nat.le_refl _),
    List.take_of_length_le (by rw [ccmTag, List.length_take]; omega),
    ccm_ks (nonce := ccmNonce iv len) (fitTo_length _ _) (Nat.le_trans (ccmL_le hlen).2 (by decide)) _ hch]
  rfl

/-- CCM decryption: success exactly when the tag set has `t` bytes and is the tag of the decryption. -/
theorem ccm_decrypt_exact (init : List Byte → Option (Cipher 16)) {key iv : List Byte} {c : Cipher 16} (hk : init key = some c)
    (hiv : 7 ≤ iv.length) {len t : Nat} (hlen : len < 2 ^ 64) (ht : 4 ≤ t ∧ t ≤ 16 ∧ t % 2 = 0) {aad : List Byte}
    (ha : aad.length < 2 ^ 64) (tag : List Byte) (same : Bool) {chunks : List (List Byte)} (hch : chunks.flatten.length ≤ len) :
    aeadSession ⟨16, init⟩ .ccm false key iv (fun ctx => cipher_stream_set_ccm ctx len t aad) (some tag) same chunks =
      .ok (some ⟨true, decide (tag.length = t),
        decide (tag = ccmTag c.enc iv len t aad (ccmCrypt c.enc iv len chunks.flatten)),
        ccmCrypt c.enc iv len chunks.flatten, none⟩) := by
  obtain ⟨m0, hm⟩ : ∃ m0, ccm_init 16 iv = .ok (some m0) := ⟨_, by rw [ccm_init_eq, if_neg (by omega)]⟩
  obtain ⟨ctx, d, h1, h2, h3, h4, h5, h6⟩ := ccm_runs c false same hiv hm hlen ha (t := t) (by simpa [ccmOk] using ht) hch
  refine session_eq ⟨16, init⟩ (by decide) hk (m := .ccm m0) (by
    rw [cipher_mode_init, mode_some, hm]; rfl) _ _ _ _ ?_
  rw [run_open (prep := fun ctx => cipher_stream_set_ccm ctx len t aad) h1 h2 h6 (fun l => decide (l = t))
    (ccmOk_eq h3 h4 (by omega)) (fun l h => by simp at h; omega),
    ccm_ks (nonce := ccmNonce iv len) (fitTo_length _ _) (Nat.le_trans (ccmL_le hlen).2 (by decide)) _ hch]
  have hl : (ccmTag c.enc iv len t aad (ccmCrypt c.enc iv len chunks.flatten)).length = t := by
    rw [ccmTag, List.length_take, Vector.length_toList]; omega
  have hd : (decide (tag.length = t) && decide (tag = d.take tag.length)) =
      decide (tag = ccmTag c.enc iv len t aad (ccmCrypt c.enc iv len chunks.flatten)) := by
    rw [Bool.eq_iff_iff, Bool.and_eq_true, decide_eq_true_iff, decide_eq_true_iff, decide_eq_true_iff]
    constructor
    · rintro ⟨h, h'⟩
      rw [h, h5 t (Nat.le_refl _)] at h'
      rw [h']
      exact List.take_of_length_le (Nat.le_of_eq hl)
    · intro h
      have htl : tag.length = t := by rw [h, hl]
      refine ⟨htl, ?_⟩
      rw [htl, h5 t (Nat.le_refl _)]
      refine h.trans ?_
      exact (List.take_of_length_le (Nat.le_of_eq hl)).symm
  rw [hd]
  rfl

/-- CCM decryption without a tag never succeeds. -/
theorem ccm_decrypt_untagged (init : List Byte → Option (Cipher 16)) {key iv : List Byte} {c : Cipher 16} (hk : init key = some c)
    (hiv : 7 ≤ iv.length) {len t : Nat} (hlen : len < 2 ^ 64) (ht : 4 ≤ t ∧ t ≤ 16 ∧ t % 2 = 0) {aad : List Byte}
    (ha : aad.length < 2 ^ 64) (same : Bool) {chunks : List (List Byte)} (hch : chunks.flatten.length ≤ len) :
    aeadSession ⟨16, init⟩ .ccm false key iv (fun ctx => cipher_stream_set_ccm ctx len t aad) none same chunks =
      .ok (some ⟨true, true, false, ccmCrypt c.enc iv len chunks.flatten, none⟩) := by
  obtain ⟨m0, hm⟩ : ∃ m0, ccm_init 16 iv = .ok (some m0) := ⟨_, by rw [ccm_init_eq, if_neg (by omega)]⟩
  obtain ⟨ctx, d, h1, h2, h3, h4, h5, h6⟩ := ccm_runs c false same hiv hm hlen ha (t := t) (by simpa [ccmOk] using ht) hch
  refine session_eq ⟨16, init⟩ (by decide) hk (m := .ccm m0) (by
    rw [cipher_mode_init, mode_some, hm]; rfl) _ _ _ _ ?_
  rw [run_open_none (prep := fun ctx => cipher_stream_set_ccm ctx len t aad) h1 h2 h6,
    ccm_ks (nonce := ccmNonce iv len) (fitTo_length _ _) (Nat.le_trans (ccmL_le hlen).2 (by decide)) _ hch]
  rfl

/-- The library's choice of nonce bytes in CCM: nonces that agree up to trailing zeros give the same output,
so `N` and `N ‖ 00` are the same nonce for short messages. -/
theorem ccm_nonce_alias (E : Vector Byte 16 → Vector Byte 16) {iv : List Byte} {len : Nat} (h : iv.length < 15 - ccmL len)
    (t : Nat) (a m : List Byte) :
    ccmCrypt E (iv ++ [0]) len m = ccmCrypt E iv len m ∧ ccmTag E (iv ++ [0]) len t a m = ccmTag E iv len t a m := by
  have e : ccmNonce (iv ++ [0]) len = ccmNonce iv len := by
    rw [ccmNonce, ccmNonce, fitTo, fitTo, List.take_of_length_le (by simp; omega), List.take_of_length_le (by omega),
      List.append_assoc]
    congr 1
    rw [show ([0] : List Byte) = List.replicate 1 0 from rfl, List.replicate_append_replicate, List.length_append,
      List.length_replicate]
    congr 1
    omega
  constructor
  · rw [ccmCrypt, ccmCrypt, e]
  · rw [ccmTag, ccmTag, e]

/-! ## Round trips -/

namespace Ciph

theorem xorStream_cancel (ks : Nat → Byte) (m : List Byte) : xorStream ks 0 (xorStream ks 0 m) = m := by
  simp only [xorStream]
  apply List.ext_getElem
  · simp
  · intro i h1 h2
    simp [BitVec.xor_assoc]

end Ciph

/-- Decrypting a ciphertext with its tag, or an admissible beginning of it, gives back the message, for all
splittings on both sides. -/
theorem aead_round_trip (init : List Byte → Option (Cipher 16)) {key iv : List Byte} {c : Cipher 16} (hk : init key = some c)
    (aads aads' : List (List Byte)) (haad : aads'.flatten = aads.flatten) (same same' : Bool) (chunks : List (List Byte)) :
    (∃ ct tag, aeadSession ⟨16, init⟩ .gcm true key iv (setAads aads) none same chunks = .ok (some ⟨true, true, true, ct, some tag⟩) ∧
      ∀ chunks', chunks'.flatten = ct → ∀ k, k = 4 ∨ k = 8 ∨ (12 ≤ k ∧ k ≤ 16) →
      aeadSession ⟨16, init⟩ .gcm false key iv (setAads aads') (some (tag.take k)) same' chunks' =
        .ok (some ⟨true, true, true, chunks.flatten, none⟩)) ∧
    (iv ≠ [] → ∃ ct tag, aeadSession ⟨16, init⟩ .eax true key iv (setAads aads) none same chunks = .ok (some ⟨true, true, true, ct, some tag⟩) ∧
      ∀ chunks', chunks'.flatten = ct → ∀ k, 0 < k → k ≤ 16 →
      aeadSession ⟨16, init⟩ .eax false key iv (setAads aads') (some (tag.take k)) same' chunks' =
        .ok (some ⟨true, true, true, chunks.flatten, none⟩)) ∧
    (7 ≤ iv.length → chunks.flatten.length < 2 ^ 64 → aads.flatten.length < 2 ^ 64 → ∀ t, 4 ≤ t ∧ t ≤ 16 ∧ t % 2 = 0 →
      ∃ ct tag, aeadSession ⟨16, init⟩ .ccm true key iv
        (fun ctx => cipher_stream_set_ccm ctx chunks.flatten.length t aads.flatten) none same chunks =
          .ok (some ⟨true, true, true, ct, some tag⟩) ∧ tag.length = t ∧
      ∀ chunks', chunks'.flatten = ct →
      aeadSession ⟨16, init⟩ .ccm false key iv
        (fun ctx => cipher_stream_set_ccm ctx chunks.flatten.length t aads.flatten) (some tag) same' chunks' =
        .ok (some ⟨true, true, true, chunks.flatten, none⟩)) := by
  refine ⟨?_, fun hiv => ?_, fun h7 hm ha t ht => ?_⟩
  · refine ⟨_, _, gcm_encrypt_exact init hk iv aads same chunks, fun chunks' hc k hk' => ?_⟩
    have hl := gcmTag_length c.enc iv aads.flatten (gcmCrypt c.enc iv chunks.flatten)
    rw [gcm_decrypt_exact init hk iv aads' _ same' chunks' true (by rw [List.length_take, hl]; simp; omega), hc, haad,
      gcmCrypt, gcmCrypt, xorStream_cancel]
    simp
  · refine ⟨_, _, eax_encrypt_exact ⟨16, init⟩ (.inr rfl) hk hiv aads same chunks, fun chunks' hc k h0 hk' => ?_⟩
    have hl := eaxTag_length c.enc iv aads.flatten (eaxCrypt c.enc iv chunks.flatten)
    rw [eax_decrypt_exact ⟨16, init⟩ (.inr rfl) hk hiv aads' _ same' chunks' true (by rw [List.length_take, hl]; simp; omega), hc, haad,
      eaxCrypt, eaxCrypt, xorStream_cancel]
    simp
  · have hxl : (ccmCrypt c.enc iv chunks.flatten.length chunks.flatten).length = chunks.flatten.length := by
      simp [ccmCrypt, xorStream]
    refine ⟨_, _, ccm_encrypt_exact init hk h7 hm ht ha same (Nat.le_refl _), ?_, fun chunks' hc => ?_⟩
    · rw [ccmTag, List.length_take, Vector.length_toList]; omega
    rw [ccm_decrypt_exact init hk h7 hm ht ha _ same' (by rw [hc, hxl]), hc, ccmCrypt, ccmCrypt, xorStream_cancel]
    simp only [decide_true]
    rw [show decide ((ccmTag c.enc iv chunks.flatten.length t aads.flatten chunks.flatten).length = t) = true from
      decide_eq_true (by rw [ccmTag, List.length_take, Vector.length_toList]; omega)]

/-! ## Concrete sessions

The hypotheses are met by the following cipher type (a key of one byte that is added), and the whole sessions
can be run. -/

namespace Ciph

/-- A cipher type with blocks of 16 bytes for the examples. -/
def toyInit (key : List Byte) : Option (Cipher 16) :=
  match key with
  | [a] => some ⟨fun v => v.map (· + a), fun v => v.map (· - a)⟩
  | _ => none

end Ciph

example : (∃ c, toyInit [7] = some c) ∧ toyInit [7, 7] = none := ⟨⟨_, rfl⟩, rfl⟩
example : aeadSession ⟨16, toyInit⟩ .eax true [7] [1, 2] (setAads [[3], []]) none false [[1], [2, 3]] =
    .ok (some ⟨true, true, true, [41, 37, 170],
      some [7, 199, 56, 162, 34, 34, 34, 34, 34, 34, 34, 34, 34, 34, 34, 37]⟩) := by decide +kernel
example : aeadSession ⟨16, toyInit⟩ .eax false [7] [1, 2] (setAads [[3]]) (some [7, 199]) false [[41, 37], [], [170]] =
    .ok (some ⟨true, true, true, [1, 2, 3], none⟩) := by decide +kernel
example : aeadSession ⟨16, toyInit⟩ .eax false [7] [1, 2] (setAads [[4]]) (some [7, 199]) false [[41, 37, 170]] =
    .ok (some ⟨true, true, false, [1, 2, 3], none⟩) := by decide +kernel
example : aeadSession ⟨16, toyInit⟩ .ccm true [7] [1, 2, 3, 4, 5, 6, 7] (fun ctx => cipher_stream_set_ccm ctx 3 4 [9])
    none false [[1], [2, 3]] = .ok (some ⟨true, true, true, [9, 10, 10], some [85, 17, 2, 18]⟩) := by decide +kernel
example : aeadSession ⟨16, toyInit⟩ .ccm false [7] [1, 2, 3, 4, 5, 6, 7] (fun ctx => cipher_stream_set_ccm ctx 3 4 [9])
    (some [85, 17, 2, 18]) false [[9], [10, 10]] = .ok (some ⟨true, true, true, [1, 2, 3], none⟩) := by decide +kernel
example : aeadSession ⟨16, toyInit⟩ .gcm true [7] [1, 2] (setAads [[3], []]) none false [[1], [2, 3]] =
    .ok (some ⟨true, true, true, [131, 4, 216],
      some [220, 103, 138, 65, 90, 80, 200, 66, 254, 148, 12, 134, 30, 148, 12, 134]⟩) := by decide +kernel
example : ([1, 2, 3, 4, 5, 6, 7] : List Byte).length < 15 - ccmL 100 := by
  have h : ccmL 100 = 2 := by
    rw [ccmL, Nat.log_of_lt (by decide)]; rfl
  rw [h]; decide

end Torsion
