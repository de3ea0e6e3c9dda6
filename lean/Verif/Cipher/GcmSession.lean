import Verif.Cipher.AeadLemmas

/-!
# GCM sessions
-/
namespace Torsion.Ciph
open Spec Blk
open Asn1 (beVal_append beVal_inj)

variable {c : Cipher 16}

/-- The hash key as bytes. -/
def hkey (c : Cipher 16) : Vector Byte 16 := c.enc (Vector.replicate 16 0)

/-- The state set up for a nonce. -/
def gcmNew (c : Cipher 16) (iv : List Byte) : Gcm 16 :=
  ⟨mk (c.enc (gcmStart c.enc iv), gcmCount (gcmStart c.enc iv) 1) 0, ghash_init (hkey c), (c.enc (gcmStart c.enc iv)).toList⟩

theorem gcm_iv_eq (c : Cipher 16) (iv : List Byte) : gcm_iv (hkey c) iv = .ok (gcmStart c.enc iv).toList := by
  rw [gcm_iv, gcmStart]
  by_cases h : iv.length = 12
  · rw [if_pos h, if_pos h]
    congr 1
    apply List.ext_getElem
    · simp [h]
    · intro i h1 h2
      rw [Vector.getElem_toList, Vector.getElem_ofFn, List.getD_eq_getElem?_getD, List.getElem?_eq_getElem h1,
        Option.getD_some]
  · rw [if_neg h, if_neg h]
    obtain ⟨ctx, h1, h2⟩ := gstate_update (gstate_init (key := hkey c)) iv
    rw [h1, C.ok_bind, gstate_final h2]
    rfl

theorem gcm_init_eq (c : Cipher 16) (iv : List Byte) : gcm_init c iv = .ok (some (gcmNew c iv)) := by
  rw [gcm_init, if_neg (by decide), gcm_crypt]
  have h1 := stream_first (by decide) (gcm_callbacks c) (Vector.replicate 16 0, Vector.replicate 16 0)
  rw [mk] at h1
  rw [h1, C.ok_bind]
  dsimp only
  rw [vec_toList', C.ok_bind, show (gcmS c (Vector.replicate 16 0, Vector.replicate 16 0)).1 = hkey c from rfl, gcm_iv_eq,
    C.ok_bind, vec_toList', C.ok_bind, gcm_crypt]
  have h2 := stream_first (by decide) (gcm_callbacks c) (hkey c, gcmStart c.enc iv)
  rw [mk] at h2
  dsimp only [mk]
  rw [show (gcmS c (Vector.replicate 16 0, Vector.replicate 16 0)).1 = hkey c from rfl, h2, C.ok_bind]
  rfl

/-- The state in a session: associated data `a`, ciphertext `ct`, `len` bytes done. -/
structure GcmAt (c : Cipher 16) (iv a ct : List Byte) (len : Nat) (m : CipherMode 16) : Prop where
  ex : ∃ h, m = .gcm ⟨mk (atOff (gcmS c) (c.enc (gcmStart c.enc iv), gcmCount (gcmStart c.enc iv) 1) len) (len % 16), h,
    (c.enc (gcmStart c.enc iv)).toList⟩ ∧ GState (hkey c) h a ct

theorem gcm_aads (iv : List Byte) (ctx : CipherStream 16) : ∀ (aads : List (List Byte)) (a : List Byte) (h : Ghash),
    GState (hkey c) h a [] → GHolds (hkey c) h a →
    ∃ m, setAads aads { ctx with cipher := c, mode := .gcm { gcmNew c iv with hash := h } } =
      .ok (true, { ctx with cipher := c, mode := m }) ∧ GcmAt c iv (a ++ aads.flatten) [] 0 m
  | [], a, h, h1, h2 => by
    refine ⟨_, rfl, ⟨h, ?_, by simpa using h1⟩⟩
    rw [atOff_zero (by decide)]
    rfl
  | x :: aads, a, h, h1, h2 => by
    obtain ⟨h', h3, h4, h5⟩ := gstate_aad h1 h2 x
    obtain ⟨m, h6, h7⟩ := gcm_aads iv ctx aads _ h' h4 h5
    refine ⟨m, ?_, by simpa using h7⟩
    rw [setAads, cipher_stream_set_aad, if_pos (.inl rfl)]
    dsimp only
    rw [cipher_mode_aad, gcm_aad]
    dsimp only
    rw [h3]
    simp only [C.ok_bind]
    rw [h6]
    rfl

theorem gcm_chunk (e same : Bool) (iv a : List Byte) (pre : List Byte) (m : CipherMode 16) (x : List Byte)
    (h : GcmAt c iv a (if e then gcmCrypt c.enc iv pre else pre) pre.length m) :
    ∃ m', chunk e c same m x = .ok (xorStream (gcmStream c.enc iv) pre.length x, m') ∧
      GcmAt c iv a (if e then gcmCrypt c.enc iv (pre ++ x) else pre ++ x) (pre ++ x).length m' := by
  obtain ⟨⟨h, rfl, hs⟩⟩ := h
  have hcr := stream_at (by decide) (gcm_callbacks c)
    (c.enc (gcmStart c.enc iv), gcmCount (gcmStart c.enc iv) 1) pre.length x
  rw [gcm_ks] at hcr
  have hks : (fun i => (c.enc (gcmCount (gcmStart c.enc iv) (i / 16 + 1))).toList.getD (i % 16) 0) = gcmStream c.enc iv := rfl
  rw [hks] at hcr
  cases e with
  | true =>
    simp only [if_true] at hs ⊢
    obtain ⟨h', h1, h2⟩ := gstate_update hs (xorStream (gcmStream c.enc iv) pre.length x)
    refine ⟨.gcm ⟨mk _ _, h', _⟩, ?_, ⟨h', rfl, ?_⟩⟩
    · rw [chunk, if_pos rfl, cipher_mode_encrypt, gcm_encrypt, gcm_crypt, mode_put]
      dsimp only
      rw [hcr]
      simp only [C.ok_bind]
      rw [h1]
      simp only [C.ok_bind]
      rw [List.length_append]
    · rw [gcmCrypt, xorStream_add, Nat.zero_add]
      exact h2
  | false =>
    simp only [if_false, Bool.false_eq_true] at hs ⊢
    obtain ⟨h', h1, h2⟩ := gstate_update hs x
    refine ⟨.gcm ⟨mk _ _, h', _⟩, ?_, ⟨h', rfl, h2⟩⟩
    rw [chunk, if_neg (by decide), cipher_mode_decrypt, gcm_decrypt, gcm_crypt, mode_put]
    dsimp only
    rw [h1]
    simp only [C.ok_bind]
    rw [hcr]
    simp only [C.ok_bind]
    rw [List.length_append]

theorem gcm_digest_at {iv a ct : List Byte} {len : Nat} {m : CipherMode 16} (h : GcmAt c iv a ct len m) :
    m.id = .gcm ∧ cipher_mode_digest c m = .ok (gcmTag c.enc iv a ct) := by
  obtain ⟨⟨h, rfl, hs⟩⟩ := h
  refine ⟨rfl, ?_⟩
  rw [cipher_mode_digest, gcm_digest]
  dsimp only
  rw [gstate_final hs, C.ok_bind, memxor3_toList]
  rfl

end Torsion.Ciph
