import Verif.Aead.Model
import Verif.Aead.Spec
import Verif.Mac.PolyLemmas
import Verif.Stream.CoreLemmas

/-!
# ChaCha20-Poly1305 and secretbox: lemmas
-/
namespace Torsion.Aead
open Spec Mac Strm Blk

theorem xorStream_zeros (f : Nat → Byte) (n : Nat) :
    xorStream f 0 (List.replicate n 0) = firstBytes n f := by
  apply List.ext_getElem
  · simp [xorStream, firstBytes]
  · intro i h1 h2
    simp [xorStream, firstBytes]

theorem take_firstBytes (f : Nat → Byte) {k n : Nat} (h : k ≤ n) :
    (firstBytes n f).take k = firstBytes k f := by
  rw [firstBytes, firstBytes, ← List.map_take, List.take_range, Nat.min_eq_left h]

theorem pad16_of_dvd {m : List Byte} (h : m.length % 16 = 0) : pad16 m = m := by
  rw [pad16, h]; simp

theorem pad16_length (m : List Byte) : (pad16 m).length % 16 = 0 := by
  rw [pad16, List.length_append, List.length_replicate]; omega

theorem pad16_pad (m : List Byte) : pad16 (pad16 m) = pad16 m := pad16_of_dvd (pad16_length m)

theorem pad16_append {a : List Byte} (b : List Byte) (h : a.length % 16 = 0) :
    pad16 (a ++ b) = a ++ pad16 b := by
  rw [pad16, pad16, List.length_append, List.append_assoc,
    show (a.length + b.length) % 16 = b.length % 16 by omega]

variable {S : Type} {I : PolyImpl S} {k : Vector Byte 32} {v : St}

/-- State of an AEAD context: additional data `aad`, ciphertext `ct`, key stream position. -/
def AInv (I : PolyImpl S) (k : Vector Byte 32) (v : St) (a : ChachaPoly S) (aad ct : List Byte)
    (off : Nat) : Prop :=
  At chacha20_block a.chacha v off ∧ a.adlen = BitVec.ofNat 64 aad.length ∧
  a.ctlen = BitVec.ofNat 64 ct.length ∧
  ∃ m, PHolds I k a.poly m ∧ (m = pad16 aad ++ ct ∨ (ct = [] ∧ m = aad))

theorem aad_inv {a : ChachaPoly S} {aad : List Byte} {off : Nat} (d : List Byte)
    (h : At chacha20_block a.chacha v off ∧ a.adlen = BitVec.ofNat 64 aad.length ∧ a.ctlen = 0 ∧
      PHolds I k a.poly aad) :
    ∃ a', chachapoly_aad I a d = .ok a' ∧ At chacha20_block a'.chacha v off ∧
      a'.adlen = BitVec.ofNat 64 (aad ++ d).length ∧ a'.ctlen = 0 ∧ PHolds I k a'.poly (aad ++ d) := by
  obtain ⟨h1, h2, h3, h4⟩ := h
  obtain ⟨p, h5, h6⟩ := pholds_update h4 d
  refine ⟨{ a with poly := p, adlen := a.adlen + BitVec.ofNat 64 d.length }, ?_, h1, ?_, h3, h6⟩
  · rw [chachapoly_aad, h5, C.ok_bind]
  · rw [h2, List.length_append, BitVec.ofNat_add]

theorem begin_inv {a : ChachaPoly S} {aad ct : List Byte} {off n : Nat} (h : AInv I k v a aad ct off) :
    ∃ p, chachapoly_begin I a n = .ok { a with poly := p, ctlen := a.ctlen + BitVec.ofNat 64 n } ∧
      PHolds I k p (pad16 aad ++ ct) := by
  obtain ⟨h1, h2, h3, m, h4, h5⟩ := h
  rw [chachapoly_begin]
  by_cases hz : a.ctlen = 0
  · obtain ⟨p, h6, h7⟩ := pholds_pad h4
    refine ⟨p, by rw [if_pos hz, h6, C.ok_bind], ?_⟩
    have e : pad16 m = pad16 aad ++ ct := by
      rcases h5 with h5 | ⟨h5, h6⟩
      · have hl : ct.length % 16 = 0 := by
          have := congrArg BitVec.toNat (h3.symm.trans hz)
          rw [BitVec.toNat_ofNat] at this
          have e0 : BitVec.toNat (0 : BitVec 64) = 0 := rfl
          rw [e0] at this
          omega
        rw [h5, pad16_append _ (pad16_length _), pad16_of_dvd hl]
      · rw [h6, h5, List.append_nil]
    rwa [e] at h7
  · refine ⟨a.poly, by rw [if_neg hz, C.ok_bind], ?_⟩
    rcases h5 with h5 | ⟨h5, h6⟩
    · rwa [h5] at h4
    · rw [h3, h5] at hz
      exact absurd rfl hz

theorem encrypt_inv {a : ChachaPoly S} {aad ct : List Byte} {off : Nat} (d : List Byte)
    (h : AInv I k v a aad ct off) :
    ∃ a', chachapoly_encrypt I a d = .ok (xorStream (ks chacha20_block v) off d, a') ∧
      AInv I k v a' aad (ct ++ xorStream (ks chacha20_block v) off d) (off + d.length) := by
  obtain ⟨p, h6, h7⟩ := begin_inv (n := d.length) h
  obtain ⟨h1, h2, h3, -⟩ := h
  obtain ⟨c, h8, h9⟩ := crypt_at chacha_len h1 d
  obtain ⟨p2, h10, h11⟩ := pholds_update h7 (xorStream (ks chacha20_block v) off d)
  refine ⟨{ a with poly := p2, ctlen := a.ctlen + BitVec.ofNat 64 d.length, chacha := c }, ?_, h9, h2,
    ?_, _, h11, Or.inl (by rw [List.append_assoc])⟩
  · rw [chachapoly_encrypt, h6, C.ok_bind]
    dsimp only
    rw [chacha20_crypt, h8, C.ok_bind]
    dsimp only
    rw [h10, C.ok_bind]
  · dsimp only
    rw [h3, List.length_append, BitVec.ofNat_add]
    simp [xorStream]

theorem decrypt_inv {a : ChachaPoly S} {aad ct : List Byte} {off : Nat} (d : List Byte)
    (h : AInv I k v a aad ct off) :
    ∃ a', chachapoly_decrypt I a d = .ok (xorStream (ks chacha20_block v) off d, a') ∧
      AInv I k v a' aad (ct ++ d) (off + d.length) := by
  obtain ⟨p, h6, h7⟩ := begin_inv (n := d.length) h
  obtain ⟨h1, h2, h3, -⟩ := h
  obtain ⟨c, h8, h9⟩ := crypt_at chacha_len h1 d
  obtain ⟨p2, h10, h11⟩ := pholds_update h7 d
  refine ⟨{ a with poly := p2, ctlen := a.ctlen + BitVec.ofNat 64 d.length, chacha := c }, ?_, h9, h2,
    ?_, _, h11, Or.inl (by rw [List.append_assoc])⟩
  · rw [chachapoly_decrypt, h6, C.ok_bind]
    dsimp only
    rw [h10, C.ok_bind, chacha20_crypt, h8, C.ok_bind]
  · dsimp only
    rw [h3, List.length_append, BitVec.ofNat_add]

theorem auth_inv {a : ChachaPoly S} {aad ct : List Byte} {off : Nat} (d : List Byte)
    (h : AInv I k v a aad ct off) :
    ∃ a', chachapoly_auth I a d = .ok a' ∧ AInv I k v a' aad (ct ++ d) off := by
  obtain ⟨p, h6, h7⟩ := begin_inv (n := d.length) h
  obtain ⟨h1, h2, h3, -⟩ := h
  obtain ⟨p2, h10, h11⟩ := pholds_update h7 d
  refine ⟨{ a with poly := p2, ctlen := a.ctlen + BitVec.ofNat 64 d.length }, ?_, h1, h2,
    ?_, _, h11, Or.inl (by rw [List.append_assoc])⟩
  · rw [chachapoly_auth, h6, C.ok_bind]
    dsimp only
    rw [h10, C.ok_bind]
  · dsimp only
    rw [h3, List.length_append, BitVec.ofNat_add]

theorem leBytes_mod (n v : Nat) : leBytes n (v % 256 ^ n) = leBytes n v := by
  apply leVal_inj
  · rw [leBytes_len, leBytes_len]
  · rw [leVal_leBytes, leVal_leBytes, Nat.mod_mod]

theorem final_inv {Rep : S → Nat → Prop} (g : Good I k Rep) {a : ChachaPoly S} {aad ct : List Byte}
    {off : Nat} (h : AInv I k v a aad ct off) :
    chachapoly_final I a = .ok (poly1305 k.toList
      (pad16 aad ++ pad16 ct ++ leBytes 8 aad.length ++ leBytes 8 ct.length)) := by
  obtain ⟨h1, h2, h3, m, h4, h5⟩ := h
  obtain ⟨p, h6, h7⟩ := pholds_pad h4
  have e : pad16 m = pad16 aad ++ pad16 ct := by
    rcases h5 with h5 | ⟨h5, h6⟩
    · rw [h5, pad16_append _ (pad16_length _)]
    · rw [h6, h5]
      show _ = _ ++ []
      rw [List.append_nil]
  rw [e] at h7
  obtain ⟨p2, h8, h9⟩ := pholds_update h7 ((write64le a.adlen).toList ++ (write64le a.ctlen).toList)
  rw [chachapoly_final, h6, C.ok_bind, h8, C.ok_bind, pholds_final g h9, write64le_eq, write64le_eq, h2, h3,
    BitVec.toNat_ofNat, BitVec.toNat_ofNat, show (2 : Nat) ^ 64 = 256 ^ 8 from rfl, leBytes_mod,
    leBytes_mod]
  simp only [List.append_assoc]

/-- The context after `chachapoly_init`. -/
theorem init_inv (I : PolyImpl S) {stream block key iv : List Byte} (hb : block.length = 16)
    (hk : key.length = 32) (hn : iv.length ∈ [8, 12, 16, 24, 28, 32]) :
    ∃ a k v, chachapoly_init I stream block key iv = .ok a ∧
      ks chacha20_block v = aeadStream key iv ∧ k.toList = firstBytes 32 (aeadStream key iv) ∧
      At chacha20_block a.chacha v 64 ∧ a.adlen = 0 ∧ a.ctlen = 0 ∧ PHolds I k a.poly [] := by
  obtain ⟨v, h1, h2⟩ := chacha_init_ok stream 0 (Or.inr hk) hn
  obtain ⟨c, h3, h4⟩ := crypt_at chacha_len (ctx := ⟨v, stream, 0⟩) (s := v) (off := 0)
    ⟨rfl, Or.inl ⟨rfl, rfl⟩⟩ (List.replicate 64 0)
  have hks : ks chacha20_block v = aeadStream key iv := by
    rw [chacha_ks, h2]; rfl
  rw [xorStream_zeros, hks] at h3
  obtain ⟨k, h5, h6⟩ := vec_ok (n := 32) (xs := firstBytes 64 (aeadStream key iv))
    (by simp [firstBytes])
  refine ⟨⟨c, poly1305_init I block k, 0, 0⟩, k, v, ?_, hks, ?_, h4, rfl, rfl, pholds_init hb⟩
  · rw [chachapoly_init, h1, C.ok_bind, chacha20_crypt, h3, C.ok_bind]
    dsimp only
    rw [h5, C.ok_bind]
  · rw [h6, take_firstBytes _ (by decide)]

/-- The start of the two secretbox functions. -/
theorem box_start {stream key nonce : List Byte} (hk : key.length = 32) (hn : nonce.length = 24) :
    ∃ c0 c1 k v, salsa20_init stream key nonce 0 = .ok c0 ∧
      salsa20_crypt c0 (List.replicate 32 0) = .ok (firstBytes 32 (boxStream key nonce), c1) ∧
      C.vec 32 (firstBytes 32 (boxStream key nonce)) = .ok k ∧
      k.toList = firstBytes 32 (boxStream key nonce) ∧ At salsa20_block c1 v 32 ∧
      ks salsa20_block v = boxStream key nonce := by
  obtain ⟨v, h1, h2⟩ := salsa_init_ok stream 0 (Or.inr hk) (nonce := nonce) (by simp [hn])
  obtain ⟨c, h3, h4⟩ := crypt_at salsa_len (ctx := ⟨v, stream, 0⟩) (s := v) (off := 0)
    ⟨rfl, Or.inl ⟨rfl, rfl⟩⟩ (List.replicate 32 0)
  have hks : ks salsa20_block v = boxStream key nonce := by
    rw [salsa_ks, h2]; rfl
  rw [xorStream_zeros, hks] at h3
  obtain ⟨k, h5, h6⟩ := vec_ok (n := 32) (xs := firstBytes 32 (boxStream key nonce))
    (by simp [firstBytes])
  exact ⟨_, c, k, v, h1, h3, h5, by rw [h6, take_firstBytes _ (by decide)], h4, hks⟩

theorem poly_once {Rep : S → Nat → Prop} (g : Good I k Rep) {block : List Byte}
    (hb : block.length = 16) (m : List Byte) :
    (do
      let poly ← poly1305_update I (poly1305_init I block k) m
      poly1305_final I poly) = .ok (poly1305 k.toList m) := by
  obtain ⟨p, h1, h2⟩ := pholds_update (pholds_init (I := I) (key := k) hb) m
  rw [h1, C.ok_bind, pholds_final g h2, List.nil_append]

end Torsion.Aead
