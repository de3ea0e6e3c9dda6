import Verif.Aead.Lemmas
import Verif.Stream.Props
import Verif.Mac.Props

/-!
# Properties of ChaCha20-Poly1305 and secretbox (C22, C23)

`wide` selects the Poly1305 back end; `stream` and `block` are the old contents of uninitialised
buffers. The specification is in Verif/Aead/Spec.lean.
-/
namespace Torsion
open Spec Mac Strm Aead

/-- A data call on an AEAD context. -/
inductive AeadOp where
  | encrypt (data : List Byte)
  | decrypt (data : List Byte)
  | auth (data : List Byte)

/-- The calls on the model, with the concatenated output. -/
def aeadRun {S : Type} (I : PolyImpl S) : ChachaPoly S → List AeadOp → C (List Byte × ChachaPoly S)
  | a, [] => .ok ([], a)
  | a, .encrypt d :: ops => do
    let (o, a) ← chachapoly_encrypt I a d
    let (os, a) ← aeadRun I a ops
    .ok (o ++ os, a)
  | a, .decrypt d :: ops => do
    let (o, a) ← chachapoly_decrypt I a d
    let (os, a) ← aeadRun I a ops
    .ok (o ++ os, a)
  | a, .auth d :: ops => do
    let a ← chachapoly_auth I a d
    aeadRun I a ops

/-- What the calls stand for: output and ciphertext, `off` key stream bytes having been used. -/
def aeadMsg (ks : Nat → Byte) : Nat → List AeadOp → List Byte × List Byte
  | _, [] => ([], [])
  | off, .encrypt d :: ops =>
    let (o, ct) := aeadMsg ks (off + d.length) ops
    (xorStream ks off d ++ o, xorStream ks off d ++ ct)
  | off, .decrypt d :: ops =>
    let (o, ct) := aeadMsg ks (off + d.length) ops
    (xorStream ks off d ++ o, d ++ ct)
  | off, .auth d :: ops =>
    let (o, ct) := aeadMsg ks off ops
    (o, d ++ ct)

private theorem run_inv {S : Type} {I : PolyImpl S} {k : Vector Byte 32} {v : St} {aad : List Byte} :
    ∀ (ops : List AeadOp) {a : ChachaPoly S} {ct : List Byte} {off : Nat}, AInv I k v a aad ct off →
    ∃ a' off', aeadRun I a ops = .ok ((aeadMsg (ks chacha20_block v) off ops).1, a') ∧
      AInv I k v a' aad (ct ++ (aeadMsg (ks chacha20_block v) off ops).2) off'
  | [], a, ct, off, h => ⟨a, off, rfl, by simpa [aeadMsg] using h⟩
  | .encrypt d :: ops, a, ct, off, h => by
    obtain ⟨a1, h1, h2⟩ := encrypt_inv d h
    obtain ⟨a2, off2, h3, h4⟩ := run_inv ops h2
    refine ⟨a2, off2, ?_, by simpa [aeadMsg] using h4⟩
    rw [aeadRun, h1, C.ok_bind]
    dsimp only
    rw [h3, C.ok_bind]
    rfl
  | .decrypt d :: ops, a, ct, off, h => by
    obtain ⟨a1, h1, h2⟩ := decrypt_inv d h
    obtain ⟨a2, off2, h3, h4⟩ := run_inv ops h2
    refine ⟨a2, off2, ?_, by simpa [aeadMsg] using h4⟩
    rw [aeadRun, h1, C.ok_bind]
    dsimp only
    rw [h3, C.ok_bind]
    rfl
  | .auth d :: ops, a, ct, off, h => by
    obtain ⟨a1, h1, h2⟩ := auth_inv d h
    obtain ⟨a2, off2, h3, h4⟩ := run_inv ops h2
    refine ⟨a2, off2, ?_, by simpa [aeadMsg] using h4⟩
    rw [aeadRun, h1, C.ok_bind, h3]
    rfl

private theorem aads_inv {S : Type} {I : PolyImpl S} {k : Vector Byte 32} {v : St} :
    ∀ (aads : List (List Byte)) {a : ChachaPoly S} {aad : List Byte} {off : Nat},
    (At chacha20_block a.chacha v off ∧ a.adlen = BitVec.ofNat 64 aad.length ∧ a.ctlen = 0 ∧
      PHolds I k a.poly aad) →
    ∃ a', updates (chachapoly_aad I) a aads = .ok a' ∧ AInv I k v a' (aad ++ aads.flatten) [] off
  | [], a, aad, off, ⟨h1, h2, h3, h4⟩ =>
    ⟨a, rfl, h1, by simpa using h2, h3, _, h4, Or.inr ⟨rfl, by simp⟩⟩
  | d :: aads, a, aad, off, h => by
    obtain ⟨a1, h1, h2⟩ := aad_inv d h
    obtain ⟨a2, h3, h4⟩ := aads_inv aads h2
    refine ⟨a2, by rw [updates, h1, C.ok_bind, h3], by simpa using h4⟩

/-- C22: `chachapoly_init`, any number of `chachapoly_aad` calls, any sequence of encrypt, decrypt and
auth calls (also empty ones, also none), `chachapoly_final`: output and tag are those of RFC 7539. -/
theorem chachapoly_spec (wide : Bool) (stream block key iv : List Byte) (hb : block.length = 16)
    (hk : key.length = 32) (hn : iv.length ∈ [8, 12, 16, 24, 28, 32]) (aads : List (List Byte))
    (ops : List AeadOp) :
    (do
      let a ← chachapoly_init (polyImpl wide) stream block key iv
      let a ← updates (chachapoly_aad (polyImpl wide)) a aads
      let (out, a) ← aeadRun (polyImpl wide) a ops
      let tag ← chachapoly_final (polyImpl wide) a
      .ok (out, tag)) =
    .ok ((aeadMsg (aeadStream key iv) 64 ops).1,
      aeadTag key iv aads.flatten (aeadMsg (aeadStream key iv) 64 ops).2) := by
  obtain ⟨a, k, v, h1, h2, h3, h4⟩ := init_inv (polyImpl wide) (stream := stream) hb hk hn
  obtain ⟨a1, h5, h6⟩ := aads_inv aads (aad := []) h4
  obtain ⟨a2, off, h7, h8⟩ := run_inv ops h6
  obtain ⟨_, g⟩ := good wide k
  have h9 := final_inv g h8
  rw [h1, C.ok_bind, h5, C.ok_bind, h7, C.ok_bind]
  dsimp only
  rw [h9, C.ok_bind, h2, h3]
  rfl

/-- The context is refused exactly for a bad nonce size. -/
theorem chachapoly_init_abort (wide : Bool) (stream block key iv : List Byte)
    (hn : iv.length ∉ [8, 12, 16, 24, 28, 32]) :
    chachapoly_init (polyImpl wide) stream block key iv = .abort := by
  have := chacha20_init_spec stream key iv 0
  rw [if_neg (fun h => hn h.2)] at this
  rw [chachapoly_init, this, C.abort_bind]

private theorem msg_encrypt (ks : Nat → Byte) : ∀ (chunks : List (List Byte)) (off : Nat),
    aeadMsg ks off (chunks.map .encrypt) =
      (xorStream ks off chunks.flatten, xorStream ks off chunks.flatten)
  | [], off => rfl
  | c :: cs, off => by
    rw [List.map_cons, aeadMsg, msg_encrypt ks cs]
    have : xorStream ks off (c :: cs).flatten =
        xorStream ks off c ++ xorStream ks (off + c.length) cs.flatten := by
      simp only [List.flatten_cons, xorStream, List.mapIdx_append, List.append_cancel_left_eq]
      congr 1
      funext i b
      rw [Nat.add_assoc, Nat.add_comm i]
    rw [this]

private theorem msg_decrypt (ks : Nat → Byte) : ∀ (chunks : List (List Byte)) (off : Nat),
    aeadMsg ks off (chunks.map .decrypt) = (xorStream ks off chunks.flatten, chunks.flatten)
  | [], off => rfl
  | c :: cs, off => by
    rw [List.map_cons, aeadMsg, msg_decrypt ks cs]
    have : xorStream ks off (c :: cs).flatten =
        xorStream ks off c ++ xorStream ks (off + c.length) cs.flatten := by
      simp only [List.flatten_cons, xorStream, List.mapIdx_append, List.append_cancel_left_eq]
      congr 1
      funext i b
      rw [Nat.add_assoc, Nat.add_comm i]
    rw [this]
    rfl

/-- C22: encryption in any splitting. -/
theorem chachapoly_encrypt_spec (wide : Bool) (stream block key iv : List Byte)
    (hb : block.length = 16) (hk : key.length = 32) (hn : iv.length ∈ [8, 12, 16, 24, 28, 32])
    (aads chunks : List (List Byte)) :
    (do
      let a ← chachapoly_init (polyImpl wide) stream block key iv
      let a ← updates (chachapoly_aad (polyImpl wide)) a aads
      let (out, a) ← aeadRun (polyImpl wide) a (chunks.map .encrypt)
      let tag ← chachapoly_final (polyImpl wide) a
      .ok (out, tag)) =
    .ok (aeadCrypt key iv chunks.flatten,
      aeadTag key iv aads.flatten (aeadCrypt key iv chunks.flatten)) := by
  rw [chachapoly_spec wide stream block key iv hb hk hn, msg_encrypt]
  rfl

/-- C22: decrypting, in any splitting, a ciphertext made with the same key, nonce and additional data
(itself in any splitting) returns the plaintext and the same tag. -/
theorem chachapoly_decrypt_inverts (wide : Bool) (stream block key iv : List Byte)
    (hb : block.length = 16) (hk : key.length = 32) (hn : iv.length ∈ [8, 12, 16, 24, 28, 32])
    (aads : List (List Byte)) (pt aad : List Byte) (ha : aads.flatten = aad)
    (chunks : List (List Byte)) (hc : chunks.flatten = aeadCrypt key iv pt) :
    (do
      let a ← chachapoly_init (polyImpl wide) stream block key iv
      let a ← updates (chachapoly_aad (polyImpl wide)) a aads
      let (out, a) ← aeadRun (polyImpl wide) a (chunks.map .decrypt)
      let tag ← chachapoly_final (polyImpl wide) a
      .ok (out, tag)) = .ok (pt, aeadTag key iv aad (aeadCrypt key iv pt)) := by
  rw [chachapoly_spec wide stream block key iv hb hk hn, msg_decrypt, hc, ha]
  dsimp only
  rw [aeadCrypt, xorStream_invol]

/-- The message that is authenticated determines additional data and ciphertext (lengths below
2^64): two different pairs are never confused by padding. -/
theorem aead_injective (aad ct aad' ct' : List Byte) (h1 : aad.length < 2 ^ 64)
    (h2 : ct.length < 2 ^ 64) (h1' : aad'.length < 2 ^ 64) (h2' : ct'.length < 2 ^ 64)
    (h : pad16 aad ++ pad16 ct ++ leBytes 8 aad.length ++ leBytes 8 ct.length =
      pad16 aad' ++ pad16 ct' ++ leBytes 8 aad'.length ++ leBytes 8 ct'.length) :
    aad = aad' ∧ ct = ct' := by
  have e1 := List.append_inj' h (by simp [leBytes_len])
  have e2 := List.append_inj' e1.1 (by simp [leBytes_len])
  have l2 : ct.length = ct'.length := by
    have := congrArg leVal e1.2
    rw [leVal_leBytes, leVal_leBytes, show (256 : Nat) ^ 8 = 2 ^ 64 from rfl, Nat.mod_eq_of_lt h2, Nat.mod_eq_of_lt h2'] at this
    exact this
  have l1 : aad.length = aad'.length := by
    have := congrArg leVal e2.2
    rw [leVal_leBytes, leVal_leBytes, show (256 : Nat) ^ 8 = 2 ^ 64 from rfl, Nat.mod_eq_of_lt h1, Nat.mod_eq_of_lt h1'] at this
    exact this
  have e3 := List.append_inj' e2.1 (by simp [pad16, l2])
  exact ⟨(List.append_inj e3.1 l1).1, (List.append_inj e3.2 l2).1⟩

/-- Non-vacuity: empty additional data, empty ciphertext and an extra empty call. -/
example : (do
      let a ← chachapoly_init (polyImpl true) [] (List.replicate 16 0) (List.replicate 32 1)
        (List.replicate 12 2)
      let a ← updates (chachapoly_aad (polyImpl true)) a [[]]
      let (out, a) ← aeadRun (polyImpl true) a [.encrypt [], .encrypt [1, 2, 3], .encrypt []]
      let tag ← chachapoly_final (polyImpl true) a
      .ok (out, tag)) =
    .ok (aeadCrypt (List.replicate 32 1) (List.replicate 12 2) [1, 2, 3],
      aeadTag (List.replicate 32 1) (List.replicate 12 2) []
        (aeadCrypt (List.replicate 32 1) (List.replicate 12 2) [1, 2, 3])) :=
  chachapoly_encrypt_spec true [] (List.replicate 16 0) (List.replicate 32 1) (List.replicate 12 2) rfl
    rfl (by decide) [[]] [[], [1, 2, 3], []]

/-! ### Secretbox -/

/-- C23: the sealed message is the tag of the ciphertext and the ciphertext. -/
theorem secretbox_seal_spec (wide : Bool) (stream block msg key nonce : List Byte)
    (hb : block.length = 16) (hk : key.length = 32) (hn : nonce.length = 24) :
    secretbox_seal (polyImpl wide) stream block msg key nonce =
      .ok (boxTag key nonce (boxCrypt key nonce msg) ++ boxCrypt key nonce msg) := by
  obtain ⟨c0, c1, k, v, h1, h2, h3, h4, h5, h6⟩ := box_start (stream := stream) hk hn
  obtain ⟨_, g⟩ := good wide k
  obtain ⟨c2, h7, -⟩ := crypt_at salsa_len h5 msg
  have h8 := poly_once g hb (xorStream (boxStream key nonce) 32 msg)
  rw [secretbox_seal, h1, C.ok_bind, h2, C.ok_bind]
  dsimp only
  rw [salsa20_crypt, h7, C.ok_bind]
  dsimp only
  rw [h3, C.ok_bind, h6, ← C.bind_assoc, h8, C.ok_bind, h4]
  rfl

private theorem boxTag_len (key nonce ct : List Byte) : (boxTag key nonce ct).length = 16 := by
  rw [boxTag, poly1305, leBytes_len]

/-- C23: `secretbox_open` returns 1 exactly if the first 16 bytes are the tag of the rest, and 0
otherwise; the output is the decryption of the rest in both cases. -/
theorem secretbox_open_spec (wide : Bool) (stream block sealed key nonce : List Byte)
    (hb : block.length = 16) (hk : key.length = 32) (hn : nonce.length = 24) :
    secretbox_open (polyImpl wide) stream block sealed key nonce =
      if sealed.length < 16 then .ok (0, [])
      else .ok (if sealed.take 16 = boxTag key nonce (sealed.drop 16) then 1 else 0,
        boxCrypt key nonce (sealed.drop 16)) := by
  rw [secretbox_open]
  split
  · rfl
  · next hlen =>
    obtain ⟨c0, c1, k, v, h1, h2, h3, h4, h5, h6⟩ := box_start (stream := stream) hk hn
    obtain ⟨_, g⟩ := good wide k
    obtain ⟨c2, h7, -⟩ := crypt_at salsa_len h5 (sealed.drop 16)
    have h8 := poly_once g hb (sealed.drop 16)
    dsimp only
    rw [h1, C.ok_bind, h2, C.ok_bind]
    dsimp only
    rw [h3, C.ok_bind, ← C.bind_assoc, h8, C.ok_bind, salsa20_crypt, h7, C.ok_bind, h4, h6]
    dsimp only
    rw [torsion_memequal_spec _ _ (by
      rw [poly1305, leBytes_len, List.length_take]; omega)]
    congr 2
    rw [boxTag]
    simp only [eq_comm]

/-- C23: opening what was sealed with the same key and nonce succeeds and returns the message. -/
theorem secretbox_roundtrip (wide wide' : Bool) (stream block stream' block' msg key nonce : List Byte)
    (hb : block.length = 16) (hb' : block'.length = 16) (hk : key.length = 32)
    (hn : nonce.length = 24) :
    (do
      let sealed ← secretbox_seal (polyImpl wide) stream block msg key nonce
      secretbox_open (polyImpl wide') stream' block' sealed key nonce) = .ok (1, msg) := by
  rw [secretbox_seal_spec wide stream block msg key nonce hb hk hn, C.ok_bind,
    secretbox_open_spec wide' stream' block' _ key nonce hb' hk hn,
    if_neg (by rw [List.length_append, boxTag_len]; omega),
    List.take_left' (boxTag_len _ _ _), List.drop_left' (boxTag_len _ _ _), if_pos rfl, boxCrypt,
    boxCrypt, xorStream_invol]

/-- C23: an accepted box is exactly the sealing of the message it opens to: nothing else with the
same key and nonce opens to that message. -/
theorem secretbox_unique (wide : Bool) (stream block sealed msg key nonce : List Byte)
    (hb : block.length = 16) (hk : key.length = 32) (hn : nonce.length = 24)
    (h : secretbox_open (polyImpl wide) stream block sealed key nonce = .ok (1, msg)) :
    secretbox_seal (polyImpl wide) stream block msg key nonce = .ok sealed := by
  rw [secretbox_open_spec wide stream block sealed key nonce hb hk hn] at h
  split at h
  · simp at h
  · split at h
    · next ht =>
      rw [C.ok.injEq, Prod.mk.injEq] at h
      have hc : boxCrypt key nonce msg = sealed.drop 16 := by
        rw [← h.2, boxCrypt, boxCrypt, xorStream_invol]
      rw [secretbox_seal_spec wide stream block msg key nonce hb hk hn, hc, ← ht,
        List.take_append_drop]
    · simp at h

/-- Also of C23: the shared key is HSalsa20 of the secret with a zero nonce. -/
theorem secretbox_derive_spec (secret : List Byte) (h : secret.length = 32) :
    secretbox_derive secret = .ok (hsalsa secret (List.replicate 32 0)) :=
  salsa_derive_eq (Or.inr h) (by simp)

example : ∃ sealed, secretbox_seal (polyImpl true) [] (List.replicate 16 0) [1, 2, 3]
    (List.replicate 32 1) (List.replicate 24 2) = .ok sealed ∧ sealed.length = 19 :=
  ⟨_, secretbox_seal_spec true [] (List.replicate 16 0) [1, 2, 3] (List.replicate 32 1)
    (List.replicate 24 2) rfl rfl rfl, by rw [List.length_append, boxTag_len]; simp [boxCrypt, xorStream]⟩

end Torsion
