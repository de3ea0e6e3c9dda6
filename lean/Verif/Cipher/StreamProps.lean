import Verif.Cipher.SplitLemmas

/-!
# C43: the cipher stream API

For every mode without a tag: which keys and initial values are accepted, what a session of updates
and a final call returns for every splitting of its input, that decryption accepts exactly the
ciphertexts, and how many bytes are written.
-/
namespace Torsion
open Spec

namespace Ciph

variable {n : Nat}

theorem C.vec_some {iv : List Byte} (h : iv.length = n) : ∃ v : Vector Byte n, C.vec n iv = .ok v ∧ v.toList = iv := by
  obtain ⟨v, h1, h2⟩ := Blk.vec_ok (n := n) (xs := iv) (by omega)
  exact ⟨v, h1, by rw [h2, List.take_of_length_le (by omega)]⟩

theorem xts_keys_some {key k1 k2 : List Byte} :
    xts_keys key = some (k1, k2) ↔ key = k1 ++ k2 ∧ k1.length = k2.length ∧ k1 ≠ k2 := by
  rw [xts_keys]
  have hand : key.length &&& 1 = key.length % 2 := Nat.and_one_is_mod _
  by_cases h : key.length = 0 ∨ key.length &&& 1 ≠ 0
  · rw [if_pos h]
    constructor
    · intro h'; cases h'
    · rintro ⟨rfl, h2, h3⟩
      rw [hand, List.length_append] at h
      rcases h with h | h
      · have e1 : k1 = [] := List.length_eq_zero_iff.1 (by omega)
        have e2 : k2 = [] := List.length_eq_zero_iff.1 (by omega)
        exact absurd (e1.trans e2.symm) h3
      · omega
  · rw [if_neg h]
    push Not at h
    rw [hand] at h
    have hl : (key.take (key.length / 2)).length = (key.drop (key.length / 2)).length := by
      rw [List.length_take, List.length_drop]; omega
    dsimp only
    rw [torsion_memequal_spec _ _ hl]
    by_cases he : key.take (key.length / 2) = key.drop (key.length / 2)
    · rw [if_pos he, if_pos (by decide)]
      constructor
      · intro h'; cases h'
      · rintro ⟨rfl, h2, h3⟩
        have : (k1 ++ k2).length / 2 = k1.length := by rw [List.length_append]; omega
        rw [this, List.take_left' rfl, List.drop_left' rfl] at he
        exact absurd he h3
    · rw [if_neg he, if_neg (by decide)]
      constructor
      · intro h'
        obtain ⟨rfl, rfl⟩ := Prod.mk.inj (Option.some.inj h')
        exact ⟨(List.take_append_drop _ _).symm, hl, he⟩
      · rintro ⟨rfl, h2, h3⟩
        have : (k1 ++ k2).length / 2 = k1.length := by rw [List.length_append]; omega
        rw [this, List.take_left' rfl, List.drop_left' rfl]

theorem fresh_pad (e : Bool) (c : Cipher n) (mode : ModeId) (hm : mode.num ≤ 7) (v : Vector Byte n) (pad : Bool) :
    (fresh e c mode v pad).unpad = ((fresh e c mode v pad).padding &&
        (((fresh e c mode v pad).mode.id.pads && !(fresh e c mode v pad).encrypt) ||
          (fresh e c mode v pad).mode.id.steals)) := by
  rw [fresh_unpad _ _ _ hm, fresh_mode, start_id hm, fresh_encrypt]
  by_cases hr : mode.pads = true ∨ mode.steals = true
  · rw [fresh_padding _ _ _ _ _ hr]
  · push Not at hr
    simp only [ne_eq, Bool.not_eq_true] at hr
    rw [hr.1, hr.2]; simp

/-- The start of a session. -/
theorem init_iff (t : CipherType) {mode : ModeId} (hm : mode.num ≤ 7) (e : Bool) (key iv : List Byte) :
    (∃ r, cipher_stream_init t mode e key iv = .ok r) ∧
    ∀ ctx, cipher_stream_init t mode e key iv = .ok (some ctx) ↔
      ∃ c v, Opens t mode key iv c v ∧ ctx = cipher_stream_new e c (start t.size mode v) := by
  have hvec : ∀ (id : ModeId) (f : Vector Byte t.size → CipherMode t.size), id ≠ .xts →
      (∀ c : Cipher t.size, cipher_mode_init c id iv =
        if iv.length ≠ t.size then .ok none else do let m ← C.vec t.size iv; .ok (some (f m))) →
      (∃ r, cipher_stream_init t id e key iv = .ok r) ∧
      ∀ ctx, cipher_stream_init t id e key iv = .ok (some ctx) ↔
        ∃ c v, (t.init key = some c ∧ iv = v.toList) ∧ ctx = cipher_stream_new e c (f v) := by
    intro id f hx hf
    rw [cipher_stream_init, if_neg hx]
    cases hk : t.init key with
    | none => exact ⟨⟨_, rfl⟩, fun ctx => ⟨fun h => (by cases h), fun ⟨c, v, h, _⟩ => by cases h.1⟩⟩
    | some c =>
      dsimp only
      rw [hf]
      by_cases hl : iv.length = t.size
      · obtain ⟨v, h1, h2⟩ := C.vec_some hl
        rw [if_neg (by simpa using hl), h1, C.ok_bind, C.ok_bind]
        refine ⟨⟨_, rfl⟩, fun ctx => ⟨fun h => ?_, ?_⟩⟩
        · exact ⟨c, v, ⟨rfl, h2.symm⟩, (Option.some.inj (C.ok.inj h)).symm⟩
        · rintro ⟨c', v', ⟨h3, h4⟩, rfl⟩
          cases h3
          have : v = v' := Vector.toList_inj.1 (by rw [h2, h4])
          rw [this]; rfl
      · rw [if_pos hl, C.ok_bind]
        refine ⟨⟨_, rfl⟩, fun ctx => ⟨fun h => (by cases h), ?_⟩⟩
        rintro ⟨c', v', ⟨h3, h4⟩, rfl⟩
        rw [h4] at hl
        simp at hl
  have hnone : ∀ (id : ModeId) (f : CipherMode t.size), id ≠ .xts →
      (∀ c : Cipher t.size, cipher_mode_init c id iv = .ok (if iv.length ≠ 0 then none else some f)) →
      (∃ r, cipher_stream_init t id e key iv = .ok r) ∧
      ∀ ctx, cipher_stream_init t id e key iv = .ok (some ctx) ↔
        ∃ (c : Cipher t.size) (v : Vector Byte t.size), (t.init key = some c ∧ iv = [] ∧ v = Vector.replicate t.size 0) ∧
          ctx = cipher_stream_new e c f := by
    intro id f hx hf
    rw [cipher_stream_init, if_neg hx]
    cases hk : t.init key with
    | none => exact ⟨⟨_, rfl⟩, fun ctx => ⟨fun h => (by cases h), fun ⟨c, v, h, _⟩ => by cases h.1⟩⟩
    | some c =>
      dsimp only
      rw [hf, C.ok_bind]
      refine ⟨⟨_, rfl⟩, fun ctx => ?_⟩
      by_cases hl : iv.length = 0
      · rw [if_neg (by simpa using hl)]
        constructor
        · intro h
          exact ⟨c, _, ⟨rfl, List.length_eq_zero_iff.1 hl, rfl⟩, (Option.some.inj (C.ok.inj h)).symm⟩
        · rintro ⟨c', v', ⟨h3, -⟩, rfl⟩
          cases h3; rfl
      · rw [if_pos hl]
        constructor
        · intro h; cases h
        · rintro ⟨c', v', ⟨h3, h4, -⟩, rfl⟩
          exact absurd (by rw [h4]; rfl) hl
  cases mode with
  | raw => exact hnone .raw .raw (by decide) (fun _ => rfl)
  | ecb => exact hnone .ecb .ecb (by decide) (fun _ => rfl)
  | cbc => exact hvec .cbc .cbc (by decide) (fun _ => rfl)
  | cts => exact hvec .cts .cts (by decide) (fun _ => rfl)
  | ctr =>
    refine hvec .ctr (fun v => .ctr ⟨Vector.replicate t.size 0, v, 0⟩) (by decide) (fun c => ?_)
    rw [cipher_mode_init, ctr_init, C.bind_assoc]; rfl
  | cfb =>
    refine hvec .cfb (fun v => .cfb ⟨Vector.replicate t.size 0, v, 0⟩) (by decide) (fun c => ?_)
    rw [cipher_mode_init, cfb_init, ctr_init, C.bind_assoc]; rfl
  | ofb =>
    refine hvec .ofb (fun v => .ofb ⟨v, Vector.replicate t.size 0, 0⟩) (by decide) (fun c => ?_)
    rw [cipher_mode_init, ofb_init, C.bind_assoc]; rfl
  | xts =>
    rw [cipher_stream_init, if_pos rfl]
    cases hk : xts_keys key with
    | none =>
      refine ⟨⟨_, rfl⟩, fun ctx => ⟨fun h => (by cases h), ?_⟩⟩
      rintro ⟨c, v, ⟨k1, k2, c2, w, h1, h2, h3, -⟩, -⟩
      rw [xts_keys_some.2 ⟨h1, h2, h3⟩] at hk
      cases hk
    | some ks =>
      obtain ⟨k1, k2⟩ := ks
      obtain ⟨h1, h2, h3⟩ := xts_keys_some.1 hk
      have huniq : ∀ a b, key = a ++ b → a.length = b.length → a = k1 ∧ b = k2 := by
        intro a b ha hb
        rw [h1] at ha
        have hlen := congrArg List.length ha
        rw [List.length_append, List.length_append] at hlen
        have := List.append_inj ha (by omega)
        exact ⟨this.1.symm, this.2.symm⟩
      dsimp only
      cases hk1 : t.init k1 with
      | none =>
        refine ⟨⟨_, rfl⟩, fun ctx => ⟨fun h => (by cases h), ?_⟩⟩
        rintro ⟨c, v, ⟨a, b, c2, w, g1, g2, g3, g4, -⟩, -⟩
        obtain ⟨rfl, rfl⟩ := huniq a b g1 g2
        rw [hk1] at g4; cases g4
      | some c =>
        dsimp only
        by_cases hl : iv.length = t.size
        · obtain ⟨w, e1, e2⟩ := C.vec_some hl
          rw [if_neg (by simpa using hl), xts_init, e1, C.ok_bind, C.ok_bind]
          cases hk2 : t.init k2 with
          | none =>
            refine ⟨⟨_, rfl⟩, fun ctx => ⟨fun h => (by cases h), ?_⟩⟩
            rintro ⟨c, v, ⟨a, b, c2, w, g1, g2, g3, g4, g5, -⟩, -⟩
            obtain ⟨rfl, rfl⟩ := huniq a b g1 g2
            rw [hk2] at g5; cases g5
          | some c2 =>
            refine ⟨⟨_, rfl⟩, fun ctx => ⟨fun h => ?_, ?_⟩⟩
            · exact ⟨c, c2.enc w, ⟨k1, k2, c2, w, h1, h2, h3, hk1, hk2, e2.symm, rfl⟩,
                (Option.some.inj (C.ok.inj h)).symm⟩
            · rintro ⟨c', v, ⟨a, b, c2', w', g1, g2, g3, g4, g5, g6, g7⟩, rfl⟩
              obtain ⟨rfl, rfl⟩ := huniq a b g1 g2
              rw [hk1] at g4; cases g4
              rw [hk2] at g5; cases g5
              have : w = w' := Vector.toList_inj.1 (by rw [e2, g6])
              rw [this] at *
              rw [g7]; rfl
        · rw [if_pos hl]
          refine ⟨⟨_, rfl⟩, fun ctx => ⟨fun h => (by cases h), ?_⟩⟩
          rintro ⟨c, v, ⟨a, b, c2, w, g1, g2, g3, g4, g5, g6, -⟩, -⟩
          rw [g6] at hl; simp at hl
  | _ => simp [ModeId.num] at hm

end Ciph

open Ciph

/-- `cipher_stream_init` succeeds exactly on the keys and initial values of the mode (`Opens`), and
otherwise returns 0. -/
theorem cipher_stream_init_iff (t : CipherType) {mode : ModeId} (hm : mode.num < ModeId.gcm.num) (encrypt : Bool)
    (key iv : List Byte) :
    (∃ r, cipher_stream_init t mode encrypt key iv = .ok r) ∧
    ((∃ ctx, cipher_stream_init t mode encrypt key iv = .ok (some ctx)) ↔ ∃ c v, Opens t mode key iv c v) := by
  have hm' : mode.num ≤ 7 := Nat.le_of_lt_succ hm
  obtain ⟨h1, h2⟩ := init_iff t hm' encrypt key iv
  refine ⟨h1, ⟨fun ⟨ctx, h⟩ => ?_, fun ⟨c, v, h⟩ => ⟨_, (h2 _).2 ⟨c, v, h, rfl⟩⟩⟩⟩
  obtain ⟨c, v, h, -⟩ := (h2 ctx).1 h
  exact ⟨c, v, h⟩

/-- Encrypting: a session, however split, succeeds exactly when the message has a ciphertext, and
its output is that ciphertext. -/
theorem cipher_stream_encrypt_exact (t : CipherType) (hn : t.size = 8 ∨ t.size = 16) {mode : ModeId}
    (hm : mode.num < ModeId.gcm.num) {key iv : List Byte} {c : Cipher t.size} {v : Vector Byte t.size}
    (ho : Opens t mode key iv c v) (pad same : Bool) (chunks : List (List Byte))
    (hc : ∀ x ∈ chunks, x.length < 2 ^ 64) :
    ∃ ctx ret out, cipher_stream_init t mode true key iv = .ok (some ctx) ∧
      session ctx pad same chunks = .ok (ret, out) ∧
      ∀ ct, (ret = true ∧ out = ct) ↔ Encrypts c.enc mode pad v chunks.flatten ct := by
  have hm' : mode.num ≤ 7 := Nat.le_of_lt_succ hm
  obtain ⟨ret, out, h1, h2⟩ := session_enc hn c hm' v pad same hc
  exact ⟨_, ret, out, ((init_iff t hm' true key iv).2 _).2 ⟨c, v, ho, rfl⟩, h1, h2⟩

/-- Decrypting: a session, however split, succeeds exactly on the ciphertexts of messages, and its
output is that message. -/
theorem cipher_stream_decrypt_exact (t : CipherType) (hn : t.size = 8 ∨ t.size = 16) {mode : ModeId}
    (hm : mode.num < ModeId.gcm.num) {key iv : List Byte} {c : Cipher t.size} {v : Vector Byte t.size}
    (ho : Opens t mode key iv c v) (hi : Invertible c) (pad same : Bool) (chunks : List (List Byte))
    (hc : ∀ x ∈ chunks, x.length < 2 ^ 64) :
    ∃ ctx ret out, cipher_stream_init t mode false key iv = .ok (some ctx) ∧
      session ctx pad same chunks = .ok (ret, out) ∧
      ∀ m, (ret = true ∧ out = m) ↔ Encrypts c.enc mode pad v m chunks.flatten := by
  have hm' : mode.num ≤ 7 := Nat.le_of_lt_succ hm
  obtain ⟨ret, out, h1, h2⟩ := session_dec hn hi hm' v pad same hc
  exact ⟨_, ret, out, ((init_iff t hm' false key iv).2 _).2 ⟨c, v, ho, rfl⟩, h1, h2⟩

/-- What an encrypting session returned, a decrypting session with the same key turns back into the
message, both split in any way. -/
theorem cipher_stream_round_trip (t : CipherType) (hn : t.size = 8 ∨ t.size = 16) {mode : ModeId}
    (hm : mode.num < ModeId.gcm.num) {key iv : List Byte} (hi : ∀ k c, t.init k = some c → Invertible c)
    {ctx ctx' : CipherStream t.size}
    (h : cipher_stream_init t mode true key iv = .ok (some ctx))
    (h' : cipher_stream_init t mode false key iv = .ok (some ctx')) (pad same same' : Bool)
    {chunks chunks' : List (List Byte)} (hc : ∀ x ∈ chunks, x.length < 2 ^ 64) (hc' : ∀ x ∈ chunks', x.length < 2 ^ 64)
    (hs : session ctx pad same chunks = .ok (true, chunks'.flatten)) :
    session ctx' pad same' chunks' = .ok (true, chunks.flatten) := by
  have hm' : mode.num ≤ 7 := Nat.le_of_lt_succ hm
  obtain ⟨c, v, ho, rfl⟩ := ((init_iff t hm' true key iv).2 _).1 h
  obtain ⟨ret, out, h1, h2⟩ := session_enc hn c hm' v pad same hc
  rw [hs] at h1
  cases h1
  have henc := (h2 _).1 ⟨rfl, rfl⟩
  have hinv : Invertible c := by
    cases mode with
    | xts => obtain ⟨k1, k2, c2, w, -, -, -, h4, -⟩ := ho; exact hi _ _ h4
    | _ => exact hi _ _ ho.1
  obtain ⟨ctx1, ret', out', h3, h4, h5⟩ := cipher_stream_decrypt_exact t hn hm ho hinv pad same' chunks' hc'
  rw [h'] at h3
  cases h3
  obtain ⟨rfl, rfl⟩ := (h5 _).2 henc
  exact h4

/-- Both in success and in failure, the return value and the output of a session depend on the
concatenated input only. -/
theorem cipher_stream_split (t : CipherType) (hn : t.size = 8 ∨ t.size = 16) {mode : ModeId}
    (hm : mode.num < ModeId.gcm.num) {encrypt : Bool} {key iv : List Byte} {ctx : CipherStream t.size}
    (h : cipher_stream_init t mode encrypt key iv = .ok (some ctx)) (pad same same' : Bool)
    {chunks chunks' : List (List Byte)} (hc : ∀ x ∈ chunks, x.length < 2 ^ 64) (hc' : ∀ x ∈ chunks', x.length < 2 ^ 64)
    (he : chunks.flatten = chunks'.flatten) :
    session ctx pad same chunks = session ctx pad same' chunks' := by
  have hm' : mode.num ≤ 7 := Nat.le_of_lt_succ hm
  obtain ⟨c, v, ho, rfl⟩ := ((init_iff t hm' encrypt key iv).2 _).1 h
  by_cases h4 : mode.num ≤ 4
  · obtain ⟨o1, c1, h1, h2⟩ := session_at hn (e := encrypt) (c := c) h4 (v := v) (pad := pad) same hc
    obtain ⟨o2, c2, h1', h2'⟩ := session_at hn (e := encrypt) (c := c) h4 (v := v) (pad := pad) same' hc'
    rw [← he] at h1'
    obtain ⟨e1, ret, o, w, d1, d2, e2, e3, -⟩ := final_det hn (fresh_blocky h4) (fresh_pad _ _ _ hm' _ _) h1 h1'
    rw [h2, h2', e2, e3, C.ok_bind, C.ok_bind, e1]
  · have hn0 := size_pos hn
    cases mode with
    | ctr => rw [session_ctr hn0, session_ctr hn0, he]
    | ofb => rw [session_ofb hn0, session_ofb hn0, he]
    | cfb =>
      cases encrypt with
      | true => rw [session_cfb_enc hn0, session_cfb_enc hn0, he]
      | false => rw [session_cfb_dec hn0, session_cfb_dec hn0, he]
    | _ => simp [ModeId.num] at h4 hm'

namespace Ciph

/-- Sizes in the stream modes. -/
theorem stream_sizes {n : Nat} (hn : 0 < n) {e : Bool} {c : Cipher n} {mode : ModeId} (hm : 4 < mode.num ∧ mode.num ≤ 7)
    {v : Vector Byte n} {pad : Bool} (same : Bool) {F : StreamMode n → CipherMode n}
    (hid : ∀ s, (F s).id = mode) {q : SI n} (hs : start n mode v = F (mk q 0))
    {stream : StreamMode n → C (StreamMode n)} {permute : XorF n}
    (hf : ∀ same s x, (if e then cipher_mode_encrypt c (F s) x else cipher_mode_decrypt c same (F s) x) =
      mode_put F (xstream_update stream permute s x))
    {S : SI n → SI n} {p : SI n → Nat → Byte → Byte × SI n} (h : Callbacks stream permute S p)
    (chunks : List (List Byte)) :
    ∃ out ctx, calls (streamUpdate same) (fresh e c mode v pad) chunks = .ok (out, ctx) ∧
      (∀ same' input, ∃ o c', cipher_stream_update ctx same' input = .ok (o, input.length, c') ∧ o.length = input.length) ∧
      (∀ len, cipher_stream_update_size ctx len = .ok len) ∧
      cipher_stream_final ctx = .ok ⟨true, [], 0, ctx⟩ ∧ cipher_stream_final_size ctx = 0 := by
  have hset : fresh e c mode v pad = { cipher_stream_new e c (start n mode v) with mode := F (mk q 0) } := by
    rw [← hs]
    cases mode <;> first | rfl | simp [ModeId.num] at hm
  rw [hset]
  have hcs := calls_serial hn h chunks q 0 hn
  have hen : ∀ same s x, cipher_stream_encipher { cipher_stream_new e c (start n mode v) with mode := F s } same x =
      (do let r ← mode_put F (xstream_update stream permute s x)
          .ok (r.1, { cipher_stream_new e c (start n mode v) with mode := r.2 })) := by
    intro same s x
    rw [cipher_stream_encipher, ← hf same]
    rfl
  refine ⟨_, _, calls_put same (by intro s; rw [hid]; omega) (hen same) chunks _ _ _ hcs, ?_, ?_, ?_, ?_⟩
  · intro same' input
    rw [cipher_stream_update, if_pos (by dsimp only; rw [hid]; exact hm.1), hen, mode_put,
      update_serial hn h _ (by rw [serial_pos hn _ _ _ hn]; exact Nat.mod_lt _ hn)]
    simp only [C.ok_bind]
    rw [serial_length]
    exact ⟨_, _, rfl, serial_length _ _ _⟩
  · intro len
    rw [cipher_stream_update_size, if_pos (by dsimp only; rw [hid]; exact hm.1)]
  · rw [cipher_stream_final]
    dsimp only
    rw [hid]
    cases mode <;> first | rfl | simp [ModeId.num] at hm
  · rw [cipher_stream_final_size]
    dsimp only
    rw [hid]
    cases mode <;> first | rfl | simp [ModeId.num] at hm

end Ciph

/-- Memory: at any point of a session, an update writes exactly the number of bytes announced by
`cipher_stream_update_size`, at least as many as it returns and at most `CIPHER_MAX_UPDATE_SIZE`; the
final call writes at most `cipher_stream_final_size` bytes, at most `CIPHER_MAX_FINAL_SIZE` = 31, and
neither ever fails an assertion or leaves its buffers. -/
theorem cipher_stream_sizes (t : CipherType) (hn : t.size = 8 ∨ t.size = 16) {mode : ModeId}
    (hm : mode.num < ModeId.gcm.num) {encrypt : Bool} {key iv : List Byte} {ctx : CipherStream t.size}
    (h : cipher_stream_init t mode encrypt key iv = .ok (some ctx)) (pad same : Bool)
    {chunks : List (List Byte)} (hc : ∀ x ∈ chunks, x.length < 2 ^ 64) :
    ∃ out ctx', calls (streamUpdate same) (cipher_stream_set_padding ctx pad).2 chunks = .ok (out, ctx') ∧
      (∀ input : List Byte, input.length < 2 ^ 64 → ∃ o w ctx'', cipher_stream_update ctx' same input = .ok (o, w, ctx'') ∧
        cipher_stream_update_size ctx' input.length = .ok w ∧ o.length ≤ w ∧ w ≤ maxUpdate input.length) ∧
      ∃ ret o w ctx'', cipher_stream_final ctx' = .ok ⟨ret, o, w, ctx''⟩ ∧ o.length ≤ w ∧
        w ≤ cipher_stream_final_size ctx' ∧ cipher_stream_final_size ctx' ≤ 31 := by
  have hm' : mode.num ≤ 7 := Nat.le_of_lt_succ hm
  have hn0 := size_pos hn
  obtain ⟨c, v, ho, rfl⟩ := ((init_iff t hm' encrypt key iv).2 _).1 h
  have hstream : (∃ out ctx, calls (streamUpdate same) (fresh encrypt c mode v pad) chunks = .ok (out, ctx) ∧
      (∀ same' input, ∃ o c', cipher_stream_update ctx same' input = .ok (o, input.length, c') ∧ o.length = input.length) ∧
      (∀ len, cipher_stream_update_size ctx len = .ok len) ∧
      cipher_stream_final ctx = .ok ⟨true, [], 0, ctx⟩ ∧ cipher_stream_final_size ctx = 0) →
      ∃ out ctx', calls (streamUpdate same) (fresh encrypt c mode v pad) chunks = .ok (out, ctx') ∧
      (∀ input : List Byte, input.length < 2 ^ 64 → ∃ o w ctx'', cipher_stream_update ctx' same input = .ok (o, w, ctx'') ∧
        cipher_stream_update_size ctx' input.length = .ok w ∧ o.length ≤ w ∧ w ≤ maxUpdate input.length) ∧
      ∃ ret o w ctx'', cipher_stream_final ctx' = .ok ⟨ret, o, w, ctx''⟩ ∧ o.length ≤ w ∧
        w ≤ cipher_stream_final_size ctx' ∧ cipher_stream_final_size ctx' ≤ 31 := by
    rintro ⟨out, ctx, h1, h2, h3, h4, h5⟩
    refine ⟨out, ctx, h1, fun input _ => ?_, _, _, _, _, h4, by simp, by omega, by omega⟩
    obtain ⟨o, c', h6, h7⟩ := h2 same input
    exact ⟨o, _, c', h6, h3 _, by omega, by unfold maxUpdate; omega⟩
  show ∃ out ctx', calls (streamUpdate same) (fresh encrypt c mode v pad) chunks = .ok (out, ctx') ∧ _
  by_cases h4 : mode.num ≤ 4
  · obtain ⟨o, ctx', h1, h2⟩ := at_calls hn (c0 := fresh encrypt c mode v pad) (fresh_blocky h4) same chunks _ _ _
      (fresh_at hn0 encrypt c mode v pad) hc
    refine ⟨o, ctx', h1, fun input hi => ?_, ?_⟩
    · obtain ⟨o', w, c'', h3, -, h5, h6⟩ := at_update hn (fresh_blocky h4) h2 same input hi
      obtain ⟨h7, h8⟩ := at_bounds h2
      exact ⟨o', w, c'', h3, h5, h6, update_bound hn h7 h8 hi h5⟩
    · obtain ⟨-, ret, o', w, c1, c2, e1, -, e2, e3, e4⟩ := final_det hn (fresh_blocky h4) (fresh_pad _ _ _ hm' _ _) h2 h2
      exact ⟨ret, o', w, c1, e1, e2, e3, e4⟩
  · apply hstream
    cases mode with
    | ctr =>
      exact stream_sizes hn0 (by decide) same (F := .ctr) (fun _ => rfl) (q := (Vector.replicate t.size 0, v)) rfl
        (by intro same s x; cases encrypt <;> rfl) (ctr_callbacks c) chunks
    | ofb =>
      exact stream_sizes hn0 (by decide) same (F := .ofb) (fun _ => rfl) (q := (v, Vector.replicate t.size 0)) rfl
        (by intro same s x; cases encrypt <;> rfl) (ofb_callbacks c) chunks
    | cfb =>
      cases encrypt with
      | true =>
        exact stream_sizes hn0 (by decide) same (F := .cfb) (fun _ => rfl) (q := (Vector.replicate t.size 0, v)) rfl
          (by intro same s x; rfl) (cfb_callbacks_enc c) chunks
      | false =>
        exact stream_sizes hn0 (by decide) same (F := .cfb) (fun _ => rfl) (q := (Vector.replicate t.size 0, v)) rfl
          (by intro same s x; rfl) (cfb_callbacks_dec c) chunks
    | _ => simp [ModeId.num] at h4 hm'

namespace Ciph

theorem pad_true {n : Nat} (e : Bool) (c : Cipher n) (mode : ModeId) (v : Vector Byte n) :
    (cipher_stream_set_padding (cipher_stream_new e c (start n mode v)) true).2 = cipher_stream_new e c (start n mode v) := by
  cases mode <;> cases e <;> rfl

theorem static_session {t : CipherType} {mode : ModeId} (hm : mode.num < ModeId.gcm.num) {e : Bool} {key iv : List Byte}
    {same : Bool} {input : List Byte} {c : Cipher t.size} {v : Vector Byte t.size}
    (h : cipher_stream_init t mode e key iv = .ok (some (cipher_stream_new e c (start t.size mode v)))) {ret : Bool}
    {out : List Byte} (hs : session (cipher_stream_new e c (start t.size mode v)) true same [input] = .ok (ret, out)) :
    cipher_static_crypt t mode e key iv same input = .ok (if ret then some out else none) := by
  rw [cipher_static_crypt, if_neg (by omega), h, C.ok_bind]
  dsimp only
  rw [session, pad_true] at hs
  simp only [calls, streamUpdate] at hs
  cases hu : cipher_stream_update (cipher_stream_new e c (start t.size mode v)) same input with
  | ok u =>
    rw [hu] at hs
    simp only [C.ok_bind, List.append_nil] at hs ⊢
    cases hf : cipher_stream_final u.2.2 with
    | ok f =>
      rw [hf] at hs
      simp only [C.ok_bind] at hs ⊢
      cases hs
      rfl
    | abort => rw [hf] at hs; cases hs
    | ub => rw [hf] at hs; cases hs
  | abort => rw [hu] at hs; cases hs
  | ub => rw [hu] at hs; cases hs

end Ciph

/-- The one-shot functions (with padding or stealing): encryption. -/
theorem cipher_static_encrypt_exact (t : CipherType) (hn : t.size = 8 ∨ t.size = 16) {mode : ModeId}
    (hm : mode.num < ModeId.gcm.num) (key iv : List Byte) (same : Bool) (input : List Byte)
    (hl : input.length < 2 ^ 64) :
    ∃ r, cipher_static_crypt t mode true key iv same input = .ok r ∧
      ∀ ct, r = some ct ↔ ∃ c v, Opens t mode key iv c v ∧ Encrypts c.enc mode true v input ct := by
  have hm' : mode.num ≤ 7 := Nat.le_of_lt_succ hm
  obtain ⟨⟨r, h1⟩, h2⟩ := init_iff t hm' true key iv
  cases r with
  | none =>
    refine ⟨none, ?_, fun ct => ⟨fun h => (by cases h), ?_⟩⟩
    · rw [cipher_static_crypt, if_neg (by omega), h1, C.ok_bind]
    · rintro ⟨c, v, h3, -⟩
      rw [(h2 _).2 ⟨c, v, h3, rfl⟩] at h1
      cases h1
  | some ctx =>
    obtain ⟨c, v, h3, rfl⟩ := (h2 ctx).1 h1
    obtain ⟨ret, out, h4, h5⟩ := session_enc hn c hm' v true same (chunks := [input]) (by simpa using hl)
    refine ⟨_, static_session hm h1 h4, fun ct => ?_⟩
    rw [List.flatten_cons, List.flatten_nil, List.append_nil] at h5
    have huniq : ∀ c' v', Opens t mode key iv c' v' → c' = c ∧ start t.size mode v' = start t.size mode v := by
      intro c' v' h6
      have h7 := (h2 _).2 ⟨c', v', h6, rfl⟩
      rw [h1] at h7
      have h8 := Option.some.inj (C.ok.inj h7)
      exact ⟨(congrArg CipherStream.cipher h8).symm, (congrArg CipherStream.mode h8).symm⟩
    constructor
    · intro h
      refine ⟨c, v, h3, (h5 ct).1 ?_⟩
      cases ret with
      | true => exact ⟨rfl, Option.some.inj h⟩
      | false => cases h
    · rintro ⟨c', v', h6, h7⟩
      obtain ⟨rfl, h8⟩ := huniq c' v' h6
      obtain ⟨ret', out', h9, h10⟩ := session_enc hn c' hm' v' true same (chunks := [input]) (by simpa using hl)
      rw [h8, h4] at h9
      cases h9
      rw [List.flatten_cons, List.flatten_nil, List.append_nil] at h10
      obtain ⟨rfl, rfl⟩ := (h10 ct).2 h7
      rfl

/-- The one-shot functions (with padding or stealing): decryption returns exactly the message whose
encryption the input is. -/
theorem cipher_static_decrypt_exact (t : CipherType) (hn : t.size = 8 ∨ t.size = 16) {mode : ModeId}
    (hm : mode.num < ModeId.gcm.num) (hi : ∀ k c, t.init k = some c → Invertible c) (key iv : List Byte) (same : Bool)
    (input : List Byte) (hl : input.length < 2 ^ 64) :
    ∃ r, cipher_static_crypt t mode false key iv same input = .ok r ∧
      ∀ m, r = some m ↔ ∃ c v, Opens t mode key iv c v ∧ Encrypts c.enc mode true v m input := by
  have hm' : mode.num ≤ 7 := Nat.le_of_lt_succ hm
  have hinv : ∀ c v, Opens t mode key iv c v → Invertible c := by
    intro c v ho
    cases mode with
    | xts => obtain ⟨k1, k2, c2, w, -, -, -, h4, -⟩ := ho; exact hi _ _ h4
    | _ => exact hi _ _ ho.1
  obtain ⟨⟨r, h1⟩, h2⟩ := init_iff t hm' false key iv
  cases r with
  | none =>
    refine ⟨none, ?_, fun ct => ⟨fun h => (by cases h), ?_⟩⟩
    · rw [cipher_static_crypt, if_neg (by omega), h1, C.ok_bind]
    · rintro ⟨c, v, h3, -⟩
      rw [(h2 _).2 ⟨c, v, h3, rfl⟩] at h1
      cases h1
  | some ctx =>
    obtain ⟨c, v, h3, rfl⟩ := (h2 ctx).1 h1
    obtain ⟨ret, out, h4, h5⟩ := session_dec hn (hinv c v h3) hm' v true same (chunks := [input]) (by simpa using hl)
    refine ⟨_, static_session hm h1 h4, fun m => ?_⟩
    rw [List.flatten_cons, List.flatten_nil, List.append_nil] at h5
    constructor
    · intro h
      refine ⟨c, v, h3, (h5 m).1 ?_⟩
      cases ret with
      | true => exact ⟨rfl, Option.some.inj h⟩
      | false => cases h
    · rintro ⟨c', v', h6, h7⟩
      have h8 := (h2 _).2 ⟨c', v', h6, rfl⟩
      rw [h1] at h8
      have h9 := Option.some.inj (C.ok.inj h8)
      have e1 : c = c' := congrArg CipherStream.cipher h9
      have e2 : start t.size mode v = start t.size mode v' := congrArg CipherStream.mode h9
      subst e1
      obtain ⟨ret', out', h9, h10⟩ := session_dec hn (hinv c v' h6) hm' v' true same (chunks := [input]) (by simpa using hl)
      rw [← e2, h4] at h9
      cases h9
      rw [List.flatten_cons, List.flatten_nil, List.append_nil] at h10
      obtain ⟨rfl, rfl⟩ := (h10 m).2 h7
      rfl

/-! ## Examples -/

namespace Ciph

/-- A cipher type for the examples: keys of one or two bytes, the first one is added. -/
def toyType : CipherType where
  size := 8
  init key := match key with
    | [a] => some ⟨fun v => v.map (· + a), fun v => v.map (· - a)⟩
    | _ => none

end Ciph

example : ∀ k c, toyType.init k = some c → Invertible c := by
  intro k c h
  match k, h with
  | [a], h =>
    cases h
    intro b
    apply Vector.ext
    intro i hi
    show (Vector.map (· - a) (Vector.map (· + a) b))[i] = b[i]
    rw [Vector.getElem_map, Vector.getElem_map]
    exact BitVec.add_sub_cancel _ _
example : cipher_static_crypt toyType .cbc true [7] [1, 1, 1, 1, 1, 1, 1, 1] false [1, 2, 3] =
    .ok (some [7, 10, 9, 11, 11, 11, 11, 11]) := by decide +kernel
example : cipher_static_crypt toyType .cbc false [7] [1, 1, 1, 1, 1, 1, 1, 1] false [7, 10, 9, 11, 11, 11, 11, 11] =
    .ok (some [1, 2, 3]) := by decide +kernel
example : cipher_static_crypt toyType .cts true [7] [1, 1, 1, 1, 1, 1, 1, 1] false [1, 2, 3, 4, 5, 6, 7, 8, 9] =
    .ok (some [21, 17, 16, 19, 18, 21, 20, 23, 7]) := by decide +kernel
example : cipher_static_crypt toyType .cts false [7] [1, 1, 1, 1, 1, 1, 1, 1] false [21, 17, 16, 19, 18, 21, 20, 23, 7] =
    .ok (some [1, 2, 3, 4, 5, 6, 7, 8, 9]) := by decide +kernel
example : cipher_static_crypt toyType .xts true [7, 8] [1, 1, 1, 1, 1, 1, 1, 1] false [1, 2, 3] = .ok none := by decide +kernel
example : cipher_static_crypt toyType .xts true [7, 7] [1, 1, 1, 1, 1, 1, 1, 1] false [1, 2, 3, 4, 5, 6, 7, 8] = .ok none := by
  decide +kernel

end Torsion
