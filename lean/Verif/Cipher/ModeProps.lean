import Verif.Cipher.SerialLemmas

/-!
# C42: the modes of operation

Every mode function computes exactly its standard, over an arbitrary block cipher with 8- or
16-byte blocks, and decryption undoes encryption however either side is split into calls.
Ciphertext stealing is in `Verif.Cipher.StreamProps`.
-/
namespace Torsion
open Spec

variable {n : Nat}

namespace Ciph

theorem unblocks_eq (bl : List (Vector Byte n)) : unblocks bl = Blk.cat bl := rfl

theorem whole (hn : 0 < n) {m : List Byte} (h : n ∣ m.length) : Blk.cat (blocks n m) = m := by
  obtain ⟨bl, t, h1, h2⟩ := Blk.split n hn m
  have h3 : t.length = 0 := by
    rw [h1, List.length_append, Blk.cat_length, Nat.dvd_add_right (Nat.dvd_mul_left n _)] at h
    exact Nat.eq_zero_of_dvd_of_lt h h2
  have h4 : t = [] := by simpa using h3
  rw [h1, Blk.blocks_cat bl t h2, h4, List.append_nil]

theorem unaligned (hn : Size n) {m : List Byte} (h : ¬ n ∣ m.length) :
    C.check (m.length &&& (n - 1) = 0) = .abort := by
  rw [C.check, decide_eq_false]
  · rfl
  · rw [mask_mod hn, Nat.dvd_iff_mod_eq_zero.symm]; exact h

theorem blocks_unblocks (hn : 0 < n) (bl : List (Vector Byte n)) : blocks n (unblocks bl) = bl := by
  have := Blk.blocks_cat bl [] (by simpa using hn)
  rwa [List.append_nil] at this

theorem unblocks_dvd (bl : List (Vector Byte n)) : n ∣ (unblocks bl).length := by
  rw [unblocks_eq, Blk.cat_length]; exact Nat.dvd_mul_left _ _

theorem blocks_append (hn : 0 < n) {a b : List Byte} (ha : n ∣ a.length) (hb : n ∣ b.length) :
    blocks n (a ++ b) = blocks n a ++ blocks n b := by
  have h1 := whole hn ha
  have h2 := whole hn hb
  conv_lhs => rw [← h1, ← h2, ← Blk.cat_append]
  exact blocks_unblocks hn _

end Ciph

open Ciph

/-! ## ECB -/

/-- ECB enciphers block by block; a length that is no multiple of the block size stops the
program. -/
theorem ecb_encrypt_exact (hn : n = 8 ∨ n = 16) (c : Cipher n) (src : List Byte) :
    ecb_encrypt c src =
      if n ∣ src.length then .ok (unblocks ((blocks n src).map c.enc)) else .abort := by
  split
  · rename_i h
    conv_lhs => rw [← whole (size_pos hn) h]
    exact ecb_encrypt_cat hn c _
  · rename_i h
    rw [ecb_encrypt, unaligned hn h]; rfl

theorem ecb_decrypt_exact (hn : n = 8 ∨ n = 16) (c : Cipher n) (src : List Byte) :
    ecb_decrypt c src =
      if n ∣ src.length then .ok (unblocks ((blocks n src).map c.dec)) else .abort := by
  split
  · rename_i h
    conv_lhs => rw [← whole (size_pos hn) h]
    exact ecb_decrypt_cat hn c _
  · rename_i h
    rw [ecb_decrypt, unaligned hn h]; rfl

/-- ECB decryption undoes encryption. -/
theorem ecb_round_trip (hn : n = 8 ∨ n = 16) {c : Cipher n} (hc : Invertible c) {pt : List Byte}
    (h : n ∣ pt.length) : ∃ ct, ecb_encrypt c pt = .ok ct ∧ ct.length = pt.length ∧ ecb_decrypt c ct = .ok pt := by
  have hw := whole (size_pos hn) h
  refine ⟨_, by rw [ecb_encrypt_exact hn, if_pos h], ?_, ?_⟩
  · conv_rhs => rw [← hw]
    rw [unblocks_eq, Blk.cat_length, Blk.cat_length, List.length_map]
  · rw [ecb_decrypt_exact hn, if_pos (unblocks_dvd _), blocks_unblocks (size_pos hn), List.map_map,
      show c.dec ∘ c.enc = id from funext hc, List.map_id, unblocks_eq, hw]

/-! ## CBC -/

/-- CBC encryption: output and the chaining block kept for the next call. -/
theorem cbc_encrypt_exact (hn : n = 8 ∨ n = 16) (c : Cipher n) (prev : Vector Byte n) (src : List Byte) :
    cbc_encrypt c prev src =
      if n ∣ src.length then
        .ok (unblocks (cbcEnc c.enc prev (blocks n src)), lastBlock prev (cbcEnc c.enc prev (blocks n src)))
      else .abort := by
  split
  · rename_i h
    conv_lhs => rw [← whole (size_pos hn) h]
    rw [cbc_encrypt_cat hn, run_cbcE]; rfl
  · rename_i h
    rw [cbc_encrypt, unaligned hn h]; rfl

/-- CBC decryption, in place or not: output and the chaining block kept for the next call. -/
theorem cbc_decrypt_exact (hn : n = 8 ∨ n = 16) (c : Cipher n) (same : Bool) (prev : Vector Byte n)
    (src : List Byte) :
    cbc_decrypt c same prev src =
      if n ∣ src.length then
        .ok (unblocks (cbcDec c.dec prev (blocks n src)), lastBlock prev (blocks n src))
      else .abort := by
  split
  · rename_i h
    conv_lhs => rw [← whole (size_pos hn) h]
    rw [cbc_decrypt_cat hn, run_cbcD]; rfl
  · rename_i h
    unfold cbc_decrypt
    split
    · rw [unaligned hn h]; rfl
    · rw [if_pos, ecb_decrypt, unaligned hn h]
      · rfl
      · rcases Nat.eq_zero_or_pos src.length with h0 | h0
        · exact absurd (h0 ▸ Nat.dvd_zero n) h
        · exact h0

namespace Ciph

/-- Calls of a function that runs a one-block step. -/
theorem calls_run (hn : 0 < n) {S : Type} {f : S → Vector Byte n → Vector Byte n × S}
    {g : S → List Byte → C (List Byte × S)}
    (h : ∀ s bl, g s (Blk.cat bl) = .ok (Blk.cat (run f s bl).1, (run f s bl).2)) :
    ∀ (chunks : List (List Byte)) (s : S), (∀ c ∈ chunks, n ∣ c.length) →
    Spec.calls g s chunks = g s chunks.flatten
  | [], s, _ => by
    rw [Spec.calls, List.flatten_nil, ← Blk.cat_nil, h]; rfl
  | c :: cs, s, hd => by
    have hc := hd c (by simp)
    have hcs : ∀ c ∈ cs, n ∣ c.length := fun x hx => hd x (by simp [hx])
    have hfl : n ∣ cs.flatten.length := by
      rw [List.length_flatten]
      apply List.dvd_sum
      intro x hx
      obtain ⟨y, hy, rfl⟩ := List.mem_map.1 hx
      exact hcs y hy
    rw [Spec.calls, List.flatten_cons]
    conv_lhs => rw [← whole hn hc, h]
    conv_rhs => rw [← whole hn hc, ← whole hn hfl, ← Blk.cat_append, h, run_append]
    rw [C.ok_bind]
    show (Spec.calls g _ cs >>= _) = _
    rw [calls_run hn h cs _ hcs]
    conv_lhs => rw [← whole hn hfl, h]
    rw [C.ok_bind, Blk.cat_append]

end Ciph

/-- Splitting a CBC encryption into calls (of whole blocks) does not change the result. -/
theorem cbc_encrypt_split (hn : n = 8 ∨ n = 16) (c : Cipher n) (prev : Vector Byte n)
    (chunks : List (List Byte)) (h : ∀ x ∈ chunks, n ∣ x.length) :
    calls (cbc_encrypt c) prev chunks = cbc_encrypt c prev chunks.flatten :=
  calls_run (size_pos hn) (cbc_encrypt_cat hn c) chunks prev h

/-- Splitting a CBC decryption into calls (of whole blocks) does not change the result. -/
theorem cbc_decrypt_split (hn : n = 8 ∨ n = 16) (c : Cipher n) (same : Bool) (prev : Vector Byte n)
    (chunks : List (List Byte)) (h : ∀ x ∈ chunks, n ∣ x.length) :
    calls (cbc_decrypt c same) prev chunks = cbc_decrypt c same prev chunks.flatten :=
  calls_run (size_pos hn) (cbc_decrypt_cat hn c same) chunks prev h

/-- CBC decryption undoes encryption and ends with the same chaining block. -/
theorem cbc_round_trip (hn : n = 8 ∨ n = 16) {c : Cipher n} (hc : Invertible c) (same : Bool)
    (iv : Vector Byte n) {pt : List Byte} (h : n ∣ pt.length) :
    ∃ ct p, cbc_encrypt c iv pt = .ok (ct, p) ∧ ct.length = pt.length ∧ cbc_decrypt c same iv ct = .ok (pt, p) := by
  have hw := whole (size_pos hn) h
  refine ⟨_, _, by rw [cbc_encrypt_exact hn, if_pos h], ?_, ?_⟩
  · conv_rhs => rw [← hw]
    rw [unblocks_eq, Blk.cat_length, Blk.cat_length, cbcEnc_length]
  · rw [cbc_decrypt_exact hn, if_pos (unblocks_dvd _), blocks_unblocks (size_pos hn), cbc_inv hc,
      unblocks_eq, hw]

/-! ## XTS -/

/-- The tweak update is doubling in the field. -/
theorem xts_shift_exact (hn : n = 8 ∨ n = 16) (t : Vector Byte n) :
    xts_shift t = .ok (leBlock n (gfDouble n (leVal t.toList))) := xts_shift_eq hn t

/-- XTS encryption of whole blocks: output and the tweak kept for the next call. -/
theorem xts_encrypt_exact (hn : n = 8 ∨ n = 16) (c : Cipher n) (m : XtsMode n) (src : List Byte) :
    xts_encrypt c m src =
      if n ∣ src.length then
        .ok (unblocks (xtsBlocks c.enc m.tweak (blocks n src)), ⟨xtsNext^[src.length / n] m.tweak, m.prev⟩)
      else .abort := by
  split
  · rename_i h
    conv_lhs => rw [← whole (size_pos hn) h]
    rw [xts_encrypt_cat hn, run_xtsE, show (blocks n src).length = src.length / n by simp [blocks]]; rfl
  · rename_i h
    rw [xts_encrypt, unaligned hn h]; rfl

/-- XTS decryption of whole blocks: output, the tweak kept for the next call and the tweak of the
last block. -/
theorem xts_decrypt_exact (hn : n = 8 ∨ n = 16) (c : Cipher n) (m : XtsMode n) (src : List Byte) :
    xts_decrypt c m src =
      if n ∣ src.length then
        .ok (unblocks (xtsBlocks c.dec m.tweak (blocks n src)), ⟨xtsNext^[src.length / n] m.tweak,
          if src = [] then m.prev else xtsNext^[src.length / n - 1] m.tweak⟩)
      else .abort := by
  have hp := size_pos hn
  split
  · rename_i h
    have hl : (blocks n src).length = src.length / n := by simp [blocks]
    conv_lhs => rw [← whole hp h]
    rw [xts_decrypt_cat hn, run_xtsD, hl]
    congr 3
    by_cases h0 : src = []
    · subst h0; simp [blocks]
    · rw [if_neg h0, if_neg]
      intro h1
      have := whole hp h
      rw [h1] at this
      exact h0 this.symm
  · rename_i h
    rw [xts_decrypt, unaligned hn h]; rfl

theorem xts_encrypt_split (hn : n = 8 ∨ n = 16) (c : Cipher n) (m : XtsMode n)
    (chunks : List (List Byte)) (h : ∀ x ∈ chunks, n ∣ x.length) :
    calls (xts_encrypt c) m chunks = xts_encrypt c m chunks.flatten :=
  calls_run (size_pos hn) (xts_encrypt_cat hn c) chunks m h

theorem xts_decrypt_split (hn : n = 8 ∨ n = 16) (c : Cipher n) (m : XtsMode n)
    (chunks : List (List Byte)) (h : ∀ x ∈ chunks, n ∣ x.length) :
    calls (xts_decrypt c) m chunks = xts_decrypt c m chunks.flatten :=
  calls_run (size_pos hn) (xts_decrypt_cat hn c) chunks m h

/-- XTS decryption of whole blocks undoes encryption. -/
theorem xts_round_trip (hn : n = 8 ∨ n = 16) {c : Cipher n} (hc : Invertible c) (m m' : XtsMode n)
    (ht : m'.tweak = m.tweak) {pt : List Byte} (h : n ∣ pt.length) :
    ∃ ct s s', xts_encrypt c m pt = .ok (ct, s) ∧ ct.length = pt.length ∧ xts_decrypt c m' ct = .ok (pt, s') ∧
      s'.tweak = s.tweak := by
  have hw := whole (size_pos hn) h
  have hl : (unblocks (xtsBlocks c.enc m.tweak (blocks n pt))).length = pt.length := by
    conv_rhs => rw [← hw]
    rw [unblocks_eq, Blk.cat_length, Blk.cat_length, xtsBlocks_length]
  have hd := xts_decrypt_exact hn c m' (unblocks (xtsBlocks c.enc m.tweak (blocks n pt)))
  rw [if_pos (unblocks_dvd _), blocks_unblocks (size_pos hn), ht, xts_inv hc, hl, unblocks_eq (blocks n pt), hw] at hd
  exact ⟨_, _, _, (xts_encrypt_exact hn c m pt).trans (if_pos h), hl, hd, rfl⟩

/-! ## CTR, OFB, CFB -/

namespace Ciph

theorem calls_serial (hn : 0 < n) {stream : StreamMode n → C (StreamMode n)} {permute : XorF n}
    {S : SI n → SI n} {p : SI n → Nat → Byte → Byte × SI n} (h : Callbacks stream permute S p) :
    ∀ (chunks : List (List Byte)) (q : SI n) (pos : Nat), pos < n →
    Spec.calls (xstream_update stream permute) (mk q pos) chunks =
      .ok ((serial S p q pos chunks.flatten).1,
        mk (serial S p q pos chunks.flatten).2.1 (serial S p q pos chunks.flatten).2.2)
  | [], q, pos, _ => rfl
  | c :: cs, q, pos, hp => by
    rw [Spec.calls, update_serial hn h q hp, C.ok_bind, List.flatten_cons, serial_append]
    show (Spec.calls _ _ cs >>= _) = _
    rw [calls_serial hn h cs _ _ (by rw [serial_pos hn _ _ _ hp]; exact Nat.mod_lt _ hn), C.ok_bind]

end Ciph

/-- Any number of counter mode calls computes the exclusive or of the message with the encryptions
of the successive counter values, wherever the message is split. -/
theorem ctr_exact (hn : 0 < n) (c : Cipher n) (iv : Vector Byte n) (chunks : List (List Byte)) :
    ∃ m0, ctr_init n iv.toList = .ok m0 ∧
      ∃ m, calls (ctr_crypt c) m0 chunks = .ok (xorStream (ctrStream c.enc iv) 0 chunks.flatten, m) := by
  refine ⟨mk (Vector.replicate n 0, iv) 0, by rw [ctr_init, vec_toList']; rfl, ?_⟩
  have hs := serial_xor hn (ctrS c) (Vector.replicate n 0, iv) chunks.flatten 0
  rw [atOff_zero hn, Nat.zero_mod] at hs
  have hc := calls_serial hn (ctr_callbacks c) chunks (Vector.replicate n 0, iv) 0 hn
  rw [hs, ctr_ks] at hc
  exact ⟨_, hc⟩

/-- Counter mode decryption (any splitting) undoes encryption (any splitting). -/
theorem ctr_round_trip (hn : 0 < n) (c : Cipher n) (iv : Vector Byte n) (chunks chunks' : List (List Byte))
    (m0 : StreamMode n) (h0 : ctr_init n iv.toList = .ok m0) {ct : List Byte} {m : StreamMode n}
    (h : calls (ctr_crypt c) m0 chunks = .ok (ct, m)) (h' : chunks'.flatten = ct) :
    ∃ m', calls (ctr_crypt c) m0 chunks' = .ok (chunks.flatten, m') := by
  obtain ⟨a, ha, b, hb⟩ := ctr_exact hn c iv chunks
  obtain ⟨a', ha', b', hb'⟩ := ctr_exact hn c iv chunks'
  rw [h0] at ha ha'
  cases ha; cases ha'
  rw [h] at hb
  cases hb
  refine ⟨b', ?_⟩
  rw [hb', h']
  congr 2
  apply List.ext_getElem
  · simp [xorStream]
  · intro i h1 h2
    simp [xorStream, BitVec.xor_assoc]

/-- Output feedback: exclusive or with the iterated encryptions of the initial value. -/
theorem ofb_exact (hn : 0 < n) (c : Cipher n) (iv : Vector Byte n) (chunks : List (List Byte)) :
    ∃ m0, ofb_init n iv.toList = .ok m0 ∧
      ∃ m, calls (ofb_crypt c) m0 chunks = .ok (xorStream (ofbStream c.enc iv) 0 chunks.flatten, m) := by
  refine ⟨mk (iv, Vector.replicate n 0) 0, by rw [ofb_init, vec_toList']; rfl, ?_⟩
  have hs := serial_xor hn (ofbS c) (iv, Vector.replicate n 0) chunks.flatten 0
  rw [atOff_zero hn, Nat.zero_mod] at hs
  have hc := calls_serial hn (ofb_callbacks c) chunks (iv, Vector.replicate n 0) 0 hn
  rw [hs, ofb_ks] at hc
  exact ⟨_, hc⟩

/-- Output feedback decryption undoes encryption. -/
theorem ofb_round_trip (hn : 0 < n) (c : Cipher n) (iv : Vector Byte n) (chunks chunks' : List (List Byte))
    (m0 : StreamMode n) (h0 : ofb_init n iv.toList = .ok m0) {ct : List Byte} {m : StreamMode n}
    (h : calls (ofb_crypt c) m0 chunks = .ok (ct, m)) (h' : chunks'.flatten = ct) :
    ∃ m', calls (ofb_crypt c) m0 chunks' = .ok (chunks.flatten, m') := by
  obtain ⟨a, ha, b, hb⟩ := ofb_exact hn c iv chunks
  obtain ⟨a', ha', b', hb'⟩ := ofb_exact hn c iv chunks'
  rw [h0] at ha ha'
  cases ha; cases ha'
  rw [h] at hb
  cases hb
  refine ⟨b', ?_⟩
  rw [hb', h']
  congr 2
  apply List.ext_getElem
  · simp [xorStream]
  · intro i h1 h2
    simp [xorStream, BitVec.xor_assoc]

/-- Cipher feedback encryption in any number of calls is the standard one. -/
theorem cfb_encrypt_exact (hn : 0 < n) (c : Cipher n) (iv : Vector Byte n) (chunks : List (List Byte)) :
    ∃ m0 ct m, cfb_init n iv.toList = .ok m0 ∧ calls (cfb_encrypt c) m0 chunks = .ok (ct, m) ∧
      Cfb c.enc iv chunks.flatten ct := by
  refine ⟨mk (Vector.replicate n 0, iv) 0, _, _, by rw [cfb_init, ctr_init, vec_toList']; rfl,
    calls_serial hn (cfb_callbacks_enc c) chunks _ 0 hn, ?_⟩
  · refine ⟨serial_length _ _ _, fun i hi => ?_⟩
    have := cfb_exact hn chunks.flatten [] _ (cfbAt_nil c (Vector.replicate n 0) iv) i hi
    simpa using this

/-- Cipher feedback decryption (any splitting) undoes encryption (any splitting). -/
theorem cfb_round_trip (hn : 0 < n) (c : Cipher n) (iv : Vector Byte n) (chunks chunks' : List (List Byte))
    (m0 : StreamMode n) (h0 : cfb_init n iv.toList = .ok m0) {ct : List Byte} {m : StreamMode n}
    (h : calls (cfb_encrypt c) m0 chunks = .ok (ct, m)) (h' : chunks'.flatten = ct) :
    calls (cfb_decrypt c) m0 chunks' = .ok (chunks.flatten, m) := by
  have e0 : m0 = mk (Vector.replicate n 0, iv) 0 := by
    rw [cfb_init, ctr_init, vec_toList'] at h0
    cases h0; rfl
  subst e0
  have e1 := calls_serial hn (cfb_callbacks_enc c) chunks (Vector.replicate n 0, iv) 0 hn
  have e2 := calls_serial hn (cfb_callbacks_dec c) chunks' (Vector.replicate n 0, iv) 0 hn
  have h2 : Spec.calls (xstream_update (cfb_stream c) cfb_xor_enc) (mk (Vector.replicate n 0, iv) 0) chunks =
    .ok (ct, m) := h
  rw [e1] at h2
  cases h2
  rw [h', cfb_inv] at e2
  exact e2

namespace Ciph

/-- A block cipher for the examples: adds a constant to every byte. -/
def toy (n : Nat) : Cipher n := ⟨fun v => v.map (· + 7), fun v => v.map (· - 7)⟩

theorem toy_inv : Invertible (toy n) := by
  intro b
  apply Vector.ext
  intro i hi
  simp [toy]
  exact BitVec.add_sub_cancel _ _

end Ciph

example : Invertible (toy 16) := toy_inv
example : (do let m ← ctr_init 8 (List.replicate 8 0xff)
              calls (ctr_crypt (toy 8)) m [[1, 2, 3], [4, 5, 6, 7, 8, 9], []] : C _) =
    .ok ([7, 4, 5, 2, 3, 0, 1, 14, 14],
      ⟨#v[7, 7, 7, 7, 7, 7, 7, 7], #v[0, 0, 0, 0, 0, 0, 0, 1], 1⟩) := by decide +kernel
example : cbc_encrypt (toy 8) (Vector.replicate 8 1) [0, 1, 2, 3, 4, 5, 6, 7] =
    .ok ([8, 7, 10, 9, 12, 11, 14, 13], #v[8, 7, 10, 9, 12, 11, 14, 13]) := by decide +kernel
example : xts_shift (Vector.replicate 8 0x80) = .ok #v[0x1b, 1, 1, 1, 1, 1, 1, 1] := by decide +kernel

end Torsion
