import Verif.Cipher.GcmLemmas

/-!
# Sessions of the authenticated modes
-/
namespace Torsion.Ciph
open Spec Blk
open Asn1 (beVal_append beVal_inj)

variable {n : Nat}

/-! ## The key streams -/

/-- A stream mode at an offset. -/
theorem stream_at (hn : 0 < n) {stream : StreamMode n → C (StreamMode n)} {S : SI n → SI n}
    (h : Callbacks stream ctr_xor S xorByte) (q0 : SI n) (off : Nat) (x : List Byte) :
    xstream_update stream ctr_xor (mk (atOff S q0 off) (off % n)) x =
      .ok (xorStream (fun i => (S^[i / n + 1] q0).1.toList.getD (i % n) 0) off x,
        mk (atOff S q0 (off + x.length)) ((off + x.length) % n)) := by
  rw [update_serial hn h _ (Nat.mod_lt _ hn), serial_xor hn]

/-- The first block of a stream. -/
theorem stream_first (hn : 0 < n) {stream : StreamMode n → C (StreamMode n)} {S : SI n → SI n}
    (h : Callbacks stream ctr_xor S xorByte) (q0 : SI n) :
    xstream_update stream ctr_xor (mk q0 0) (List.replicate n 0) = .ok ((S q0).1.toList, mk (S q0) 0) := by
  have := stream_at hn h q0 0 (List.replicate n 0)
  rw [atOff_zero hn, Nat.zero_mod, Nat.zero_add, List.length_replicate, Nat.mod_self] at this
  rw [this]
  have h1 : atOff S q0 n = S q0 := by
    rw [atOff, show (n + n - 1) / n = 1 by
      rw [show n + n - 1 = n + (n - 1) by omega, Nat.add_div_left _ hn, Nat.div_eq_of_lt (by omega)]]
    rfl
  rw [h1]
  congr 2
  apply List.ext_getElem
  · simp [xorStream]
  intro i h2 h3
  have hi : i < n := by simpa using h3
  simp [xorStream, Nat.div_eq_of_lt hi, Nat.mod_eq_of_lt hi, hi]

theorem eax_callbacks (c : Cipher n) : Callbacks (eax_stream c) ctr_xor (ctrS c) xorByte := by
  refine ⟨fun q pos => ?_, ctr_xor_inner⟩
  rw [← ctr_stream_eq, eax_stream, ctr_stream, increment_be_var_eq]

/-- One step of the counter of GCM. -/
def gcmS (c : Cipher 16) (q : SI 16) : SI 16 := (c.enc q.2, gcmCount q.2 1)

theorem gcmCount_put (v : Vector Byte 16) (k : Nat) :
    gcmCount v k = put v 12 (beBlock 4 (beVal (v.toList.drop 12) + k)).toList := by
  apply Vector.ext
  intro i hi
  simp only [gcmCount, put, Vector.getElem_ofFn, Vector.length_toList]
  by_cases h : i < 12
  · rw [if_pos h, if_neg (by omega)]; rfl
  · rw [if_neg h, if_pos (by omega)]
    have h4 : i - 12 < 4 := by omega
    rw [List.getD_eq_getElem?_getD, List.getElem?_eq_getElem (by simpa using h4), Option.getD_some,
      Vector.getElem_toList]
    simp only [beBlock, Vector.getElem_ofFn]
    congr 3; omega

theorem put_drop (v : Vector Byte 16) (w : Vector Byte 4) : (put v 12 w.toList).toList.drop 12 = w.toList := by
  apply List.ext_getElem
  · simp
  intro i h1 h2
  have hi : i < 4 := by simpa using h2
  rw [List.getElem_drop, Vector.getElem_toList]
  simp only [put, Vector.getElem_ofFn, Vector.length_toList]
  rw [if_pos (by omega), show 12 + i - 12 = i by omega, List.getD_eq_getElem?_getD,
    List.getElem?_eq_getElem h2, Option.getD_some]

theorem put_put (v : Vector Byte 16) (w x : Vector Byte 4) : put (put v 12 w.toList) 12 x.toList = put v 12 x.toList := by
  apply Vector.ext
  intro i hi
  simp only [put, Vector.getElem_ofFn, Vector.length_toList]
  split <;> simp [*]

theorem gcmCount_add (v : Vector Byte 16) (j k : Nat) : gcmCount (gcmCount v j) k = gcmCount v (j + k) := by
  rw [gcmCount_put v j, gcmCount_put, put_drop, put_put, beVal_beBlock', gcmCount_put v (j + k),
    beBlock_mod 4 (_ % _ + k), Nat.mod_add_mod, ← beBlock_mod, Nat.add_assoc]

theorem gcmCount_zero (v : Vector Byte 16) : gcmCount v 0 = v := by
  apply Vector.ext
  intro i hi
  have hv := beBlock_val (n := 4) (Vector.ofFn fun j : Fin 4 => v[12 + j.val])
  have hl : (Vector.ofFn fun j : Fin 4 => v[12 + j.val]).toList = v.toList.drop 12 := by
    apply List.ext_getElem
    · simp
    · intro i h1 h2; simp
  rw [gcmCount_put, Nat.add_zero, ← hl, hv]
  simp only [put, Vector.getElem_ofFn, Vector.length_toList]
  split
  · rename_i h
    rw [List.getD_eq_getElem?_getD, List.getElem?_eq_getElem (by simp; omega)]
    simp [show 12 + (i - 12) = i by omega]
  · rfl

theorem gcm_callbacks (c : Cipher 16) : Callbacks (gcm_stream c) ctr_xor (gcmS c) xorByte := by
  refine ⟨fun q pos => ?_, ctr_xor_inner⟩
  rw [gcm_stream]
  show (C.slice q.2.toList 12 4 >>= _) = _
  rw [slice_mid (by simp), C.ok_bind, List.take_of_length_le (by simp)]
  obtain ⟨y, h1, h2, h3⟩ := increment_be_spec (q.2.toList.drop 12)
  rw [h1, C.ok_bind]
  have hl : (q.2.toList.drop 12).length = 4 := by simp
  rw [hl] at h2 h3
  have hy : y = (beBlock 4 (beVal (q.2.toList.drop 12) + 1)).toList := by
    apply beVal_inj
    · simp [h2]
    · rw [h3, beVal_beBlock']
  show (C.putat q.2 12 y >>= _) = _
  rw [putat_eq _ (by omega), C.ok_bind, hy, ← gcmCount_put]
  rfl

theorem gcmS_iter (c : Cipher 16) (q : SI 16) : ∀ k, ((gcmS c)^[k] q).2 = gcmCount q.2 k
  | 0 => by rw [gcmCount_zero]; rfl
  | k + 1 => by rw [Function.iterate_succ_apply', gcmS, gcmS_iter c q k, gcmCount_add]

theorem gcm_ks (c : Cipher 16) (st j : Vector Byte 16) :
    (fun i => ((gcmS c)^[i / 16 + 1] (st, gcmCount j 1)).1.toList.getD (i % 16) 0) =
      fun i => (c.enc (gcmCount j (i / 16 + 1))).toList.getD (i % 16) 0 := by
  funext i
  rw [Function.iterate_succ_apply', gcmS, gcmS_iter, gcmCount_add, Nat.add_comm 1]

/-! ## Sessions -/

/-- What the mode does with a chunk. -/
def chunk {n : Nat} (e : Bool) (c : Cipher n) (same : Bool) (m : CipherMode n) (x : List Byte) :
    C (List Byte × CipherMode n) := if e then cipher_mode_encrypt c m x else cipher_mode_decrypt c same m x

theorem xorStream_add (ks : Nat → Byte) (off : Nat) (x y : List Byte) :
    xorStream ks off (x ++ y) = xorStream ks off x ++ xorStream ks (off + x.length) y := by
  simp only [xorStream]
  apply List.ext_getElem
  · simp
  intro i h1 h2
  simp only [List.getElem_append, List.getElem_mapIdx, List.length_mapIdx]
  split
  · rfl
  · rename_i h
    rw [show off + x.length + (i - x.length) = off + i by omega]

/-- The updates of a session, from an invariant of the mode. -/
theorem calls_aead (ks : Nat → Byte) (Inv : List Byte → CipherMode n → Prop) (ctx : CipherStream n) (same : Bool)
    (hid : ∀ pre m, Inv pre m → 4 < m.id.num)
    (hstep : ∀ pre m x, Inv pre m → ∃ m', chunk ctx.encrypt ctx.cipher same m x = .ok (xorStream ks pre.length x, m') ∧
      Inv (pre ++ x) m') :
    ∀ (chunks : List (List Byte)) (pre : List Byte) (m : CipherMode n), Inv pre m →
    ∃ m', calls (streamUpdate same) { ctx with mode := m } chunks =
      .ok (xorStream ks pre.length chunks.flatten, { ctx with mode := m' }) ∧ Inv (pre ++ chunks.flatten) m'
  | [], pre, m, h => ⟨m, by simp [calls, xorStream], by simpa using h⟩
  | x :: cs, pre, m, h => by
    obtain ⟨m1, h1, h2⟩ := hstep pre m x h
    obtain ⟨m2, h3, h4⟩ := calls_aead ks Inv ctx same hid hstep cs _ m1 h2
    refine ⟨m2, ?_, by simpa using h4⟩
    rw [calls, streamUpdate, cipher_stream_update,
      if_pos (show ({ ctx with mode := m } : CipherStream n).mode.id.num > ModeId.xts.num from hid _ _ h),
      cipher_stream_encipher]
    show ((((chunk ctx.encrypt ctx.cipher same m x >>= _) >>= _) >>= _) >>= _) = _
    rw [h1]
    simp only [C.ok_bind]
    rw [h3, C.ok_bind, List.flatten_cons, xorStream_add, List.length_append]

/-- The end of an encrypting session. -/
theorem final_seal {ctx : CipherStream n} (he : ctx.encrypt = true) (ht : ctx.tag.length = 16) (hm : 8 ≤ ctx.mode.id.num)
    {d : List Byte} (hd : cipher_mode_digest ctx.cipher ctx.mode = .ok d) (hl : d.length ≤ 16) {k : Nat} (hk : 0 < k)
    (hkd : k ≤ d.length) :
    ∃ ctx', cipher_final_tag ctx k = .ok ⟨true, [], 0, ctx'⟩ ∧ cipher_stream_get_tag ctx' = .ok (some (d.take k)) := by
  rw [cipher_final_tag, if_neg (by simp [he]), hd, C.ok_bind, blit0 (by omega), C.ok_bind]
  refine ⟨_, rfl, ?_⟩
  rw [cipher_stream_get_tag]
  dsimp only
  rw [if_neg (by rw [he]; simp [ModeId.num]; exact hm), if_neg (by omega), slice_take _ (by simp; omega), C.ok_bind,
    List.take_append_of_le_length hkd]

/-- The end of a decrypting session. -/
theorem final_open {ctx : CipherStream n} (he : ctx.encrypt = false) {t r : List Byte} (ht : ctx.tag = t ++ r)
    (htl : ctx.tag_len = t.length) {d : List Byte} (hd : cipher_mode_digest ctx.cipher ctx.mode = .ok d)
    (hl : d.length ≤ 16) (htd : t.length ≤ d.length) (k : Nat) :
    cipher_final_tag ctx k = .ok ⟨decide (t ≠ [] ∧ t = d.take t.length), [], 0, ctx⟩ ∧
      cipher_stream_get_tag ctx = .ok none := by
  refine ⟨?_, by rw [cipher_stream_get_tag, if_pos (by simp [he])]⟩
  rw [cipher_final_tag, if_pos (by simp [he]), ht, htl, slice_take _ (by simp), C.ok_bind, List.take_left',
    cipher_mode_verify]
  · by_cases h0 : t.length = 0
    · rw [if_pos (.inl h0), C.ok_bind]
      have : t = [] := List.eq_nil_of_length_eq_zero h0
      simp [this]
    · rw [if_neg (by omega), hd, C.ok_bind, blit0 (by simp; omega), C.ok_bind, slice_take _ (by simp; omega), C.ok_bind,
        C.ok_bind, List.take_append_of_le_length htd, torsion_memequal_spec _ _ (by simp; omega)]
      have hne : t ≠ [] := by intro h; simp [h] at h0
      by_cases h1 : t = d.take t.length
      · rw [if_pos h1.symm, show decide (t ≠ [] ∧ t = d.take t.length) = true from decide_eq_true ⟨hne, h1⟩]; rfl
      · rw [if_neg (fun h => h1 h.symm), show decide (t ≠ [] ∧ t = d.take t.length) = false from
          decide_eq_false (fun h => h1 h.2)]; rfl
  · rfl

end Torsion.Ciph
