import Verif.Cipher.FinalLemmas
import Verif.Cipher.ModeProps

/-!
# Lemmas: ciphertext stealing
-/
namespace Torsion.Ciph
open Spec Blk

variable {n : Nat}

theorem at_elim {c0 ctx : CipherStream n} {bl : List (Vector Byte n)} {t out : List Byte} (ht : t.length < n)
    (h : At c0 ctx (cat bl ++ t) out) :
    ∃ (block : List Byte) (last : Vector Byte n) (size : Nat), block.length = 16 ∧ block.take t.length = t ∧
    ctx = upd c0 t.length block last size (run (step c0) c0.mode bl).2 ∧
    Kept c0.unpad (run (step c0) c0.mode bl).1 out last size := by
  obtain ⟨bl', t', block, last, size, h1, h2, h3, h4, h5, h6⟩ := h
  have e1 : t = t' := by rw [← rest_cat bl t ht, h1, rest_cat bl' t' h2]
  have e2 : bl = bl' := by rw [← blocks_cat bl t ht, h1, blocks_cat bl' t' h2]
  subst e1 e2
  exact ⟨block, last, size, h3, h4, h5, h6⟩

theorem take_put (v : Vector Byte n) (t : List Byte) (h : t.length ≤ n) : (put v 0 t).toList.take t.length = t := by
  apply List.ext_getElem
  · simp; omega
  · intro i h1 h2
    simp [put, h2]

theorem put_self (v w : Vector Byte n) {r : Nat} (h : ∀ i (hi : i < n), r ≤ i → v[i] = w[i]) :
    put v 0 (w.toList.take r) = w := by
  apply Vector.ext
  intro i hi
  simp only [put, Vector.getElem_ofFn, List.length_take, Vector.length_toList]
  split
  · rename_i h1
    simp [show i < r by omega, hi]
  · rename_i h1
    exact h i hi (by omega)

theorem fillUp_eq (v : Vector Byte n) (t : List Byte) : fillUp v t = put v 0 t := by
  apply Vector.ext
  intro i hi
  simp [fillUp, put]

theorem xorat_eq (v : Vector Byte n) {t : List Byte} (h : t.length ≤ n) : C.xorat v 0 t = .ok (padXor v t) := by
  rw [C.xorat, if_pos (by omega)]
  congr 1
  apply Vector.ext
  intro i hi
  simp only [padXor, Vector.getElem_ofFn]
  split
  · simp
  · simp [show t.length ≤ i by omega]

theorem blit0 {block src : List Byte} (h : src.length ≤ block.length) :
    C.blit block 0 src = .ok (src ++ block.drop src.length) := by
  rw [blit_eq (by omega)]; simp

theorem swap_eq (hn16 : n ≤ 16) (last : Vector Byte n) {block : List Byte} {t : List Byte} (hb : block.length = 16)
    (ht : t.length < n) (htk : block.take t.length = t) :
    swap_bytes last block t.length =
      .ok (put last 0 t, last.toList.take t.length ++ block.drop t.length) := by
  have h1 : (last.toList.take t.length).length = t.length := by simp; omega
  rw [swap_bytes, slice_take _ (by omega), C.ok_bind, slice_take _ (by simp; omega), C.ok_bind, htk,
    blit0 (by omega), C.ok_bind, putat_eq _ (by omega), C.ok_bind, h1]

theorem cbc_steal_eq (hn16 : n ≤ 16) (c : Cipher n) (prev last : Vector Byte n) {block t : List Byte}
    (hb : block.length = 16) (ht : t.length < n) (htk : block.take t.length = t) :
    cbc_steal c prev last block t.length =
      .ok (c.enc (padXor prev t), last.toList.take t.length ++ block.drop t.length, c.enc (padXor prev t)) := by
  have h1 : (last.toList.take t.length).length = t.length := by simp; omega
  rw [cbc_steal, C.check, decide_eq_true ht]
  simp only [if_true, C.ok_bind]
  rw [slice_take _ (by omega), C.ok_bind, htk, xorat_eq _ (by omega), C.ok_bind,
    slice_take _ (by simp; omega), C.ok_bind, blit0 (by omega), C.ok_bind, h1]

theorem cbc_unsteal_eq (hn16 : n ≤ 16) (c : Cipher n) (prev last : Vector Byte n) {block t : List Byte}
    (hb : block.length = 16) (ht : t.length < n) (htk : block.take t.length = t) :
    cbc_unsteal c prev last block t.length =
      .ok (bxor (c.dec (put (c.dec prev) 0 t)) (bxor last (c.dec prev)),
        memxor3 t ((c.dec prev).toList.take t.length) ++ block.drop t.length, c.dec prev) := by
  have h1 : (memxor3 t ((c.dec prev).toList.take t.length)).length = t.length := by
    rw [memxor3_length]; simp; omega
  rw [cbc_unsteal, C.check, decide_eq_true ht]
  simp only [if_true, C.ok_bind]
  rw [slice_take _ (by omega), C.ok_bind, htk, slice_take _ (by simp; omega), C.ok_bind, putat_eq _ (by omega), C.ok_bind,
    blit0 (by omega), C.ok_bind, h1, vxor_eq, vxor_eq]

theorem steal_ret {c0 : CipherStream n} (hm : c0.mode.id.steals = true) (hp : c0.padding = true)
    {bl : List (Vector Byte n)} {t block : List Byte} {last : Vector Byte n} {size : Nat} :
    cipher_stream_final (upd c0 t.length block last size (run (step c0) c0.mode bl).2) =
      if size = 0 then .ok ⟨false, [], 0, upd c0 t.length block last size (run (step c0) c0.mode bl).2⟩
      else (do
        let r ← (if c0.encrypt then
            cipher_mode_steal c0.cipher (run (step c0) c0.mode bl).2 last block t.length
          else cipher_mode_unsteal c0.cipher (run (step c0) c0.mode bl).2 last block t.length)
        let b ← C.slice r.2.1 0 t.length
        .ok ⟨true, r.1.toList ++ b, n + t.length, upd c0 t.length r.2.1 r.1 size r.2.2⟩) := by
  have hid := upd_id c0 t.length block last size bl
  have : cipher_stream_final (upd c0 t.length block last size (run (step c0) c0.mode bl).2) =
      cipher_final_steal (upd c0 t.length block last size (run (step c0) c0.mode bl).2) := by
    rw [cipher_stream_final, hid]
    generalize c0.mode.id = id at hm ⊢
    cases id <;> first | rfl | simp [ModeId.steals] at hm
  rw [this, cipher_final_steal,
    if_neg (by rw [show (upd c0 t.length block last size _).padding = c0.padding from rfl, hp]; simp)]
  rfl

theorem steal_short {c0 ctx : CipherStream n} (hm : c0.mode.id.steals = true) (hp : c0.padding = true)
    (hu : c0.unpad = true) {m out : List Byte} (hl : m.length < n) (h : At c0 ctx m out) :
    cipher_stream_final ctx = .ok ⟨false, [], 0, ctx⟩ ∧ out = [] := by
  have h' : At c0 ctx (cat ([] : List (Vector Byte n)) ++ m) out := h
  obtain ⟨block, last, size, h1, h2, rfl, h4⟩ := at_elim hl h'
  unfold Kept at h4
  rw [if_pos hu] at h4
  rcases h4 with ⟨-, h5, h6⟩ | ⟨i, h5, -⟩
  · rw [steal_ret hm hp, if_pos h6]
    exact ⟨rfl, h5⟩
  · simp [run] at h5

theorem lastBlock_snoc (p v : Vector Byte n) (bl : List (Vector Byte n)) : lastBlock p (bl ++ [v]) = v := by
  rw [lastBlock]; simp

/-- A message of at least one block. -/
theorem split_ge (hn : 0 < n) {m : List Byte} (h : n ≤ m.length) :
    ∃ (bs : List (Vector Byte n)) (b : Vector Byte n) (t : List Byte), m = cat (bs ++ [b]) ++ t ∧ t.length < n := by
  obtain ⟨bl, t, h1, h2⟩ := split n hn m
  have : bl ≠ [] := by rintro rfl; rw [h1] at h; simp at h; omega
  exact ⟨_, _, t, by rw [List.dropLast_append_getLast this]; exact h1, h2⟩

theorem run_snoc {S : Type} (f : S → Vector Byte n → Vector Byte n × S) (s : S) (bs : List (Vector Byte n)) (b : Vector Byte n) :
    run f s (bs ++ [b]) = ((run f s bs).1 ++ [(f (run f s bs).2 b).1], (f (run f s bs).2 b).2) := by
  rw [run_append]; rfl

/-! ## CBC -/

theorem step_cts_enc {c0 : CipherStream n} (he : c0.encrypt = true) (iv : Vector Byte n) (bl : List (Vector Byte n)) :
    run (step c0) (.cts iv) bl =
      (cbcEnc c0.cipher.enc iv bl, .cts (lastBlock iv (cbcEnc c0.cipher.enc iv bl))) := by
  rw [step, if_pos he, run_map (f := cbcE c0.cipher) (g := stepE c0.cipher) CipherMode.cts (fun _ _ => rfl), run_cbcE]

theorem step_cts_dec {c0 : CipherStream n} (he : c0.encrypt = false) (iv : Vector Byte n) (bl : List (Vector Byte n)) :
    run (step c0) (.cts iv) bl =
      (cbcDec c0.cipher.dec iv bl, .cts (lastBlock iv bl)) := by
  rw [step, if_neg (by simp [he]), run_map (f := cbcD c0.cipher) (g := stepD c0.cipher) CipherMode.cts (fun _ _ => rfl), run_cbcD]

theorem cbcEnc_snoc (c : Cipher n) (iv : Vector Byte n) (bs : List (Vector Byte n)) (b : Vector Byte n) :
    cbcEnc c.enc iv (bs ++ [b]) =
      cbcEnc c.enc iv bs ++ [c.enc (bxor b (lastBlock iv (cbcEnc c.enc iv bs)))] := by
  have := congrArg Prod.fst (run_snoc (cbcE c) iv bs b)
  rw [run_cbcE, run_cbcE] at this
  exact this

theorem cbcDec_snoc (c : Cipher n) (iv : Vector Byte n) (bs : List (Vector Byte n)) (b : Vector Byte n) :
    cbcDec c.dec iv (bs ++ [b]) = cbcDec c.dec iv bs ++ [bxor (c.dec b) (lastBlock iv bs)] := by
  have := congrArg Prod.fst (run_snoc (cbcD c) iv bs b)
  rw [run_cbcD, run_cbcD] at this
  exact this

theorem ctsEnc_cat (c : Cipher n) (iv : Vector Byte n) (bs : List (Vector Byte n)) (b : Vector Byte n) (t : List Byte)
    (ht : t.length < n) :
    ctsEnc c.enc iv (cat (bs ++ [b]) ++ t) =
      cat (cbcEnc c.enc iv bs ++ [c.enc (padXor (c.enc (bxor b (lastBlock iv (cbcEnc c.enc iv bs)))) t)]) ++
        (c.enc (bxor b (lastBlock iv (cbcEnc c.enc iv bs)))).toList.take t.length := by
  rw [ctsEnc, blocks_cat _ t ht, rest_cat _ t ht, cbcEnc_snoc, lastBlock_snoc]
  simp [unblocks_eq, cat_append]

theorem ctsEnc_length (hn : 0 < n) (c : Cipher n) (iv : Vector Byte n) {m : List Byte} (h : n ≤ m.length) :
    (ctsEnc c.enc iv m).length = m.length := by
  obtain ⟨bs, b, t, rfl, ht⟩ := split_ge hn h
  rw [ctsEnc_cat c iv bs b t ht, List.length_append, List.length_append, cat_length, cat_length, List.length_append,
    List.length_append, cbcEnc_length]
  simp; omega

theorem final_cts_enc (hn : Size n) {c0 ctx : CipherStream n} {iv : Vector Byte n} (hm : c0.mode = .cts iv)
    (he : c0.encrypt = true) (hp : c0.padding = true) (hu : c0.unpad = true) {m out : List Byte} (hl : n ≤ m.length)
    (h : At c0 ctx m out) :
    ∃ o ctx', cipher_stream_final ctx = .ok ⟨true, o, n + m.length % n, ctx'⟩ ∧ out ++ o = ctsEnc c0.cipher.enc iv m := by
  have hn16 : n ≤ 16 := by rcases hn with rfl | rfl <;> omega
  have hn0 := size_pos hn
  obtain ⟨bs, b, t, rfl, ht⟩ := split_ge hn0 hl
  obtain ⟨block, last, size, h1, h2, rfl, h4⟩ := at_elim ht h
  unfold Kept at h4
  rw [steal_ret (by rw [hm]; rfl) hp]
  rw [if_pos hu, hm, step_cts_enc he, cbcEnc_snoc] at h4
  rw [hm, step_cts_enc he, cbcEnc_snoc, lastBlock_snoc]
  rcases h4 with ⟨h5, -⟩ | ⟨i, h5, h6, h7⟩
  · simp at h5
  obtain ⟨h8, h9⟩ := List.append_inj' h5 rfl
  have h9 := List.singleton_inj.1 h9
  rw [if_neg (by omega), if_pos he, cipher_mode_steal, cbc_steal_eq hn16 _ _ _ h1 ht h2, C.ok_bind]
  have hk : (last.toList.take t.length).length = t.length := by simp; omega
  simp only [C.ok_bind]
  rw [slice_take _ (by simp; omega), C.ok_bind, List.take_left' hk, cat_mod _ t ht]
  refine ⟨_, _, rfl, ?_⟩
  rw [ctsEnc_cat _ _ _ _ _ ht, h6, ← h8, cat_append, h9]
  simp

theorem xor_take (l : Vector Byte n) {t : List Byte} (ht : t.length ≤ n) :
    memxor3 (l.toList.take t.length) ((padXor l t).toList.take t.length) = t := by
  apply List.ext_getElem
  · rw [memxor3_length]; simp; omega
  · intro i h1 h2
    simp [memxor3, padXor, h2]
    rw [← BitVec.xor_assoc, BitVec.xor_self, BitVec.zero_xor]

theorem final_cts_dec (hn : Size n) {c0 ctx : CipherStream n} {iv : Vector Byte n} (hm : c0.mode = .cts iv)
    (hc : Invertible c0.cipher)
    (he : c0.encrypt = false) (hp : c0.padding = true) (hu : c0.unpad = true) {m out : List Byte} (hl : n ≤ m.length)
    (h : At c0 ctx (ctsEnc c0.cipher.enc iv m) out) :
    ∃ o ctx', cipher_stream_final ctx = .ok ⟨true, o, n + m.length % n, ctx'⟩ ∧ out ++ o = m := by
  have hn16 : n ≤ 16 := by rcases hn with rfl | rfl <;> omega
  have hn0 := size_pos hn
  obtain ⟨bs, b, t, rfl, ht⟩ := split_ge hn0 hl
  rw [ctsEnc_cat _ _ _ _ _ ht] at h
  generalize hlv : c0.cipher.enc (bxor b (lastBlock iv (cbcEnc c0.cipher.enc iv bs))) = l at h
  have hk : (l.toList.take t.length).length = t.length := by simp; omega
  obtain ⟨block, last, size, h1, h2, rfl, h4⟩ := at_elim (by omega) h
  unfold Kept at h4
  rw [steal_ret (by rw [hm]; rfl) hp]
  rw [if_pos hu, hm, step_cts_dec he, cbcDec_snoc, hc, cbc_inv hc] at h4
  rw [hm, step_cts_dec he, cbcDec_snoc, lastBlock_snoc]
  rcases h4 with ⟨h5, -⟩ | ⟨i, h5, h6, h7⟩
  · simp at h5
  obtain ⟨h8, h9⟩ := List.append_inj' h5 rfl
  have h9 := List.singleton_inj.1 h9
  rw [if_neg (by omega), if_neg (by simp [he]), cipher_mode_unsteal, cbc_unsteal_eq hn16 _ _ _ h1 (by omega) h2, C.ok_bind]
  simp only [C.ok_bind]
  rw [hc, hk, xor_take l (by omega), slice_take _ (by simp), C.ok_bind, List.take_left' rfl, cat_mod _ t ht]
  refine ⟨_, _, rfl, ?_⟩
  have e1 : put (padXor l t) 0 (l.toList.take t.length) = l := by
    apply put_self
    intro i hi hr
    simp [padXor, hr]
  rw [e1, ← h9, ← hlv, hc, h6, ← h8, bxor_comm (padXor _ t), bxor_cancel, bxor_cancel]
  rw [cat_append]; simp

/-! ## XTS -/

theorem step_xts_enc {c0 : CipherStream n} (he : c0.encrypt = true) (x : XtsMode n) (bl : List (Vector Byte n)) :
    run (step c0) (.xts x) bl =
      (xtsBlocks c0.cipher.enc x.tweak bl, .xts ⟨xtsNext^[bl.length] x.tweak, x.prev⟩) := by
  rw [step, if_pos he, run_map (f := xtsE c0.cipher) (g := stepE c0.cipher) CipherMode.xts (fun _ _ => rfl), run_xtsE]

theorem step_xts_dec {c0 : CipherStream n} (he : c0.encrypt = false) (x : XtsMode n) (bl : List (Vector Byte n)) :
    run (step c0) (.xts x) bl =
      (xtsBlocks c0.cipher.dec x.tweak bl, .xts ⟨xtsNext^[bl.length] x.tweak,
        if bl = [] then x.prev else xtsNext^[bl.length - 1] x.tweak⟩) := by
  rw [step, if_neg (by simp [he]), run_map (f := xtsD c0.cipher) (g := stepD c0.cipher) CipherMode.xts (fun _ _ => rfl), run_xtsD]

/-- One block with a given tweak. -/
def tw (f : Vector Byte n → Vector Byte n) (t v : Vector Byte n) : Vector Byte n := bxor (f (bxor v t)) t

theorem xtsBlocks_snoc (f : Vector Byte n → Vector Byte n) : ∀ (bs : List (Vector Byte n)) (b t : Vector Byte n),
    xtsBlocks f t (bs ++ [b]) = xtsBlocks f t bs ++ [tw f (xtsNext^[bs.length] t) b]
  | [], b, t => rfl
  | v :: bs, b, t => by
    rw [List.cons_append, xtsBlocks, xtsBlocks_snoc f bs, xtsBlocks]; rfl

theorem tw_inv {c : Cipher n} (hc : Invertible c) (t v : Vector Byte n) : tw c.dec t (tw c.enc t v) = v := by
  rw [tw, tw, bxor_cancel, hc, bxor_cancel]

theorem tw_inv' {c : Cipher n} (hc : Invertible c) (t v : Vector Byte n) : tw c.enc t (tw c.dec t v) = v := by
  rw [tw, tw, bxor_cancel, inv_both hc, bxor_cancel]

theorem xtsEnc_cat (c : Cipher n) (x : Vector Byte n) (bs : List (Vector Byte n)) (b : Vector Byte n) (t : List Byte)
    (ht : t.length < n) :
    xtsEnc c.enc x (cat (bs ++ [b]) ++ t) =
      if t.length = 0 then cat (xtsBlocks c.enc x (bs ++ [b]))
      else
        cat (xtsBlocks c.enc x bs ++ [tw c.enc (xtsNext^[bs.length + 1] x)
          (put (tw c.enc (xtsNext^[bs.length] x) b) 0 t)]) ++ (tw c.enc (xtsNext^[bs.length] x) b).toList.take t.length := by
  rw [xtsEnc, blocks_cat _ t ht, rest_cat _ t ht, cat_mod _ t ht, cat_div _ t ht]
  split
  · rfl
  · rw [xtsBlocks_snoc, lastBlock_snoc, List.dropLast_concat]
    simp [unblocks_eq, tw, fillUp_eq, cat_append]

theorem xtsEnc_length (hn : 0 < n) (c : Cipher n) (x : Vector Byte n) {m : List Byte} (h : n ≤ m.length) :
    (xtsEnc c.enc x m).length = m.length := by
  obtain ⟨bs, b, t, rfl, ht⟩ := split_ge hn h
  rw [xtsEnc_cat c x bs b t ht]
  split
  · rename_i h0
    rw [List.length_append, cat_length, cat_length, xtsBlocks_length, h0, Nat.add_zero]
  · rw [List.length_append, List.length_append, cat_length, cat_length, List.length_append,
      List.length_append, xtsBlocks_length]
    simp; omega

theorem final_xts_enc (hn : Size n) {c0 ctx : CipherStream n} {x : XtsMode n} (hm : c0.mode = .xts x)
    (he : c0.encrypt = true) (hp : c0.padding = true) (hu : c0.unpad = true) {m out : List Byte} (hl : n ≤ m.length)
    (h : At c0 ctx m out) :
    ∃ o ctx', cipher_stream_final ctx = .ok ⟨true, o, n + m.length % n, ctx'⟩ ∧ out ++ o = xtsEnc c0.cipher.enc x.tweak m := by
  have hn16 : n ≤ 16 := by rcases hn with rfl | rfl <;> omega
  have hn0 := size_pos hn
  obtain ⟨bs, b, t, rfl, ht⟩ := split_ge hn0 hl
  obtain ⟨block, last, size, h1, h2, rfl, h4⟩ := at_elim ht h
  unfold Kept at h4
  rw [steal_ret (by rw [hm]; rfl) hp]
  rw [if_pos hu, hm, step_xts_enc he, xtsBlocks_snoc] at h4
  rw [hm, step_xts_enc he, xtsEnc_cat _ _ _ _ _ ht, cat_mod _ t ht]
  rcases h4 with ⟨h5, -⟩ | ⟨i, h5, h6, h7⟩
  · simp at h5
  obtain ⟨h8, h9⟩ := List.append_inj' h5 rfl
  have h9 := List.singleton_inj.1 h9
  rw [if_neg (by omega), if_pos he, cipher_mode_steal, xts_steal]
  by_cases h0 : t.length = 0
  · rw [if_pos h0, if_pos h0]
    simp only [C.ok_bind]
    rw [slice_take _ (by omega), C.ok_bind, h2]
    refine ⟨_, _, rfl, ?_⟩
    have : t = [] := by simpa using h0
    rw [xtsBlocks_snoc, cat_append, h9, h8, h6, this]
    simp
  · rw [if_neg h0, if_neg h0, C.check, decide_eq_true ht]
    simp only [if_true, C.ok_bind]
    have hk : (last.toList.take t.length).length = t.length := by simp; omega
    rw [swap_eq hn16 _ h1 ht h2]
    simp only [C.ok_bind]
    rw [slice_take _ (by simp; omega), C.ok_bind, List.take_left' hk]
    refine ⟨_, _, rfl, ?_⟩
    rw [h6, h8, h9, cat_append, List.length_append, vxor_eq, vxor_eq]
    simp [tw]

theorem final_xts_dec (hn : Size n) {c0 ctx : CipherStream n} {x : XtsMode n} (hm : c0.mode = .xts x)
    (hc : Invertible c0.cipher)
    (he : c0.encrypt = false) (hp : c0.padding = true) (hu : c0.unpad = true) {m out : List Byte} (hl : n ≤ m.length)
    (h : At c0 ctx (xtsEnc c0.cipher.enc x.tweak m) out) :
    ∃ o ctx', cipher_stream_final ctx = .ok ⟨true, o, n + m.length % n, ctx'⟩ ∧ out ++ o = m := by
  have hn16 : n ≤ 16 := by rcases hn with rfl | rfl <;> omega
  have hn0 := size_pos hn
  obtain ⟨bs, b, t, rfl, ht⟩ := split_ge hn0 hl
  rw [xtsEnc_cat _ _ _ _ _ ht] at h
  rw [cat_mod _ t ht]
  by_cases h0 : t.length = 0
  · have h00 : t = [] := by simpa using h0
    subst h00
    rw [if_pos h0, ← List.append_nil (cat _)] at h
    obtain ⟨block, last, size, h1, h2, rfl, h4⟩ := at_elim ht h
    unfold Kept at h4
    rw [steal_ret (by rw [hm]; rfl) hp]
    rw [if_pos hu, hm, step_xts_dec he, xts_inv hc] at h4
    rw [hm, step_xts_dec he, xts_inv hc]
    rcases h4 with ⟨h5, -⟩ | ⟨i, h5, h6, h7⟩
    · simp at h5
    obtain ⟨h8, h9⟩ := List.append_inj' h5 rfl
    have h9 := List.singleton_inj.1 h9
    rw [if_neg (by omega), if_neg (by simp [he]), cipher_mode_unsteal, xts_unsteal, if_pos h0]
    simp only [C.ok_bind]
    rw [slice_take _ (by omega), C.ok_bind, h2]
    refine ⟨_, _, rfl, ?_⟩
    rw [cat_append, h9, h8, h6]
    simp
  · rw [if_neg h0] at h
    generalize hlv : tw c0.cipher.enc (xtsNext^[bs.length] x.tweak) b = l at h
    have hk : (l.toList.take t.length).length = t.length := by simp; omega
    obtain ⟨block, last, size, h1, h2, rfl, h4⟩ := at_elim (by omega) h
    unfold Kept at h4
    rw [steal_ret (by rw [hm]; rfl) hp]
    rw [if_pos hu, hm, step_xts_dec he, xtsBlocks_snoc, xtsBlocks_length, xts_inv hc] at h4
    rw [hm, step_xts_dec he]
    rcases h4 with ⟨h5, -⟩ | ⟨i, h5, h6, h7⟩
    · simp at h5
    obtain ⟨h8, h9⟩ := List.append_inj' h5 rfl
    have h9 := List.singleton_inj.1 h9
    rw [if_neg (by omega), if_neg (by simp [he]), cipher_mode_unsteal, xts_unsteal, if_neg (by omega), C.check,
      decide_eq_true (by omega)]
    simp only [if_true, C.ok_bind]
    rw [if_neg (by simp), List.length_append, xtsBlocks_length, List.length_singleton, Nat.add_sub_cancel,
      swap_eq hn16 _ h1 (by omega) h2, hk]
    simp only [vxor_eq, C.ok_bind]
    have e1 : bxor (c0.cipher.enc (bxor last (xtsNext^[bs.length] x.tweak))) (xtsNext^[bs.length] x.tweak) =
        tw c0.cipher.enc (xtsNext^[bs.length + 1] x.tweak) (put l 0 t) := by
      rw [← h9]
      exact tw_inv' hc _ _
    rw [e1, show bxor (c0.cipher.dec (bxor (tw c0.cipher.enc (xtsNext^[bs.length + 1] x.tweak) (put l 0 t))
      (xtsNext^[bs.length + 1] x.tweak))) (xtsNext^[bs.length + 1] x.tweak) = put l 0 t from tw_inv hc _ _]
    have e2 : put (put l 0 t) 0 (l.toList.take t.length) = l := by
      apply put_self
      intro i hi hr
      simp [put]
      omega
    rw [e2, take_put _ _ (by omega), slice_take _ (by simp), C.ok_bind, List.take_left' rfl]
    refine ⟨_, _, rfl, ?_⟩
    rw [← hlv, show bxor (c0.cipher.dec (bxor (tw c0.cipher.enc (xtsNext^[bs.length] x.tweak) b)
      (xtsNext^[bs.length] x.tweak))) (xtsNext^[bs.length] x.tweak) = b from tw_inv hc _ _, h6, ← h8, cat_append]
    simp

end Torsion.Ciph
