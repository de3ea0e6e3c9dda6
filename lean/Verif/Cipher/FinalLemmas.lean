import Verif.Cipher.CStreamLemmas
import Verif.Cipher.PadProps

/-!
# Lemmas: `cipher_stream_final` over the block modes
-/
namespace Torsion.Ciph
open Spec Blk

variable {n : Nat}

theorem cat_inj (hn : 0 < n) {a b : List (Vector Byte n)} (h : cat a = cat b) : a = b := by
  have h1 := blocks_cat a [] (by simpa using hn)
  have h2 := blocks_cat b [] (by simpa using hn)
  rw [List.append_nil] at h1 h2
  rw [← h1, ← h2, h]

theorem rest_cat (bl : List (Vector Byte n)) (t : List Byte) (ht : t.length < n) : rest n (cat bl ++ t) = t := by
  rw [rest, List.length_append, cat_length, Nat.mul_comm bl.length, Nat.mul_add_div (by omega),
    Nat.div_eq_of_lt ht, Nat.add_zero, List.drop_left' (by rw [cat_length, Nat.mul_comm])]

theorem cat_mod (bl : List (Vector Byte n)) (t : List Byte) (ht : t.length < n) :
    (cat bl ++ t).length % n = t.length := by
  rw [List.length_append, cat_length, Nat.mul_comm bl.length, Nat.mul_add_mod, Nat.mod_eq_of_lt ht]

theorem cat_div (bl : List (Vector Byte n)) (t : List Byte) (ht : t.length < n) :
    (cat bl ++ t).length / n = bl.length := by
  rw [List.length_append, cat_length, Nat.mul_comm bl.length, Nat.mul_add_div (by omega), Nat.div_eq_of_lt ht,
    Nat.add_zero]

theorem pad7_cat (bl : List (Vector Byte n)) (t : List Byte) (ht : t.length < n) :
    ∃ v : Vector Byte n, v.toList = t ++ List.replicate (n - t.length) (BitVec.ofNat 8 (n - t.length)) ∧
      pad7 n (cat bl ++ t) = cat (bl ++ [v]) := by
  obtain ⟨v, -, hv⟩ := vec_ok (n := n)
    (xs := t ++ List.replicate (n - t.length) (BitVec.ofNat 8 (n - t.length))) (by simp; omega)
  rw [List.take_of_length_le (by simp; omega)] at hv
  refine ⟨v, hv, ?_⟩
  rw [pad7, cat_mod bl t ht, cat_append, cat_cons, cat_nil, List.append_nil, hv, List.append_assoc]

theorem at_new {c0 : CipherStream n} (hn : 0 < n) (h1 : c0.block_pos = 0) (h2 : c0.last_size = 0)
    (h3 : c0.block.length = 16) : At c0 c0 [] [] := by
  refine ⟨[], [], c0.block, c0.last, 0, rfl, hn, h3, rfl, ?_, ?_⟩
  · obtain ⟨⟩ := c0
    simp only at h1 h2
    subst h1 h2
    rfl
  · unfold Kept
    split
    · exact .inl ⟨rfl, rfl, rfl⟩
    · exact ⟨rfl, rfl⟩

theorem upd_id (c0 : CipherStream n) (pos : Nat) (block : List Byte) (last : Vector Byte n) (size : Nat)
    (bl : List (Vector Byte n)) :
    (upd c0 pos block last size (run (step c0) c0.mode bl).2).mode.id = c0.mode.id := run_id c0 bl _

/-! ## Without padding -/

theorem final_none (c0 : CipherStream n)
    (hm : c0.mode.id = .raw ∨ (c0.mode.id.num ≤ 4 ∧ c0.padding = false)) (hu : c0.unpad = false)
    {ctx : CipherStream n} {m out : List Byte} (h : At c0 ctx m out) :
    cipher_stream_final ctx = .ok ⟨decide (n ∣ m.length), [], 0, ctx⟩ ∧
      out = cat (run (step c0) c0.mode (blocks n m)).1 := by
  obtain ⟨bl, t, block, last, size, rfl, ht, hb, htk, rfl, hk⟩ := h
  unfold Kept at hk
  rw [hu] at hk
  refine ⟨?_, by rw [blocks_cat bl t ht]; exact hk.1⟩
  have hd : decide (t.length = 0) = decide (n ∣ (cat bl ++ t).length) := by
    congr 1
    rw [Nat.dvd_iff_mod_eq_zero, cat_mod bl t ht]
  have hid := upd_id c0 t.length block last size bl
  rcases hm with hm | ⟨hm, hp⟩
  · rw [cipher_stream_final, hid, hm]
    exact congrArg (fun b => C.ok (CipherFinal.mk b [] 0 _)) hd
  · rw [cipher_stream_final, hid]
    have h1 : cipher_final_pad (upd c0 t.length block last size (run (step c0) c0.mode bl).2) =
        .ok ⟨decide (n ∣ (cat bl ++ t).length), [], 0, upd c0 t.length block last size (run (step c0) c0.mode bl).2⟩ := by
      rw [cipher_final_pad, if_pos (by rw [show (upd c0 t.length block last size _).padding = c0.padding from rfl, hp]; simp)]
      exact congrArg (fun b => C.ok (CipherFinal.mk b [] 0 _)) hd
    have h2 : cipher_final_steal (upd c0 t.length block last size (run (step c0) c0.mode bl).2) =
        .ok ⟨decide (n ∣ (cat bl ++ t).length), [], 0, upd c0 t.length block last size (run (step c0) c0.mode bl).2⟩ := by
      rw [cipher_final_steal, if_pos (by rw [show (upd c0 t.length block last size _).padding = c0.padding from rfl, hp]; simp)]
      exact congrArg (fun b => C.ok (CipherFinal.mk b [] 0 _)) hd
    generalize c0.mode.id = id at hm ⊢
    cases id with
    | raw => exact congrArg (fun b => C.ok (CipherFinal.mk b [] 0 _)) hd
    | ecb => exact h1
    | cbc => exact h1
    | cts => exact h2
    | xts => exact h2
    | _ => simp [ModeId.num] at hm

/-! ## PKCS#7 -/

theorem final_pad_eq {ctx : CipherStream n} (h : ctx.mode.id.pads = true) :
    cipher_stream_final ctx = cipher_final_pad ctx := by
  rw [cipher_stream_final]
  generalize ctx.mode.id = id at h ⊢
  cases id <;> first | rfl | simp [ModeId.pads] at h

theorem blocky_pads {m : CipherMode n} (h : m.id.pads = true) : Blocky m := by
  unfold Blocky
  generalize m.id = id at h ⊢
  cases id <;> first | (simp [ModeId.num]; done) | (simp [ModeId.pads] at h; done)

theorem final_pad_enc (hn : Size n) (c0 : CipherStream n) (hm : c0.mode.id.pads = true) (he : c0.encrypt = true)
    (hp : c0.padding = true) (hu : c0.unpad = false) {ctx : CipherStream n} {m out : List Byte} (h : At c0 ctx m out) :
    ∃ o ctx', cipher_stream_final ctx = .ok ⟨true, o, n, ctx'⟩ ∧
      out ++ o = cat (run (step c0) c0.mode (blocks n (pad7 n m))).1 := by
  have hn0 := size_pos hn
  have hn16 : n ≤ 16 := by rcases hn with rfl | rfl <;> omega
  obtain ⟨bl, t, block, last, size, rfl, ht, hb, htk, rfl, hk⟩ := h
  unfold Kept at hk
  rw [hu] at hk
  obtain ⟨v, hv, hpad⟩ := pad7_cat bl t ht
  have hbl := blocks_cat (bl ++ [v]) [] (by simpa using hn0)
  rw [List.append_nil] at hbl
  rw [hpad, hbl, run_append, hk.1]
  have hid := upd_id c0 t.length block last size bl
  have hblk : Blocky (upd c0 t.length block last size (run (step c0) c0.mode bl).2).mode := by
    unfold Blocky; rw [hid]; exact blocky_pads hm
  rw [final_pad_eq (by rw [hid]; exact hm), cipher_final_pad,
    if_neg (by rw [show (upd c0 t.length block last size _).padding = c0.padding from rfl, hp]; simp),
    if_neg (by rw [show (upd c0 t.length block last size _).encrypt = c0.encrypt from rfl, he]; simp)]
  rw [show (upd c0 t.length block last size (run (step c0) c0.mode bl).2).block = block from rfl,
    show (upd c0 t.length block last size (run (step c0) c0.mode bl).2).block_pos = t.length from rfl,
    slice_take _ (by omega), C.ok_bind, htk, pkcs7_pad, C.check, decide_eq_true (show t.length ≤ n by omega)]
  simp only [if_true, C.ok_bind]
  rw [← hv]
  have hen := encipher_cat hn (upd c0 t.length block last size (run (step c0) c0.mode bl).2) true hblk [v]
  rw [cat_cons, cat_nil, List.append_nil] at hen
  rw [hen, C.ok_bind]
  dsimp only
  have hlen : (cat (run (step (upd c0 t.length block last size (run (step c0) c0.mode bl).2))
      (upd c0 t.length block last size (run (step c0) c0.mode bl).2).mode [v]).1).length = n := by
    rw [cat_length, run_length]; simp
  rw [hlen]
  exact ⟨_, _, rfl, by rw [cat_append]; rfl⟩

theorem final_pad_dec (hn : Size n) (c0 : CipherStream n) (hm : c0.mode.id.pads = true) (he : c0.encrypt = false)
    (hp : c0.padding = true) (hu : c0.unpad = true) {ctx : CipherStream n} {m out : List Byte} (h : At c0 ctx m out) :
    ∃ ret o w, cipher_stream_final ctx = .ok ⟨ret, o, w, ctx⟩ ∧ w ≤ n ∧
      (ret = false → o = []) ∧
      ∀ x, (ret = true ∧ out ++ o = x) ↔ (n ∣ m.length ∧ cat (run (step c0) c0.mode (blocks n m)).1 = pad7 n x) := by
  have hn0 := size_pos hn
  have hn16 : n ≤ 16 := by rcases hn with rfl | rfl <;> omega
  obtain ⟨bl, t, block, last, size, rfl, ht, hb, htk, rfl, hk⟩ := h
  have hdvd : n ∣ (cat bl ++ t).length ↔ t.length = 0 := by rw [Nat.dvd_iff_mod_eq_zero, cat_mod bl t ht]
  unfold Kept at hk
  rw [hu] at hk
  simp only [if_true] at hk
  rw [blocks_cat bl t ht]
  have hid := upd_id c0 t.length block last size bl
  rw [final_pad_eq (by rw [hid]; exact hm), cipher_final_pad,
    if_neg (by rw [show (upd c0 t.length block last size _).padding = c0.padding from rfl, hp]; simp),
    if_pos (by rw [show (upd c0 t.length block last size _).encrypt = c0.encrypt from rfl, he]; simp)]
  rw [show (upd c0 t.length block last size (run (step c0) c0.mode bl).2).block_pos = t.length from rfl,
    show (upd c0 t.length block last size (run (step c0) c0.mode bl).2).last_size = size from rfl,
    show (upd c0 t.length block last size (run (step c0) c0.mode bl).2).last = last from rfl]
  by_cases h0 : t.length = 0
  · rw [if_neg (by simpa using h0)]
    rcases hk with ⟨k1, k2, k3⟩ | ⟨i, k1, k2, k3⟩
    · rw [if_pos k3]
      refine ⟨false, [], 0, rfl, by omega, fun _ => rfl, fun x => ⟨fun h => absurd h.1 (by simp), fun h => ?_⟩⟩
      rw [k1] at h
      have := congrArg List.length h.2
      have hml := Nat.mod_lt x.length hn0
      rw [pad7, List.length_append, List.length_replicate, cat_nil, List.length_nil] at this
      omega
    · rw [if_neg (by omega)]
      have hl : last.toList.length = n := by simp
      have key : ∀ x', Pkcs7 n x' last.toList ↔ pad7 n (cat i ++ x') = cat (i ++ [last]) ∧ x'.length < n := by
        intro x'
        constructor
        · rintro ⟨h1, h2⟩
          obtain ⟨v, hv, hpad⟩ := pad7_cat i x' h1
          refine ⟨?_, h1⟩
          rw [hpad]
          congr 3
          apply Vector.toList_inj.1
          rw [hv, h2]
        · rintro ⟨h1, h2⟩
          obtain ⟨v, hv, hpad⟩ := pad7_cat i x' h2
          rw [hpad] at h1
          have := cat_inj hn0 h1
          have : v = last := by simpa using this
          exact ⟨h2, by rw [← this, hv]⟩
      by_cases hx : ∃ x', Pkcs7 n x' last.toList
      · obtain ⟨x', hx'⟩ := hx
        obtain ⟨r, h1, h2, h3⟩ := (pkcs7_unpad_iff (by omega) (by omega) hl x').2 hx'
        rw [h1, C.ok_bind, decide_eq_true h2, h3]
        refine ⟨true, x', n, rfl, Nat.le_refl _, by simp, fun x => ?_⟩
        rw [k1, k2]
        constructor
        · rintro ⟨-, rfl⟩
          exact ⟨hdvd.2 h0, ((key x').1 hx').1.symm⟩
        · rintro ⟨-, h4⟩
          refine ⟨rfl, ?_⟩
          obtain ⟨j, y, rfl, hy⟩ := split n hn0 x
          obtain ⟨v, hv, hpad⟩ := pad7_cat j y hy
          rw [hpad] at h4
          have h5 := cat_inj hn0 h4
          rw [List.append_inj' h5 rfl |>.1]
          congr 1
          apply pkcs7_injective (n := n) (by omega) hx'
          have h6 := List.append_inj' h5 rfl |>.2
          rw [List.singleton_inj.1 h6]
          exact ⟨hy, hv⟩
      · rw [pkcs7_unpad_reject (by omega) (by omega) hl hx, C.ok_bind]
        refine ⟨false, [], n, rfl, Nat.le_refl _, fun _ => rfl, fun x => ⟨fun h => absurd h.1 (by simp), fun h => ?_⟩⟩
        obtain ⟨j, y, rfl, hy⟩ := split n hn0 x
        obtain ⟨v, hv, hpad⟩ := pad7_cat j y hy
        have h4 := h.2
        rw [hpad, k1] at h4
        have h5 := cat_inj hn0 h4
        have h6 := List.append_inj' h5 rfl |>.2
        exact absurd ⟨y, by rw [List.singleton_inj.1 h6]; exact ⟨hy, hv⟩⟩ hx
  · rw [if_pos h0]
    exact ⟨false, [], 0, rfl, by omega, fun _ => rfl, fun x => ⟨fun h => absurd h.1 (by simp), fun h => absurd (hdvd.1 h.1) h0⟩⟩

end Torsion.Ciph
