import Verif.Cipher.SessionLemmas

/-!
# Lemmas: the final call depends on the message only, and its sizes
-/
namespace Torsion.Ciph
open Spec Blk

variable {n : Nat}

theorem upd_proj (c : CipherStream n) (pos : Nat) (block : List Byte) (last : Vector Byte n) (size : Nat) (mode : CipherMode n) :
    (upd c pos block last size mode).padding = c.padding ∧ (upd c pos block last size mode).encrypt = c.encrypt ∧
    (upd c pos block last size mode).block_pos = pos ∧ (upd c pos block last size mode).last_size = size ∧
    (upd c pos block last size mode).last = last ∧ (upd c pos block last size mode).block = block :=
  ⟨rfl, rfl, rfl, rfl, rfl, rfl⟩

theorem xts_steal_eq (hn16 : n ≤ 16) (c : Cipher n) (m : XtsMode n) (last : Vector Byte n) {block t : List Byte}
    (hb : block.length = 16) (ht : t.length < n) (htk : block.take t.length = t) :
    ∃ l b, xts_steal c m last block t.length = .ok (l, b ++ block.drop t.length) ∧ b.length = t.length ∧
      ∀ block' : List Byte, block'.length = 16 → block'.take t.length = t →
        xts_steal c m last block' t.length = .ok (l, b ++ block'.drop t.length) := by
  by_cases h0 : t.length = 0
  · have : t = [] := by simpa using h0
    subst this
    exact ⟨last, [], rfl, rfl, fun _ _ _ => rfl⟩
  · have hk : (last.toList.take t.length).length = t.length := by simp; omega
    have key : ∀ block' : List Byte, block'.length = 16 → block'.take t.length = t →
        xts_steal c m last block' t.length =
          .ok (vxor (c.enc (vxor (put last 0 t) m.tweak)) m.tweak, last.toList.take t.length ++ block'.drop t.length) := by
      intro b h1 h2
      rw [xts_steal, if_neg h0, C.check, decide_eq_true ht]
      simp only [if_true, C.ok_bind]
      rw [swap_eq hn16 _ h1 ht h2, C.ok_bind]
    exact ⟨_, _, key block hb htk, hk, key⟩

theorem xts_unsteal_eq (hn16 : n ≤ 16) (c : Cipher n) (m : XtsMode n) (last : Vector Byte n) {block t : List Byte}
    (hb : block.length = 16) (ht : t.length < n) (htk : block.take t.length = t) :
    ∃ l b, xts_unsteal c m last block t.length = .ok (l, b ++ block.drop t.length) ∧ b.length = t.length ∧
      ∀ block' : List Byte, block'.length = 16 → block'.take t.length = t →
        xts_unsteal c m last block' t.length = .ok (l, b ++ block'.drop t.length) := by
  by_cases h0 : t.length = 0
  · have : t = [] := by simpa using h0
    subst this
    exact ⟨last, [], rfl, rfl, fun _ _ _ => rfl⟩
  · have key : ∃ l b, b.length = t.length ∧ ∀ block' : List Byte, block'.length = 16 → block'.take t.length = t →
        xts_unsteal c m last block' t.length = .ok (l, b ++ block'.drop t.length) := by
      have hk : ∀ l : Vector Byte n, (l.toList.take t.length).length = t.length := by intro l; simp; omega
      refine ⟨vxor (c.dec (vxor (put (vxor (c.dec (vxor (vxor (c.enc (vxor last m.prev)) m.prev) m.tweak)) m.tweak) 0 t) m.prev)) m.prev,
        _, hk (vxor (c.dec (vxor (vxor (c.enc (vxor last m.prev)) m.prev) m.tweak)) m.tweak), ?_⟩
      · intro b h1 h2
        rw [xts_unsteal, if_neg h0, C.check, decide_eq_true ht]
        simp only [if_true, C.ok_bind]
        rw [swap_eq hn16 _ h1 ht h2, C.ok_bind]
    obtain ⟨l, b, h1, h2⟩ := key
    exact ⟨l, b, h2 block hb htk, h1, h2⟩

/-- Stealing in either direction: the result depends on the first bytes of `block` only. -/
theorem steal_det (hn16 : n ≤ 16) (c : Cipher n) (e : Bool) (m : CipherMode n) (last : Vector Byte n)
    {block block' t : List Byte} (hb : block.length = 16) (ht : t.length < n) (htk : block.take t.length = t)
    (hb' : block'.length = 16) (htk' : block'.take t.length = t) (hm : m.id.steals = true) :
    ∃ l b m', b.length = t.length ∧
      (if e then cipher_mode_steal c m last block t.length else cipher_mode_unsteal c m last block t.length) =
        .ok (l, b ++ block.drop t.length, m') ∧
      (if e then cipher_mode_steal c m last block' t.length else cipher_mode_unsteal c m last block' t.length) =
        .ok (l, b ++ block'.drop t.length, m') := by
  cases m with
  | cts p =>
    cases e with
    | true =>
      simp only [if_true]
      rw [cipher_mode_steal, cipher_mode_steal, cbc_steal_eq hn16 c p last hb ht htk, cbc_steal_eq hn16 c p last hb' ht htk',
        C.ok_bind, C.ok_bind]
      exact ⟨_, _, _, by simp; omega, rfl, rfl⟩
    | false =>
      simp only [Bool.false_eq_true, if_false]
      rw [cipher_mode_unsteal, cipher_mode_unsteal, cbc_unsteal_eq hn16 c p last hb ht htk,
        cbc_unsteal_eq hn16 c p last hb' ht htk', C.ok_bind, C.ok_bind]
      exact ⟨_, _, _, by rw [memxor3_length]; simp; omega, rfl, rfl⟩
  | xts x =>
    cases e with
    | true =>
      simp only [if_true]
      obtain ⟨l, b, h1, h2, h3⟩ := xts_steal_eq hn16 c x last hb ht htk
      rw [cipher_mode_steal, cipher_mode_steal, h1, h3 block' hb' htk', C.ok_bind, C.ok_bind]
      exact ⟨l, b, _, h2, rfl, rfl⟩
    | false =>
      simp only [Bool.false_eq_true, if_false]
      obtain ⟨l, b, h1, h2, h3⟩ := xts_unsteal_eq hn16 c x last hb ht htk
      rw [cipher_mode_unsteal, cipher_mode_unsteal, h1, h3 block' hb' htk', C.ok_bind, C.ok_bind]
      exact ⟨l, b, _, h2, rfl, rfl⟩
  | _ => simp [CipherMode.id, ModeId.steals] at hm

/-- Two contexts that have seen the same message: the same output so far, and the same final call.
The bytes written by the final call are announced by `cipher_stream_final_size`. -/
theorem final_det (hn : Size n) {c0 ctx ctx' : CipherStream n} (hm : Blocky c0.mode) {m out out' : List Byte}
    (hpad : c0.unpad = (c0.padding && ((c0.mode.id.pads && !c0.encrypt) || c0.mode.id.steals)))
    (h : At c0 ctx m out) (h' : At c0 ctx' m out') :
    out = out' ∧ ∃ ret o w c1 c2, cipher_stream_final ctx = .ok ⟨ret, o, w, c1⟩ ∧
      cipher_stream_final ctx' = .ok ⟨ret, o, w, c2⟩ ∧ o.length ≤ w ∧ w ≤ cipher_stream_final_size ctx ∧
      cipher_stream_final_size ctx ≤ 31 := by
  have hn0 := size_pos hn
  have hn16 : n ≤ 16 := by rcases hn with rfl | rfl <;> omega
  obtain ⟨bl, t, rfl, ht⟩ := split n hn0 m
  obtain ⟨block, last, size, h1, h2, rfl, h4⟩ := at_elim ht h
  obtain ⟨block', last', size', h1', h2', rfl, h4'⟩ := at_elim ht h'
  have hkept : out = out' ∧ size = size' ∧ (c0.unpad = true → size ≠ 0 → last = last') := by
    unfold Kept at h4 h4'
    by_cases hu : c0.unpad = true
    · rw [if_pos hu] at h4 h4'
      rcases h4 with ⟨a1, a2, a3⟩ | ⟨i, a1, a2, a3⟩
      · rcases h4' with ⟨b1, b2, b3⟩ | ⟨j, b1, b2, b3⟩
        · exact ⟨by rw [a2, b2], by rw [a3, b3], fun _ h => absurd a3 h⟩
        · rw [a1] at b1; simp at b1
      · rcases h4' with ⟨b1, b2, b3⟩ | ⟨j, b1, b2, b3⟩
        · rw [b1] at a1; simp at a1
        · rw [a1] at b1
          obtain ⟨e1, e2⟩ := List.append_inj' b1 rfl
          exact ⟨by rw [a2, b2, e1], by rw [a3, b3], fun _ _ => List.singleton_inj.1 e2⟩
    · rw [if_neg hu] at h4 h4'
      exact ⟨by rw [h4.1, h4'.1], by rw [h4.2, h4'.2], fun h => absurd h hu⟩
  obtain ⟨e1, rfl, e3⟩ := hkept
  refine ⟨e1, ?_⟩
  have hid := upd_id c0 t.length block last size bl
  have hid' := upd_id c0 t.length block' last' size bl
  have hblk : Blocky (upd c0 t.length block last size (run (step c0) c0.mode bl).2).mode := by
    unfold Blocky; rw [hid]; exact hm
  have hblk' : Blocky (upd c0 t.length block' last' size (run (step c0) c0.mode bl).2).mode := by
    unfold Blocky; rw [hid']; exact hm
  by_cases hs : c0.mode.id.steals = true
  · rw [hs, Bool.or_true, Bool.and_true] at hpad
    have hsz : cipher_stream_final_size (upd c0 t.length block last size (run (step c0) c0.mode bl).2) =
        if c0.padding then n + t.length else 0 := by
      rw [cipher_stream_final_size, hid]
      generalize c0.mode.id = id at hs
      cases id <;> first | rfl | simp [ModeId.steals] at hs
    have hf : ∀ b l, cipher_stream_final (upd c0 t.length b l size (run (step c0) c0.mode bl).2) =
        cipher_final_steal (upd c0 t.length b l size (run (step c0) c0.mode bl).2) := by
      intro b l
      rw [cipher_stream_final, upd_id]
      generalize c0.mode.id = id at hs
      cases id <;> first | rfl | simp [ModeId.steals] at hs
    rw [hsz]
    by_cases hp : c0.padding = true
    · rw [steal_ret hs hp, steal_ret hs hp, if_pos hp]
      by_cases h0 : size = 0
      · rw [if_pos h0, if_pos h0]
        exact ⟨_, _, _, _, _, rfl, rfl, by simp, by omega, by omega⟩
      · rw [if_neg h0, if_neg h0, ← e3 (by rw [hpad, hp]) h0]
        obtain ⟨l, b, m', g1, g2, g3⟩ := steal_det hn16 c0.cipher c0.encrypt (run (step c0) c0.mode bl).2 last h1 ht h2 h1' h2'
          (by rw [show (run (step c0) c0.mode bl).2.id = c0.mode.id from hid]; exact hs)
        rw [g2, g3, C.ok_bind, C.ok_bind]
        dsimp only
        rw [slice_take _ (by simp; omega), slice_take _ (by simp; omega), C.ok_bind, C.ok_bind,
          List.take_left' g1, List.take_left' g1]
        exact ⟨_, _, _, _, _, rfl, rfl, by simp; omega, by omega, by omega⟩
    · rw [hf, hf, if_neg hp, cipher_final_steal, cipher_final_steal]
      simp only [upd_proj]
      rw [if_pos hp, if_pos hp]
      exact ⟨_, _, _, _, _, rfl, rfl, by simp, by omega, by omega⟩
  · by_cases hpd : c0.mode.id.pads = true
    · have hsz : cipher_stream_final_size (upd c0 t.length block last size (run (step c0) c0.mode bl).2) =
          if c0.padding then n else 0 := by
        rw [cipher_stream_final_size, hid]
        generalize c0.mode.id = id at hpd
        cases id <;> first | rfl | simp [ModeId.pads] at hpd
      rw [hsz, final_pad_eq (by rw [hid]; exact hpd), final_pad_eq (by rw [hid']; exact hpd), cipher_final_pad,
        cipher_final_pad]
      simp only [upd_proj]
      by_cases hp : c0.padding = true
      · rw [if_pos hp, if_neg (show ¬ ¬ c0.padding = true from not_not.2 hp), if_neg (show ¬ ¬ c0.padding = true from not_not.2 hp)]
        by_cases he : c0.encrypt = true
        · rw [if_neg (show ¬ ¬ c0.encrypt = true from not_not.2 he), if_neg (show ¬ ¬ c0.encrypt = true from not_not.2 he)]
          have sl : ∀ b : List Byte, b.length = 16 → b.take t.length = t → C.slice b 0 t.length = .ok t := by
            intro b hb1 hb2
            rw [slice_take _ (by omega), hb2]
          rw [sl block h1 h2, sl block' h1' h2', C.ok_bind, C.ok_bind]
          obtain ⟨v, hv, -⟩ := pad7_cat [] t ht
          rw [pkcs7_pad, C.check, decide_eq_true (show t.length ≤ n by omega)]
          simp only [if_true, C.ok_bind]
          rw [← hv]
          have hen := encipher_cat hn (upd c0 t.length block last size (run (step c0) c0.mode bl).2) true hblk [v]
          have hen' := encipher_cat hn (upd c0 t.length block' last' size (run (step c0) c0.mode bl).2) true hblk' [v]
          rw [cat_cons, cat_nil, List.append_nil] at hen hen'
          rw [hen, hen', C.ok_bind, C.ok_bind]
          refine ⟨_, _, _, _, _, rfl, rfl, Nat.le_refl _, ?_, by omega⟩
          dsimp only
          rw [cat_length, run_length]; simp
        · rw [if_pos he, if_pos he]
          by_cases h0 : t.length = 0
          · rw [if_neg (show ¬ t.length ≠ 0 from not_not.2 h0), if_neg (show ¬ t.length ≠ 0 from not_not.2 h0)]
            by_cases h00 : size = 0
            · rw [if_pos h00, if_pos h00]
              exact ⟨_, _, _, _, _, rfl, rfl, by simp, by omega, by omega⟩
            · have hu : c0.unpad = true := by
                rw [hpad, hp, hpd]; simp [he]
              rw [if_neg h00, if_neg h00, ← e3 hu h00]
              have hl : last.toList.length = n := by simp
              by_cases hx : ∃ x', Pkcs7 n x' last.toList
              · obtain ⟨x', hx'⟩ := hx
                obtain ⟨r, g1, g2, g3⟩ := (pkcs7_unpad_iff (by omega) (by omega) hl x').2 hx'
                rw [g1, C.ok_bind, C.ok_bind]
                refine ⟨_, _, _, _, _, rfl, rfl, ?_, by omega, by omega⟩
                rw [g3]
                exact Nat.le_of_lt hx'.1
              · rw [pkcs7_unpad_reject (by omega) (by omega) hl hx, C.ok_bind, C.ok_bind]
                refine ⟨_, _, _, _, _, rfl, rfl, by simp, by omega, by omega⟩
          · rw [if_pos h0, if_pos h0]
            exact ⟨_, _, _, _, _, rfl, rfl, by simp, by omega, by omega⟩
      · rw [if_neg hp, if_pos hp, if_pos hp]
        exact ⟨_, _, _, _, _, rfl, rfl, by simp, by omega, by omega⟩
    · have hr : c0.mode.id = .raw := by
        unfold Blocky at hm
        generalize c0.mode.id = id at hm hs hpd
        cases id <;> simp [ModeId.num, ModeId.steals, ModeId.pads] at hm hs hpd ⊢
      have hsz : cipher_stream_final_size (upd c0 t.length block last size (run (step c0) c0.mode bl).2) = 0 := by
        rw [cipher_stream_final_size, hid, hr]
      rw [hsz, cipher_stream_final, cipher_stream_final, hid, hid', hr]
      exact ⟨_, _, _, _, _, rfl, rfl, by simp, by omega, by omega⟩

theorem update_bound (hn : Size n) {ctx : CipherStream n} (hp : ctx.block_pos < n) (hl : ctx.last_size ≤ n) {len w : Nat}
    (hlen : len < 2 ^ 64)
    (h : cipher_stream_update_size ctx len = .ok w) : w ≤ maxUpdate len := by
  rw [cipher_stream_update_size] at h
  unfold maxUpdate
  split at h
  · cases h; omega
  split at h
  · cases h; omega
  dsimp only at h
  generalize hL : (if ctx.unpad = true then ctx.last_size else 0) = L at h
  have hL' : L ≤ n := by rw [← hL]; split <;> omega
  generalize hX : (if (if ctx.block_pos > 0 then len - (n - ctx.block_pos) else len) ≥ n then
    (if ctx.block_pos > 0 then L + n else L) + align_down n (if ctx.block_pos > 0 then len - (n - ctx.block_pos) else len)
    else if ctx.block_pos > 0 then L + n else L) = X at h
  have hw : w = X := by
    rw [C.check] at h
    split at h
    · rw [C.ok_bind] at h; exact (C.ok.inj h).symm
    · cases h
  rw [hw, ← hX]
  rw [align_val hn (by split <;> omega)]
  rcases hn with rfl | rfl <;> split <;> split <;> omega

theorem at_bounds {c0 ctx : CipherStream n} {m out : List Byte} (h : At c0 ctx m out) : ctx.block_pos < n ∧ ctx.last_size ≤ n := by
  obtain ⟨bl, t, block, last, size, -, ht, -, -, rfl, hk⟩ := h
  refine ⟨ht, ?_⟩
  show size ≤ n
  unfold Kept at hk
  split at hk
  · rcases hk with h | ⟨i, h⟩ <;> omega
  · omega

end Torsion.Ciph
