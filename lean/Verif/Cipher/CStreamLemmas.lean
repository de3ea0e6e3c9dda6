import Verif.Cipher.SerialLemmas

/-!
# Lemmas: the cipher stream over the block modes
-/
namespace Torsion.Ciph
open Spec Blk

variable {n : Nat}

/-- One block of encryption, whatever the mode (meant for the block modes). -/
def stepE (c : Cipher n) : CipherMode n → Vector Byte n → Vector Byte n × CipherMode n
  | .raw, v => (c.enc v, .raw)
  | .ecb, v => (c.enc v, .ecb)
  | .cbc p, v => ((cbcE c p v).1, .cbc (cbcE c p v).2)
  | .cts p, v => ((cbcE c p v).1, .cts (cbcE c p v).2)
  | .xts p, v => ((xtsE c p v).1, .xts (xtsE c p v).2)
  | m, v => (v, m)

/-- One block of decryption, whatever the mode (meant for the block modes). -/
def stepD (c : Cipher n) : CipherMode n → Vector Byte n → Vector Byte n × CipherMode n
  | .raw, v => (c.dec v, .raw)
  | .ecb, v => (c.dec v, .ecb)
  | .cbc p, v => ((cbcD c p v).1, .cbc (cbcD c p v).2)
  | .cts p, v => ((cbcD c p v).1, .cts (cbcD c p v).2)
  | .xts p, v => ((xtsD c p v).1, .xts (xtsD c p v).2)
  | m, v => (v, m)

theorem run_map {S T : Type} {f : S → Vector Byte n → Vector Byte n × S}
    {g : T → Vector Byte n → Vector Byte n × T} (F : S → T)
    (h : ∀ s v, g (F s) v = ((f s v).1, F (f s v).2)) : ∀ (bl : List (Vector Byte n)) (s : S),
    run g (F s) bl = ((run f s bl).1, F (run f s bl).2)
  | [], s => rfl
  | v :: bl, s => by rw [run, h, run_map F h bl]; rfl

theorem run_const {T : Type} (f : Vector Byte n → Vector Byte n)
    {g : T → Vector Byte n → Vector Byte n × T} (t : T) (h : ∀ v, g t v = (f v, t)) :
    ∀ (bl : List (Vector Byte n)), run g t bl = (bl.map f, t)
  | [] => rfl
  | v :: bl => by rw [run, h, run_const f t h bl]; rfl

/-- The block modes. -/
def Blocky (m : CipherMode n) : Prop := m.id.num ≤ 4

theorem mode_encrypt_cat (hn : Size n) (c : Cipher n) {m : CipherMode n} (hm : Blocky m) (bl : List (Vector Byte n)) :
    cipher_mode_encrypt c m (cat bl) = .ok (cat (run (stepE c) m bl).1, (run (stepE c) m bl).2) := by
  cases m with
  | raw => rw [cipher_mode_encrypt, ecb_encrypt_cat hn, C.ok_bind, run_const c.enc _ (fun _ => rfl)]
  | ecb => rw [cipher_mode_encrypt, ecb_encrypt_cat hn, C.ok_bind, run_const c.enc _ (fun _ => rfl)]
  | cbc p =>
    rw [cipher_mode_encrypt, mode_put, cbc_encrypt_cat hn, C.ok_bind, run_map (f := cbcE c) (g := stepE c) CipherMode.cbc (fun _ _ => rfl)]
  | cts p =>
    rw [cipher_mode_encrypt, mode_put, cbc_encrypt_cat hn, C.ok_bind, run_map (f := cbcE c) (g := stepE c) CipherMode.cts (fun _ _ => rfl)]
  | xts p =>
    rw [cipher_mode_encrypt, mode_put, xts_encrypt_cat hn, C.ok_bind, run_map (f := xtsE c) (g := stepE c) CipherMode.xts (fun _ _ => rfl)]
  | _ => exact absurd hm (by simp [Blocky, CipherMode.id, ModeId.num])

theorem mode_decrypt_cat (hn : Size n) (c : Cipher n) (same : Bool) {m : CipherMode n} (hm : Blocky m)
    (bl : List (Vector Byte n)) :
    cipher_mode_decrypt c same m (cat bl) = .ok (cat (run (stepD c) m bl).1, (run (stepD c) m bl).2) := by
  cases m with
  | raw => rw [cipher_mode_decrypt, ecb_decrypt_cat hn, C.ok_bind, run_const c.dec _ (fun _ => rfl)]
  | ecb => rw [cipher_mode_decrypt, ecb_decrypt_cat hn, C.ok_bind, run_const c.dec _ (fun _ => rfl)]
  | cbc p =>
    rw [cipher_mode_decrypt, mode_put, cbc_decrypt_cat hn, C.ok_bind, run_map (f := cbcD c) (g := stepD c) CipherMode.cbc (fun _ _ => rfl)]
  | cts p =>
    rw [cipher_mode_decrypt, mode_put, cbc_decrypt_cat hn, C.ok_bind, run_map (f := cbcD c) (g := stepD c) CipherMode.cts (fun _ _ => rfl)]
  | xts p =>
    rw [cipher_mode_decrypt, mode_put, xts_decrypt_cat hn, C.ok_bind, run_map (f := xtsD c) (g := stepD c) CipherMode.xts (fun _ _ => rfl)]
  | _ => exact absurd hm (by simp [Blocky, CipherMode.id, ModeId.num])

/-- The one-block step of a context. -/
def step (ctx : CipherStream n) : CipherMode n → Vector Byte n → Vector Byte n × CipherMode n :=
  if ctx.encrypt then stepE ctx.cipher else stepD ctx.cipher

theorem step_id (ctx : CipherStream n) (m : CipherMode n) (v : Vector Byte n) : ((step ctx m v).2).id = m.id := by
  unfold step
  split <;> cases m <;> rfl

theorem run_id (ctx : CipherStream n) : ∀ (bl : List (Vector Byte n)) (m : CipherMode n),
    ((run (step ctx) m bl).2).id = m.id
  | [], m => rfl
  | v :: bl, m => by rw [run]; dsimp only; rw [run_id ctx bl, step_id]

theorem encipher_cat (hn : Size n) (ctx : CipherStream n) (same : Bool) (hm : Blocky ctx.mode)
    (bl : List (Vector Byte n)) :
    cipher_stream_encipher ctx same (cat bl) =
      .ok (cat (run (step ctx) ctx.mode bl).1, { ctx with mode := (run (step ctx) ctx.mode bl).2 }) := by
  rw [cipher_stream_encipher, step]
  cases ctx.encrypt with
  | true => simp only [if_true]; rw [mode_encrypt_cat hn _ hm, C.ok_bind]
  | false =>
    simp only [Bool.false_eq_true, if_false]; rw [mode_decrypt_cat hn _ _ hm, C.ok_bind]

/-! ## The invariant -/

/-- The part of the invariant about the blocks kept back when unpadding. -/
def Kept (unpad : Bool) (os : List (Vector Byte n)) (out : List Byte) (last : Vector Byte n) (size : Nat) : Prop :=
  if unpad then (os = [] ∧ out = [] ∧ size = 0) ∨ (∃ i, os = i ++ [last] ∧ out = cat i ∧ size = n)
  else out = cat os ∧ size = 0

/-- The context with new values of the fields that change. -/
def upd (c : CipherStream n) (pos : Nat) (block : List Byte) (last : Vector Byte n) (size : Nat)
    (mode : CipherMode n) : CipherStream n :=
  { c with block_pos := pos, block := block, last := last, last_size := size, mode := mode }

/-- After input `m` has been given and `out` returned. -/
def At (c0 ctx : CipherStream n) (m out : List Byte) : Prop :=
  ∃ (bl : List (Vector Byte n)) (t block : List Byte) (last : Vector Byte n) (size : Nat),
    m = cat bl ++ t ∧ t.length < n ∧ block.length = 16 ∧ block.take t.length = t ∧
    ctx = upd c0 t.length block last size (run (step c0) c0.mode bl).2 ∧
    Kept c0.unpad (run (step c0) c0.mode bl).1 out last size

theorem blit_take {block src : List Byte} {pos : Nat} (h : pos + src.length ≤ block.length) :
    (block.take pos ++ src ++ block.drop (pos + src.length)).take (pos + src.length) = block.take pos ++ src ∧
    (block.take pos ++ src ++ block.drop (pos + src.length)).length = block.length := by
  have : (block.take pos).length = pos := by rw [List.length_take]; omega
  refine ⟨List.take_left' (by simp [this]), ?_⟩
  rw [List.length_append, List.length_append, this, List.length_drop]; omega

theorem whole_cat (hn : Size n) (ctx : CipherStream n) (same : Bool) (hm : Blocky ctx.mode)
    (bl : List (Vector Byte n)) (rest : List Byte) (hr : rest.length < n)
    (hl : (cat bl ++ rest).length < 2 ^ 64) :
    cipher_stream_whole ctx same (cat bl ++ rest) =
      .ok (cat (run (step ctx) ctx.mode bl).1, { ctx with mode := (run (step ctx) ctx.mode bl).2 }, rest) ∧
    (cat (run (step ctx) ctx.mode bl).1).length =
      (if (cat bl ++ rest).length ≥ n then align_down n (cat bl ++ rest).length else 0) := by
  have hp := size_pos hn
  unfold cipher_stream_whole
  cases bl with
  | nil =>
    rw [if_neg (by simpa using hr), if_neg (by simpa using hr)]
    exact ⟨rfl, rfl⟩
  | cons v bl =>
    have h1 : (cat (v :: bl) ++ rest).length ≥ n := by simp
    have h2 : align_down n (cat (v :: bl) ++ rest).length = (cat (v :: bl)).length := by
      rw [align_val hn hl, List.length_append, cat_length, Nat.mul_comm (v :: bl).length n,
        Nat.mul_add_div hp, Nat.div_eq_of_lt hr, Nat.add_zero, Nat.mul_comm]
    rw [if_pos h1, if_pos h1, h2]
    dsimp only
    rw [slice_take _ (by simp), C.ok_bind, List.take_left' rfl, encipher_cat hn ctx same hm, C.ok_bind,
      List.drop_left' rfl]
    refine ⟨rfl, ?_⟩
    rw [cat_length, cat_length, run_length]

theorem keep_rest (hn16 : n ≤ 16) (ctx : CipherStream n) (rest : List Byte) (hr : rest.length < n)
    (hb : ctx.block.length = 16) (hp : ctx.block_pos = 0) :
    ∃ blk', cipher_stream_keep ctx rest = .ok { ctx with block := blk', block_pos := rest.length } ∧
      blk'.length = 16 ∧ blk'.take rest.length = rest := by
  unfold cipher_stream_keep
  by_cases h : rest.length > 0
  · rw [if_pos h, blit_eq (by omega), C.ok_bind]
    obtain ⟨h1, h2⟩ := blit_take (block := ctx.block) (src := rest) (pos := 0) (by omega)
    refine ⟨_, rfl, h2.trans hb, ?_⟩
    rw [Nat.zero_add] at h1 ⊢
    rw [h1]; simp
  · have : rest = [] := by simpa using h
    subst this
    refine ⟨ctx.block, ?_, hb, rfl⟩
    rw [if_neg h]
    congr 1
    obtain ⟨⟩ := ctx
    simp only at hp
    subst hp
    rfl

/-- The processing part of an update. -/
theorem process (hn : Size n) {ctx : CipherStream n} (hm : Blocky ctx.mode) (same : Bool)
    {t input rest : List Byte} {new : List (Vector Byte n)} (ht : t.length < n) (hpos : ctx.block_pos = t.length)
    (hb : ctx.block.length = 16) (htk : ctx.block.take t.length = t) (hi : input.length < 2 ^ 64)
    (hsplit : t ++ input = cat new ++ rest) (hrest : rest.length < n) (hnew : new ≠ []) :
    ∃ a b blk', cipher_stream_fill ctx input = .ok a ∧ cipher_stream_whole a.2.1 same a.2.2 = .ok b ∧
      cipher_stream_keep b.2.1 b.2.2 = .ok (upd ctx rest.length blk' ctx.last ctx.last_size (run (step ctx) ctx.mode new).2) ∧
      a.1 ++ b.1 = cat (run (step ctx) ctx.mode new).1 ∧ blk'.length = 16 ∧ blk'.take rest.length = rest ∧
      a.1.length = (if t.length > 0 then n else 0) ∧
      b.1.length = (if (if t.length > 0 then input.length - (n - t.length) else input.length) ≥ n then
        align_down n (if t.length > 0 then input.length - (n - t.length) else input.length) else 0) := by
  have hp := size_pos hn
  have hn16 : n ≤ 16 := by rcases hn with rfl | rfl <;> omega
  unfold cipher_stream_fill
  rw [hpos]
  by_cases h0 : t.length > 0
  · rw [if_pos h0]
    obtain ⟨v, new', rfl⟩ := List.exists_cons_of_ne_nil hnew
    rw [cat_cons, List.append_assoc] at hsplit
    have hlen := congrArg List.length hsplit
    rw [List.length_append, List.length_append, Vector.length_toList] at hlen
    have hv : t ++ input.take (n - t.length) = v.toList := by
      have := congrArg (List.take n) hsplit
      rw [List.take_append, List.take_of_length_le (by omega),
        List.take_left' (show v.toList.length = n by simp)] at this
      exact this
    have hd : input.drop (n - t.length) = cat new' ++ rest := by
      have := congrArg (List.drop n) hsplit
      rw [List.drop_append, List.drop_of_length_le (by omega), List.nil_append,
        List.drop_left' (show v.toList.length = n by simp)] at this
      exact this
    have hhl : (input.take (n - t.length)).length = n - t.length := by rw [List.length_take]; omega
    dsimp only
    rw [slice_take _ (by omega), C.ok_bind, blit_eq (by omega), C.ok_bind]
    obtain ⟨h1, h2⟩ := blit_take (block := ctx.block) (src := input.take (n - t.length)) (pos := t.length) (by omega)
    rw [show ctx.block.take t.length ++ input.take (n - t.length) = v.toList by rw [htk, hv], hhl,
      show t.length + (n - t.length) = n by omega] at h1 h2 ⊢
    generalize v.toList ++ ctx.block.drop n = B at h1 h2 ⊢
    rw [slice_take _ (by omega), C.ok_bind, h1]
    have he := encipher_cat hn { ctx with block := B, block_pos := t.length } false hm [v]
    rw [cat_cons, cat_nil, List.append_nil] at he
    rw [he, C.ok_bind]
    have hbl : Blocky (step ctx ctx.mode v).2 := by unfold Blocky; rw [step_id]; exact hm
    have hw := whole_cat hn { ctx with block := B, block_pos := 0, mode := (step ctx ctx.mode v).2 } same hbl
      new' rest hrest (by rw [← hd, List.length_drop]; omega)
    have hk := keep_rest hn16 { ctx with block := B, block_pos := 0, mode := (run (step ctx) (step ctx ctx.mode v).2 new').2 }
      rest hrest (h2.trans hb) rfl
    obtain ⟨blk', hk1, hk2, hk3⟩ := hk
    refine ⟨(cat [(step ctx ctx.mode v).1], { ctx with block := B, block_pos := 0, mode := (step ctx ctx.mode v).2 },
        cat new' ++ rest), (cat (run (step ctx) (step ctx ctx.mode v).2 new').1,
      { ctx with block := B, block_pos := 0, mode := (run (step ctx) (step ctx ctx.mode v).2 new').2 }, rest),
      blk', by rw [hd]; rfl, hw.1, hk1, ?_, hk2, hk3, ?_, ?_⟩
    · rw [← cat_append]; rfl
    · rw [if_pos h0]; simp
    · rw [if_pos h0, ← List.length_drop, hd]
      exact hw.2
  · have h1 : t = [] := by simpa using h0
    subst h1
    rw [List.nil_append] at hsplit
    rw [if_neg h0, if_neg h0, if_neg h0]
    have hw := whole_cat hn ctx same hm new rest hrest (by rw [← hsplit]; exact hi)
    obtain ⟨blk', hk1, hk2, hk3⟩ := keep_rest hn16 { ctx with mode := (run (step ctx) ctx.mode new).2 }
      rest hrest hb hpos
    refine ⟨_, (cat (run (step ctx) ctx.mode new).1, { ctx with mode := (run (step ctx) ctx.mode new).2 }, rest),
      blk', rfl, ?_, hk1, rfl, hk2, hk3, rfl, ?_⟩
    · dsimp only
      rw [hsplit]
      exact hw.1
    · rw [hsplit]
      exact hw.2

theorem at_update (hn : Size n) {c0 ctx : CipherStream n} {m out : List Byte} (hm : Blocky c0.mode)
    (h : At c0 ctx m out) (same : Bool) (input : List Byte) (hi : input.length < 2 ^ 64) :
    ∃ o w ctx', cipher_stream_update ctx same input = .ok (o, w, ctx') ∧ At c0 ctx' (m ++ input) (out ++ o) ∧
      cipher_stream_update_size ctx input.length = .ok w ∧ o.length ≤ w := by
  have hp := size_pos hn
  have hn16 : n ≤ 16 := by rcases hn with rfl | rfl <;> omega
  obtain ⟨bl, t, block, last, size, hm1, ht, hb, htk, rfl, hk⟩ := h
  have hblocky : ∀ bl', Blocky (run (step c0) c0.mode bl').2 := by
    intro bl'; unfold Blocky; rw [run_id]; exact hm
  have hnum : ¬ (run (step c0) c0.mode bl).2.id.num > ModeId.xts.num := by
    have := hblocky bl; unfold Blocky at this; rw [show ModeId.xts.num = 4 from rfl]; omega
  unfold cipher_stream_update cipher_stream_update_size
  rw [if_neg (show ¬ (upd c0 t.length block last size (run (step c0) c0.mode bl).2).mode.id.num > ModeId.xts.num from hnum),
    if_neg (show ¬ (upd c0 t.length block last size (run (step c0) c0.mode bl).2).mode.id.num > ModeId.xts.num from hnum)]
  rw [show (upd c0 t.length block last size (run (step c0) c0.mode bl).2).block_pos = t.length from rfl,
    show (upd c0 t.length block last size (run (step c0) c0.mode bl).2).unpad = c0.unpad from rfl,
    show (upd c0 t.length block last size (run (step c0) c0.mode bl).2).last = last from rfl,
    show (upd c0 t.length block last size (run (step c0) c0.mode bl).2).last_size = size from rfl,
    show (upd c0 t.length block last size (run (step c0) c0.mode bl).2).block = block from rfl]
  by_cases hshort : t.length + input.length < n
  · rw [if_pos hshort, if_pos hshort, blit_eq (by omega), C.ok_bind]
    obtain ⟨h1, h2⟩ := blit_take (block := block) (src := input) (pos := t.length) (by omega)
    refine ⟨[], 0, _, rfl, ⟨bl, t ++ input, _, last, size, by rw [hm1, List.append_assoc], by simpa using hshort,
      h2.trans hb, ?_, ?_, by rwa [List.append_nil]⟩, rfl, Nat.le_refl _⟩
    · rw [List.length_append, h1, htk]
    · rw [List.length_append]; rfl
  · rw [if_neg hshort, if_neg hshort]
    obtain ⟨new, rest, hsplit, hrest⟩ := split n hp (t ++ input)
    have hnew : new ≠ [] := by
      rintro rfl
      have := congrArg List.length hsplit
      rw [List.length_append, List.length_append, cat_length, List.length_nil] at this
      omega
    obtain ⟨a, b, blk', h1, h2, h3, h4, h5, h6, h7, h8⟩ := process hn
      (ctx := upd c0 t.length block last size (run (step c0) c0.mode bl).2) (hblocky bl) same ht rfl hb htk hi
      hsplit hrest hnew
    have hrun := run_append (step c0) bl new c0.mode
    have hkept : ∃ held, (if c0.unpad then C.slice last.toList 0 size else .ok [] : C (List Byte)) = .ok held ∧
        held.length = (if c0.unpad then size else 0) ∧ out ++ held = cat (run (step c0) c0.mode bl).1 := by
      unfold Kept at hk
      by_cases hu : c0.unpad = true
      rotate_left
      · rw [if_neg hu] at hk
        rw [if_neg hu, if_neg hu]
        exact ⟨[], rfl, rfl, by rw [hk.1, List.append_nil]⟩
      · rw [if_pos hu] at hk
        rw [if_pos hu, if_pos hu]
        rcases hk with ⟨k1, k2, k3⟩ | ⟨i, k1, k2, k3⟩
        · subst k3
          exact ⟨[], by rw [slice_take _ (by omega)]; rfl, rfl, by rw [k1, k2]; rfl⟩
        · subst k3
          refine ⟨last.toList, by rw [slice_take _ (by simp), List.take_of_length_le (by simp)], by simp, ?_⟩
          rw [k1, k2, cat_append]; simp
    obtain ⟨held, e1, e2, e3⟩ := hkept
    rw [e1, C.ok_bind, h1, C.ok_bind, h2, C.ok_bind, h3, C.ok_bind]
    dsimp only
    rw [List.append_assoc, h4]
    have hstep : step (upd c0 t.length block last size (run (step c0) c0.mode bl).2) = step c0 := rfl
    have hmode : (upd c0 t.length block last size (run (step c0) c0.mode bl).2).mode = (run (step c0) c0.mode bl).2 := rfl
    rw [hstep, hmode] at h4 ⊢
    have hos : (run (step c0) (run (step c0) c0.mode bl).2 new).1 ≠ [] := by
      intro h0
      have := congrArg List.length h0
      rw [run_length] at this
      exact hnew (by simpa using this)
    obtain ⟨i, l, hil⟩ : ∃ i l, (run (step c0) (run (step c0) c0.mode bl).2 new).1 = i ++ [l] :=
      ⟨_, _, (List.dropLast_append_getLast hos).symm⟩
    have hge : (held ++ cat (run (step c0) (run (step c0) c0.mode bl).2 new).1).length ≥ n := by
      rw [hil, cat_append, List.length_append, List.length_append]
      simp
      omega
    rw [C.check, decide_eq_true hge]
    simp only [if_true, C.ok_bind]
    -- the size function
    have hsz : (held ++ cat (run (step c0) (run (step c0) c0.mode bl).2 new).1).length =
        (if c0.unpad then size else 0) + (if t.length > 0 then n else 0) +
        (if (if t.length > 0 then input.length - (n - t.length) else input.length) ≥ n then
          align_down n (if t.length > 0 then input.length - (n - t.length) else input.length) else 0) := by
      rw [← h7, ← h8, ← e2, Nat.add_assoc, ← List.length_append, h4, List.length_append]
    have hsize : (if (if t.length > 0 then input.length - (n - t.length) else input.length) ≥ n then
          (if t.length > 0 then (if c0.unpad = true then size else 0) + n else (if c0.unpad = true then size else 0)) +
            align_down n (if t.length > 0 then input.length - (n - t.length) else input.length)
        else if t.length > 0 then (if c0.unpad = true then size else 0) + n
          else (if c0.unpad = true then size else 0)) =
        (held ++ cat (run (step c0) (run (step c0) c0.mode bl).2 new).1).length := by
      rw [hsz]
      split <;> split <;> rfl
    rw [hsize, C.check, decide_eq_true hge]
    simp only [if_true, C.ok_bind]
    rw [show (upd (upd c0 t.length block last size (run (step c0) c0.mode bl).2) rest.length blk'
      (upd c0 t.length block last size (run (step c0) c0.mode bl).2).last
      (upd c0 t.length block last size (run (step c0) c0.mode bl).2).last_size
      (run (step c0) (run (step c0) c0.mode bl).2 new).2).unpad = c0.unpad from rfl]
    have hmm : m ++ input = cat (bl ++ new) ++ rest := by
      rw [hm1, List.append_assoc, hsplit, cat_append, List.append_assoc]
    by_cases hu : c0.unpad = true
    · rw [if_pos hu]
      have hout : held ++ cat (run (step c0) (run (step c0) c0.mode bl).2 new).1 = held ++ cat i ++ l.toList := by
        rw [hil, cat_append, List.append_assoc]; simp
      have hlen : (held ++ cat i ++ l.toList).length - n = (held ++ cat i).length := by
        rw [List.length_append, Vector.length_toList, Nat.add_sub_cancel]
      rw [hout, hlen, List.drop_left' rfl, List.take_left' rfl, vec_toList', C.ok_bind]
      refine ⟨_, _, _, rfl, ⟨bl ++ new, rest, blk', l, n, hmm, hrest, h5, h6, ?_, ?_⟩, rfl, ?_⟩
      · rw [hrun]; rfl
      · unfold Kept
        rw [if_pos hu]
        refine .inr ⟨(run (step c0) c0.mode bl).1 ++ i, ?_, ?_, rfl⟩
        · rw [hrun, List.append_assoc, ← hil]
        · rw [cat_append, ← e3, List.append_assoc]
      · simp
    · rw [if_neg hu]
      refine ⟨_, _, _, rfl, ⟨bl ++ new, rest, blk', last, size, hmm, hrest, h5, h6, ?_, ?_⟩, rfl, Nat.le_refl _⟩
      · rw [hrun]; rfl
      · unfold Kept at hk ⊢
        rw [if_neg hu] at hk ⊢
        refine ⟨?_, hk.2⟩
        rw [hrun, cat_append, ← e3, List.append_assoc]

/-- Several updates. -/
def upCall (same : Bool) (ctx : CipherStream n) (input : List Byte) : C (List Byte × CipherStream n) := do
  let r ← cipher_stream_update ctx same input
  .ok (r.1, r.2.2)

theorem at_calls (hn : Size n) {c0 : CipherStream n} (hm : Blocky c0.mode) (same : Bool) :
    ∀ (chunks : List (List Byte)) (ctx : CipherStream n) (m out : List Byte), At c0 ctx m out →
    (∀ x ∈ chunks, x.length < 2 ^ 64) →
    ∃ o ctx', Spec.calls (upCall same) ctx chunks = .ok (o, ctx') ∧ At c0 ctx' (m ++ chunks.flatten) (out ++ o)
  | [], ctx, m, out, h, _ => ⟨[], ctx, rfl, by simpa using h⟩
  | c :: cs, ctx, m, out, h, hc => by
    obtain ⟨o, w, ctx', h1, h2, -⟩ := at_update hn hm h same c (hc c (by simp))
    obtain ⟨o', ctx'', h3, h4⟩ := at_calls hn hm same cs ctx' _ _ h2 (fun x hx => hc x (by simp [hx]))
    refine ⟨o ++ o', ctx'', ?_, ?_⟩
    · rw [Spec.calls, upCall, h1, C.ok_bind, C.ok_bind]
      show (Spec.calls (upCall same) ctx' cs >>= _) = _
      rw [h3, C.ok_bind]
    · rwa [List.flatten_cons, ← List.append_assoc, ← List.append_assoc]

end Torsion.Ciph
