import Verif.Cipher.CmacLemmas
import Verif.Cipher.GcmSession

/-!
# Sessions of the authenticated modes
-/
namespace Torsion.Ciph
open Spec Blk

variable {n : Nat}

/-- What the session theorems need of a mode: an invariant `Inv` for the data processed so far, the key
stream `ks`, the digest `d` for the whole input and the length `k` of tags. -/
structure Runs (ctx : CipherStream n) (same : Bool) (chunks : List (List Byte)) (ks : Nat → Byte)
    (Inv : List Byte → CipherMode n → Prop) (d : List Byte) (k : Nat) (id : ModeId) : Prop where
  num : 8 ≤ id.num
  isId : ∀ pre m, Inv pre m → m.id = id
  step : ∀ pre m x, Inv pre m → ∃ m', chunk ctx.encrypt ctx.cipher same m x = .ok (xorStream ks pre.length x, m') ∧
      Inv (pre ++ x) m'
  dig : ∀ m, Inv chunks.flatten m → cipher_mode_digest ctx.cipher m = .ok d
  start : Inv [] ctx.mode
  dle : d.length ≤ 16
  kpos : 0 < k
  kle : k ≤ d.length
  kn : k ≤ n
  fin : ∀ ctx' : CipherStream n, ctx'.mode.id = id → ctx'.ccm_len = ctx.ccm_len → cipher_stream_final ctx' = cipher_final_tag ctx' k
  tag : ctx.tag = List.replicate 16 0
  tag_len : ctx.tag_len = 0

theorem run_seal {prep : CipherStream n → C (Bool × CipherStream n)} {ctx0 ctx : CipherStream n} {same : Bool}
    {chunks : List (List Byte)} {ks : Nat → Byte} {Inv : List Byte → CipherMode n → Prop} {d : List Byte} {k : Nat}
    {id : ModeId} (hp : prep ctx0 = .ok (true, ctx)) (he : ctx.encrypt = true) (h : Runs ctx same chunks ks Inv d k id) :
    aeadRun prep none same chunks ctx0 = .ok ⟨true, true, true, xorStream ks 0 chunks.flatten, some (d.take k)⟩ := by
  obtain ⟨m', h1, h2⟩ := calls_aead ks Inv ctx same (fun pre m hm => by rw [h.isId _ _ hm]; exact Nat.lt_of_lt_of_le (by decide) h.num)
    h.step chunks [] ctx.mode h.start
  rw [List.nil_append] at h2
  obtain ⟨ctx', h3, h4⟩ := final_seal (ctx := { ctx with mode := m' }) he (by rw [h.tag]; simp)
    (by rw [h.isId _ _ h2]; exact h.num) (h.dig m' h2) h.dle h.kpos h.kle
  rw [aeadRun, hp, C.ok_bind]
  dsimp only [setTag]
  rw [C.ok_bind]
  dsimp only
  rw [show calls (streamUpdate same) ctx chunks = _ from h1, C.ok_bind, h.fin { ctx with mode := m' } (h.isId _ _ h2) rfl, h3, C.ok_bind, h4,
    C.ok_bind, List.append_nil]
  rfl

theorem run_open {prep : CipherStream n → C (Bool × CipherStream n)} {ctx0 ctx : CipherStream n} {same : Bool}
    {chunks : List (List Byte)} {ks : Nat → Byte} {Inv : List Byte → CipherMode n → Prop} {d : List Byte} {k : Nat}
    {id : ModeId} (hp : prep ctx0 = .ok (true, ctx)) (he : ctx.encrypt = false) (h : Runs ctx same chunks ks Inv d k id)
    (ok : Nat → Bool) (hok : ∀ l, tag_len_ok ctx l = ok l) (hle : ∀ l, ok l = true → 0 < l ∧ l ≤ k) (t : List Byte) :
    aeadRun prep (some t) same chunks ctx0 =
      .ok ⟨true, ok t.length, ok t.length && decide (t = d.take t.length), xorStream ks 0 chunks.flatten, none⟩ := by
  rw [aeadRun, hp, C.ok_bind]
  dsimp only [setTag]
  rw [cipher_stream_set_tag, if_neg (by simp [he]), hok]
  cases hl : ok t.length with
  | false =>
    obtain ⟨m', h1, h2⟩ := calls_aead ks Inv ctx same (fun pre m hm => by rw [h.isId _ _ hm]; exact Nat.lt_of_lt_of_le (by decide) h.num)
      h.step chunks [] ctx.mode h.start
    rw [List.nil_append] at h2
    obtain ⟨h3, h4⟩ := final_open (ctx := { ctx with mode := m' }) he (t := []) (r := ctx.tag) rfl
      (by rw [h.tag_len]; rfl) (h.dig m' h2) h.dle (Nat.zero_le _) k
    rw [Bool.not_false, if_pos rfl, C.ok_bind]
    dsimp only
    rw [show calls (streamUpdate same) ctx chunks = _ from h1, C.ok_bind, h.fin { ctx with mode := m' } (h.isId _ _ h2) rfl, h3, C.ok_bind, h4,
      C.ok_bind, List.append_nil]
    rfl
  | true =>
    obtain ⟨hl0, hlk⟩ := hle _ hl
    have hkn := h.kn
    have hkle := h.kle
    have hdle := h.dle
    rw [Bool.not_true, if_neg (by decide), C.check, if_pos (by simp; omega), C.ok_bind, h.tag, blit0 (by simp; omega), C.ok_bind, C.ok_bind]
    dsimp only
    obtain ⟨m', h1, h2⟩ := calls_aead ks Inv { ctx with tag := t ++ (List.replicate 16 (0 : Byte)).drop t.length, tag_len := t.length } same
      (fun pre m hm => by rw [h.isId _ _ hm]; exact Nat.lt_of_lt_of_le (by decide) h.num)
      h.step chunks [] ctx.mode h.start
    rw [List.nil_append] at h2
    obtain ⟨h3, h4⟩ := final_open
      (ctx := { ctx with tag := t ++ (List.replicate 16 (0 : Byte)).drop t.length, tag_len := t.length, mode := m' }) he
      (t := t) rfl rfl (h.dig m' h2) h.dle (by omega) k
    rw [h1, C.ok_bind]
    dsimp only
    rw [h.fin { ctx with tag := t ++ (List.replicate 16 (0 : Byte)).drop t.length, tag_len := t.length, mode := m' }
      (h.isId _ _ h2) rfl, h3, C.ok_bind, h4, C.ok_bind, List.append_nil]
    have hne : t ≠ [] := by intro h; simp [h] at hl0
    congr 2
    simp [hne]

theorem run_open_none {prep : CipherStream n → C (Bool × CipherStream n)} {ctx0 ctx : CipherStream n} {same : Bool}
    {chunks : List (List Byte)} {ks : Nat → Byte} {Inv : List Byte → CipherMode n → Prop} {d : List Byte} {k : Nat}
    {id : ModeId} (hp : prep ctx0 = .ok (true, ctx)) (he : ctx.encrypt = false) (h : Runs ctx same chunks ks Inv d k id) :
    aeadRun prep none same chunks ctx0 = .ok ⟨true, true, false, xorStream ks 0 chunks.flatten, none⟩ := by
  obtain ⟨m', h1, h2⟩ := calls_aead ks Inv ctx same (fun pre m hm => by rw [h.isId _ _ hm]; exact Nat.lt_of_lt_of_le (by decide) h.num)
    h.step chunks [] ctx.mode h.start
  rw [List.nil_append] at h2
  obtain ⟨h3, h4⟩ := final_open (ctx := { ctx with mode := m' }) he (t := []) (r := ctx.tag) rfl
    (by rw [h.tag_len]; rfl) (h.dig m' h2) h.dle (Nat.zero_le _) k
  rw [aeadRun, hp, C.ok_bind]
  dsimp only [setTag]
  rw [C.ok_bind]
  dsimp only
  rw [show calls (streamUpdate same) ctx chunks = _ from h1, C.ok_bind, h.fin { ctx with mode := m' } (h.isId _ _ h2) rfl, h3, C.ok_bind, h4,
    C.ok_bind, List.append_nil]
  rfl

/-! ## GCM -/

/-- The tag lengths of GCM. -/
def gcmOk (l : Nat) : Bool := l = 4 ∨ l = 8 ∨ (12 ≤ l ∧ l ≤ 16)

theorem gcmOk_eq {ctx : CipherStream n} (h : ctx.mode.id = .gcm) (l : Nat) : tag_len_ok ctx l = gcmOk l := by
  rw [tag_len_ok, h, gcmOk, Bool.eq_iff_iff]
  simp
  omega

theorem gcmTag_length (E : Vector Byte 16 → Vector Byte 16) (iv a ct : List Byte) : (gcmTag E iv a ct).length = 16 := by
  simp [gcmTag]

theorem gcm_runs (c : Cipher 16) (e same : Bool) (iv : List Byte) (aads chunks : List (List Byte)) :
    ∃ ctx, setAads aads (cipher_stream_new e c (.gcm (gcmNew c iv))) = .ok (true, ctx) ∧ ctx.encrypt = e ∧ ctx.mode.id = .gcm ∧
      Runs ctx same chunks (gcmStream c.enc iv)
        (fun pre m => GcmAt c iv aads.flatten (if e then gcmCrypt c.enc iv pre else pre) pre.length m)
        (gcmTag c.enc iv aads.flatten (if e then gcmCrypt c.enc iv chunks.flatten else chunks.flatten)) 16 .gcm := by
  obtain ⟨m, h1, h2⟩ := gcm_aads (c := c) iv (cipher_stream_new e c (.gcm (gcmNew c iv))) aads [] (ghash_init (hkey c))
    gstate_init gholds_init
  rw [List.nil_append] at h2
  refine ⟨_, h1, rfl, (gcm_digest_at h2).1, ?_⟩
  exact {
    num := by decide
    isId := fun pre m h => (gcm_digest_at h).1
    step := fun pre m x h => gcm_chunk e same iv _ pre m x h
    dig := fun m h => (gcm_digest_at h).2
    start := by cases e <;> exact h2
    dle := by rw [gcmTag_length]
    kpos := by decide
    kle := by rw [gcmTag_length]
    kn := by decide
    fin := fun ctx' h _ => by rw [cipher_stream_final, h]
    tag := rfl
    tag_len := rfl }

end Torsion.Ciph
