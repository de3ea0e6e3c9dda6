import Verif.Cipher.RunLemmas

/-!
# EAX sessions
-/
namespace Torsion.Ciph
open Spec Blk

variable {n : Nat} {c : Cipher n}

/-- The nonce as masked counter. -/
def eaxMask (c : Cipher n) (iv : List Byte) : Vector Byte n := omac c.enc 0 iv

theorem more_true : (fun len lim => decide (len > lim) : Nat → Nat → Bool) = more true := by
  funext a b; simp [more]

theorem more_false : (fun len lim => decide (len ≥ lim) : Nat → Nat → Bool) = more false := by
  funext a b; simp [more]

theorem cmac_step (hn : 0 < n) {h : Cmac n} {m : List Byte} (hh : MHolds true c h m) (x : List Byte) :
    ∃ h', cmac_update c h x = .ok h' ∧ MHolds true c h' (m ++ x) := by
  rw [cmac_update, more_true]
  exact mholds_update hn hh x

/-- The state in a session: associated data `a`, ciphertext `ct`, `len` bytes done. -/
structure EaxAt (c : Cipher n) (iv a ct : List Byte) (len : Nat) (m : CipherMode n) : Prop where
  ex : ∃ h1 h2, m = .eax ⟨mk (atOff (ctrS c) (Vector.replicate n 0, eaxMask c iv) len) (len % n), h1, h2, eaxMask c iv⟩ ∧
    MHolds true c h1 ((beBlock n 1).toList ++ a) ∧ MHolds true c h2 ((beBlock n 2).toList ++ ct)

theorem eax_init_eq (hn : Size n) (c : Cipher n) {iv : List Byte} (hiv : iv ≠ []) :
    ∃ m, eax_init c iv = .ok (some m) ∧ EaxAt c iv [] [] 0 (.eax m) := by
  have hn0 := size_pos hn
  obtain ⟨h0, e0, i0⟩ := cmac_init_holds hn0 c 0
  obtain ⟨h1, e1, i1⟩ := cmac_init_holds hn0 c 1
  obtain ⟨h2, e2, i2⟩ := cmac_init_holds hn0 c 2
  obtain ⟨h3, e3, i3⟩ := cmac_step hn0 i0 iv
  have hl : iv.length ≠ 0 := by simpa using hiv
  rw [eax_init, if_neg hl, e0, C.ok_bind, e3, C.ok_bind, cmac_final_eq hn i3, C.ok_bind, e1, C.ok_bind, e2, C.ok_bind]
  refine ⟨_, rfl, ⟨h1, h2, ?_, by simpa using i1, by simpa using i2⟩⟩
  rw [atOff_zero hn0, Nat.zero_mod]
  rfl

theorem eax_aads (hn : 0 < n) (ctx0 : CipherStream n) (iv : List Byte) :
    ∀ (aads : List (List Byte)) (a : List Byte) (m : CipherMode n), EaxAt ctx0.cipher iv a [] 0 m →
    ∃ m', setAads aads { ctx0 with mode := m } = .ok (true, { ctx0 with mode := m' }) ∧ EaxAt ctx0.cipher iv (a ++ aads.flatten) [] 0 m'
  | [], a, m, h => ⟨m, rfl, by simpa using h⟩
  | x :: aads, a, m, h => by
    obtain ⟨⟨h1, h2, rfl, i1, i2⟩⟩ := h
    obtain ⟨h3, e3, i3⟩ := cmac_step hn i1 x
    obtain ⟨m', e4, i4⟩ := eax_aads hn ctx0 iv aads (a ++ x)
      (.eax ⟨mk (atOff (ctrS ctx0.cipher) (Vector.replicate n 0, eaxMask ctx0.cipher iv) 0) (0 % n), h3, h2, eaxMask ctx0.cipher iv⟩)
      ⟨h3, h2, rfl, by simpa using i3, i2⟩
    refine ⟨m', ?_, by simpa using i4⟩
    rw [setAads, cipher_stream_set_aad, if_pos (.inr rfl)]
    dsimp only
    rw [cipher_mode_aad, eax_aad]
    dsimp only
    rw [e3]
    simp only [C.ok_bind]
    rw [e4]
    rfl

theorem eax_chunk (hn : 0 < n) (e same : Bool) (iv a : List Byte) (pre : List Byte) (m : CipherMode n) (x : List Byte)
    (h : EaxAt c iv a (if e then eaxCrypt c.enc iv pre else pre) pre.length m) :
    ∃ m', chunk e c same m x = .ok (xorStream (ctrStream c.enc (eaxMask c iv)) pre.length x, m') ∧
      EaxAt c iv a (if e then eaxCrypt c.enc iv (pre ++ x) else pre ++ x) (pre ++ x).length m' := by
  obtain ⟨⟨h1, h2, rfl, i1, i2⟩⟩ := h
  have hcr := stream_at hn (eax_callbacks c) (Vector.replicate n 0, eaxMask c iv) pre.length x
  rw [ctr_ks] at hcr
  cases e with
  | true =>
    simp only [if_true] at i2 ⊢
    obtain ⟨h3, e3, i3⟩ := cmac_step hn i2 (xorStream (ctrStream c.enc (eaxMask c iv)) pre.length x)
    refine ⟨.eax ⟨mk _ _, h1, h3, _⟩, ?_, ⟨h1, h3, rfl, i1, ?_⟩⟩
    · rw [chunk, if_pos rfl, cipher_mode_encrypt, eax_encrypt, eax_crypt, mode_put]
      dsimp only
      rw [hcr]
      simp only [C.ok_bind]
      rw [e3]
      simp only [C.ok_bind]
      rw [List.length_append]
    · rw [eaxCrypt, xorStream_add, Nat.zero_add, ← List.append_assoc]
      exact i3
  | false =>
    simp only [if_false, Bool.false_eq_true] at i2 ⊢
    obtain ⟨h3, e3, i3⟩ := cmac_step hn i2 x
    refine ⟨.eax ⟨mk _ _, h1, h3, _⟩, ?_, ⟨h1, h3, rfl, i1, by simpa using i3⟩⟩
    rw [chunk, if_neg (by decide), cipher_mode_decrypt, eax_decrypt, eax_crypt, mode_put]
    dsimp only
    rw [e3]
    simp only [C.ok_bind]
    rw [hcr]
    simp only [C.ok_bind]
    rw [List.length_append]

theorem eax_digest_at (hn : Size n) {iv a ct : List Byte} {len : Nat} {m : CipherMode n} (h : EaxAt c iv a ct len m) :
    m.id = .eax ∧ cipher_mode_digest c m = .ok (eaxTag c.enc iv a ct) := by
  obtain ⟨⟨h1, h2, rfl, i1, i2⟩⟩ := h
  refine ⟨rfl, ?_⟩
  rw [cipher_mode_digest, eax_digest]
  dsimp only
  rw [cmac_final_eq hn i1, C.ok_bind, cmac_final_eq hn i2, C.ok_bind, vxor_eq, vxor_eq, eaxTag, bxor_comm, omac, eaxMask, omac, omac]
  congr 2
  apply Vector.ext
  intro i hi
  simp only [bxor, Vector.getElem_ofFn, Fin.getElem_fin, omac]
  ac_rfl

/-- The tag lengths of EAX. -/
def eaxOk (n l : Nat) : Bool := 0 < l ∧ l ≤ n

theorem eaxOk_eq {ctx : CipherStream n} (h : ctx.mode.id = .eax) (l : Nat) : tag_len_ok ctx l = eaxOk n l := by
  rw [tag_len_ok, h, eaxOk, Bool.eq_iff_iff]
  simp [Nat.pos_iff_ne_zero]

theorem eaxTag_length (E : Vector Byte n → Vector Byte n) (iv a ct : List Byte) : (eaxTag E iv a ct).length = n := by
  simp [eaxTag]

theorem eax_runs (hn : Size n) (c : Cipher n) (e same : Bool) {iv : List Byte} (m0 : Eax n) (h0 : EaxAt c iv [] [] 0 (.eax m0))
    (aads chunks : List (List Byte)) :
    ∃ ctx, setAads aads (cipher_stream_new e c (.eax m0)) = .ok (true, ctx) ∧ ctx.encrypt = e ∧ ctx.mode.id = .eax ∧
      Runs ctx same chunks (ctrStream c.enc (omac c.enc 0 iv))
        (fun pre m => EaxAt c iv aads.flatten (if e then eaxCrypt c.enc iv pre else pre) pre.length m)
        (eaxTag c.enc iv aads.flatten (if e then eaxCrypt c.enc iv chunks.flatten else chunks.flatten)) n .eax := by
  have hn0 := size_pos hn
  obtain ⟨m, h1, h2⟩ := eax_aads hn0 (cipher_stream_new e c (.eax m0)) iv aads [] (.eax m0) h0
  rw [List.nil_append] at h2
  refine ⟨_, h1, rfl, (eax_digest_at hn h2).1, ?_⟩
  exact {
    num := by decide
    isId := fun pre m h => (eax_digest_at hn h).1
    step := fun pre m x h => eax_chunk hn0 e same iv _ pre m x h
    dig := fun m h => (eax_digest_at hn h).2
    start := by cases e <;> exact h2
    dle := by rw [eaxTag_length]; rcases hn with rfl | rfl <;> decide
    kpos := hn0
    kle := by rw [eaxTag_length]
    kn := Nat.le_refl _
    fin := fun ctx' h _ => by rw [cipher_stream_final, h]
    tag := rfl
    tag_len := rfl }

end Torsion.Ciph
