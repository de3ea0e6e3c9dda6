import Verif.Cipher.StealLemmas
import Verif.Cipher.StreamSpec

/-!
# Lemmas: whole cipher stream sessions
-/
namespace Torsion.Ciph
open Spec Blk

variable {n : Nat}

/-- The mode state a session starts with. -/
def start (n : Nat) (mode : ModeId) (v : Vector Byte n) : CipherMode n :=
  match mode with
  | .ecb => .ecb
  | .cbc => .cbc v
  | .cts => .cts v
  | .xts => .xts ⟨v, Vector.replicate n 0⟩
  | .ctr => .ctr ⟨Vector.replicate n 0, v, 0⟩
  | .cfb => .cfb ⟨Vector.replicate n 0, v, 0⟩
  | .ofb => .ofb ⟨v, Vector.replicate n 0, 0⟩
  | _ => .raw

theorem start_id {mode : ModeId} (h : mode.num ≤ 7) (v : Vector Byte n) : (start n mode v).id = mode := by
  cases mode <;> first | rfl | simp [ModeId.num] at h

/-- The context a session starts with, after setting the padding. -/
def fresh (e : Bool) (c : Cipher n) (mode : ModeId) (v : Vector Byte n) (pad : Bool) : CipherStream n :=
  (cipher_stream_set_padding (cipher_stream_new e c (start n mode v)) pad).2

theorem fresh_encrypt (e : Bool) (c : Cipher n) (mode : ModeId) (v : Vector Byte n) (pad : Bool) :
    (fresh e c mode v pad).encrypt = e := by
  cases mode <;> cases e <;> rfl

theorem fresh_cipher (e : Bool) (c : Cipher n) (mode : ModeId) (v : Vector Byte n) (pad : Bool) :
    (fresh e c mode v pad).cipher = c := by
  cases mode <;> cases e <;> rfl

theorem fresh_mode (e : Bool) (c : Cipher n) (mode : ModeId) (v : Vector Byte n) (pad : Bool) :
    (fresh e c mode v pad).mode = start n mode v := by
  cases mode <;> cases e <;> rfl

theorem fresh_padding (e : Bool) (c : Cipher n) (mode : ModeId) (v : Vector Byte n) (pad : Bool)
    (h : mode.pads = true ∨ mode.steals = true) :
    (fresh e c mode v pad).padding = pad := by
  cases mode <;> cases e <;> first | rfl | simp [ModeId.pads, ModeId.steals] at h

theorem fresh_unpad (e : Bool) (c : Cipher n) (mode : ModeId) (hm : mode.num ≤ 7) (v : Vector Byte n) (pad : Bool) :
    (fresh e c mode v pad).unpad = (pad && ((mode.pads && !e) || mode.steals)) := by
  cases mode <;> cases e <;> cases pad <;> first | rfl | simp [ModeId.num] at hm

theorem fresh_at (hn : 0 < n) (e : Bool) (c : Cipher n) (mode : ModeId) (v : Vector Byte n) (pad : Bool) :
    At (fresh e c mode v pad) (fresh e c mode v pad) [] [] := by
  apply at_new hn <;> cases mode <;> cases e <;> rfl

theorem fresh_blocky {e : Bool} {c : Cipher n} {mode : ModeId} (hm : mode.num ≤ 4) {v : Vector Byte n} {pad : Bool} :
    Blocky (fresh e c mode v pad).mode := by
  unfold Blocky
  rw [fresh_mode, start_id (by omega)]
  exact hm

/-- The session over a block mode up to the final call. -/
theorem session_at (hn : Size n) {e : Bool} {c : Cipher n} {mode : ModeId} (hm : mode.num ≤ 4) {v : Vector Byte n}
    {pad : Bool} (same : Bool) {chunks : List (List Byte)} (hc : ∀ x ∈ chunks, x.length < 2 ^ 64) :
    ∃ out ctx, At (fresh e c mode v pad) ctx chunks.flatten out ∧
      session (cipher_stream_new e c (start n mode v)) pad same chunks =
        (do let f ← cipher_stream_final ctx; .ok (f.ret, out ++ f.out)) := by
  obtain ⟨o, ctx, h1, h2⟩ := at_calls hn (c0 := fresh e c mode v pad) (fresh_blocky hm) same chunks _ _ _
    (fresh_at (size_pos hn) e c mode v pad) hc
  refine ⟨o, ctx, by simpa using h2, ?_⟩
  have h3 : Spec.calls (streamUpdate same) (cipher_stream_set_padding (cipher_stream_new e c (start n mode v)) pad).2 chunks =
      .ok (o, ctx) := h1
  rw [session, h3, C.ok_bind]

/-- Every message leads to some context. -/
theorem exists_at (hn : Size n) {c0 : CipherStream n} (hm : Blocky c0.mode) (h0 : At c0 c0 [] []) (m : List Byte) :
    ∃ out ctx, At c0 ctx m out := by
  have h : ∀ x ∈ m.map (fun b => [b]), x.length < 2 ^ 64 := by
    intro x hx
    obtain ⟨b, -, rfl⟩ := List.mem_map.1 hx
    simp
  obtain ⟨o, ctx, -, h2⟩ := at_calls hn hm false (m.map (fun b => [b])) _ _ _ h0 h
  refine ⟨o, ctx, ?_⟩
  have : (m.map (fun b => [b])).flatten = m := by
    rw [← List.flatMap_def, List.flatMap_singleton']
  rw [this, List.nil_append, List.nil_append] at h2
  exact h2

/-! ## The blockwise part -/

theorem cbc_inv' {c : Cipher n} (h : Invertible c) : ∀ (bl : List (Vector Byte n)) (p : Vector Byte n),
    cbcEnc c.enc p (cbcDec c.dec p bl) = bl
  | [], p => rfl
  | v :: bl, p => by
    rw [cbcDec, cbcEnc, bxor_cancel, inv_both h, cbc_inv' h bl]

/-- The block modes on whole blocks, decrypting. -/
def unwise (D : Vector Byte n → Vector Byte n) (mode : ModeId) (v : Vector Byte n)
    (bl : List (Vector Byte n)) : List (Vector Byte n) :=
  match mode with
  | .cbc | .cts => cbcDec D v bl
  | .xts => xtsBlocks D v bl
  | _ => bl.map D

theorem wise_inv {c : Cipher n} (h : Invertible c) (mode : ModeId) (v : Vector Byte n) (bl : List (Vector Byte n)) :
    unwise c.dec mode v (blockwise c.enc mode v bl) = bl := by
  have h1 : (bl.map c.enc).map c.dec = bl := by
    rw [List.map_map]; conv_rhs => rw [← List.map_id bl]
    exact List.map_congr_left fun x _ => h x
  cases mode <;> first | exact h1 | exact cbc_inv h bl v | exact xts_inv h bl v

theorem wise_inv' {c : Cipher n} (h : Invertible c) (mode : ModeId) (v : Vector Byte n) (bl : List (Vector Byte n)) :
    blockwise c.enc mode v (unwise c.dec mode v bl) = bl := by
  have h1 : (bl.map c.dec).map c.enc = bl := by
    rw [List.map_map]; conv_rhs => rw [← List.map_id bl]
    exact List.map_congr_left fun x _ => inv_both h x
  cases mode <;> first | exact h1 | exact cbc_inv' h bl v | exact xts_inv (c := ⟨c.dec, c.enc⟩) (inv_both h) bl v

theorem run_enc (c : Cipher n) {mode : ModeId} (hm : mode.num ≤ 4) (v : Vector Byte n) (pad : Bool)
    (bl : List (Vector Byte n)) :
    (run (step (fresh true c mode v pad)) (start n mode v) bl).1 = blockwise c.enc mode v bl := by
  have h1 : step (fresh true c mode v pad) = stepE c := by
    rw [step, fresh_encrypt, if_pos rfl, fresh_cipher]
  rw [h1]
  cases mode with
  | raw => rw [show start n .raw v = .raw from rfl, run_const c.enc _ (fun _ => rfl)]; rfl
  | ecb => rw [show start n .ecb v = .ecb from rfl, run_const c.enc _ (fun _ => rfl)]; rfl
  | cbc => rw [show start n .cbc v = .cbc v from rfl, run_map (f := cbcE c) (g := stepE c) CipherMode.cbc (fun _ _ => rfl), run_cbcE]; rfl
  | cts => rw [show start n .cts v = .cts v from rfl, run_map (f := cbcE c) (g := stepE c) CipherMode.cts (fun _ _ => rfl), run_cbcE]; rfl
  | xts => rw [show start n .xts v = .xts ⟨v, Vector.replicate n 0⟩ from rfl, run_map (f := xtsE c) (g := stepE c) CipherMode.xts (fun _ _ => rfl), run_xtsE]; rfl
  | _ => simp [ModeId.num] at hm

theorem run_dec (c : Cipher n) {mode : ModeId} (hm : mode.num ≤ 4) (v : Vector Byte n) (pad : Bool)
    (bl : List (Vector Byte n)) :
    (run (step (fresh false c mode v pad)) (start n mode v) bl).1 = unwise c.dec mode v bl := by
  have h1 : step (fresh false c mode v pad) = stepD c := by
    rw [step, fresh_encrypt, if_neg (by simp), fresh_cipher]
  rw [h1]
  cases mode with
  | raw => rw [show start n .raw v = .raw from rfl, run_const c.dec _ (fun _ => rfl)]; rfl
  | ecb => rw [show start n .ecb v = .ecb from rfl, run_const c.dec _ (fun _ => rfl)]; rfl
  | cbc => rw [show start n .cbc v = .cbc v from rfl, run_map (f := cbcD c) (g := stepD c) CipherMode.cbc (fun _ _ => rfl), run_cbcD]; rfl
  | cts => rw [show start n .cts v = .cts v from rfl, run_map (f := cbcD c) (g := stepD c) CipherMode.cts (fun _ _ => rfl), run_cbcD]; rfl
  | xts => rw [show start n .xts v = .xts ⟨v, Vector.replicate n 0⟩ from rfl, run_map (f := xtsD c) (g := stepD c) CipherMode.xts (fun _ _ => rfl), run_xtsD]; rfl
  | _ => simp [ModeId.num] at hm

theorem unwise_length (D : Vector Byte n → Vector Byte n) (mode : ModeId) (v : Vector Byte n) (bl : List (Vector Byte n)) :
    (unwise D mode v bl).length = bl.length := by
  have h1 : ∀ (bl : List (Vector Byte n)) (p : Vector Byte n), (cbcDec D p bl).length = bl.length := by
    intro bl
    induction bl with
    | nil => intro p; rfl
    | cons a l ih => intro p; rw [cbcDec]; simp [ih]
  cases mode <;> first | exact List.length_map _ | exact h1 bl v | exact xtsBlocks_length D bl v

theorem wise_length (E : Vector Byte n → Vector Byte n) (mode : ModeId) (v : Vector Byte n) (bl : List (Vector Byte n)) :
    (blockwise E mode v bl).length = bl.length := by
  cases mode <;> first | exact List.length_map _ | exact cbcEnc_length E bl v | exact xtsBlocks_length E bl v

/-- Whole blocks, decryption against encryption. -/
theorem whole_iff (hn : 0 < n) {c : Cipher n} (h : Invertible c) (mode : ModeId) (v : Vector Byte n) (m ct : List Byte) :
    (n ∣ ct.length ∧ cat (unwise c.dec mode v (blocks n ct)) = m) ↔
      (n ∣ m.length ∧ ct = unblocks (blockwise c.enc mode v (blocks n m))) := by
  constructor
  · rintro ⟨h1, rfl⟩
    refine ⟨unblocks_dvd _, ?_⟩
    rw [← unblocks_eq, blocks_unblocks hn, wise_inv' h, unblocks_eq, whole hn h1]
  · rintro ⟨h1, rfl⟩
    refine ⟨unblocks_dvd _, ?_⟩
    rw [blocks_unblocks hn, wise_inv h, whole hn h1]

theorem pad7_dvd (hn : 0 < n) (m : List Byte) : n ∣ (pad7 n m).length := by
  obtain ⟨bl, t, rfl, ht⟩ := split n hn m
  obtain ⟨v, -, h⟩ := pad7_cat bl t ht
  rw [h]; exact unblocks_dvd _

theorem surj_inj {L : Nat} {f : List Byte → List Byte} (h1 : ∀ l, l.length = L → (f l).length = L)
    (h2 : ∀ a b, a.length = L → b.length = L → f a = f b → a = b) {y : List Byte} (hy : y.length = L) :
    ∃ x, x.length = L ∧ f x = y := by
  let T := {l : List Byte // l.length = L}
  have : Finite T := by
    refine Finite.of_injective (fun v : T => fun i : Fin L => (v.1.getD i.val 0).toFin) ?_
    intro a b hab
    apply Subtype.ext
    apply List.ext_getElem
    · rw [a.2, b.2]
    · intro i hi hi'
      have := congrFun hab ⟨i, by rw [← a.2]; exact hi⟩
      simpa [hi, hi'] using BitVec.eq_of_toFin_eq this
  have hinj : Function.Injective (fun x : T => (⟨f x.1, h1 x.1 x.2⟩ : T)) := by
    intro a b hab
    have h3 : f a.1 = f b.1 := congrArg Subtype.val hab
    exact Subtype.ext (h2 a.1 b.1 a.2 b.2 h3)
  obtain ⟨x, hx⟩ := (Finite.injective_iff_surjective.1 hinj) ⟨y, hy⟩
  exact ⟨x.1, x.2, congrArg Subtype.val hx⟩

theorem surj_len {L : Nat} {f g : List Byte → List Byte} (h1 : ∀ l, l.length = L → (f l).length = L)
    (h2 : ∀ l, l.length = L → g (f l) = l) {y : List Byte} (hy : y.length = L) : ∃ x, x.length = L ∧ f x = y :=
  surj_inj h1 (fun a b ha hb h => by rw [← h2 a ha, ← h2 b hb, h]) hy

/-! ## Stream modes -/

theorem calls_put {S : Type} {ctx : CipherStream n} {F : S → CipherMode n} {f : S → List Byte → C (List Byte × S)}
    (same : Bool) (hnum : ∀ s, (F s).id.num > 4)
    (hf : ∀ s x, cipher_stream_encipher { ctx with mode := F s } same x =
      (do let r ← mode_put F (f s x); .ok (r.1, { ctx with mode := r.2 }))) :
    ∀ (chunks : List (List Byte)) (s : S) (o : List Byte) (s' : S), Spec.calls f s chunks = .ok (o, s') →
    Spec.calls (streamUpdate same) { ctx with mode := F s } chunks = .ok (o, { ctx with mode := F s' })
  | [], s, o, s', h => by cases h; rfl
  | x :: cs, s, o, s', h => by
    rw [Spec.calls] at h ⊢
    rw [streamUpdate, cipher_stream_update, if_pos (show ({ ctx with mode := F s } : CipherStream n).mode.id.num > ModeId.xts.num from hnum s), hf, mode_put]
    cases hx : f s x with
    | ok r =>
      rw [hx, C.ok_bind] at h
      simp only [C.ok_bind]
      obtain ⟨r1, r2⟩ := r
      dsimp only at h ⊢
      cases hy : Spec.calls f r2 cs with
      | ok q =>
        rw [hy, C.ok_bind] at h
        obtain ⟨q1, q2⟩ := q
        cases h
        rw [calls_put same hnum hf cs r2 _ _ hy, C.ok_bind]
      | abort => rw [hy] at h; cases h
      | ub => rw [hy] at h; cases h
    | abort => rw [hx] at h; cases h
    | ub => rw [hx] at h; cases h

theorem session_stream {S : Type} {e : Bool} {c : Cipher n} {mode : ModeId} (hm : 4 < mode.num ∧ mode.num ≤ 7)
    {v : Vector Byte n} {pad : Bool} (same : Bool) {F : S → CipherMode n} {f : S → List Byte → C (List Byte × S)}
    (hid : ∀ s, (F s).id = mode) {s s' : S} (hs : start n mode v = F s)
    (hf : ∀ s x, (if e then cipher_mode_encrypt c (F s) x else cipher_mode_decrypt c same (F s) x) = mode_put F (f s x))
    {chunks : List (List Byte)} {o : List Byte} (h : Spec.calls f s chunks = .ok (o, s')) :
    session (cipher_stream_new e c (start n mode v)) pad same chunks = .ok (true, o) := by
  have hset : (cipher_stream_set_padding (cipher_stream_new e c (start n mode v)) pad).2 =
      { cipher_stream_new e c (start n mode v) with mode := F s } := by
    rw [← hs]
    cases mode <;> first | rfl | simp [ModeId.num] at hm
  rw [session, hset, calls_put (f := f) same (by intro s; rw [hid]; omega) _ chunks s o s' h, C.ok_bind]
  · have : cipher_stream_final { cipher_stream_new e c (start n mode v) with mode := F s' } =
        .ok ⟨true, [], 0, { cipher_stream_new e c (start n mode v) with mode := F s' }⟩ := by
      rw [cipher_stream_final]
      dsimp only
      rw [hid]
      cases mode <;> first | rfl | simp [ModeId.num] at hm
    rw [this, C.ok_bind, List.append_nil]
  · intro s x
    rw [cipher_stream_encipher, ← hf]
    rfl

theorem session_ctr (hn : 0 < n) (e : Bool) (c : Cipher n) (v : Vector Byte n) (pad same : Bool) (chunks : List (List Byte)) :
    session (cipher_stream_new e c (start n .ctr v)) pad same chunks =
      .ok (true, xorStream (ctrStream c.enc v) 0 chunks.flatten) := by
  obtain ⟨m0, h0, m, h⟩ := ctr_exact hn c v chunks
  rw [ctr_init, vec_toList', C.ok_bind] at h0
  cases h0
  exact session_stream (F := .ctr) (by decide) same (fun _ => rfl) rfl (by intro s x; cases e <;> rfl) h

theorem session_ofb (hn : 0 < n) (e : Bool) (c : Cipher n) (v : Vector Byte n) (pad same : Bool) (chunks : List (List Byte)) :
    session (cipher_stream_new e c (start n .ofb v)) pad same chunks =
      .ok (true, xorStream (ofbStream c.enc v) 0 chunks.flatten) := by
  obtain ⟨m0, h0, m, h⟩ := ofb_exact hn c v chunks
  rw [ofb_init, vec_toList', C.ok_bind] at h0
  cases h0
  exact session_stream (F := .ofb) (by decide) same (fun _ => rfl) rfl (by intro s x; cases e <;> rfl) h

/-- The byte-serial form of cipher feedback encryption. -/
def cfbEncFn (c : Cipher n) (v : Vector Byte n) (m : List Byte) : List Byte :=
  (serial (cfbS c) cfbE (Vector.replicate n 0, v) 0 m).1

/-- The byte-serial form of cipher feedback decryption. -/
def cfbDecFn (c : Cipher n) (v : Vector Byte n) (m : List Byte) : List Byte :=
  (serial (cfbS c) cfbD (Vector.replicate n 0, v) 0 m).1

theorem session_cfb_enc (hn : 0 < n) (c : Cipher n) (v : Vector Byte n) (pad same : Bool) (chunks : List (List Byte)) :
    session (cipher_stream_new true c (start n .cfb v)) pad same chunks = .ok (true, cfbEncFn c v chunks.flatten) :=
  session_stream (F := .cfb) (f := cfb_encrypt c) (by decide) same (fun _ => rfl) rfl (by intro s x; rfl)
    (calls_serial hn (cfb_callbacks_enc c) chunks (Vector.replicate n 0, v) 0 hn)

theorem session_cfb_dec (hn : 0 < n) (c : Cipher n) (v : Vector Byte n) (pad same : Bool) (chunks : List (List Byte)) :
    session (cipher_stream_new false c (start n .cfb v)) pad same chunks = .ok (true, cfbDecFn c v chunks.flatten) :=
  session_stream (F := .cfb) (f := cfb_decrypt c) (by decide) same (fun _ => rfl) rfl (by intro s x; rfl)
    (calls_serial hn (cfb_callbacks_dec c) chunks (Vector.replicate n 0, v) 0 hn)

theorem cfbEnc_spec (hn : 0 < n) (c : Cipher n) (v : Vector Byte n) (m : List Byte) : Cfb c.enc v m (cfbEncFn c v m) := by
  refine ⟨serial_length _ _ _, fun i hi => ?_⟩
  have := cfb_exact hn m [] _ (cfbAt_nil c (Vector.replicate n 0) v) i hi
  simpa [cfbEncFn] using this

theorem cfbDec_enc (c : Cipher n) (v : Vector Byte n) (m : List Byte) : cfbDecFn c v (cfbEncFn c v m) = m := by
  rw [cfbDecFn, cfbEncFn, cfb_inv]

theorem cfb_unique {E : Vector Byte n → Vector Byte n} {v : Vector Byte n} {m m' ct : List Byte} (h : Cfb E v m ct)
    (h' : Cfb E v m' ct) : m = m' := by
  apply List.ext_getElem
  · rw [← h.1, h'.1]
  · intro i h1 h2
    have e1 := h.2 i h1
    have e2 := h'.2 i h2
    rw [e1] at e2
    have e3 := congrArg (· ^^^ (E (cfbPrev v ct (i / n))).toList.getD (i % n) 0) e2
    simp only [BitVec.xor_assoc, BitVec.xor_self, BitVec.xor_zero] at e3
    simpa [h1, h2] using e3

theorem cfb_iff_enc (hn : 0 < n) (c : Cipher n) (v : Vector Byte n) (m ct : List Byte) :
    cfbEncFn c v m = ct ↔ Cfb c.enc v m ct := by
  constructor
  · rintro rfl; exact cfbEnc_spec hn c v m
  · intro h
    obtain ⟨x, -, hx⟩ := surj_len (f := cfbEncFn c v) (g := cfbDecFn c v) (L := ct.length)
      (fun l hl => by rw [(cfbEnc_spec hn c v l).1, hl]) (fun l _ => cfbDec_enc c v l) rfl
    have h2 := cfbEnc_spec hn c v x
    rw [hx] at h2
    rw [cfb_unique h h2, hx]

theorem cfb_iff_dec (hn : 0 < n) (c : Cipher n) (v : Vector Byte n) (m ct : List Byte) :
    cfbDecFn c v ct = m ↔ Cfb c.enc v m ct := by
  rw [← cfb_iff_enc hn]
  constructor
  · rintro rfl
    obtain ⟨x, -, hx⟩ := surj_len (f := cfbEncFn c v) (g := cfbDecFn c v) (L := ct.length)
      (fun l hl => by rw [(cfbEnc_spec hn c v l).1, hl]) (fun l _ => cfbDec_enc c v l) rfl
    rw [← hx, cfbDec_enc]
  · rintro rfl; exact cfbDec_enc c v m

/-! ## Complete sessions -/

theorem pads_iff {mode : ModeId} : mode.pads = true ↔ mode = .ecb ∨ mode = .cbc := by
  cases mode <;> simp [ModeId.pads]

theorem session_enc (hn : Size n) (c : Cipher n) {mode : ModeId} (hm : mode.num ≤ 7) (v : Vector Byte n) (pad same : Bool)
    {chunks : List (List Byte)} (hc : ∀ x ∈ chunks, x.length < 2 ^ 64) :
    ∃ ret out, session (cipher_stream_new true c (start n mode v)) pad same chunks = .ok (ret, out) ∧
      ∀ ct, (ret = true ∧ out = ct) ↔ Encrypts c.enc mode pad v chunks.flatten ct := by
  have hn0 := size_pos hn
  -- without padding
  have hplain : mode.num ≤ 4 → (mode = .raw ∨ pad = false) →
      ∃ ret out, session (cipher_stream_new true c (start n mode v)) pad same chunks = .ok (ret, out) ∧
      ∀ ct, (ret = true ∧ out = ct) ↔
        (n ∣ chunks.flatten.length ∧ ct = unblocks (blockwise c.enc mode v (blocks n chunks.flatten))) := by
    intro h4 hp
    obtain ⟨out, ctx, h1, h2⟩ := session_at hn (e := true) (c := c) h4 (v := v) (pad := pad) same hc
    have hu : (fresh true c mode v pad).unpad = false := by
      rw [fresh_unpad _ _ _ hm]
      rcases hp with rfl | rfl <;> simp [ModeId.pads, ModeId.steals]
    obtain ⟨h5, h6⟩ := final_none (fresh true c mode v pad) (by
      rw [fresh_mode, start_id hm]
      rcases hp with rfl | rfl
      · exact .inl rfl
      · by_cases hr : mode.pads = true ∨ mode.steals = true
        · exact .inr ⟨h4, fresh_padding _ _ _ _ _ hr⟩
        · left
          cases mode <;> simp [ModeId.pads, ModeId.steals, ModeId.num] at hr h4 ⊢) hu h1
    rw [h2, h5, C.ok_bind, List.append_nil, h6, fresh_mode, run_enc c h4]
    refine ⟨_, _, rfl, fun ct => ?_⟩
    rw [decide_eq_true_iff]
    exact and_congr_right fun _ => eq_comm
  -- padding
  have hpad : mode.pads = true → pad = true →
      ∃ ret out, session (cipher_stream_new true c (start n mode v)) pad same chunks = .ok (ret, out) ∧
      ∀ ct, (ret = true ∧ out = ct) ↔
        ct = unblocks (blockwise c.enc mode v (blocks n (pad7 n chunks.flatten))) := by
    rintro h rfl
    have h4 : mode.num ≤ 4 := by rcases pads_iff.1 h with rfl | rfl <;> decide
    obtain ⟨out, ctx, h1, h2⟩ := session_at hn (e := true) (c := c) h4 (v := v) (pad := true) same hc
    have hu : (fresh true c mode v true).unpad = false := by
      rw [fresh_unpad _ _ _ hm]
      rcases pads_iff.1 h with rfl | rfl <;> rfl
    obtain ⟨o, ctx', h5, h6⟩ := final_pad_enc hn _ (by rw [fresh_mode, start_id hm]; exact h) (fresh_encrypt _ _ _ _ _)
      (fresh_padding _ _ _ _ _ (.inl h)) hu h1
    rw [h2, h5, C.ok_bind, h6, fresh_mode, run_enc c h4]
    exact ⟨_, _, rfl, fun ct => by simp only [true_and]; exact eq_comm⟩
  -- stealing
  have hst : ∀ f : Vector Byte n → List Byte → List Byte, mode.steals = true → mode.num ≤ 4 → pad = true →
      (∀ ctx m out, n ≤ m.length → At (fresh true c mode v true) ctx m out →
        ∃ o ctx', cipher_stream_final ctx = .ok ⟨true, o, n + m.length % n, ctx'⟩ ∧ out ++ o = f v m) →
      ∃ ret out, session (cipher_stream_new true c (start n mode v)) pad same chunks = .ok (ret, out) ∧
      ∀ ct, (ret = true ∧ out = ct) ↔ (n ≤ chunks.flatten.length ∧ ct = f v chunks.flatten) := by
    rintro f hs h4 rfl hf
    obtain ⟨out, ctx, h1, h2⟩ := session_at hn (e := true) (c := c) h4 (v := v) (pad := true) same hc
    by_cases hl : n ≤ chunks.flatten.length
    · obtain ⟨o, ctx', h5, h6⟩ := hf ctx _ _ hl h1
      rw [h2, h5, C.ok_bind, h6]
      exact ⟨_, _, rfl, fun ct => by simp only [true_and, hl]; exact eq_comm⟩
    · obtain ⟨h5, h6⟩ := steal_short (by rw [fresh_mode, start_id hm]; exact hs) (fresh_padding _ _ _ _ _ (.inr hs))
        (by rw [fresh_unpad _ _ _ hm, hs]; simp) (by omega) h1
      rw [h2, h5, C.ok_bind]
      exact ⟨_, _, rfl, fun ct => ⟨fun h => by simp at h, fun h => absurd h.1 hl⟩⟩
  cases mode with
  | raw => exact hplain (by decide) (.inl rfl)
  | ecb => cases pad with
    | true => exact hpad rfl rfl
    | false => exact hplain (by decide) (.inr rfl)
  | cbc => cases pad with
    | true => exact hpad rfl rfl
    | false => exact hplain (by decide) (.inr rfl)
  | cts => cases pad with
    | true =>
      refine hst (ctsEnc c.enc) rfl (by decide) rfl (fun ctx m out hl h => ?_)
      have := final_cts_enc hn (fresh_mode _ _ _ _ _) (fresh_encrypt _ _ _ _ _)
        (fresh_padding _ _ _ _ _ (.inr rfl)) (by rw [fresh_unpad _ _ _ hm]; rfl) hl h
      rwa [fresh_cipher] at this
    | false => exact hplain (by decide) (.inr rfl)
  | xts => cases pad with
    | true =>
      refine hst (xtsEnc c.enc) rfl (by decide) rfl (fun ctx m out hl h => ?_)
      have := final_xts_enc hn (fresh_mode _ _ _ _ _) (fresh_encrypt _ _ _ _ _)
        (fresh_padding _ _ _ _ _ (.inr rfl)) (by rw [fresh_unpad _ _ _ hm]; rfl) hl h
      rwa [fresh_cipher] at this
    | false => exact hplain (by decide) (.inr rfl)
  | ctr => exact ⟨_, _, session_ctr hn0 true c v pad same chunks, fun ct => by simp only [true_and, Encrypts]; exact eq_comm⟩
  | ofb => exact ⟨_, _, session_ofb hn0 true c v pad same chunks, fun ct => by simp only [true_and, Encrypts]; exact eq_comm⟩
  | cfb => exact ⟨_, _, session_cfb_enc hn0 c v pad same chunks, fun ct => by simp only [true_and, Encrypts]; exact cfb_iff_enc hn0 c v _ _⟩
  | _ => simp [ModeId.num] at hm

theorem xor_iff (f : Nat → Byte) (m ct : List Byte) : xorStream f 0 ct = m ↔ ct = xorStream f 0 m := by
  have h : ∀ m, xorStream f 0 (xorStream f 0 m) = m := by
    intro m
    apply List.ext_getElem
    · simp [xorStream]
    · intro i h1 h2
      simp [xorStream, BitVec.xor_assoc]
  constructor
  · rintro rfl; exact (h ct).symm
  · rintro rfl; exact h m

theorem session_dec (hn : Size n) {c : Cipher n} (hi : Invertible c) {mode : ModeId} (hm : mode.num ≤ 7) (v : Vector Byte n)
    (pad same : Bool) {chunks : List (List Byte)} (hc : ∀ x ∈ chunks, x.length < 2 ^ 64) :
    ∃ ret out, session (cipher_stream_new false c (start n mode v)) pad same chunks = .ok (ret, out) ∧
      ∀ m, (ret = true ∧ out = m) ↔ Encrypts c.enc mode pad v m chunks.flatten := by
  have hn0 := size_pos hn
  have hplain : mode.num ≤ 4 → (mode = .raw ∨ pad = false) →
      ∃ ret out, session (cipher_stream_new false c (start n mode v)) pad same chunks = .ok (ret, out) ∧
      ∀ m, (ret = true ∧ out = m) ↔
        (n ∣ m.length ∧ chunks.flatten = unblocks (blockwise c.enc mode v (blocks n m))) := by
    intro h4 hp
    obtain ⟨out, ctx, h1, h2⟩ := session_at hn (e := false) (c := c) h4 (v := v) (pad := pad) same hc
    have hu : (fresh false c mode v pad).unpad = false := by
      rw [fresh_unpad _ _ _ hm]
      rcases hp with rfl | rfl <;> simp [ModeId.pads, ModeId.steals]
    obtain ⟨h5, h6⟩ := final_none (fresh false c mode v pad) (by
      rw [fresh_mode, start_id hm]
      rcases hp with rfl | rfl
      · exact .inl rfl
      · by_cases hr : mode.pads = true ∨ mode.steals = true
        · exact .inr ⟨h4, fresh_padding _ _ _ _ _ hr⟩
        · left
          cases mode <;> simp [ModeId.pads, ModeId.steals, ModeId.num] at hr h4 ⊢) hu h1
    rw [h2, h5, C.ok_bind, List.append_nil, h6, fresh_mode, run_dec c h4]
    refine ⟨_, _, rfl, fun m => ?_⟩
    rw [decide_eq_true_iff]
    exact whole_iff hn0 hi mode v m _
  have hpad : mode.pads = true → pad = true →
      ∃ ret out, session (cipher_stream_new false c (start n mode v)) pad same chunks = .ok (ret, out) ∧
      ∀ m, (ret = true ∧ out = m) ↔
        chunks.flatten = unblocks (blockwise c.enc mode v (blocks n (pad7 n m))) := by
    rintro h rfl
    have h4 : mode.num ≤ 4 := by rcases pads_iff.1 h with rfl | rfl <;> decide
    obtain ⟨out, ctx, h1, h2⟩ := session_at hn (e := false) (c := c) h4 (v := v) (pad := true) same hc
    have hu : (fresh false c mode v true).unpad = true := by
      rw [fresh_unpad _ _ _ hm]
      rcases pads_iff.1 h with rfl | rfl <;> rfl
    obtain ⟨ret, o, w, h5, -, -, h6⟩ := final_pad_dec hn _ (by rw [fresh_mode, start_id hm]; exact h) (fresh_encrypt _ _ _ _ _)
      (fresh_padding _ _ _ _ _ (.inl h)) hu h1
    rw [h2, h5, C.ok_bind]
    refine ⟨_, _, rfl, fun m => ?_⟩
    rw [h6, fresh_mode, run_dec c h4, whole_iff hn0 hi]
    simp [pad7_dvd hn0]
  have hst : ∀ f : List Byte → List Byte, mode.steals = true → mode.num ≤ 4 → pad = true →
      (∀ m, n ≤ m.length → (f m).length = m.length) →
      (∀ ctx m out, n ≤ m.length → At (fresh false c mode v true) ctx (f m) out →
        ∃ o ctx', cipher_stream_final ctx = .ok ⟨true, o, n + m.length % n, ctx'⟩ ∧ out ++ o = m) →
      ∃ ret out, session (cipher_stream_new false c (start n mode v)) pad same chunks = .ok (ret, out) ∧
      ∀ m, (ret = true ∧ out = m) ↔ (n ≤ m.length ∧ chunks.flatten = f m) := by
    rintro f hs h4 rfl hlen hf
    obtain ⟨out, ctx, h1, h2⟩ := session_at hn (e := false) (c := c) h4 (v := v) (pad := true) same hc
    by_cases hl : n ≤ chunks.flatten.length
    · -- injectivity through the context itself
      have hinj : ∀ m m', n ≤ m.length → n ≤ m'.length → f m = f m' → m = m' := by
        intro m m' hm1 hm2 he
        obtain ⟨o1, c1, g1⟩ := exists_at hn (fresh_blocky h4) (fresh_at hn0 false c mode v true) (f m)
        obtain ⟨o, ctx', h5, h6⟩ := hf c1 m o1 hm1 g1
        obtain ⟨o', ctx'', h7, h8⟩ := hf c1 m' o1 hm2 (he ▸ g1)
        rw [h5] at h7
        have h9 : o = o' := congrArg CipherFinal.out (C.ok.inj h7)
        rw [← h6, h9, h8]
      obtain ⟨x, hx1, hx2⟩ := surj_inj (L := chunks.flatten.length) (f := f)
        (fun l h => by rw [hlen l (by omega), h]) (fun a b ha hb => hinj a b (by omega) (by omega)) rfl
      rw [← hx2] at h1
      obtain ⟨o, ctx', h5, h6⟩ := hf ctx x out (by omega) h1
      rw [h2, h5, C.ok_bind, h6]
      refine ⟨_, _, rfl, fun m => ?_⟩
      constructor
      · rintro ⟨-, rfl⟩; exact ⟨by omega, hx2.symm⟩
      · rintro ⟨h7, h8⟩; exact ⟨rfl, hinj x m (by omega) h7 (by rw [hx2, h8])⟩
    · obtain ⟨h5, h6⟩ := steal_short (by rw [fresh_mode, start_id hm]; exact hs) (fresh_padding _ _ _ _ _ (.inr hs))
        (by rw [fresh_unpad _ _ _ hm, hs]; simp) (by omega) h1
      rw [h2, h5, C.ok_bind]
      refine ⟨_, _, rfl, fun m => ⟨fun h => by simp at h, fun h => ?_⟩⟩
      rw [h.2, hlen m h.1] at hl
      exact absurd h.1 hl
  cases mode with
  | raw => exact hplain (by decide) (.inl rfl)
  | ecb => cases pad with
    | true => exact hpad rfl rfl
    | false => exact hplain (by decide) (.inr rfl)
  | cbc => cases pad with
    | true => exact hpad rfl rfl
    | false => exact hplain (by decide) (.inr rfl)
  | cts => cases pad with
    | true =>
      refine hst (ctsEnc c.enc v) rfl (by decide) rfl (fun m h => ctsEnc_length hn0 c v h) (fun ctx m out hl h => ?_)
      exact final_cts_dec hn (c0 := fresh false c .cts v true) (fresh_mode _ _ _ _ _) (by rw [fresh_cipher]; exact hi) (fresh_encrypt _ _ _ _ _)
        (fresh_padding _ _ _ _ _ (.inr rfl)) (by rw [fresh_unpad _ _ _ hm]; rfl) hl (by rwa [fresh_cipher])
    | false => exact hplain (by decide) (.inr rfl)
  | xts => cases pad with
    | true =>
      refine hst (xtsEnc c.enc v) rfl (by decide) rfl (fun m h => xtsEnc_length hn0 c v h) (fun ctx m out hl h => ?_)
      exact final_xts_dec hn (c0 := fresh false c .xts v true) (fresh_mode _ _ _ _ _) (by rw [fresh_cipher]; exact hi) (fresh_encrypt _ _ _ _ _)
        (fresh_padding _ _ _ _ _ (.inr rfl)) (by rw [fresh_unpad _ _ _ hm]; rfl) hl (by rwa [fresh_cipher])
    | false => exact hplain (by decide) (.inr rfl)
  | ctr => exact ⟨_, _, session_ctr hn0 false c v pad same chunks, fun m => by simp only [true_and, Encrypts]; exact xor_iff _ _ _⟩
  | ofb => exact ⟨_, _, session_ofb hn0 false c v pad same chunks, fun m => by simp only [true_and, Encrypts]; exact xor_iff _ _ _⟩
  | cfb => exact ⟨_, _, session_cfb_dec hn0 c v pad same chunks, fun m => by simp only [true_and, Encrypts]; exact cfb_iff_dec hn0 c v _ _⟩
  | _ => simp [ModeId.num] at hm

end Torsion.Ciph
