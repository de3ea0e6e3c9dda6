import Verif.Encoding.Base64
import Verif.Encoding.Base32Lemmas

namespace Torsion
open Spec

set_option maxRecDepth 8000 in
theorem alpha64 : Alpha 6 base64_charset base64_table base64Char id where
  cs_ok := by decide +kernel
  tab := by decide +kernel
  inj := by decide +kernel
  fold_eq := by decide +kernel
  al_eq := by decide +kernel

set_option maxRecDepth 8000 in
theorem alpha64url : Alpha 6 base64url_charset base64url_table base64urlChar id where
  cs_ok := by decide +kernel
  tab := by decide +kernel
  inj := by decide +kernel
  fold_eq := by decide +kernel
  al_eq := by decide +kernel

/-! ## Encoder -/

theorem b64_bounds : ∀ c : Byte, (c >>> 2).toNat < 2 ^ 6 ∧ (c &&& 63).toNat < 2 ^ 6 ∧
    ((c &&& 3) <<< 4).toNat < 2 ^ 6 ∧ ((c &&& 15) <<< 2).toNat < 2 ^ 6 := by decide +kernel

theorem b64_bound2 (a b : Byte) : (((a &&& 3) <<< 4) ||| (b >>> 4)).toNat < 2 ^ 6 := by
  apply toNat_lt_of_bits
  intro i h1 h2
  rw [BitVec.getLsbD_or, BitVec.getLsbD_ushiftRight, getLsbD_of_lt (r := 6) (b64_bounds a).2.2.1 h1,
    BitVec.getLsbD_of_ge _ _ (by omega)]
  rfl

theorem b64_bound3 (a b : Byte) : (((a &&& 15) <<< 2) ||| (b >>> 6)).toNat < 2 ^ 6 := by
  apply toNat_lt_of_bits
  intro i h1 h2
  rw [BitVec.getLsbD_or, BitVec.getLsbD_ushiftRight, getLsbD_of_lt (r := 6) (b64_bounds a).2.2.2 h1,
    BitVec.getLsbD_of_ge _ _ (by omega)]
  rfl

theorem enc3 (c1 c2 c3 : Byte) :
    natBits 6 (c1 >>> 2).toNat ++ (natBits 6 (((c1 &&& 3) <<< 4) ||| (c2 >>> 4)).toNat ++
      (natBits 6 (((c2 &&& 15) <<< 2) ||| (c3 >>> 6)).toNat ++ natBits 6 (c3 &&& 63).toNat)) =
    byteBits c1 ++ (byteBits c2 ++ byteBits c3) := by
  bitsimp []

theorem enc1 (c1 : Byte) :
    natBits 6 (c1 >>> 2).toNat ++ natBits 6 ((c1 &&& 3) <<< 4).toNat =
      byteBits c1 ++ List.replicate 4 false := by
  bitsimp [List.replicate]

theorem enc2 (c1 c2 : Byte) :
    natBits 6 (c1 >>> 2).toNat ++ (natBits 6 (((c1 &&& 3) <<< 4) ||| (c2 >>> 4)).toNat ++
      natBits 6 ((c2 &&& 15) <<< 2).toNat) =
      byteBits c1 ++ (byteBits c2 ++ List.replicate 2 false) := by
  bitsimp [List.replicate]

theorem enc64 {cs table al fold} (A : Alpha 6 cs table al fold) (pad : Bool) : ∀ src : List Byte,
    ∃ vs z p, base64_encode0 cs pad src = .ok (vs.map al ++ List.replicate p 61) ∧
      (∀ v ∈ vs, v < 2 ^ 6) ∧ z < 6 ∧ bitsK 6 vs = bits src ++ List.replicate z false ∧
      p = if pad then (4 - vs.length % 4) % 4 else 0
  | [] => ⟨[], 0, 0, by simp [base64_encode0], by simp, by decide, by simp [bits], by simp⟩
  | [c1] => by
    obtain ⟨b1, b2, b3, b4⟩ := b64_bounds c1
    refine ⟨[(c1 >>> 2).toNat, ((c1 &&& 3) <<< 4).toNat], 4, if pad then 2 else 0, ?_, ?_, by decide,
      ?_, ?_⟩
    · rw [base64_encode0, A.cs_ok _ b1, A.cs_ok _ b3]
      cases pad <;> rfl
    · intro v hv
      simp only [List.mem_cons, List.not_mem_nil, or_false] at hv
      rcases hv with rfl | rfl <;> assumption
    · rw [bitsK_cons, bitsK_cons, bitsK_nil, List.append_nil, enc1]; simp [bits]
    · cases pad <;> rfl
  | [c1, c2] => by
    obtain ⟨b1, b2, b3, b4⟩ := b64_bounds c1
    have b5 := b64_bound2 c1 c2
    have b6 := (b64_bounds c2).2.2.2
    refine ⟨[(c1 >>> 2).toNat, (((c1 &&& 3) <<< 4) ||| (c2 >>> 4)).toNat,
      ((c2 &&& 15) <<< 2).toNat], 2, if pad then 1 else 0, ?_, ?_, by decide, ?_, ?_⟩
    · rw [base64_encode0, A.cs_ok _ b1, A.cs_ok _ b5, A.cs_ok _ b6]
      cases pad <;> rfl
    · intro v hv
      simp only [List.mem_cons, List.not_mem_nil, or_false] at hv
      rcases hv with rfl | rfl | rfl <;> assumption
    · rw [bitsK_cons, bitsK_cons, bitsK_cons, bitsK_nil, List.append_nil, enc2]; simp [bits]
    · cases pad <;> rfl
  | c1 :: c2 :: c3 :: src => by
    obtain ⟨vs, z, p, e, hv, hz, hb, hp⟩ := enc64 A pad src
    have b1 := (b64_bounds c1).1
    have b2 := (b64_bounds c3).2.1
    have b5 := b64_bound2 c1 c2
    have b6 := b64_bound3 c2 c3
    refine ⟨(c1 >>> 2).toNat :: (((c1 &&& 3) <<< 4) ||| (c2 >>> 4)).toNat ::
      (((c2 &&& 15) <<< 2) ||| (c3 >>> 6)).toNat :: (c3 &&& 63).toNat :: vs, z, p, ?_, ?_, hz, ?_, ?_⟩
    · rw [base64_encode0, A.cs_ok _ b1, A.cs_ok _ b5, A.cs_ok _ b6, A.cs_ok _ b2, e]
      rfl
    · intro v hv'
      simp only [List.mem_cons] at hv'
      rcases hv' with rfl | rfl | rfl | rfl | h
      · exact b1
      · exact b5
      · exact b6
      · exact b2
      · exact hv v h
    · have := enc3 c1 c2 c3
      simp only [bitsK_cons, hb, bits_cons]
      simp only [← List.append_assoc] at this ⊢
      rw [this]
    · rw [hp]; simp only [List.length_cons]; congr 2; omega

theorem base64_encode0_eq {cs table al fold} (A : Alpha 6 cs table al fold) (pad : Bool)
    (src : List Byte) : base64_encode0 cs pad src = .ok (encode 6 4 al pad src) := by
  obtain ⟨vs, z, p, e, hv, hz, hb, hp⟩ := enc64 A pad src
  have hg := groups_of_bitsK (by decide) _ _ _ hv hz hb
  rw [e, encode, hg, hp]
  cases pad <;> simp [eqPad]

/-! ## Decoder -/

theorem valid_or (a b : Byte) :
    ((a ||| b) &&& 0x80 ≠ 0) ↔ (a &&& 0x80 ≠ 0) ∨ (b &&& 0x80 ≠ 0) := by
  rw [hi_bit, hi_bit, hi_bit, BitVec.getLsbD_or, Bool.or_eq_true]

theorem dec4 (t1 t2 t3 t4 : Byte) (h2 : t2.toNat < 2 ^ 6)
    (h3 : t3.toNat < 2 ^ 6) (h4 : t4.toNat < 2 ^ 6) :
    natBits 6 t1.toNat ++ (natBits 6 t2.toNat ++ (natBits 6 t3.toNat ++ natBits 6 t4.toNat)) =
    byteBits ((t1 <<< 2) ||| (t2 >>> 4)) ++ (byteBits ((t2 <<< 4) ||| (t3 >>> 2)) ++
      byteBits ((t3 <<< 6) ||| (t4 >>> 0))) := by
  have a6 : t2[6] = false := getLsbD_of_lt (i := 6) h2 (by omega)
  have a7 : t2[7] = false := getLsbD_of_lt (i := 7) h2 (by omega)
  have b6 : t3[6] = false := getLsbD_of_lt (i := 6) h3 (by omega)
  have b7 : t3[7] = false := getLsbD_of_lt (i := 7) h3 (by omega)
  have c6 : t4[6] = false := getLsbD_of_lt (i := 6) h4 (by omega)
  have c7 : t4[7] = false := getLsbD_of_lt (i := 7) h4 (by omega)
  bitsimp [a6, a7, b6, b7, c6, c7]

theorem dec2 (t1 t2 : Byte) (h2 : t2.toNat < 2 ^ 6) :
    natBits 6 t1.toNat ++ natBits 6 t2.toNat =
    byteBits ((t1 <<< 2) ||| (t2 >>> 4)) ++ natBits 4 t2.toNat := by
  have a6 : t2[6] = false := getLsbD_of_lt (i := 6) h2 (by omega)
  have a7 : t2[7] = false := getLsbD_of_lt (i := 7) h2 (by omega)
  bitsimp [a6, a7]

theorem dec3 (t1 t2 t3 : Byte) (h2 : t2.toNat < 2 ^ 6) (h3 : t3.toNat < 2 ^ 6) :
    natBits 6 t1.toNat ++ (natBits 6 t2.toNat ++ natBits 6 t3.toNat) =
    byteBits ((t1 <<< 2) ||| (t2 >>> 4)) ++ (byteBits ((t2 <<< 4) ||| (t3 >>> 2)) ++
      natBits 2 t3.toNat) := by
  have a6 : t2[6] = false := getLsbD_of_lt (i := 6) h2 (by omega)
  have a7 : t2[7] = false := getLsbD_of_lt (i := 7) h2 (by omega)
  have b6 : t3[6] = false := getLsbD_of_lt (i := 6) h3 (by omega)
  have b7 : t3[7] = false := getLsbD_of_lt (i := 7) h3 (by omega)
  bitsimp [a6, a7, b6, b7]

theorem validC_iff (table : Vector Byte 256) (c : Byte) :
    validC table c = true ↔ ¬ (look table c &&& 0x80 ≠ 0) := by
  rw [ne_eq, Decidable.not_not]; exact beq_iff_eq

theorem natBits_zero_iff (r n : Nat) : natBits r n = List.replicate r false ↔ n % 2 ^ r = 0 := by
  rw [← natBits_zero, ← natBits_mod]
  constructor
  · intro h
    exact natBits_inj (Nat.mod_lt _ (Nat.two_pow_pos _)) (Nat.two_pow_pos _) h
  · intro h; rw [h]

/-- The decoding loop accepts exactly when all characters are valid and the trailing bits are
zero; and then the bits agree. It never stores more than `6n/8` bytes. -/
theorem dec64 {cs table al fold} (A : Alpha 6 cs table al fold) : ∀ s : List Byte,
    (base64_decode_loop table s).dst.length ≤ 6 * s.length / 8 ∧
    ((base64_decode_loop table s).ret = true ↔ (∀ c ∈ s, validC table c = true) ∧ s.length % 4 ≠ 1 ∧
      ∃ b z, z < 6 ∧ bitsK 6 (vals table s) = bits b ++ List.replicate z false) ∧
    ((base64_decode_loop table s).ret = true → ∃ z, z < 6 ∧
      bitsK 6 (vals table s) = bits (base64_decode_loop table s).dst ++ List.replicate z false)
  | [] => by
    refine ⟨by simp [base64_decode_loop], ?_, fun _ => ⟨0, by decide, by simp [base64_decode_loop, vals, bits]⟩⟩
    simp only [base64_decode_loop, true_iff]
    exact ⟨by simp, by decide, [], 0, by decide, by simp [vals, bits]⟩
  | [c1] => by
    refine ⟨by simp [base64_decode_loop], ?_, by simp [base64_decode_loop]⟩
    simp [base64_decode_loop]
  | [c1, c2] => by
    simp only [base64_decode_loop, valid_or]
    have hv : ∀ c, validC table c = true → (look table c).toNat < 2 ^ 6 := by
      intro c hc
      rcases A.valid (by decide) c with ⟨_, h2, _⟩ | ⟨h1, _⟩
      · exact h2
      · rw [hc] at h1; cases h1
    by_cases h : validC table c1 = true ∧ validC table c2 = true
    · obtain ⟨h1, h2⟩ := h
      have e1 := (validC_iff table c1).1 h1
      have e2 := (validC_iff table c2).1 h2
      rw [if_neg (by rintro (h | h); exacts [e1 h, e2 h])]
      have hb := dec2 (look table c1) (look table c2) (hv c2 h2)
      have hm := (mask_iff (look table c2)).2.1
      have hbits : bitsK 6 (vals table [c1, c2]) =
          bits [(look table c1 <<< 2) ||| (look table c2 >>> 4)] ++ natBits 4 (look table c2).toNat := by
        simp only [vals, List.map_cons, List.map_nil, bitsK_cons, bitsK_nil, List.append_nil, hb]
        simp [bits]
      split
      · rename_i hz
        refine ⟨by simp, ?_, by simp⟩
        simp only [Bool.false_eq_true, false_iff]
        rintro ⟨_, _, b, z, hz6, hbb⟩
        rw [hbits] at hbb
        obtain ⟨_, hx⟩ := bits_split (by simp) (by omega) hbb
        have : z = 4 := by simpa using (congrArg List.length hx).symm
        subst this
        rw [natBits_zero_iff] at hx
        exact hz (hm.2 hx)
      · rename_i hz
        simp only [ne_eq, Decidable.not_not] at hz
        rw [hm, ← natBits_zero_iff] at hz
        rw [hz] at hbits
        refine ⟨by simp, ?_, fun _ => ⟨4, by decide, hbits⟩⟩
        simp only [true_iff]
        exact ⟨by simp [h1, h2], by simp, _, 4, by decide, hbits⟩
    · have hbad : (look table c1 &&& 0x80 ≠ 0) ∨ (look table c2 &&& 0x80 ≠ 0) := by
        by_contra hn
        exact h ⟨(validC_iff _ _).2 (fun h => hn (.inl h)), (validC_iff _ _).2 (fun h => hn (.inr h))⟩
      rw [if_pos hbad]
      refine ⟨by simp, ?_, by simp⟩
      simp only [Bool.false_eq_true, false_iff]
      rintro ⟨hall, _⟩
      exact h ⟨hall c1 (by simp), hall c2 (by simp)⟩
  | [c1, c2, c3] => by
    simp only [base64_decode_loop, valid_or]
    have hv : ∀ c, validC table c = true → (look table c).toNat < 2 ^ 6 := by
      intro c hc
      rcases A.valid (by decide) c with ⟨_, h2, _⟩ | ⟨h1, _⟩
      · exact h2
      · rw [hc] at h1; cases h1
    by_cases h : validC table c1 = true ∧ validC table c2 = true ∧ validC table c3 = true
    · obtain ⟨h1, h2, h3⟩ := h
      have e1 := (validC_iff table c1).1 h1
      have e2 := (validC_iff table c2).1 h2
      have e3 := (validC_iff table c3).1 h3
      rw [if_neg (by rintro ((h | h) | h); exacts [e1 h, e2 h, e3 h])]
      have hb := dec3 (look table c1) (look table c2) (look table c3) (hv c2 h2) (hv c3 h3)
      have hm := (mask_iff (look table c3)).1
      have hbits : bitsK 6 (vals table [c1, c2, c3]) =
          bits [(look table c1 <<< 2) ||| (look table c2 >>> 4),
            (look table c2 <<< 4) ||| (look table c3 >>> 2)] ++ natBits 2 (look table c3).toNat := by
        simp only [vals, List.map_cons, List.map_nil, bitsK_cons, bitsK_nil, List.append_nil, hb]
        simp [bits]
      split
      · rename_i hz
        refine ⟨by simp, ?_, by simp⟩
        simp only [Bool.false_eq_true, false_iff]
        rintro ⟨_, _, b, z, hz6, hbb⟩
        rw [hbits] at hbb
        obtain ⟨_, hx⟩ := bits_split (by simp) (by omega) hbb
        have : z = 2 := by simpa using (congrArg List.length hx).symm
        subst this
        rw [natBits_zero_iff] at hx
        exact hz (hm.2 hx)
      · rename_i hz
        simp only [ne_eq, Decidable.not_not] at hz
        rw [hm, ← natBits_zero_iff] at hz
        rw [hz] at hbits
        refine ⟨by simp, ?_, fun _ => ⟨2, by decide, hbits⟩⟩
        simp only [true_iff]
        exact ⟨by simp [h1, h2, h3], by simp, _, 2, by decide, hbits⟩
    · have hbad : ((look table c1 &&& 0x80 ≠ 0) ∨ (look table c2 &&& 0x80 ≠ 0)) ∨
          (look table c3 &&& 0x80 ≠ 0) := by
        by_contra hn
        exact h ⟨(validC_iff _ _).2 (fun h => hn (.inl (.inl h))),
          (validC_iff _ _).2 (fun h => hn (.inl (.inr h))), (validC_iff _ _).2 (fun h => hn (.inr h))⟩
      rw [if_pos hbad]
      refine ⟨by simp, ?_, by simp⟩
      simp only [Bool.false_eq_true, false_iff]
      rintro ⟨hall, _⟩
      exact h ⟨hall c1 (by simp), hall c2 (by simp), hall c3 (by simp)⟩
  | c1 :: c2 :: c3 :: c4 :: s => by
    obtain ⟨il, ir, ib⟩ := dec64 A s
    simp only [base64_decode_loop, valid_or]
    have hv : ∀ c, validC table c = true → (look table c).toNat < 2 ^ 6 := by
      intro c hc
      rcases A.valid (by decide) c with ⟨_, h2, _⟩ | ⟨h1, _⟩
      · exact h2
      · rw [hc] at h1; cases h1
    by_cases h : validC table c1 = true ∧ validC table c2 = true ∧ validC table c3 = true ∧
        validC table c4 = true
    · obtain ⟨h1, h2, h3, h4⟩ := h
      have e1 := (validC_iff table c1).1 h1
      have e2 := (validC_iff table c2).1 h2
      have e3 := (validC_iff table c3).1 h3
      have e4 := (validC_iff table c4).1 h4
      rw [if_neg (by rintro (((h | h) | h) | h); exacts [e1 h, e2 h, e3 h, e4 h])]
      have hb := dec4 (look table c1) _ _ _ (hv c2 h2) (hv c3 h3) (hv c4 h4)
      generalize hx1 : ((look table c1 <<< 2) ||| (look table c2 >>> 4)) = x1 at *
      generalize hx2 : ((look table c2 <<< 4) ||| (look table c3 >>> 2)) = x2 at *
      generalize hx3 : ((look table c3 <<< 6) ||| (look table c4 >>> 0)) = x3 at *
      have hbits : bitsK 6 (vals table (c1 :: c2 :: c3 :: c4 :: s)) =
          bits [x1, x2, x3] ++ bitsK 6 (vals table s) := by
        simp only [vals, List.map_cons, bitsK_cons]
        simp only [← List.append_assoc] at hb ⊢
        rw [hb]
        simp [bits]
      have hin : (∃ b z, z < 6 ∧ bitsK 6 (vals table (c1 :: c2 :: c3 :: c4 :: s)) =
          bits b ++ List.replicate z false) ↔
          (∃ b z, z < 6 ∧ bitsK 6 (vals table s) = bits b ++ List.replicate z false) := by
        rw [hbits]
        constructor
        · rintro ⟨b, z, hz, hbb⟩
          have hlen := congrArg List.length hbb
          rw [List.length_append, List.length_append, bits_len, bits_len, List.length_replicate] at hlen
          simp only [List.length_cons, List.length_nil] at hlen
          have h3 : 3 ≤ b.length := by omega
          refine ⟨b.drop 3, z, hz, ?_⟩
          have : b = b.take 3 ++ b.drop 3 := (List.take_append_drop 3 b).symm
          rw [this, bits_append, List.append_assoc] at hbb
          exact (List.append_inj hbb (by rw [bits_len, bits_len]; simp; omega)).2
        · rintro ⟨b, z, hz, hbb⟩
          exact ⟨x1 :: x2 :: x3 :: b, z, hz, by rw [hbb]; simp [bits]⟩
      refine ⟨?_, ?_, ?_⟩
      · simp only [List.length_cons]; omega
      · rw [hin]
        simp only [ir, List.mem_cons, List.length_cons]
        constructor
        · rintro ⟨ha, hl, hx⟩
          refine ⟨?_, by omega, hx⟩
          rintro c (rfl | rfl | rfl | rfl | hc)
          · exact h1
          · exact h2
          · exact h3
          · exact h4
          · exact ha c hc
        · rintro ⟨ha, hl, hx⟩
          exact ⟨fun c hc => ha c (by simp [hc]), by omega, hx⟩
      · intro hr
        obtain ⟨z, hz, hbb⟩ := ib hr
        exact ⟨z, hz, by rw [hbits, hbb]; simp [bits]⟩
    · have hbad : (((look table c1 &&& 0x80 ≠ 0) ∨ (look table c2 &&& 0x80 ≠ 0)) ∨
          (look table c3 &&& 0x80 ≠ 0)) ∨ (look table c4 &&& 0x80 ≠ 0) := by
        by_contra hn
        exact h ⟨(validC_iff _ _).2 (fun h => hn (.inl (.inl (.inl h)))),
          (validC_iff _ _).2 (fun h => hn (.inl (.inl (.inr h)))),
          (validC_iff _ _).2 (fun h => hn (.inl (.inr h))), (validC_iff _ _).2 (fun h => hn (.inr h))⟩
      rw [if_pos hbad]
      refine ⟨by simp, ?_, by simp⟩
      simp only [Bool.false_eq_true, false_iff]
      rintro ⟨hall, _⟩
      exact h ⟨hall c1 (by simp), hall c2 (by simp), hall c3 (by simp), hall c4 (by simp)⟩


/-! ## The public functions -/

theorem strip2_eq (s : List Byte) (len : Nat) :
    (do let l ← base64_strip1 s len
        base64_strip1 s l) = base32_strip s 2 len := by
  have h1 : ∀ l, base64_strip1 s l = base32_strip s 1 l := by
    intro l
    simp only [base64_strip1, base32_strip]
  have h2 : ∀ l, base32_strip s 2 l = (do let l ← base64_strip1 s l; base32_strip s 1 l) := by
    intro l
    by_cases h : l > 0
    · simp only [base64_strip1, base32_strip, if_pos h]
      cases C.rd s (l - 1) <;> rfl
    · simp only [base64_strip1, base32_strip, if_neg h, C.ok_bind]
  rw [h2]
  simp only [h1]

theorem strip2_bind {β : Type} (s : List Byte) (len : Nat) (f : Nat → C β) :
    (do let l ← base64_strip1 s len
        let l ← base64_strip1 s l
        f l) = (base32_strip s 2 len >>= f) := by
  rw [← strip2_eq]
  cases base64_strip1 s len <;> rfl

theorem size64 (L : Nat) : (if L % 4 ≠ 0 then L / 4 * 3 + (L % 4 - 1) else L / 4 * 3) = 6 * L / 8 := by
  split <;> omega

/-- `decode0` in terms of the stripped length. -/
theorem decode0_iff {cs table al} (A : Alpha 6 cs table al id) (s : List Byte) (L : Nat)
    (hL : base32_strip s 2 s.length = .ok L) (hLs : L ≤ s.length) :
    ∃ r, base64_decode0 s table = .ok r ∧ r.dst.length ≤ 6 * L / 8 ∧
      (r.ret = true → r.dst.length = 6 * L / 8) ∧
      (∀ b, r = ⟨b, true⟩ ↔ L % 4 ≠ 1 ∧ (groups 6 (bits b)).map al = s.take L) ∧
      (r.ret = true ↔ (∀ c ∈ s.take L, validC table c = true) ∧ L % 4 ≠ 1 ∧
        ∃ b z, z < 6 ∧ bitsK 6 (vals table (s.take L)) = bits b ++ List.replicate z false) := by
  unfold base64_decode0
  rw [strip2_bind, hL, C.ok_bind]
  by_cases h1 : L % 4 = 1
  · rw [if_pos h1]
    exact ⟨_, rfl, by simp, by simp, by simp [h1], by simp [h1]⟩
  · rw [if_neg h1]
    obtain ⟨d1, d2, d3⟩ := dec64 A (s.take L)
    have htl : (s.take L).length = L := by simp; omega
    rw [htl] at d1 d2
    refine ⟨_, rfl, d1, ?_, ?_, d2⟩
    · intro hr
      obtain ⟨z, hz, hb⟩ := d3 hr
      have := congrArg List.length hb
      rw [bitsK_len, List.length_append, bits_len, List.length_replicate] at this
      simp only [vals, List.length_map, htl] at this
      omega
    · intro b
      constructor
      · intro hr
        refine ⟨h1, ?_⟩
        have hret : (base64_decode_loop table (s.take L)).ret = true := by rw [hr]
        obtain ⟨z, hz, hb⟩ := d3 hret
        rw [hr] at hb
        have hall := (d2.1 hret).1
        obtain ⟨hmap, hlt⟩ := A.vals_map (by decide) _ hall
        rw [groups_of_bitsK (by decide) _ _ _ hlt hz hb, hmap, List.map_id]
      · rintro ⟨_, hg⟩
        obtain ⟨gl, z, hz, hgb⟩ := bitsK_groups (k := 6) (by decide) (bits b)
        have hsp := A.split (vs := groups 6 (bits b)) (s := s.take L) (n := 0) (by decide) gl
          (by simp [hg])
        obtain ⟨s1, s2, s3, s4⟩ := hsp
        have hgl : (groups 6 (bits b)).length = L := by omega
        rw [hgl, List.take_take, Nat.min_self] at s1 s2
        have hall : ∀ c ∈ s.take L, validC table c = true := by
          rw [← s1]; exact takeWhile_all _ _
        have hret : (base64_decode_loop table (s.take L)).ret = true :=
          d2.2 ⟨hall, h1, b, z, hz, by rw [s2, hgb]⟩
        obtain ⟨z', hz', hb'⟩ := d3 hret
        rw [s2, hgb] at hb'
        obtain ⟨e, _⟩ := bits_split (x := List.replicate z' false) (by simp; omega) (by omega) hb'.symm
        rw [← e, ← hret]

theorem last_eq_of_strip {s : List Byte} {L : Nat}
    (h3 : s.length - L = 2 ∨ L = 0 ∨ s[L - 1]? ≠ some 61) (h2 : ∀ i, L ≤ i → i < s.length → s[i]? = some 61)
    (hL : L ≤ s.length) (hL2 : s.length - L ≤ 2) :
    (0 < s.length → (s[s.length - 1]? = some 61 ↔ L ≠ s.length)) ∧
    (1 < s.length → s[s.length - 1]? = some 61 → (s[s.length - 2]? = some 61 ↔ s.length - L = 2)) := by
  constructor
  · intro hpos
    constructor
    · intro h hn
      subst hn
      rcases h3 with h' | h' | h'
      · omega
      · omega
      · exact h' h
    · intro hn
      exact h2 _ (by omega) (by omega)
  · intro hpos hl
    constructor
    · intro h
      by_contra hn
      have hne : L ≠ s.length := by
        rintro rfl
        rcases h3 with h' | h' | h'
        · omega
        · omega
        · exact h' hl
      have : L = s.length - 1 := by omega
      rcases h3 with h' | h' | h'
      · omega
      · omega
      · rw [this] at h'
        exact h' (by rw [show s.length - 1 - 1 = s.length - 2 by omega]; exact h)
    · intro h
      exact h2 _ (by omega) (by omega)

theorem rd_eq_some {s : List Byte} {i : Nat} (h : i < s.length) :
    ∃ c, C.rd s i = .ok c ∧ s[i]? = some c := by
  exact ⟨s[i], rd_of_lt h, List.getElem?_eq_getElem h⟩

/-- The padding check never misbehaves; it is decided by the last two characters. -/
theorem check_padding_eq (s : List Byte) (size : Nat) :
    ∃ g, base64_check_padding s size = .ok g ∧ (g = true ↔
      match size % 3 with
      | 0 => (0 < s.length → s[s.length - 1]? ≠ some 61) ∧ (1 < s.length → s[s.length - 2]? ≠ some 61)
      | 1 => 4 ≤ s.length ∧ s[s.length - 2]? = some 61 ∧ s[s.length - 1]? = some 61
      | _ => 4 ≤ s.length ∧ s[s.length - 2]? ≠ some 61 ∧ s[s.length - 1]? = some 61) := by
  unfold base64_check_padding
  have h3 : size % 3 < 3 := Nat.mod_lt _ (by decide)
  have h61 : ch '=' = 61 := rfl
  generalize size % 3 = m at *
  simp only [h61]
  interval_cases m
  · by_cases h0 : s.length = 0
    · exact ⟨true, by simp [h0], by simp [h0]⟩
    · by_cases h1 : s.length = 1
      · obtain ⟨c, hc, hc'⟩ := rd_eq_some (s := s) (i := 0) (by omega)
        refine ⟨c != 61, by simp [h1, hc], ?_⟩
        simp only [h1, Nat.sub_self, hc', bne_iff_ne, ne_eq, Option.some.injEq]
        simp
      · obtain ⟨c, hc, hc'⟩ := rd_eq_some (s := s) (i := s.length - 2) (by omega)
        obtain ⟨d, hd, hd'⟩ := rd_eq_some (s := s) (i := s.length - 1) (by omega)
        simp only [h0, h1, if_false, hc, hd, C.ok_bind, hc', hd']
        by_cases hx : c = 61#8
        · exact ⟨false, by simp [hx], by simp [hx]; omega⟩
        · refine ⟨d != 61, by simp [hx], ?_⟩
          simp only [bne_iff_ne, ne_eq, Option.some.injEq]
          constructor
          · intro h; exact ⟨fun _ => h, fun _ => hx⟩
          · intro h; exact h.1 (by omega)
  · by_cases h4 : s.length ≥ 4
    · obtain ⟨c, hc, hc'⟩ := rd_eq_some (s := s) (i := s.length - 2) (by omega)
      obtain ⟨d, hd, hd'⟩ := rd_eq_some (s := s) (i := s.length - 1) (by omega)
      simp only [h4, if_true, hc, hd, C.ok_bind, hc', hd']
      by_cases hx : c = 61#8
      · refine ⟨d == 61, by simp [hx], by simp [hx, beq_iff_eq]⟩
      · exact ⟨false, by simp [hx], by simpa using fun h => absurd h hx⟩
    · exact ⟨false, by simp [h4], by simp; omega⟩
  · by_cases h4 : s.length ≥ 4
    · obtain ⟨c, hc, hc'⟩ := rd_eq_some (s := s) (i := s.length - 2) (by omega)
      obtain ⟨d, hd, hd'⟩ := rd_eq_some (s := s) (i := s.length - 1) (by omega)
      simp only [h4, if_true, hc, hd, C.ok_bind, hc', hd']
      by_cases hx : c = 61#8
      · exact ⟨false, by simp [hx], by simp [hx]⟩
      · refine ⟨d == 61, by simp [hx], ?_⟩
        simp only [beq_iff_eq, Option.some.injEq, true_and, ne_eq]
        exact ⟨fun h => ⟨hx, h⟩, fun h => h.2⟩
    · exact ⟨false, by simp [h4], by simp; omega⟩


theorem decode_size64 (s : List Byte) (L : Nat) (hL : base32_strip s 2 s.length = .ok L) :
    base64_decode_size s = .ok (6 * L / 8) := by
  unfold base64_decode_size
  rw [strip2_bind, hL, C.ok_bind]
  simp only [size64]

theorem size_mod (L : Nat) : (L % 4 = 0 → 6 * L / 8 % 3 = 0) ∧ (L % 4 = 1 → 6 * L / 8 % 3 = 0) ∧
    (L % 4 = 2 → 6 * L / 8 % 3 = 1) ∧ (L % 4 = 3 → 6 * L / 8 % 3 = 2) := by omega

/-- A valid prefix followed by at most two `=` is what stripping finds. -/
theorem strip_of_encode {cs table al} (A : Alpha 6 cs table al id) {s : List Byte} {vs : List Nat}
    {p L : Nat} (hv : ∀ v ∈ vs, v < 2 ^ 6) (hp : p ≤ 2)
    (hs : s = vs.map al ++ List.replicate p 61)
    (h1 : L ≤ s.length) (h2 : ∀ i, L ≤ i → i < s.length → s[i]? = some 61)
    (h3 : s.length - L = 2 ∨ L = 0 ∨ s[L - 1]? ≠ some 61) : L = vs.length := by
  have hlen : s.length = vs.length + p := by rw [hs]; simp
  rcases Nat.lt_trichotomy L vs.length with h | h | h
  · have := h2 L (Nat.le_refl _) (by omega)
    rw [hs, List.getElem?_append_left (by simpa using h), List.getElem?_map,
      List.getElem?_eq_getElem h] at this
    simp only [Option.map_some, Option.some.injEq] at this
    exact absurd this (A.al_eq _ (hv _ (List.getElem_mem h)))
  · exact h
  · have : s[L - 1]? = some 61 := by
      rw [hs, List.getElem?_append_right (by simp; omega), List.getElem?_replicate]
      rw [if_pos (by simp; omega)]
    rcases h3 with h' | h' | h'
    · omega
    · omega
    · exact absurd this h'

theorem strip_ge (s : List Byte) : ∀ k l n, base32_strip s k l = .ok n → l ≤ n + k := by
  intro k
  induction k with
  | zero => intro l n h; simp [base32_strip] at h; omega
  | succ k ih =>
    intro l n h
    rw [base32_strip] at h
    split at h
    · cases hrd : C.rd s (l - 1) with
      | ok c => rw [hrd, C.ok_bind] at h; have := ih _ _ h; split at this <;> omega
      | abort => rw [hrd] at h; cases h
      | ub => rw [hrd] at h; cases h
    · simp at h; omega

theorem bits_surj : ∀ (n : Nat) (l : List Bool), l.length = 8 * n → ∃ b, bits b = l := by
  intro n
  induction n with
  | zero =>
    intro l hl
    exact ⟨[], by rw [List.length_eq_zero_iff.1 (by omega : l.length = 0)]; rfl⟩
  | succ n ih =>
    intro l hl
    obtain ⟨b, hb⟩ := ih (l.drop 8) (by simp; omega)
    refine ⟨BitVec.ofNat 8 (bitsVal (l.take 8)) :: b, ?_⟩
    have h8 : (l.take 8).length = 8 := by simp; omega
    have hlt := bitsVal_lt (l.take 8)
    have hnb := natBits_bitsVal (l.take 8)
    rw [h8] at hlt hnb
    rw [bits_cons, byteBits_eq, BitVec.toNat_ofNat, Nat.mod_eq_of_lt hlt, hb, hnb,
      List.take_append_drop]

theorem groups6_mod (b : List Byte) : (groups 6 (bits b)).length % 4 ≠ 1 := by
  rw [groups_len (by decide), bits_len]; omega

/-- Base64: accepted strings are exactly the RFC encodings. -/
theorem base64_decode_iff (s : List Byte) :
    ∃ r, base64_decode s = .ok r ∧ (∀ b, r = ⟨b, true⟩ ↔ encode 6 4 base64Char true b = s) := by
  have A := alpha64
  obtain ⟨L, hL, h1, h2, h3⟩ := strip_spec s 2 s.length (Nat.le_refl _)
  obtain ⟨r, hr, _, _, hiff, _⟩ := decode0_iff A s L hL h1
  obtain ⟨g, hg, hgi⟩ := check_padding_eq s (6 * L / 8)
  have hL2 : s.length - L ≤ 2 := by
    have := strip_ge s _ _ _ hL
    omega
  obtain ⟨q1, q2⟩ := last_eq_of_strip h3 h2 h1 hL2
  obtain ⟨m0, m1, m2, m3⟩ := size_mod L
  have hm : L % 4 < 4 := Nat.mod_lt _ (by decide)
  have hdrop : s.drop L = List.replicate (s.length - L) 61 := by
    apply List.ext_getElem (by simp)
    intro i hi1 hi2
    simp only [List.length_replicate] at hi2
    have := h2 (L + i) (by omega) (by omega)
    rw [List.getElem?_eq_getElem (by omega)] at this
    simp only [Option.some.injEq] at this
    simp [this]
  unfold base64_decode
  rw [decode_size64 s L hL, C.ok_bind, hg, C.ok_bind]
  cases g with
  | false =>
    refine ⟨_, rfl, ?_⟩
    intro b
    simp only [DecOut.mk.injEq, Bool.false_eq_true, and_false, false_iff]
    intro he
    obtain ⟨gl, _⟩ := bitsK_groups (k := 6) (by decide) (bits b)
    have hmod := groups6_mod b
    have he' : s = (groups 6 (bits b)).map base64Char ++
        List.replicate ((4 - (groups 6 (bits b)).length % 4) % 4) 61 := by
      rw [← he]; simp [encode, eqPad]
    have hLv := strip_of_encode A gl (by omega) he' h1 h2 h3
    have hlen : s.length = L + (4 - L % 4) % 4 := by
      conv_lhs => rw [he']
      simp [hLv]
    rw [← hLv] at hmod
    simp only [Bool.false_eq_true, false_iff] at hgi
    apply hgi
    have hcases : L % 4 = 0 ∨ L % 4 = 2 ∨ L % 4 = 3 := by omega
    rcases hcases with h | h | h
    · rw [m0 h]
      simp only
      have : s.length = L := by omega
      refine ⟨fun hpos => ?_, fun hpos => ?_⟩
      · rw [ne_eq, q1 hpos]; omega
      · have hlt : s.length - 2 < (groups 6 (bits b)).length := by omega
        have hg2 : s[s.length - 2]? = some (base64Char (groups 6 (bits b))[s.length - 2]) := by
          generalize s.length - 2 = k at *
          rw [he', List.getElem?_append_left (by simpa using hlt), List.getElem?_map,
            List.getElem?_eq_getElem hlt]
          rfl
        rw [hg2]
        simp only [ne_eq, Option.some.injEq]
        exact A.al_eq _ (gl _ (List.getElem_mem hlt))
    · rw [m2 h]
      simp only
      have : s.length = L + 2 := by omega
      exact ⟨by omega, h2 _ (by omega) (by omega), h2 _ (by omega) (by omega)⟩
    · rw [m3 h]
      simp only
      have : s.length = L + 1 := by omega
      refine ⟨by omega, ?_, h2 _ (by omega) (by omega)⟩
      rw [ne_eq, q2 (by omega) (h2 _ (by omega) (by omega))]
      omega
  | true =>
    simp only [Bool.not_true, Bool.false_eq_true, if_false]
    refine ⟨r, hr, ?_⟩
    intro b
    rw [hiff b]
    simp only [true_iff] at hgi
    constructor
    · rintro ⟨hne, hgm⟩
      have hgl : (groups 6 (bits b)).length = L := by
        have := congrArg List.length hgm
        simp at this; omega
      have hlen : s.length - L = (4 - L % 4) % 4 := by
        have hcases : L % 4 = 0 ∨ L % 4 = 2 ∨ L % 4 = 3 := by omega
        rcases hcases with h | h | h
        · rw [m0 h] at hgi
          simp only at hgi
          by_cases hpos : 0 < s.length
          · have := hgi.1 hpos
            rw [ne_eq, q1 hpos] at this
            omega
          · omega
        · rw [m2 h] at hgi
          simp only at hgi
          have := (q2 (by omega) hgi.2.2).1 hgi.2.1
          omega
        · rw [m3 h] at hgi
          simp only at hgi
          have h5 := (q1 (by omega)).1 hgi.2.2
          have h6 : ¬ (s.length - L = 2) := fun h => hgi.2.1 ((q2 (by omega) hgi.2.2).2 h)
          omega
      unfold encode eqPad
      simp only [if_true, hgm]
      conv_rhs => rw [← List.take_append_drop L s]
      rw [hdrop, hlen]
      simp only [List.length_take, Nat.min_eq_left h1]
    · intro he
      obtain ⟨gl, _⟩ := bitsK_groups (k := 6) (by decide) (bits b)
      have hmod := groups6_mod b
      have he' : s = (groups 6 (bits b)).map base64Char ++
          List.replicate ((4 - (groups 6 (bits b)).length % 4) % 4) 61 := by
        rw [← he]; simp [encode, eqPad]
      have hLv := strip_of_encode A gl (by omega) he' h1 h2 h3
      refine ⟨by omega, ?_⟩
      conv_rhs => rw [he']
      rw [List.take_left' (by simp [hLv])]

theorem base64url_decode_iff (s : List Byte) :
    ∃ r, base64url_decode s = .ok r ∧
      (∀ b, r = ⟨b, true⟩ ↔ encode 6 4 base64urlChar false b = s) := by
  have A := alpha64url
  obtain ⟨L, hL, h1, h2, h3⟩ := strip_spec s 2 s.length (Nat.le_refl _)
  obtain ⟨r, hr, _, _, hiff, _⟩ := decode0_iff A s L hL h1
  obtain ⟨g, hg, hgi⟩ := check_padding_eq s 0
  simp only [Nat.zero_mod] at hgi
  unfold base64url_decode
  rw [hg, C.ok_bind]
  cases g with
  | false =>
    refine ⟨_, rfl, ?_⟩
    intro b
    simp only [DecOut.mk.injEq, Bool.false_eq_true, and_false, false_iff]
    intro he
    obtain ⟨gl, _⟩ := bitsK_groups (k := 6) (by decide) (bits b)
    have he' : s = (groups 6 (bits b)).map base64urlChar := by
      rw [← he]; simp [encode]
    simp only [Bool.false_eq_true, false_iff] at hgi
    apply hgi
    have : ∀ i : Nat, s[i]? ≠ some 61 := by
      intro i h
      rw [he', List.getElem?_map] at h
      rcases hx : (groups 6 (bits b))[i]? with _ | v
      · rw [hx] at h; cases h
      · rw [hx] at h
        exact A.al_eq v (gl v (List.mem_of_getElem? hx)) (Option.some.inj h)
    exact ⟨fun _ => this _, fun _ => this _⟩
  | true =>
    simp only [Bool.not_true, Bool.false_eq_true, if_false]
    refine ⟨r, hr, ?_⟩
    intro b
    rw [hiff b]
    simp only [true_iff] at hgi
    have hLs : L = s.length := by
      by_contra hn
      exact hgi.1 (by omega) (h2 _ (by omega) (by omega))
    subst hLs
    rw [List.take_length]
    unfold encode
    simp only [Bool.false_eq_true, if_false]
    constructor
    · rintro ⟨_, h⟩; exact h
    · intro h
      refine ⟨?_, h⟩
      have := congrArg List.length h
      rw [List.length_map] at this
      have := groups6_mod b
      omega

theorem any255 {cs table al fold} (A : Alpha 6 cs table al fold) (l : List Byte) :
    l.any (fun c => look table c == 255) = true ↔ ¬ ∀ c ∈ l, validC table c = true := by
  rw [List.any_eq_true]
  constructor
  · rintro ⟨c, hc, h⟩ hall
    rw [beq_iff_eq] at h
    rcases A.valid (by decide) c with ⟨_, h2, _⟩ | ⟨h1, _⟩
    · rw [h] at h2; simp at h2
    · rw [hall c hc] at h1; cases h1
  · intro h
    by_contra hn
    apply h
    intro c hc
    rcases A.valid (by decide) c with ⟨h1, _, _⟩ | ⟨_, h2, _⟩
    · exact h1
    · exact absurd ⟨c, hc, by rw [h2]; rfl⟩ hn

/-- `base64_test0` answers what `base64_decode0` would. -/
theorem base64_test0_eq {cs table al} (A : Alpha 6 cs table al id) (s : List Byte) :
    ∃ r, base64_decode0 s table = .ok r ∧ base64_test0 s table = .ok r.ret := by
  obtain ⟨L, hL, h1, h2, h3⟩ := strip_spec s 2 s.length (Nat.le_refl _)
  obtain ⟨r, hr, _, _, _, hret⟩ := decode0_iff A s L hL h1
  refine ⟨r, hr, ?_⟩
  unfold base64_test0
  rw [strip2_bind, hL, C.ok_bind]
  by_cases hm : L % 4 = 1
  · rw [if_pos hm]
    congr 1
    symm
    rw [Bool.eq_false_iff, ne_eq, hret]
    exact fun h => h.2.1 hm
  · rw [if_neg hm]
    by_cases hany : (s.take L).any (fun c => look table c == 255) = true
    · rw [if_pos hany]
      rw [any255 A] at hany
      congr 1
      symm
      rw [Bool.eq_false_iff, ne_eq, hret]
      exact fun h => hany h.1
    · rw [if_neg hany]
      rw [any255 A, Decidable.not_not] at hany
      have hlen : (bitsK 6 (vals table (s.take L))).length = 6 * L := by
        rw [bitsK_len]; simp [vals]; omega
      have htl : (s.take L).length = L := by simp; omega
      have hlast : ∀ (k : Nat) (m : Byte), k ≤ 6 → k < 8 → 6 * L % 8 = k → 0 < L →
          (∀ v : Byte, (v &&& m = 0) ↔ v.toNat % 2 ^ k = 0) →
          ∃ c, C.rd s (L - 1) = .ok c ∧ ((look table c &&& m == 0) = r.ret ∨ ¬ k < 6) := by
        intro k m hk hk8 hkL hpos hmask
        obtain ⟨c, hc, hc'⟩ := rd_eq_some (s := s) (i := L - 1) (by omega)
        refine ⟨c, hc, ?_⟩
        by_cases hk6 : k < 6
        · left
          rw [Bool.eq_iff_iff, beq_iff_eq, hmask, hret]
          rcases List.eq_nil_or_concat (s.take L) with h | ⟨ini, d, h⟩
          · rw [h] at htl; simp at htl; omega
          · rw [List.concat_eq_append] at h
            have hd : d = c := by
              have hg : (s.take L)[L - 1]? = some c := by
                rw [List.getElem?_take]; rw [if_pos (by omega)]; exact hc'
              rw [h, List.getElem?_append_right (by rw [h] at htl; simp at htl; omega)] at hg
              have : L - 1 - ini.length = 0 := by rw [h] at htl; simp at htl; omega
              rw [this] at hg
              simpa using hg
            subst hd
            have hbk : bitsK 6 (vals table (s.take L)) =
                bitsK 6 (vals table ini) ++ natBits 6 (look table d).toNat := by
              rw [h]; simp [vals, bitsK_append, bitsK_cons]
            have hlen2 := hlen
            rw [hbk, List.length_append, natBits_len] at hlen2
            constructor
            · intro hz
              refine ⟨hany, hm, ?_⟩
              have hd8 := natBits_drop 6 k (look table d).toNat hk
              rw [(natBits_zero_iff k _).2 hz] at hd8
              have hn6 : natBits 6 (look table d).toNat =
                  (natBits 6 (look table d).toNat).take (6 - k) ++ List.replicate k false := by
                rw [← hd8, List.take_append_drop]
              obtain ⟨b, hb⟩ := bits_surj (6 * L / 8)
                (bitsK 6 (vals table ini) ++ (natBits 6 (look table d).toNat).take (6 - k)) (by
                  rw [List.length_append, List.length_take, natBits_len]; omega)
              refine ⟨b, k, hk6, ?_⟩
              rw [hbk, hn6, ← List.append_assoc, hb]
            · rintro ⟨_, _, b, z, hz, hb⟩
              have hlz := congrArg List.length hb
              rw [hlen, List.length_append, bits_len, List.length_replicate] at hlz
              have hzk : z = k := by omega
              subst hzk
              rw [hbk] at hb
              have hdr := congrArg (List.drop (8 * b.length)) hb
              rw [List.drop_append, List.drop_eq_nil_of_le (by omega), List.nil_append,
                List.drop_left' (bits_len b),
                show 8 * b.length - (bitsK 6 (vals table ini)).length = 6 - z by omega,
                natBits_drop 6 z _ hk] at hdr
              exact (natBits_zero_iff _ _).1 hdr
        · right; exact hk6
      have hcases : L % 4 = 0 ∨ L % 4 = 2 ∨ L % 4 = 3 := by omega
      rcases hcases with h | h | h
      · rw [h]
        simp only
        congr 1
        symm
        rw [hret]
        refine ⟨hany, hm, ?_⟩
        obtain ⟨b, hb⟩ := bits_surj (6 * L / 8) (bitsK 6 (vals table (s.take L))) (by omega)
        exact ⟨b, 0, by decide, by rw [hb]; simp⟩
      · obtain ⟨c, hc, hx⟩ := hlast 4 15 (by decide) (by decide) (by omega) (by omega)
          (fun v => (mask_iff v).2.1)
        rw [h]
        simp only [hc, C.ok_bind]
        rcases hx with hx | hx
        · rw [hx]
        · omega
      · obtain ⟨c, hc, hx⟩ := hlast 2 3 (by decide) (by decide) (by omega) (by omega)
          (fun v => (mask_iff v).1)
        rw [h]
        simp only [hc, C.ok_bind]
        rcases hx with hx | hx
        · rw [hx]
        · omega

end Torsion
