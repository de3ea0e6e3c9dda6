import Verif.Cipher.EaxSession
import Mathlib.Data.Nat.Size

/-!
# CCM sessions
-/
namespace Torsion.Ciph
open Spec Blk
open Asn1 (beVal_append beVal_inj)

/-! ## Numbers as bytes -/

theorem bb_split (j k v : Nat) : (beBlock (j + k) v).toList = (beBlock j (v / 256 ^ k)).toList ++ (beBlock k v).toList := by
  apply beVal_inj
  · simp
  rw [beVal_append, beVal_beBlock', beVal_beBlock', beVal_beBlock', Vector.length_toList, Nat.add_comm j, Nat.pow_add, Nat.mod_mul]
  ring

theorem bb_zero (j : Nat) : (beBlock j 0).toList = List.replicate j 0 := by
  apply List.ext_getElem
  · simp
  · intro i h1 h2
    simp [beBlock]

theorem bb_one (v : Nat) : (beBlock 1 v).toList = [BitVec.ofNat 8 v] := by
  apply List.ext_getElem
  · simp
  · intro i h1 h2
    have : i = 0 := by simpa using h1
    subst this
    simp [beBlock]

theorem len_loop_eq : ∀ (k lm : Nat) (acc : List Byte),
    ccm_len_loop k lm acc = ((beBlock k lm).toList ++ acc, lm / 256 ^ k)
  | 0, lm, acc => by simp [ccm_len_loop, beBlock]
  | k + 1, lm, acc => by
    rw [ccm_len_loop, len_loop_eq k, bb_split k 1, bb_one, Nat.shiftRight_eq_div_pow, Nat.div_div_eq_div_mul]
    have : BitVec.ofNat 8 (lm &&& 255) = BitVec.ofNat 8 lm := by
      apply BitVec.eq_of_toNat_eq
      rw [BitVec.toNat_ofNat, BitVec.toNat_ofNat, show (255 : Nat) = 2 ^ 8 - 1 by decide, Nat.and_two_pow_sub_one_eq_mod]
      omega
    rw [this, show 2 ^ 8 * 256 ^ k = 256 ^ (k + 1) by rw [show (2 : Nat) ^ 8 = 256 by norm_num, ← pow_succ'], Nat.pow_one]
    simp

/-! ## The parameter L -/

theorem bits_eq : ∀ (k x z : Nat), x < 2 ^ k → ccm_bits k x z = .ok (z + Nat.size x)
  | 0, x, z, h => by
    have : x = 0 := by simpa using h
    subst this
    simp [ccm_bits]
  | k + 1, x, z, h => by
    rw [ccm_bits]
    by_cases hx : x > 0
    · rw [if_pos hx]
      show ccm_bits k (x >>> 1) (z + 1) = _
      rw [bits_eq k _ _ (by rw [Nat.shiftRight_eq_div_pow]; omega)]
      congr 1
      have h1 : Nat.size x = Nat.size (x / 2) + 1 := by
        have h2 := Nat.size_bit (b := x.bodd) (n := x / 2) (by rw [← Nat.div2_val, Nat.bit_bodd_div2]; omega)
        rwa [← Nat.div2_val, Nat.bit_bodd_div2] at h2
      rw [h1, Nat.shiftRight_eq_div_pow, Nat.pow_one]
      omega
    · have : x = 0 := by omega
      subst this
      rw [if_neg hx, Nat.size_zero, Nat.add_zero]

theorem size_log {x : Nat} (hx : 0 < x) : (Nat.size x + 7) / 8 = Nat.log 256 x + 1 := by
  have h1 : Nat.log 256 x = (Nat.size x - 1) / 8 := by
    have hs : 0 < Nat.size x := Nat.size_pos.2 hx
    rw [Nat.log_eq_iff (.inr ⟨by decide, by omega⟩)]
    constructor
    · calc 256 ^ ((Nat.size x - 1) / 8) = 2 ^ (8 * ((Nat.size x - 1) / 8)) := by rw [Nat.pow_mul]
        _ ≤ 2 ^ (Nat.size x - 1) := Nat.pow_le_pow_right (by decide) (by omega)
        _ ≤ x := Nat.lt_size.1 (by omega)
    · calc x < 2 ^ Nat.size x := Nat.lt_size_self x
        _ ≤ 2 ^ (8 * ((Nat.size x - 1) / 8 + 1)) := Nat.pow_le_pow_right (by decide) (by omega)
        _ = 256 ^ ((Nat.size x - 1) / 8 + 1) := by rw [Nat.pow_mul]
  have hs : 0 < Nat.size x := Nat.size_pos.2 hx
  rw [h1]
  omega

theorem log256_eq {x : Nat} (hx : x < 2 ^ 64) : ccm_log256 x = .ok (ccmL x) := by
  rw [ccm_log256, bits_eq 64 x 0 hx, C.ok_bind, Nat.zero_add, ccmL]
  dsimp only
  congr 1
  rcases Nat.eq_zero_or_pos x with rfl | h
  · simp
  · rw [size_log h]
    split <;> omega

theorem ccmL_le {x : Nat} (hx : x < 2 ^ 64) : 2 ≤ ccmL x ∧ ccmL x ≤ 8 := by
  refine ⟨Nat.le_max_left _ _, Nat.max_le.2 ⟨by decide, ?_⟩⟩
  rcases Nat.eq_zero_or_pos x with rfl | h
  · simp
  · have := Nat.log_lt_of_lt_pow (b := 256) (x := 8) (y := x) (by omega) (by
      calc x < 2 ^ 64 := hx
        _ = 256 ^ 8 := by norm_num)
    omega

theorem ccmL_lt (x : Nat) : x < 256 ^ ccmL x := by
  calc x < 256 ^ (Nat.log 256 x + 1) := Nat.lt_pow_succ_log_self (by decide) x
    _ ≤ 256 ^ ccmL x := Nat.pow_le_pow_right (by decide) (Nat.le_max_right _ _)

/-! ## Counter blocks -/

theorem fitTo_length (k : Nat) (iv : List Byte) : (fitTo k iv).length = k := by
  simp [fitTo]; omega

theorem count_toList {nonce : List Byte} {len : Nat} (hl : nonce.length = 15 - ccmL len) (h15 : ccmL len ≤ 15) (i : Nat) :
    (ccmCount nonce len i).toList = BitVec.ofNat 8 (ccmL len - 1) :: nonce ++ (beBlock (ccmL len) i).toList := by
  apply List.ext_getElem
  · simp; omega
  · intro j h1 h2
    rw [Vector.getElem_toList]
    unfold ccmCount
    rw [Vector.getElem_ofFn, List.getD_eq_getElem?_getD, List.getElem?_eq_getElem h2,
      Option.getD_some]

theorem count_step {nonce : List Byte} {len : Nat} (hl : nonce.length = 15 - ccmL len) (h15 : ccmL len ≤ 15) {i k : Nat}
    (h : i + k < 256 ^ ccmL len) :
    beBlock 16 ((beVal (ccmCount nonce len i).toList + k) % 256 ^ 16) = ccmCount nonce len (i + k) := by
  have e : beVal (ccmCount nonce len i).toList + k = beVal (ccmCount nonce len (i + k)).toList := by
    rw [count_toList hl h15, count_toList hl h15, beVal_append, beVal_append, beVal_beBlock h, beVal_beBlock (by omega),
      Vector.length_toList, Vector.length_toList, Nat.add_assoc]
  rw [e, Nat.mod_eq_of_lt (by simpa using beVal_lt (ccmCount nonce len (i + k)).toList), beBlock_val]

/-- The key stream of CCM, as long as the counter does not run over. -/
theorem ccm_ks {nonce : List Byte} {len : Nat} (hl : nonce.length = 15 - ccmL len) (h15 : ccmL len ≤ 15)
    (E : Vector Byte 16 → Vector Byte 16) {m : List Byte} (hm : m.length ≤ len) :
    xorStream (ctrStream E (ccmCount nonce len 1)) 0 m =
      xorStream (fun i => (E (ccmCount nonce len (i / 16 + 1))).toList.getD (i % 16) 0) 0 m := by
  simp only [xorStream]
  apply List.ext_getElem
  · simp
  intro i h1 h2
  have hi : i < m.length := by simpa using h1
  simp only [List.getElem_mapIdx, Nat.zero_add]
  have hL := ccmL_lt len
  have h2 : 256 ^ 1 ≤ 256 ^ ccmL len := Nat.pow_le_pow_right (by decide) (by unfold ccmL; omega)
  rw [ctrStream, count_step hl h15 (by omega), Nat.add_comm 1]

/-! ## The state -/

variable {c : Cipher 16}

theorem cbcmac_step {h : Cmac 16} {m : List Byte} (hh : MHolds false c h m) (x : List Byte) :
    ∃ h', cbcmac_update c h x = .ok h' ∧ MHolds false c h' (m ++ x) := by
  rw [cbcmac_update, more_false]
  exact mholds_update (by decide) hh x

theorem cbcmac_init_holds : MHolds false c (cbcmac_init 16) [] :=
  ⟨[], [], rfl, .inr ⟨rfl, rfl⟩, rfl, by rw [padXor_nil]; rfl⟩

theorem cbcmac_pad_holds {h : Cmac 16} {m : List Byte} (hh : MHolds false c h m) :
    MHolds false c (cbcmac_pad c h) (pad16 m) ∧ (cbcmac_pad c h).mac = macChain c.enc (blocks 16 (pad16 m)) := by
  obtain ⟨bl, t, rfl, ht, hpos, hmac⟩ := hh
  have htn : t.length < 16 := by
    rcases ht with ht | ⟨-, rfl⟩
    · simpa [RestOk] using ht
    · simp
  have hlen : (cat bl ++ t).length = bl.length * 16 + t.length := by rw [List.length_append, cat_length]
  rw [cbcmac_pad, hpos]
  by_cases h0 : t.length > 0
  · rw [if_pos h0]
    have hp : pad16 (cat bl ++ t) = cat bl ++ (t ++ List.replicate (16 - t.length) 0) := by
      rw [pad16, hlen, show (16 - (bl.length * 16 + t.length) % 16) % 16 = 16 - t.length by omega, List.append_assoc]
    obtain ⟨w, -, hw⟩ := vec_ok (n := 16) (xs := t ++ List.replicate (16 - t.length) 0) (by simp; omega)
    rw [List.take_of_length_le (by simp; omega)] at hw
    have hcat : pad16 (cat bl ++ t) = cat (bl ++ [w]) := by rw [hp, cat_append, cat_cons, hw]; simp
    have hmac' : c.enc h.mac = macChain c.enc (bl ++ [w]) := by
      rw [hmac, ← padXor_zeros _ _ (16 - t.length), ← hw, padXor_vec]
      simp [macChain]
    refine ⟨⟨bl ++ [w], [], by rw [hcat]; simp, .inl (by simp [RestOk]), rfl, by rw [padXor_nil, hmac']⟩, ?_⟩
    have := blocks_cat (bl ++ [w]) [] (by decide)
    rw [List.append_nil] at this
    rw [hcat, this]
    exact hmac'
  · have h1 : t = [] := List.eq_nil_of_length_eq_zero (by omega)
    subst h1
    rw [if_neg h0]
    have hp : pad16 (cat bl ++ []) = cat bl ++ [] := pad16_aligned (by rw [hlen]; simp)
    rw [hp]
    refine ⟨⟨bl, [], rfl, ht, hpos, hmac⟩, ?_⟩
    rw [blocks_cat bl [] (by decide), hmac, padXor_nil]

theorem aad_head_eq {a : Nat} (h0 : a ≠ 0) (h : a < 2 ^ 64) : ccm_aad_head a = ccmHead a := by
  rw [ccm_aad_head, ccmHead, if_neg h0]
  have e1 : (write16be (BitVec.ofNat 16 a)).toList = (beBlock 2 a).toList := by
    apply beVal_inj
    · simp
    rw [(write16_val _).2, beVal_beBlock', BitVec.toNat_ofNat]
    norm_num
  have e2 : (write32be (BitVec.ofNat 32 a)).toList = (beBlock 4 a).toList := by
    apply beVal_inj
    · simp
    rw [(write32_val _).2, beVal_beBlock', BitVec.toNat_ofNat]
    norm_num
  have e3 : (write64be (BitVec.ofNat 64 a)).toList = (beBlock 8 a).toList := by
    apply beVal_inj
    · simp
    rw [(write64_val _).2, beVal_beBlock', BitVec.toNat_ofNat]
    norm_num
  by_cases h1 : a < 0xff00
  · rw [if_pos h1, if_pos h1, e1]
  · rw [if_neg h1, if_neg h1]
    by_cases h2 : a < 2 ^ 32
    · rw [if_pos h2, if_pos (by omega), e2]; rfl
    · rw [if_neg h2, if_neg (by omega), e3]; rfl

theorem adata_holds {h : Cmac 16} {f : List Byte} (hf : f.length = 16) (hh : MHolds false c h f) {aad : List Byte}
    (ha : aad.length < 2 ^ 64) :
    ∃ h', ccm_adata c h aad = .ok h' ∧ MHolds false c h' (f ++ pad16 (ccmHead aad.length ++ aad)) := by
  rw [ccm_adata]
  by_cases h0 : aad.length > 0
  · obtain ⟨h1, e1, i1⟩ := cbcmac_step hh (ccmHead aad.length)
    obtain ⟨h2, e2, i2⟩ := cbcmac_step i1 aad
    rw [if_pos h0, aad_head_eq (by omega) ha, e1, C.ok_bind, e2, C.ok_bind]
    refine ⟨_, rfl, ?_⟩
    have := (cbcmac_pad_holds i2).1
    rwa [← pad16_aligned (m := f) (by omega), List.append_assoc, pad16_mid, pad16_aligned (m := f) (by omega)] at this
  · have : aad = [] := List.eq_nil_of_length_eq_zero (by omega)
    subst this
    rw [if_neg h0]
    exact ⟨h, rfl, by simpa [ccmHead, pad16] using hh⟩

/-- The state in a session: first blocks `f`, message `m` so far. -/
structure CcmAt (c : Cipher 16) (nonce : List Byte) (len : Nat) (f msg : List Byte) (m : CipherMode 16) : Prop where
  ex : ∃ st h, m = .ccm ⟨mk (atOff (ctrS c) (st, ccmCount nonce len 1) msg.length) (msg.length % 16), h⟩ ∧
    MHolds false c h (f ++ msg)

theorem ccm_init_eq (iv : List Byte) :
    ccm_init 16 iv = .ok (if iv.length < 7 then none else
      some ⟨⟨put (Vector.replicate 16 0) 0 (iv.take 13), Vector.replicate 16 0, min 13 iv.length⟩, cbcmac_init 16⟩) := by
  rw [ccm_init, if_neg (by decide)]
  by_cases h : iv.length < 7
  · rw [if_pos h, if_pos h]
  · rw [if_neg h, if_neg h]
    dsimp only
    have e : (if iv.length > 13 then 13 else iv.length) = min 13 iv.length := by split <;> omega
    have e2 : iv.take (min 13 iv.length) = iv.take 13 := by
      rcases Nat.le_total 13 iv.length with h1 | h1
      · rw [Nat.min_eq_left h1]
      · rw [Nat.min_eq_right h1, List.take_of_length_le h1, List.take_of_length_le (Nat.le_refl _)]
    rw [e, e2, putat_eq _ (by simp), C.ok_bind]

theorem put_take {n : Nat} (v : Vector Byte n) (x : List Byte) (hx : x.length ≤ n) {k : Nat} (hk : k ≤ x.length) :
    (put v 0 x).toList.take k = x.take k := by
  apply List.ext_getElem
  · rw [List.length_take, List.length_take, Vector.length_toList]; omega
  · intro i h1 h2
    have hi : i < k := by simp at h1; omega
    rw [List.getElem_take, List.getElem_take, Vector.getElem_toList]
    simp only [put, Vector.getElem_ofFn]
    rw [if_pos (by omega), Nat.sub_zero, List.getD_eq_getElem?_getD, List.getElem?_eq_getElem (by omega)]
    rfl

theorem flags_and (x L : Nat) (h : L ≤ 7) : BitVec.ofNat 8 (8 * x + L) &&& 7 = BitVec.ofNat 8 L := by
  apply BitVec.eq_of_toNat_eq
  rw [BitVec.toNat_and, BitVec.toNat_ofNat, BitVec.toNat_ofNat, show ((7 : Byte)).toNat = 2 ^ 3 - 1 by decide,
    Nat.and_two_pow_sub_one_eq_mod]
  omega

/-- The nonce with the length behind it. -/
theorem first_eq {iv : List Byte} {len : Nat} (hlen : len < 2 ^ 64) {l : Nat} (hl : l = min iv.length (15 - ccmL len)) :
    iv.take l ++ (beBlock (15 - l) len).toList = ccmNonce iv len ++ (beBlock (ccmL len) len).toList := by
  obtain ⟨h2, h8⟩ := ccmL_le hlen
  rw [show 15 - l = (15 - ccmL len - l) + ccmL len by omega, bb_split, Nat.div_eq_of_lt (ccmL_lt len), bb_zero, ccmNonce, fitTo,
    ← List.append_assoc]
  congr 2
  · rcases Nat.le_total iv.length (15 - ccmL len) with h | h
    · rw [List.take_of_length_le h, List.take_of_length_le (by omega)]
    · rw [hl, Nat.min_eq_right h]
  · congr 1; omega

/-- Whether `ccm_setup` accepts the tag length. -/
def ccmOk (t : Nat) : Bool := 4 ≤ t ∧ t ≤ 16 ∧ t % 2 = 0

theorem ccm_setup_eq (c : Cipher 16) {iv : List Byte} (hiv : 7 ≤ iv.length) {len t : Nat} (hlen : len < 2 ^ 64) {aad : List Byte}
    (ha : aad.length < 2 ^ 64) {m : Ccm 16} (hm : ccm_init 16 iv = .ok (some m)) :
    ∃ r, ccm_setup c m len t aad = .ok r ∧ (ccmOk t = false → r = none) ∧
      (ccmOk t = true → ∃ m', r = some m' ∧
        CcmAt c (ccmNonce iv len) len (ccmFirst (ccmNonce iv len) aad.length len t ++ pad16 (ccmHead aad.length ++ aad)) [] (.ccm m')) := by
  rw [ccm_init_eq, if_neg (by omega)] at hm
  have hm' := Option.some.inj (C.ok.inj hm)
  subst hm'
  obtain ⟨h2, h8⟩ := ccmL_le hlen
  have hltL := ccmL_lt len
  rw [ccm_setup]
  dsimp only
  rw [log256_eq hlen, C.ok_bind, if_neg (by decide), if_neg (by omega), if_neg (by omega)]
  by_cases ht : t < 4 ∨ t > 16 ∨ t &&& 1 ≠ 0
  · rw [if_pos ht]
    refine ⟨none, rfl, fun _ => rfl, fun h => ?_⟩
    rw [Nat.and_one_is_mod] at ht
    simp [ccmOk] at h
    omega
  · rw [if_neg ht]
    rw [Nat.and_one_is_mod] at ht
    have ht' : ccmOk t = true := by simp [ccmOk]; omega
    obtain ⟨l, hl⟩ : ∃ l, l = min iv.length (15 - ccmL len) := ⟨_, rfl⟩
    have e : (if min 13 iv.length > 15 - ccmL len then 15 - ccmL len else min 13 iv.length) = l := by split <;> omega
    have hl15 : (ccmNonce iv len).length = 15 - ccmL len := fitTo_length _ _
    have hfl : (ccmFirst (ccmNonce iv len) aad.length len t).length = 16 := by
      simp [ccmFirst, hl15]; omega
    have e2 : (put (Vector.replicate 16 0) 0 (iv.take 13)).toList.take l = iv.take l := by
      rw [put_take _ _ (by simp) (by simp; omega), List.take_take, Nat.min_eq_left (by omega)]
    have e3 : BitVec.ofNat 8 (64 * (if aad.length > 0 then 1 else 0) + 8 * ((t - 2) / 2) + (ccmL len - 1)) ::
        (iv.take l ++ ((beBlock (15 - l) len).toList ++ [])) = ccmFirst (ccmNonce iv len) aad.length len t := by
      rw [List.append_nil, first_eq hlen hl, ccmFirst]
      by_cases h0 : aad.length = 0
      · rw [if_neg (by omega), if_pos h0]; rfl
      · rw [if_pos (by omega), if_neg h0]; rfl
    rw [e, slice_take _ (by simp; omega), C.ok_bind, e2, len_loop_eq]
    dsimp only
    rw [C.check, if_pos (by
      rw [decide_eq_true_iff]
      exact Nat.div_eq_of_lt (Nat.lt_of_lt_of_le hltL (Nat.pow_le_pow_right (by decide) (by omega)))), C.ok_bind, e3]
    obtain ⟨h1, e4, i4⟩ := cbcmac_step (c := c) cbcmac_init_holds (ccmFirst (ccmNonce iv len) aad.length len t)
    rw [List.nil_append] at i4
    obtain ⟨h5, e5, i5⟩ := adata_holds hfl i4 ha
    rw [e4, C.ok_bind, e5, C.ok_bind]
    have e6 : (BitVec.ofNat 8 (64 * (if aad.length > 0 then 1 else 0) + 8 * ((t - 2) / 2) + (ccmL len - 1)) &&& 7) ::
        (((ccmFirst (ccmNonce iv len) aad.length len t).drop 1).take (15 - ccmL len) ++
          List.replicate (14 - (15 - ccmL len)) 0 ++ [1]) = (ccmCount (ccmNonce iv len) len 1).toList := by
      rw [count_toList hl15 (by omega), List.cons_append]
      congr 1
      · rw [show 64 * (if aad.length > 0 then 1 else 0) + 8 * ((t - 2) / 2) + (ccmL len - 1) =
          8 * (8 * (if aad.length > 0 then 1 else 0) + (t - 2) / 2) + (ccmL len - 1) by omega, flags_and _ _ (by omega)]
      · rw [ccmFirst, List.cons_append, List.drop_succ_cons, List.drop_zero, List.take_left' hl15, List.append_assoc]
        congr 1
        conv_rhs => rw [show ccmL len = (ccmL len - 1) + 1 by omega, bb_split, bb_one,
          Nat.div_eq_of_lt (show 1 < 256 ^ 1 by decide), bb_zero]
        congr 2
        omega
    rw [e6, vec_toList', C.ok_bind]
    refine ⟨_, rfl, fun h => (by rw [ht'] at h; cases h), fun _ => ⟨_, rfl, ⟨put (Vector.replicate 16 0) 0 (iv.take 13), h5, ?_,
      by rw [List.append_nil]; exact i5⟩⟩⟩
    rw [List.length_nil, atOff_zero (by decide)]
    rfl

theorem ccm_chunk (e same : Bool) (nonce : List Byte) (len : Nat) (f pre : List Byte) (m : CipherMode 16) (x : List Byte)
    (h : CcmAt c nonce len f (if e then pre else xorStream (ctrStream c.enc (ccmCount nonce len 1)) 0 pre) m) :
    ∃ m', chunk e c same m x = .ok (xorStream (ctrStream c.enc (ccmCount nonce len 1)) pre.length x, m') ∧
      CcmAt c nonce len f (if e then pre ++ x else xorStream (ctrStream c.enc (ccmCount nonce len 1)) 0 (pre ++ x)) m' := by
  obtain ⟨⟨st, h, rfl, i1⟩⟩ := h
  have hcr := stream_at (by decide) (ctr_callbacks c) (st, ccmCount nonce len 1) pre.length x
  rw [ctr_ks] at hcr
  cases e with
  | true =>
    simp only [if_true] at i1 ⊢
    obtain ⟨h3, e3, i3⟩ := cbcmac_step i1 x
    refine ⟨.ccm ⟨mk _ _, h3⟩, ?_, ⟨st, h3, rfl, by simpa using i3⟩⟩
    rw [chunk, if_pos rfl, cipher_mode_encrypt, ccm_encrypt, ctr_crypt, mode_put]
    dsimp only
    rw [e3]
    simp only [C.ok_bind]
    rw [hcr]
    simp only [C.ok_bind]
    rw [List.length_append]
  | false =>
    simp only [if_false, Bool.false_eq_true] at i1 ⊢
    have hxl : ∀ (o : Nat) (y : List Byte), (xorStream (ctrStream c.enc (ccmCount nonce len 1)) o y).length = y.length := by
      intro o y; simp [xorStream]
    obtain ⟨h3, e3, i3⟩ := cbcmac_step i1 (xorStream (ctrStream c.enc (ccmCount nonce len 1)) pre.length x)
    refine ⟨.ccm ⟨mk _ _, h3⟩, ?_, ⟨st, h3, rfl, ?_⟩⟩
    · rw [chunk, if_neg (by decide), cipher_mode_decrypt, ccm_decrypt, ctr_crypt, mode_put]
      dsimp only
      rw [hxl, hxl, hcr]
      simp only [C.ok_bind]
      rw [e3]
      simp only [C.ok_bind]
      rw [List.length_append]
    · rw [xorStream_add, Nat.zero_add, ← List.append_assoc]
      exact i3

theorem ccm_digest_at {nonce : List Byte} {len : Nat} (hl : nonce.length = 15 - ccmL len) (hlen : len < 2 ^ 64) {f msg : List Byte}
    {m : CipherMode 16} (h : CcmAt c nonce len f msg m) (hm : msg.length ≤ len) :
    cipher_mode_digest c m =
      .ok (bxor (macChain c.enc (blocks 16 (pad16 (f ++ msg)))) (c.enc (ccmCount nonce len 0))).toList := by
  obtain ⟨⟨st, h, rfl, i1⟩⟩ := h
  obtain ⟨h2, h8⟩ := ccmL_le hlen
  have hltL := ccmL_lt len
  have h65 : 256 ^ 2 ≤ 256 ^ ccmL len := Nat.pow_le_pow_right (by decide) h2
  have hiv : (atOff (ctrS c) (st, ccmCount nonce len 1) msg.length).2 = ccmCount nonce len (1 + (msg.length + 16 - 1) / 16) := by
    rw [atOff, ctrS_iter, count_step hl (by omega) (by omega)]
  rw [cipher_mode_digest, ccm_digest]
  dsimp only [mk]
  rw [hiv, count_toList hl (by omega)]
  show (C.ok _ >>= _) = _
  rw [C.ok_bind]
  have hb : (BitVec.ofNat 8 (ccmL len - 1) &&& 7).toNat = ccmL len - 1 := by
    have := flags_and 0 (ccmL len - 1) (by omega)
    rw [Nat.mul_zero, Nat.zero_add] at this
    rw [this, BitVec.toNat_ofNat]
    omega
  rw [hb, show ccmL len - 1 + 1 = ccmL len by omega, putat_eq _ (by simp), C.ok_bind]
  have hput : put (ccmCount nonce len (1 + (msg.length + 16 - 1) / 16)) (16 - ccmL len) (List.replicate (16 - (16 - ccmL len)) 0) =
      ccmCount nonce len 0 := by
    apply Vector.toList_inj.1
    rw [count_toList hl (by omega), bb_zero]
    apply List.ext_getElem
    · simp; omega
    intro i h1 h2
    have hi : i < 16 := by simpa using h1
    rw [Vector.getElem_toList]
    simp only [put, Vector.getElem_ofFn, List.length_replicate]
    have hL : (BitVec.ofNat 8 (ccmL len - 1) :: nonce).length = 16 - ccmL len := by simp; omega
    by_cases hc : i < 16 - ccmL len
    · rw [if_neg (by omega), List.getElem_append_left (by omega)]
      have := count_toList hl (by omega) (1 + (msg.length + 16 - 1) / 16)
      rw [← Vector.getElem_toList (h := by simpa using hi)]
      simp only [this]
      rw [List.getElem_append_left (by omega)]
    · rw [if_pos (by omega), List.getElem_append_right (by omega), List.getElem_replicate, List.getD_eq_getElem?_getD, List.getElem?_replicate,
        if_pos (by omega)]
      rfl
  have hcr := stream_at (by decide) (ctr_callbacks c) ((atOff (ctrS c) (st, ccmCount nonce len 1) msg.length).1, ccmCount nonce len 0) 0
    (cbcmac_final c h)
  rw [atOff_zero (by decide), Nat.zero_mod, ctr_ks] at hcr
  rw [hput, ctr_crypt]
  dsimp only [mk] at hcr
  rw [hcr, C.ok_bind, cbcmac_final, (cbcmac_pad_holds i1).2]
  congr 1
  apply List.ext_getElem
  · simp [xorStream]
  intro i h1 h2
  have hi : i < 16 := by simpa using h2
  have hz : beBlock 16 ((beVal (ccmCount nonce len 0).toList + 0) % 256 ^ 16) = ccmCount nonce len 0 :=
    count_step hl (by omega) (by omega)
  simp only [xorStream, List.getElem_mapIdx, Nat.zero_add, Vector.getElem_toList, bxor, Vector.getElem_ofFn, ctrStream]
  rw [Nat.div_eq_of_lt hi, hz, Nat.mod_eq_of_lt hi, List.getD_eq_getElem?_getD, List.getElem?_eq_getElem (by simpa using hi)]
  rfl

theorem ccmTag_eq {iv : List Byte} {len t : Nat} (hlen : len < 2 ^ 64) (E : Vector Byte 16 → Vector Byte 16) (a m : List Byte) :
    ccmTag E iv len t a m = (bxor (macChain E (blocks 16 (pad16 (ccmFirst (ccmNonce iv len) a.length len t ++
      pad16 (ccmHead a.length ++ a) ++ m)))) (E (ccmCount (ccmNonce iv len) len 0))).toList.take t := by
  obtain ⟨h2, h8⟩ := ccmL_le hlen
  have hfl : (ccmFirst (ccmNonce iv len) a.length len t ++ pad16 (ccmHead a.length ++ a)).length % 16 = 0 := by
    have := pad16_len (ccmHead a.length ++ a)
    have hl15 : (ccmNonce iv len).length = 15 - ccmL len := fitTo_length _ _
    rw [List.length_append]
    have : (ccmFirst (ccmNonce iv len) a.length len t).length = 16 := by
      simp [ccmFirst, hl15]; omega
    omega
  conv_rhs => rw [← pad16_aligned hfl, pad16_mid, pad16_aligned hfl]
  rfl

theorem ccm_runs (c : Cipher 16) (e same : Bool) {iv : List Byte} (hiv : 7 ≤ iv.length) {m0 : Ccm 16}
    (hm : ccm_init 16 iv = .ok (some m0)) {len t : Nat} (hlen : len < 2 ^ 64) {aad : List Byte}
    (ha : aad.length < 2 ^ 64) (ht : ccmOk t = true) {chunks : List (List Byte)} (hch : chunks.flatten.length ≤ len) :
    ∃ ctx d, cipher_stream_set_ccm (cipher_stream_new e c (.ccm m0)) len t aad = .ok (true, ctx) ∧ ctx.encrypt = e ∧
      ctx.mode.id = .ccm ∧ ctx.ccm_len = t ∧
      (∀ k, k ≤ t → d.take k = (ccmTag c.enc iv len t aad
        (if e then chunks.flatten else ccmCrypt c.enc iv len chunks.flatten)).take k) ∧
      Runs ctx same chunks (ctrStream c.enc (ccmCount (ccmNonce iv len) len 1))
        (fun pre m => CcmAt c (ccmNonce iv len) len
          (ccmFirst (ccmNonce iv len) aad.length len t ++ pad16 (ccmHead aad.length ++ aad))
          (if e then pre else xorStream (ctrStream c.enc (ccmCount (ccmNonce iv len) len 1)) 0 pre) m)
        d t .ccm := by
  obtain ⟨r, h1, -, h2⟩ := ccm_setup_eq c hiv hlen (t := t) ha hm
  obtain ⟨m', rfl, h3⟩ := h2 ht
  have hl15 : (ccmNonce iv len).length = 15 - ccmL len := fitTo_length _ _
  obtain ⟨hL2, hL8⟩ := ccmL_le hlen
  have htb : 4 ≤ t ∧ t ≤ 16 ∧ t % 2 = 0 := by simpa [ccmOk] using ht
  refine ⟨{ cipher_stream_new e c (.ccm m0) with mode := .ccm m', ccm_len := t },
    (bxor (macChain c.enc (blocks 16 (pad16 (ccmFirst (ccmNonce iv len) aad.length len t ++ pad16 (ccmHead aad.length ++ aad) ++
      (if e then chunks.flatten else xorStream (ctrStream c.enc (ccmCount (ccmNonce iv len) len 1)) 0 chunks.flatten)))))
      (c.enc (ccmCount (ccmNonce iv len) len 0))).toList, ?_, rfl, rfl, rfl, ?_, ?_⟩
  · rw [cipher_stream_set_ccm]
    show (ccm_setup c m0 len t aad >>= _) = _
    rw [h1]
    rfl
  · intro k hk
    rw [ccmTag_eq hlen, List.take_take, Nat.min_eq_left hk, ccm_ks hl15 (by omega) _ hch]
    rfl
  · exact {
      num := by decide
      isId := fun pre m h => by obtain ⟨⟨st, h, rfl, -⟩⟩ := h; rfl
      step := fun pre m x h => ccm_chunk e same _ _ _ pre m x h
      dig := fun m h => ccm_digest_at hl15 hlen h (by cases e <;> simpa [xorStream] using hch)
      start := by cases e <;> exact h3
      dle := by simp
      kpos := by omega
      kle := by simp; omega
      kn := by omega
      fin := fun ctx' h h' => by
        rw [cipher_stream_final, h]
        dsimp only
        rw [h', if_neg (show t ≠ 0 by omega)]
      tag := rfl
      tag_len := rfl }

/-- The tag length a session of CCM accepts. -/
theorem ccmOk_eq {n : Nat} {ctx : CipherStream n} (h : ctx.mode.id = .ccm) {t : Nat} (ht : ctx.ccm_len = t) (h0 : t ≠ 0) (l : Nat) :
    tag_len_ok ctx l = decide (l = t) := by
  rw [tag_len_ok, h, Bool.eq_iff_iff]
  simp [ht, h0]

end Torsion.Ciph
