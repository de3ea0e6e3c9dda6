import Verif.Encoding.PolyLemmas
import Verif.Encoding.Base16Lemmas
import Verif.Util.Props

/-! # Lemmas for bech32 -/
namespace Torsion
open Spec

theorem mask_bit {w : Nat} (g x : BitVec w) (i : Nat) :
    g &&& -((x >>> i) &&& 1#w) = if x.getLsbD i then g else 0#w := by
  rw [BitVec.and_one_eq_setWidth_ofBool_getLsbD, BitVec.getLsbD_ushiftRight, Nat.add_zero]
  cases x.getLsbD i
  · have : BitVec.setWidth w (BitVec.ofBool false) = 0#w := by
      apply BitVec.eq_of_toNat_eq; simp
    rw [this]; simp
  · have : BitVec.setWidth w (BitVec.ofBool true) = 1#w := by
      apply BitVec.eq_of_toNat_eq; simp
    rw [this, BitVec.neg_one_eq_allOnes, BitVec.and_allOnes]; simp

theorem bit_iff {w : Nat} (c : BitVec w) (k i : Nat) :
    (c >>> k).getLsbD i = decide (c.toNat / 2 ^ (k + i) % 2 = 1) := by
  rw [BitVec.getLsbD_ushiftRight, BitVec.getLsbD, Nat.testBit_eq_decide_div_mod_eq]

theorem ite_toNat {w : Nat} (p : Prop) [Decidable p] (g : BitVec w) :
    (if decide p = true then g else 0#w).toNat = if p then g.toNat else 0 := by
  by_cases h : p <;> simp [h]

theorem bech32_polymod_toNat (c : BitVec 32) :
    (bech32_polymod c).toNat = polyMap 25 bech32Gen c.toNat := by
  simp only [bech32_polymod, mask_bit, BitVec.toNat_xor, bit_iff, ite_toNat]
  have h1 : ((c &&& 0x1ffffff#32) <<< 5).toNat = c.toNat % 2 ^ 25 * 32 := by
    rw [BitVec.toNat_shiftLeft, BitVec.toNat_and,
      show (0x1ffffff#32 : BitVec 32).toNat = 2 ^ 25 - 1 from rfl, Nat.and_two_pow_sub_one_eq_mod,
      Nat.shiftLeft_eq]
    apply Nat.mod_eq_of_lt
    have : c.toNat % 2 ^ 25 < 2 ^ 25 := Nat.mod_lt _ (by positivity)
    omega
  rw [h1]
  simp only [polyMap, polyStep, bech32Gen, genSum, Nat.xor_zero, Nat.div_div_eq_div_mul]
  norm_num
  simp only [Nat.xor_assoc]

theorem bech32_step (c v : BitVec 32) :
    (bech32_polymod c ^^^ v).toNat = polyStep 25 bech32Gen c.toNat v.toNat := by
  rw [BitVec.toNat_xor, bech32_polymod_toNat, polyStep_eq]

theorem cash32_polymod_toNat (c : BitVec 64) :
    (cash32_polymod c).toNat = polyMap 35 cash32Gen c.toNat := by
  simp only [cash32_polymod, mask_bit, BitVec.toNat_xor, bit_iff, ite_toNat]
  have h1 : ((c &&& 0x07ffffffff#64) <<< 5).toNat = c.toNat % 2 ^ 35 * 32 := by
    rw [BitVec.toNat_shiftLeft, BitVec.toNat_and,
      show (0x07ffffffff#64 : BitVec 64).toNat = 2 ^ 35 - 1 from rfl,
      Nat.and_two_pow_sub_one_eq_mod, Nat.shiftLeft_eq]
    apply Nat.mod_eq_of_lt
    have : c.toNat % 2 ^ 35 < 2 ^ 35 := Nat.mod_lt _ (by positivity)
    omega
  rw [h1]
  simp only [polyMap, polyStep, cash32Gen, genSum, Nat.xor_zero, Nat.div_div_eq_div_mul]
  norm_num
  simp only [Nat.xor_assoc]

theorem bech32Gen_lt : ∀ g ∈ bech32Gen, g < 2 ^ (25 + 5) := by decide
theorem cash32Gen_lt : ∀ g ∈ cash32Gen, g < 2 ^ (35 + 5) := by decide

/-- A loop `chk = polymod(chk) ^ f(c)`. -/
theorem bech32_fold (f : Byte → BitVec 32) (g : Byte → Nat) : ∀ (l : List Byte) (c : BitVec 32),
    (∀ x ∈ l, (f x).toNat = g x) →
    (l.foldl (fun chk x => bech32_polymod chk ^^^ f x) c).toNat =
      (l.map g).foldl (polyStep 25 bech32Gen) c.toNat
  | [], c, _ => rfl
  | x :: l, c, h => by
    rw [List.foldl_cons, bech32_fold f g l _ (fun y hy => h y (by simp [hy])), List.map_cons,
      List.foldl_cons, bech32_step, h x (by simp)]

theorem hi3 : ∀ x : Byte, ((x >>> 5).zeroExtend 32).toNat = x.toNat / 32 := by decide +kernel
theorem lo5 : ∀ x : Byte, ((x &&& 0x1f).zeroExtend 32).toNat = x.toNat % 32 := by decide +kernel
theorem zx32 (x : Byte) : (x.zeroExtend 32).toNat = x.toNat := by
  simp [BitVec.zeroExtend, BitVec.toNat_setWidth]
  have := x.isLt; omega

theorem charset_rd : ∀ i : Fin 32, C.rd bech32_charset i.val = .ok (bechChar i.val) := by
  decide +kernel

theorem charset_rd' {i : Nat} (h : i < 32) : C.rd bech32_charset i = .ok (bechChar i) :=
  charset_rd ⟨i, h⟩

theorem charset_eq : cash32_charset = bech32_charset := by decide +kernel
theorem table_eq : cash32_table = bech32_table := by decide +kernel

/-- What the hrp scan accepts. -/
def HrpChar (c : Byte) : Prop := 33 ≤ c.toNat ∧ c.toNat ≤ 126 ∧ ¬ IsUpper c

instance (c : Byte) : Decidable (HrpChar c) := by unfold HrpChar; infer_instance

theorem hrp_scan_eq : ∀ (n : Nat) (h rest : List Byte) (k : Nat) (chk : BitVec 32),
    (∀ c ∈ h, c ≠ 0) →
    bech32_hrp_scan n (h ++ 0 :: rest) k chk =
      if ∀ c ∈ h.take n, HrpChar c then
        .ok (some (k + min n h.length, h.drop n ++ 0 :: rest,
          (h.take n).foldl (fun chk (c : Byte) => bech32_polymod chk ^^^ (c >>> 5).zeroExtend 32) chk))
      else .ok none
  | 0, h, rest, k, chk, _ => by simp [bech32_hrp_scan]
  | n + 1, [], rest, k, chk, _ => by simp [bech32_hrp_scan]
  | n + 1, c :: h, rest, k, chk, h0 => by
    rw [List.cons_append, bech32_hrp_scan, if_neg (h0 c (by simp))]
    by_cases h1 : c.toNat < 33 ∨ c.toNat > 126
    · rw [if_pos h1, if_neg]
      intro h; have := h c (by simp); unfold HrpChar at this; omega
    rw [if_neg h1]
    by_cases h2 : c.toNat ≥ 65 ∧ c.toNat ≤ 90
    · rw [if_pos h2, if_neg]
      intro h; have := h c (by simp); unfold HrpChar IsUpper at this; omega
    rw [if_neg h2, hrp_scan_eq n h rest _ _ (fun x hx => h0 x (by simp [hx]))]
    have hc : HrpChar c := by unfold HrpChar IsUpper; omega
    simp only [List.take_succ_cons, List.forall_mem_cons, hc, true_and, List.length_cons,
      List.drop_succ_cons, List.foldl_cons]
    rw [show k + 1 + min n h.length = k + min (n + 1) (h.length + 1) by omega]

theorem shr5_ne : ∀ d : Byte, (d >>> 5 ≠ 0) ↔ ¬ d.toNat < 32 := by decide +kernel

theorem data_loop_eq : ∀ (ds : List Byte) (chk : BitVec 32), (∀ d ∈ ds, d.toNat < 32) →
    bech32_data_loop chk ds = .ok (ds.map (fun d => bechChar d.toNat),
      some (ds.foldl (fun chk d => bech32_polymod chk ^^^ d.zeroExtend 32) chk))
  | [], chk, _ => rfl
  | d :: ds, chk, h => by
    have hd := h d (by simp)
    rw [bech32_data_loop, if_neg (by rw [shr5_ne]; omega), charset_rd' hd, C.ok_bind,
      data_loop_eq ds _ (fun x hx => h x (by simp [hx]))]
    rfl

theorem data_loop_bad : ∀ (ds : List Byte) (chk : BitVec 32), (¬ ∀ d ∈ ds, d.toNat < 32) →
    ∃ o, bech32_data_loop chk ds = .ok (o, none) ∧ o.length ≤ ds.length
  | [], chk, h => by simp at h
  | d :: ds, chk, h => by
    by_cases hd : d.toNat < 32
    · obtain ⟨o, ho, hl⟩ := data_loop_bad ds (bech32_polymod chk ^^^ d.zeroExtend 32)
        (by simpa [hd] using h)
      refine ⟨bechChar d.toNat :: o, ?_, by simpa using hl⟩
      rw [bech32_data_loop, if_neg (by rw [shr5_ne]; omega), charset_rd' hd, C.ok_bind, ho]
      rfl
    · exact ⟨[], by rw [bech32_data_loop, if_pos ((shr5_ne d).2 hd)], by simp⟩

theorem chk_char_eq (chk : BitVec 32) (sh : Nat) :
    bech32_chk_char chk sh = .ok (bechChar (chk.toNat / 2 ^ sh % 32)) := by
  have : ((chk >>> sh) &&& 0x1f#32).toNat = chk.toNat / 2 ^ sh % 32 := by
    rw [BitVec.toNat_and, BitVec.toNat_ushiftRight, Nat.shiftRight_eq_div_pow,
      show (0x1f#32 : BitVec 32).toNat = 2 ^ 5 - 1 from rfl, Nat.and_two_pow_sub_one_eq_mod]
  rw [bech32_chk_char, this, charset_rd' (Nat.mod_lt _ (by omega))]

/-- Six symbols of the checksum word. -/
theorem unpack6 (x : Nat) : unpack 6 x = [x / 2 ^ 25 % 32, x / 2 ^ 20 % 32, x / 2 ^ 15 % 32,
    x / 2 ^ 10 % 32, x / 2 ^ 5 % 32, x / 2 ^ 0 % 32] := by
  simp only [unpack, Nat.div_div_eq_div_mul]
  norm_num

/-- Residue of prefix and data before the checksum symbols. -/
def bechState (hrp data : List Byte) : Nat :=
  (hrpExpand hrp ++ data.map (·.toNat)).foldl (polyStep 25 bech32Gen) 1

/-- The checksum symbols for a prefix and data. -/
def bechChk (const : Nat) (hrp data : List Byte) : List Nat :=
  unpack 6 ((polyMap 25 bech32Gen)^[6] (bechState hrp data) ^^^ const)

theorem toNat_map_ofNat (l : List Nat) (h : ∀ v ∈ l, v < 32) :
    (l.map (BitVec.ofNat 8)).map (·.toNat) = l := by
  rw [List.map_map]
  conv_rhs => rw [← List.map_id l]
  apply List.map_congr_left
  intro v hv
  have := h v hv
  simp; omega

/-- The specification determines the string. -/
theorem bech32String_iff {const : Nat} (hc : const < 2 ^ 30) (hrp data s : List Byte) :
    Bech32String const hrp data s ↔
      1 ≤ hrp.length ∧ (∀ c ∈ hrp, HrpChar c) ∧ (∀ d ∈ data, d.toNat < 32) ∧
      hrp.length + 1 + data.length + 6 ≤ 90 ∧
      s = hrp ++ 49 :: (data.map (fun d => bechChar d.toNat) ++ (bechChk const hrp data).map bechChar) := by
  have key := fun (chk : List Byte) (h6 : chk.length = 6) (hb : ∀ d ∈ chk, d.toNat < 32) =>
    polymod_checksum (k := 25) (n := 6) (by omega) bech32Gen bech32Gen_lt (const := const)
    (pre := hrpExpand hrp ++ data.map (·.toNat)) rfl hc (by omega)
    (chk := chk.map (·.toNat)) (by simpa using h6)
    (by simpa using hb)
  constructor
  · rintro ⟨h1, h2, h3, h4, chk, h5, h6, h7, h8⟩
    have hk := (key chk h5 h6).1 (by rw [← h8]; simp)
    have hs : s = hrp ++ 49 :: (data.map (fun d => bechChar d.toNat) ++
        (bechChk const hrp data).map bechChar) := by
      rw [h7, bechChk, bechState, ← hk]
      simp [Function.comp_def]
    refine ⟨h1, h2, h3, ?_, hs⟩
    rw [h7] at h4
    simp at h4
    omega
  · rintro ⟨h1, h2, h3, h4, h5⟩
    refine ⟨h1, h2, h3, ?_, (bechChk const hrp data).map (BitVec.ofNat 8), ?_, ?_, ?_, ?_⟩
    · rw [h5]; simp [bechChk, unpack_len]; omega
    · simp [bechChk, unpack_len]
    · intro d hd
      obtain ⟨v, hv, rfl⟩ := List.mem_map.1 hd
      have := unpack_lt 6 _ v hv
      simp; omega
    · rw [h5, List.map_append]
      congr 3
      rw [List.map_map]
      apply List.map_congr_left
      intro v hv
      have := unpack_lt 6 _ v hv
      simp only [Function.comp_apply, BitVec.toNat_ofNat]
      rw [Nat.mod_eq_of_lt (by omega)]
    · have := (key ((bechChk const hrp data).map (BitVec.ofNat 8)) (by simp [bechChk, unpack_len])
        (by
          intro d hd
          obtain ⟨v, hv, rfl⟩ := List.mem_map.1 hd
          have := unpack_lt 6 _ v hv
          simp; omega)).2
          (toNat_map_ofNat _ (unpack_lt 6 _))
      rw [List.map_append, ← List.append_assoc]; exact this

theorem iter6 (c : BitVec 32) : (bech32_polymod (bech32_polymod (bech32_polymod (bech32_polymod
    (bech32_polymod (bech32_polymod c)))))).toNat = (polyMap 25 bech32Gen)^[6] c.toNat := by
  simp only [bech32_polymod_toNat]; rfl

/-- The word the checksum loops hold after prefix and data. -/
theorem bech_words (h data : List Byte) :
    (data.foldl (fun chk (d : Byte) => bech32_polymod chk ^^^ d.zeroExtend 32)
      (h.foldl (fun chk (c : Byte) => bech32_polymod chk ^^^ (c &&& 0x1f).zeroExtend 32)
        (bech32_polymod (h.foldl
          (fun chk (c : Byte) => bech32_polymod chk ^^^ (c >>> 5).zeroExtend 32) 1)))).toNat =
      bechState h data := by
  rw [bech32_fold _ (·.toNat) data _ (fun x _ => zx32 x),
    bech32_fold _ (·.toNat % 32) h _ (fun x _ => lo5 x), bech32_polymod_toNat,
    bech32_fold _ (·.toNat / 32) h _ (fun x _ => hi3 x)]
  rw [bechState, hrpExpand]
  simp only [List.foldl_append, List.foldl_cons, List.foldl_nil]
  rfl

theorem serialize_ok {h : List Byte} (rest data : List Byte) (const : BitVec 32)
    (h0 : ∀ c ∈ h, c ≠ 0) (h1 : 1 ≤ h.length) (h2 : ∀ c ∈ h, HrpChar c)
    (h3 : ∀ d ∈ data, d.toNat < 32) (h4 : h.length + 1 + data.length + 6 ≤ 90) :
    bech32_serialize (h ++ 0 :: rest) data const =
      .ok ⟨(h ++ 49 :: (data.map (fun d => bechChar d.toNat) ++
        (bechChk const.toNat h data).map bechChar)) ++ [0], true⟩ := by
  have hl : h.length ≤ 83 := by omega
  simp only [bech32_serialize, hrp_scan_eq 83 h rest 0 1 h0, List.take_of_length_le hl,
    List.drop_eq_nil_of_le hl, if_pos h2, C.ok_bind, List.nil_append, Nat.zero_add,
    Nat.min_eq_right hl]
  rw [if_neg (by omega)]
  simp only [C.rd, List.getElem?_cons_zero, C.ok_bind]
  rw [if_neg (by simp), if_neg (by omega), List.take_left' rfl, data_loop_eq data _ h3]
  simp only [C.ok_bind, chk_char_eq, BitVec.toNat_xor, iter6, bech_words]
  rw [bechChk, unpack6]
  simp [ch]

theorem serialize_bad {h : List Byte} (rest data : List Byte) (const : BitVec 32)
    (h0 : ∀ c ∈ h, c ≠ 0) (hbad : ¬ (1 ≤ h.length ∧ (∀ c ∈ h, HrpChar c) ∧
    (∀ d ∈ data, d.toNat < 32) ∧ h.length + 1 + data.length + 6 ≤ 90)) :
    ∃ o, bech32_serialize (h ++ 0 :: rest) data const = .ok ⟨o, false⟩ ∧ o.length ≤ 84 := by
  simp only [bech32_serialize, hrp_scan_eq 83 h rest 0 1 h0]
  by_cases hg : ∀ c ∈ h.take 83, HrpChar c
  case neg => rw [if_neg hg]; exact ⟨[], rfl, by simp⟩
  rw [if_pos hg]
  simp only [C.ok_bind, Nat.zero_add]
  by_cases hz : min 83 h.length = 0
  · rw [if_pos hz]; exact ⟨[], rfl, by simp⟩
  rw [if_neg hz]
  by_cases hl : h.length ≤ 83
  · simp only [List.take_of_length_le hl, List.drop_eq_nil_of_le hl, List.nil_append,
      Nat.min_eq_right hl] at *
    simp only [C.rd, List.getElem?_cons_zero, C.ok_bind]
    rw [if_neg (by simp)]
    by_cases h4 : h.length + 1 + data.length + 6 > 90
    · rw [if_pos h4]; exact ⟨[], rfl, by simp⟩
    rw [if_neg h4, List.take_left' rfl]
    obtain ⟨o, ho, hol⟩ := data_loop_bad data (h.foldl
      (fun chk (c : Byte) => bech32_polymod chk ^^^ (c &&& 0x1f).zeroExtend 32)
        (bech32_polymod (h.foldl
          (fun chk (c : Byte) => bech32_polymod chk ^^^ (c >>> 5).zeroExtend 32) 1)))
      (fun hd => hbad ⟨by omega, hg, hd, by omega⟩)
    rw [ho]
    refine ⟨_, rfl, ?_⟩
    simp; omega
  · obtain ⟨x, hx⟩ : ∃ x, (h.drop 83)[0]? = some x := by
      rw [List.getElem?_drop]; exact ⟨_, List.getElem?_eq_getElem (by omega)⟩
    have hx' : (h.drop 83 ++ 0 :: rest)[0]? = some x := by
      rw [List.getElem?_append_left (by rw [List.length_drop]; omega)]; exact hx
    have hxz : x ≠ 0 := h0 x (List.mem_of_mem_drop (List.mem_of_getElem? hx))
    simp only [C.rd, hx', C.ok_bind]
    rw [if_pos hxz]
    exact ⟨[], rfl, by simp⟩

end Torsion
