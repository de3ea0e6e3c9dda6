import Verif.Encoding.Bech32Lemmas

/-! # Lemmas for bech32 deserialisation -/
namespace Torsion
open Spec

def scanStep (st : Bech32Scan) (c : Byte) : Bech32Scan :=
  let st :=
    if c.toNat ≥ 97 ∧ c.toNat ≤ 122 then { st with lower := true }
    else if c.toNat ≥ 65 ∧ c.toNat ≤ 90 then { st with upper := true }
    else if c.toNat = 49 then { st with hlen := st.slen }
    else st
  { st with slen := st.slen + 1 }

def Printable (c : Byte) : Prop := 33 ≤ c.toNat ∧ c.toNat ≤ 126

instance (c : Byte) : Decidable (Printable c) := by unfold Printable; infer_instance

theorem str_scan_eq : ∀ (n : Nat) (s rest : List Byte) (st : Bech32Scan), (∀ c ∈ s, c ≠ 0) →
    bech32_str_scan n (s ++ 0 :: rest) st =
      if ∀ c ∈ s.take n, Printable c then
        .ok (some ((s.take n).foldl scanStep st, s.drop n ++ 0 :: rest))
      else .ok none
  | 0, s, rest, st, _ => by simp [bech32_str_scan]
  | n + 1, [], rest, st, _ => by simp [bech32_str_scan]
  | n + 1, c :: s, rest, st, h0 => by
    rw [List.cons_append, bech32_str_scan, if_neg (h0 c (by simp))]
    by_cases h1 : c.toNat < 33 ∨ c.toNat > 126
    · rw [if_pos h1, if_neg]
      intro h; have := h c (by simp); unfold Printable at this; omega
    rw [if_neg h1]
    have hc : Printable c := by unfold Printable; omega
    simp only [List.take_succ_cons, List.forall_mem_cons, hc, true_and, List.drop_succ_cons,
      List.foldl_cons]
    exact str_scan_eq n s rest (scanStep st c) (fun x hx => h0 x (by simp [hx]))

theorem scanStep_slen (st : Bech32Scan) (c : Byte) : (scanStep st c).slen = st.slen + 1 := by
  unfold scanStep; dsimp only; split
  · rfl
  · split
    · rfl
    · split <;> rfl

theorem scanStep_lower (st : Bech32Scan) (c : Byte) :
    (scanStep st c).lower = (st.lower || decide (IsLower c)) := by
  unfold scanStep IsLower; dsimp only; split
  · next h => simp [h.1, h.2]
  · next h =>
    have : ¬ (97 ≤ c.toNat ∧ c.toNat ≤ 122) := h
    simp only [this, decide_false, Bool.or_false]
    split
    · rfl
    · split <;> rfl

theorem scanStep_upper (st : Bech32Scan) (c : Byte) :
    (scanStep st c).upper = (st.upper || decide (IsUpper c)) := by
  unfold scanStep IsUpper; dsimp only; split
  · next h =>
    have : ¬ (65 ≤ c.toNat ∧ c.toNat ≤ 90) := by omega
    simp [this]
  · split
    · next h => simp [h.1, h.2]
    · next h =>
      have : ¬ (65 ≤ c.toNat ∧ c.toNat ≤ 90) := h
      simp only [this, decide_false, Bool.or_false]
      split <;> rfl

theorem scanStep_hlen (st : Bech32Scan) (c : Byte) :
    (scanStep st c).hlen = if c = 49 then st.slen else st.hlen := by
  have hc : c.toNat = 49 ↔ c = 49 := by
    rw [← BitVec.toNat_inj]; rfl
  unfold scanStep; dsimp only; split
  · next h => rw [if_neg]; rw [← hc]; omega
  · split
    · next h => rw [if_neg]; rw [← hc]; omega
    · split
      · next h => rw [if_pos (hc.1 h)]
      · next h => rw [if_neg (fun e => h (hc.2 e))]

theorem scan_slen : ∀ (s : List Byte) (st : Bech32Scan),
    (s.foldl scanStep st).slen = st.slen + s.length
  | [], st => rfl
  | c :: s, st => by
    rw [List.foldl_cons, scan_slen s, scanStep_slen, List.length_cons]; omega

theorem scan_lower : ∀ (s : List Byte) (st : Bech32Scan),
    (s.foldl scanStep st).lower = (st.lower || s.any (fun c => decide (IsLower c)))
  | [], st => by simp
  | c :: s, st => by
    rw [List.foldl_cons, scan_lower s, scanStep_lower, List.any_cons, Bool.or_assoc]

theorem scan_upper : ∀ (s : List Byte) (st : Bech32Scan),
    (s.foldl scanStep st).upper = (st.upper || s.any (fun c => decide (IsUpper c)))
  | [], st => by simp
  | c :: s, st => by
    rw [List.foldl_cons, scan_upper s, scanStep_upper, List.any_cons, Bool.or_assoc]

theorem scan_hlen_none : ∀ (s : List Byte) (st : Bech32Scan), (49 : Byte) ∉ s →
    (s.foldl scanStep st).hlen = st.hlen
  | [], st, _ => rfl
  | c :: s, st, h => by
    rw [List.foldl_cons, scan_hlen_none s _ (fun h' => h (List.mem_cons_of_mem _ h')), scanStep_hlen, if_neg]
    rintro rfl; simp at h

theorem scan_hlen (a b : List Byte) (st : Bech32Scan) (h : (49 : Byte) ∉ b) :
    ((a ++ 49 :: b).foldl scanStep st).hlen = st.slen + a.length := by
  rw [List.foldl_append, List.foldl_cons, scan_hlen_none b _ h, scanStep_hlen, if_pos rfl,
    scan_slen]

theorem scan_mixed (s : List Byte) :
    ((s.foldl scanStep ⟨0, false, false, 0⟩).lower &&
      (s.foldl scanStep ⟨0, false, false, 0⟩).upper) = true ↔ Mixed s := by
  rw [scan_lower, scan_upper, Mixed]; simp

/-- Last separator. -/
theorem split_last (s : List Byte) :
    (49 : Byte) ∉ s ∨ ∃ a b, s = a ++ 49 :: b ∧ (49 : Byte) ∉ b := by
  induction s with
  | nil => left; simp
  | cons c s ih =>
    rcases ih with h | ⟨a, b, rfl, hb⟩
    · by_cases hc : c = 49
      · right; exact ⟨[], s, by simp [hc], h⟩
      · left
        rw [List.mem_cons]
        rintro (h' | h')
        exacts [hc h'.symm, h h']
    · right; exact ⟨c :: a, b, by simp, hb⟩

/-- Symbol of a character. -/
def symVal (c : Byte) : Byte := if h : c.toNat < 128 then bech32_table[c.toNat] else 255

theorem look128_eq {c : Byte} (h : c.toNat < 128) : look128 bech32_table c = .ok (symVal c) := by
  simp [look128, symVal, h]

theorem symVal_spec : ∀ c : Byte,
    ((symVal c).toNat < 32 ∧ bechChar (symVal c).toNat = lower c) ∨
    (symVal c = 255 ∧ ∀ n : Fin 32, bechChar n.val ≠ lower c) := by decide +kernel

theorem bechChar_inj : ∀ a b : Fin 32, bechChar a.val = bechChar b.val → a = b := by
  decide +kernel

theorem bechChar_props : ∀ a : Fin 32, bechChar a.val ≠ 49 ∧ bechChar a.val ≠ 58 ∧
    bechChar a.val ≠ 0 ∧ Printable (bechChar a.val) ∧ ¬ IsUpper (bechChar a.val) ∧
    (IsLower (bechChar a.val) ∨ (48 ≤ (bechChar a.val).toNat ∧ (bechChar a.val).toNat ≤ 57)) := by
  decide +kernel

def IsSym (c : Byte) : Prop := (symVal c).toNat < 32

instance (c : Byte) : Decidable (IsSym c) := by unfold IsSym; infer_instance

theorem isSym_char {c : Byte} (h : IsSym c) : bechChar (symVal c).toNat = lower c := by
  rcases symVal_spec c with h1 | h1
  · exact h1.2
  · rw [IsSym, h1.1] at h; simp at h

theorem isSym_of {c : Byte} {n : Nat} (hn : n < 32) (h : lower c = bechChar n) :
    IsSym c ∧ (symVal c).toNat = n := by
  rcases symVal_spec c with h1 | h1
  · refine ⟨h1.1, ?_⟩
    have := bechChar_inj ⟨_, h1.1⟩ ⟨n, hn⟩ (by rw [h1.2, h])
    simpa using this
  · exact absurd h.symm (h1.2 ⟨n, hn⟩)

theorem not_isSym {c : Byte} (h : ¬ IsSym c) : symVal c = 255 := by
  rcases symVal_spec c with h1 | h1
  · exact absurd h1.1 h
  · exact h1.1

theorem hi_sym : ∀ v : Byte, v.toNat < 32 → ¬ (v &&& 0x80 ≠ 0) := by decide +kernel

theorem value_loop_ok (slen : Nat) : ∀ (s : List Byte) (i : Nat) (chk : BitVec 32),
    (∀ c ∈ s, c.toNat < 128) → (∀ c ∈ s, IsSym c) →
    bech32_value_loop slen i chk s = .ok ((s.map symVal).take (slen - 6 - i),
      some ((s.map symVal).foldl (fun chk d => bech32_polymod chk ^^^ d.zeroExtend 32) chk))
  | [], i, chk, _, _ => by simp [bech32_value_loop]
  | c :: s, i, chk, h1, h2 => by
    rw [bech32_value_loop, look128_eq (h1 c (by simp)), C.ok_bind,
      if_neg (hi_sym _ (h2 c (by simp))),
      value_loop_ok slen s _ _ (fun x hx => h1 x (by simp [hx])) (fun x hx => h2 x (by simp [hx]))]
    simp only [C.ok_bind, List.map_cons, List.foldl_cons]
    by_cases hi : i < slen - 6
    · rw [if_pos hi, show slen - 6 - i = (slen - 6 - (i + 1)) + 1 by omega, List.take_succ_cons]
    · rw [if_neg hi, show slen - 6 - i = 0 by omega, show slen - 6 - (i + 1) = 0 by omega]; simp

theorem value_loop_bad (slen : Nat) : ∀ (s : List Byte) (i : Nat) (chk : BitVec 32),
    (∀ c ∈ s, c.toNat < 128) → (¬ ∀ c ∈ s, IsSym c) →
    ∃ o, bech32_value_loop slen i chk s = .ok (o, none) ∧ o.length ≤ slen - 6 - i
  | [], i, chk, _, h => by simp at h
  | c :: s, i, chk, h1, h2 => by
    rw [bech32_value_loop, look128_eq (h1 c (by simp)), C.ok_bind]
    by_cases hc : IsSym c
    · obtain ⟨o, ho, hl⟩ := value_loop_bad slen s (i + 1)
        (bech32_polymod chk ^^^ (symVal c).zeroExtend 32)
        (fun x hx => h1 x (by simp [hx])) (by simpa [hc] using h2)
      rw [if_neg (hi_sym _ hc), ho]
      simp only [C.ok_bind]
      by_cases hi : i < slen - 6
      · rw [if_pos hi]; exact ⟨_, rfl, by simp; omega⟩
      · rw [if_neg hi]; exact ⟨_, rfl, by omega⟩
    · rw [if_pos (by rw [not_isSym hc]; decide)]
      exact ⟨[], rfl, by simp⟩

theorem lower_eq : bech32_lower = lower := by
  funext c; simp only [bech32_lower, lower, ge_iff_le]

theorem lower_lo5 : ∀ c : Byte, c.toNat % 32 = (lower c).toNat % 32 := by decide +kernel
theorem lower_printable : ∀ c : Byte, Printable c → HrpChar (lower c) := by decide +kernel
theorem printable_lower : ∀ c : Byte, Printable (lower c) → Printable c := by decide +kernel
theorem lower_one : ∀ c : Byte, lower c = 49 ↔ c = 49 := by decide +kernel
theorem lower_ne_zero : ∀ c : Byte, Printable c → c ≠ 0 := by decide +kernel

/-- Checksum words of the deserialiser. -/
theorem bech_words_lower (a vals : List Byte) :
    (vals.foldl (fun chk (d : Byte) => bech32_polymod chk ^^^ d.zeroExtend 32)
      (a.foldl (fun chk (c : Byte) => bech32_polymod chk ^^^ (c &&& 0x1f).zeroExtend 32)
        (bech32_polymod (a.foldl
          (fun chk (c : Byte) => bech32_polymod chk ^^^ (bech32_lower c >>> 5).zeroExtend 32)
            1)))).toNat =
      bechState (a.map lower) vals := by
  rw [bech32_fold _ (·.toNat) vals _ (fun x _ => zx32 x),
    bech32_fold _ (fun c => (lower c).toNat % 32) a _ (fun x _ => by rw [lo5, lower_lo5]),
    bech32_polymod_toNat,
    bech32_fold _ (fun c => (lower c).toNat / 32) a _ (fun x _ => by rw [hi3, lower_eq])]
  rw [bechState, hrpExpand, List.map_map, List.map_map]
  simp only [List.foldl_append, List.foldl_cons, List.foldl_nil]
  rfl

/-- Strings that get past the first checks. -/
def BechShape (s a b : List Byte) : Prop :=
  s = a ++ 49 :: b ∧ (49 : Byte) ∉ b ∧ 1 ≤ a.length ∧ 6 ≤ b.length ∧ s.length ≤ 90 ∧
    (∀ c ∈ s, Printable c) ∧ ¬ Mixed s

theorem des_shape {s a b : List Byte} (hs : BechShape s a b) (rest : List Byte)
    (const : BitVec 32) :
    ((∀ c ∈ b, IsSym c) → bech32_deserialize (s ++ 0 :: rest) const =
      .ok ⟨a.map lower ++ [0], (b.map symVal).take (b.length - 6),
        decide (bechState (a.map lower) (b.map symVal) = const.toNat)⟩) ∧
    ((¬ ∀ c ∈ b, IsSym c) → ∃ o, bech32_deserialize (s ++ 0 :: rest) const =
      .ok ⟨a.map lower ++ [0], o, false⟩ ∧ o.length ≤ b.length - 6) := by
  obtain ⟨hs, hb, ha, hb6, hl, hp, hm⟩ := hs
  have h0 : ∀ c ∈ s, c ≠ 0 := fun c hc => lower_ne_zero c (hp c hc)
  have hb128 : ∀ c ∈ b, c.toNat < 128 := by
    intro c hc
    have := hp c (by rw [hs]; simp [hc])
    unfold Printable at this; omega
  have hslen : s.length = a.length + 1 + b.length := by rw [hs]; simp; omega
  have e1 : (s.foldl scanStep ⟨0, false, false, 0⟩).slen = s.length := by
    rw [scan_slen]; exact Nat.zero_add _
  have e2 : (s.foldl scanStep ⟨0, false, false, 0⟩).hlen = a.length := by
    rw [hs, scan_hlen a b _ hb]; exact Nat.zero_add _
  have e3 : ¬ ((s.foldl scanStep ⟨0, false, false, 0⟩).lower &&
      (s.foldl scanStep ⟨0, false, false, 0⟩).upper) = true := by
    rw [scan_mixed]; exact hm
  have et : (s ++ 0 :: rest).take a.length = a := by
    rw [hs]; simp
  have et2 : (List.take s.length (s ++ 0 :: rest)).drop (a.length + 1) = b := by
    rw [List.take_left' rfl, hs, show a ++ 49 :: b = (a ++ [49]) ++ b by simp]
    exact List.drop_left' (by simp)
  have pre : ∀ (X : List Byte × Option (BitVec 32)), bech32_value_loop s.length (a.length + 1)
      (a.foldl (fun chk (c : Byte) => bech32_polymod chk ^^^ (c &&& 0x1f).zeroExtend 32)
        (bech32_polymod (a.foldl
          (fun chk (c : Byte) => bech32_polymod chk ^^^ (bech32_lower c >>> 5).zeroExtend 32)
            1))) b = .ok X →
      bech32_deserialize (s ++ 0 :: rest) const =
        match X with
        | (d, none) => .ok ⟨a.map lower ++ [0], d, false⟩
        | (d, some chk) => if chk ≠ const then .ok ⟨a.map lower ++ [0], d, false⟩
            else .ok ⟨a.map lower ++ [0], d, true⟩ := by
    rintro ⟨d, k⟩ hX
    simp only [bech32_deserialize, str_scan_eq 90 s rest _ h0, List.take_of_length_le hl, if_pos hp,
      List.drop_eq_nil_of_le hl, List.nil_append, C.ok_bind, e1, e2]
    rw [if_neg (by omega)]
    simp only [C.rd, List.getElem?_cons_zero, C.ok_bind]
    rw [if_neg (by simp), if_neg (by omega), if_neg (by omega), if_neg e3, et, et2, hX, lower_eq]
    rcases k with _ | k <;> rfl
  constructor
  · intro hsym
    have := pre _ (value_loop_ok _ b _ _ hb128 hsym)
    rw [this]
    have hw := bech_words_lower a (b.map symVal)
    rw [← hw, show s.length - 6 - (a.length + 1) = b.length - 6 by omega]
    simp only [BitVec.toNat_inj]
    split <;> simp_all
  · intro hns
    obtain ⟨o, ho, hol⟩ := value_loop_bad s.length b (a.length + 1) (a.foldl (fun chk (c : Byte) =>
      bech32_polymod chk ^^^ (c &&& 0x1f).zeroExtend 32)
        (bech32_polymod (a.foldl
          (fun chk (c : Byte) => bech32_polymod chk ^^^ (bech32_lower c >>> 5).zeroExtend 32)
            1))) hb128 hns
    exact ⟨o, pre _ ho, by omega⟩

theorem des_noshape {s : List Byte} (h0 : ∀ c ∈ s, c ≠ 0) (hs : ¬ ∃ a b, BechShape s a b)
    (rest : List Byte) (const : BitVec 32) :
    bech32_deserialize (s ++ 0 :: rest) const = .ok ⟨[], [], false⟩ := by
  simp only [bech32_deserialize, str_scan_eq 90 s rest _ h0]
  by_cases hp : ∀ c ∈ s.take 90, Printable c
  case neg => rw [if_neg hp]; rfl
  rw [if_pos hp]
  simp only [C.ok_bind, scan_slen, Nat.zero_add, scan_mixed]
  by_cases hl : s.length ≤ 90
  · simp only [List.take_of_length_le hl] at *
    simp only [List.drop_eq_nil_of_le hl, List.nil_append, C.rd, List.getElem?_cons_zero, C.ok_bind]
    by_cases h8 : s.length < 8
    · rw [if_pos h8]
    rw [if_neg h8, if_neg (by simp)]
    by_cases hh : (s.foldl scanStep ⟨0, false, false, 0⟩).hlen = 0
    · rw [if_pos hh]
    rw [if_neg hh]
    by_cases h6 : s.length - ((s.foldl scanStep ⟨0, false, false, 0⟩).hlen + 1) < 6
    · rw [if_pos h6]
    rw [if_neg h6]
    by_cases hm : Mixed s
    · rw [if_pos ((scan_mixed s).2 hm)]
    exfalso
    rcases split_last s with h | ⟨a, b, h1, h2⟩
    · exact hh (scan_hlen_none s _ h)
    · have e2 : (s.foldl scanStep ⟨0, false, false, 0⟩).hlen = a.length := by
        rw [h1, scan_hlen a b _ h2]; exact Nat.zero_add _
      have hslen : s.length = a.length + 1 + b.length := by rw [h1]; simp; omega
      exact hs ⟨a, b, h1, h2, by omega, by omega, hl, hp, hm⟩
  · obtain ⟨x, hx⟩ : ∃ x, (s.drop 90)[0]? = some x := by
      rw [List.getElem?_drop]; exact ⟨_, List.getElem?_eq_getElem (by omega)⟩
    have hx' : (s.drop 90 ++ 0 :: rest)[0]? = some x := by
      rw [List.getElem?_append_left (by rw [List.length_drop]; omega)]; exact hx
    have hxz : x ≠ 0 := h0 x (List.mem_of_mem_drop (List.mem_of_getElem? hx))
    have : ¬ (List.take 90 s).length < 8 := by rw [List.length_take]; omega
    rw [if_neg this]
    simp only [C.rd, hx', C.ok_bind]
    rw [if_pos hxz]

theorem take_drop_vals (b : List Byte) : (b.map symVal) =
    (b.map symVal).take (b.length - 6) ++ (b.map symVal).drop (b.length - 6) :=
  (List.take_append_drop _ _).symm

theorem split_unique {c : Byte} {a b a' b' : List Byte} (h : a ++ c :: b = a' ++ c :: b')
    (hb : c ∉ b) (hb' : c ∉ b') : a = a' ∧ b = b' := by
  rcases List.append_eq_append_iff.1 h with ⟨t, e1, e2⟩ | ⟨t, e1, e2⟩
  · rcases t with _ | ⟨x, t⟩
    · simp at e1 e2; exact ⟨e1.symm, e2⟩
    · exfalso
      simp only [List.cons_append, List.cons.injEq] at e2
      apply hb; rw [e2.2]; simp
  · rcases t with _ | ⟨x, t⟩
    · simp at e1 e2; exact ⟨e1, e2.symm⟩
    · exfalso
      simp only [List.cons_append, List.cons.injEq] at e2
      apply hb'; rw [e2.2]; simp

theorem map_bechChar_inj : ∀ {xs ys : List Byte}, (∀ d ∈ xs, d.toNat < 32) →
    (∀ d ∈ ys, d.toNat < 32) →
    xs.map (fun d => bechChar d.toNat) = ys.map (fun d => bechChar d.toNat) → xs = ys
  | [], [], _, _, _ => rfl
  | x :: xs, y :: ys, h1, h2, h => by
    simp only [List.map_cons, List.cons.injEq] at h
    have := bechChar_inj ⟨_, h1 x (by simp)⟩ ⟨_, h2 y (by simp)⟩ h.1
    simp only [Fin.mk.injEq] at this
    rw [BitVec.eq_of_toNat_eq this, map_bechChar_inj (fun d hd => h1 d (by simp [hd]))
      (fun d hd => h2 d (by simp [hd])) h.2]
  | [], _ :: _, _, _, h => by simp at h
  | _ :: _, [], _, _, h => by simp at h

theorem deserialize_iff' {s : List Byte} (h0 : ∀ c ∈ s, c ≠ 0) (rest : List Byte)
    (const : BitVec 32) (hrp data : List Byte) :
    bech32_deserialize (s ++ 0 :: rest) const = .ok ⟨hrp ++ [0], data, true⟩ ↔
      ¬ Mixed s ∧ Bech32String const.toNat hrp data (s.map lower) := by
  by_cases hsh : ∃ a b, BechShape s a b
  · obtain ⟨a, b, hsh⟩ := hsh
    have hd := des_shape hsh rest const
    have hsh' := hsh
    obtain ⟨hs, hb, ha, hb6, hl, hp, hm⟩ := hsh'
    have hslen : s.length = a.length + 1 + b.length := by rw [hs]; simp; omega
    by_cases hsym : ∀ c ∈ b, IsSym c
    · rw [hd.1 hsym]
      have hbl : b.map lower = (b.map symVal).map (fun d => bechChar d.toNat) := by
        rw [List.map_map]
        apply List.map_congr_left
        intro c hc
        exact (isSym_char (hsym c hc)).symm
      have hlow : s.map lower = a.map lower ++ 49 :: b.map lower := by
        rw [hs]; simp [lower]
      have hvl : ∀ d ∈ b.map symVal, d.toNat < 32 := by
        intro d hd
        obtain ⟨c, hc, rfl⟩ := List.mem_map.1 hd
        exact hsym c hc
      constructor
      · intro h
        simp only [C.ok.injEq, DesOut.mk.injEq, decide_eq_true_eq, List.append_left_inj] at h
        obtain ⟨rfl, rfl, hst⟩ := h
        refine ⟨hm, by simpa using ha, ?_, ?_, by simpa using hl,
          (b.map symVal).drop (b.length - 6), ?_, ?_, ?_, ?_⟩
        · intro c hc
          obtain ⟨x, hx, rfl⟩ := List.mem_map.1 hc
          exact lower_printable x (hp x (by rw [hs]; simp [hx]))
        · exact fun d hd => hvl d (List.mem_of_mem_take hd)
        · simp; omega
        · exact fun d hd => hvl d (List.mem_of_mem_drop hd)
        · rw [List.take_append_drop, hlow, hbl]
        · rw [List.take_append_drop, ← hst]; rfl
      · rintro ⟨-, g1, g2, g3, g4, chk, g5, g6, g7, g8⟩
        rw [hlow, hbl] at g7
        -- both splits are at the last separator
        have hsplit : a.map lower = hrp ∧ b.map symVal = data ++ chk := by
          have n1 : ∀ (l : List Byte), (∀ d ∈ l, d.toNat < 32) →
              (49 : Byte) ∉ l.map (fun d => bechChar d.toNat) := by
            intro l hl hc
            obtain ⟨d, hd, he⟩ := List.mem_map.1 hc
            exact (bechChar_props ⟨d.toNat, hl d hd⟩).1 he
          have g36 : ∀ d ∈ data ++ chk, d.toNat < 32 := by
            intro d hd
            rcases List.mem_append.1 hd with h | h
            exacts [g3 d h, g6 d h]
          obtain ⟨k1, k2⟩ := split_unique g7 (n1 _ hvl) (n1 _ g36)
          exact ⟨k1, map_bechChar_inj hvl g36 k2⟩
        obtain ⟨rfl, hv⟩ := hsplit
        have hbl6 : b.length = data.length + 6 := by
          have := congrArg List.length hv
          simpa [g5] using this
        have hst : bechState (a.map lower) (data ++ chk) = const.toNat := g8
        rw [hv, List.take_left' (by omega)]
        simp [hst]
    · obtain ⟨o, ho, -⟩ := hd.2 hsym
      rw [ho]
      constructor
      · intro h; simp at h
      · rintro ⟨-, g1, g2, g3, g4, chk, g5, g6, g7, g8⟩
        exfalso
        apply hsym
        intro c hc
        -- c is in the tail after the last separator
        have n1 : (49 : Byte) ∉ b.map lower := by
          intro h
          obtain ⟨x, hx, he⟩ := List.mem_map.1 h
          rw [lower_one] at he
          exact hb (he ▸ hx)
        have hlow : s.map lower = a.map lower ++ 49 :: b.map lower := by
          rw [hs]; simp [lower]
        have hin : lower c ∈ (data ++ chk).map (fun d => bechChar d.toNat) := by
          have hc' : lower c ∈ b.map lower := List.mem_map_of_mem hc
          rw [hlow] at g7
          rcases List.append_eq_append_iff.1 g7 with ⟨t, e1, e2⟩ | ⟨t, e1, e2⟩
          · rcases t with _ | ⟨x, t⟩
            · simp at e2; rw [e2] at hc'; simpa using hc'
            · exfalso
              simp only [List.cons_append, List.cons.injEq] at e2
              apply n1; rw [e2.2]; simp
          · rcases t with _ | ⟨x, t⟩
            · simp at e2; rw [← e2] at hc'; simpa using hc'
            · simp only [List.cons_append, List.cons.injEq] at e2
              rw [e2.2]; simp [hc']
        obtain ⟨d, hd, he⟩ := List.mem_map.1 hin
        have hd32 : d.toNat < 32 := by
          rcases List.mem_append.1 hd with h | h
          exacts [g3 d h, g6 d h]
        exact (isSym_of hd32 he.symm).1
  · rw [des_noshape h0 hsh]
    constructor
    · intro h; simp at h
    · rintro ⟨hm, g1, g2, g3, g4, chk, g5, g6, g7, g8⟩
      exfalso
      apply hsh
      obtain ⟨a, b', e1, e2, e3⟩ := List.map_eq_append_iff.1 g7
      obtain ⟨x, b, e4, e5, e6⟩ := List.map_eq_cons_iff.1 e3
      rw [lower_one] at e5
      subst e5 e4
      refine ⟨a, b, e1, ?_, ?_, ?_, by simpa using g4, ?_, hm⟩
      · intro h
        have : (49 : Byte) ∈ b.map lower := List.mem_map.2 ⟨49, h, by decide⟩
        rw [e6] at this
        obtain ⟨d, hd, he⟩ := List.mem_map.1 this
        have hd32 : d.toNat < 32 := by
          rcases List.mem_append.1 hd with h | h
          exacts [g3 d h, g6 d h]
        exact (bechChar_props ⟨_, hd32⟩).1 he
      · have := congrArg List.length e2; simp at this; omega
      · have := congrArg List.length e6; simp at this; omega
      · intro c hc
        apply printable_lower
        have hc' : lower c ∈ s.map lower := List.mem_map_of_mem hc
        rw [g7] at hc'
        rcases List.mem_append.1 hc' with h | h
        · have := g2 _ h; exact ⟨this.1, this.2.1⟩
        · rcases List.mem_cons.1 h with h | h
          · rw [h]; decide
          · obtain ⟨d, hd, he⟩ := List.mem_map.1 h
            have hd32 : d.toNat < 32 := by
              rcases List.mem_append.1 hd with h | h
              exacts [g3 d h, g6 d h]
            rw [← he]; exact (bechChar_props ⟨_, hd32⟩).2.2.2.1

end Torsion
