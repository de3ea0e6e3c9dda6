import Verif.Encoding.Base32
import Verif.Encoding.BitsLemmas
import Mathlib.Tactic.IntervalCases

namespace Torsion
open Spec

/-- What the engines need from an alphabet of `2^k` characters; `fold` is the case folding. -/
structure Alpha (k : Nat) (cs : List Byte) (table : Vector Byte 256) (al : Nat → Byte)
    (fold : Byte → Byte) : Prop where
  cs_ok : ∀ n < 2 ^ k, C.rd cs n = .ok (al n)
  tab : ∀ c, (look table c = 255 ∧ ∀ n < 2 ^ k, al n ≠ fold c) ∨
    ((look table c).toNat < 2 ^ k ∧ al (look table c).toNat = fold c)
  inj : ∀ a < 2 ^ k, ∀ b < 2 ^ k, al a = al b → a = b
  fold_eq : ∀ c, fold c = 61 ↔ c = 61
  al_eq : ∀ n < 2 ^ k, al n ≠ 61

set_option maxRecDepth 8000 in
theorem alpha32 : Alpha 5 base32_charset base32_table base32Char lower where
  cs_ok := by decide +kernel
  tab := by decide +kernel
  inj := by decide +kernel
  fold_eq := by decide +kernel
  al_eq := by decide +kernel

set_option maxRecDepth 8000 in
theorem alpha32hex : Alpha 5 base32hex_charset base32hex_table base32hexChar lower where
  cs_ok := by decide +kernel
  tab := by decide +kernel
  inj := by decide +kernel
  fold_eq := by decide +kernel
  al_eq := by decide +kernel

/-- A character the table maps to a value. -/
def validC (table : Vector Byte 256) (c : Byte) : Bool := look table c &&& 0x80 == 0

/-- Values of characters. -/
def vals (table : Vector Byte 256) (s : List Byte) : List Nat := s.map fun c => (look table c).toNat

theorem testBit_of_lt {x r i : Nat} (h : x < 2 ^ r) (hi : r ≤ i) : x.testBit i = false :=
  Nat.testBit_lt_two_pow (Nat.lt_of_lt_of_le h (Nat.pow_le_pow_right (by decide) hi))

theorem getLsbD_of_lt {x : Byte} {r i : Nat} (h : x.toNat < 2 ^ r) (hi : r ≤ i) :
    x.getLsbD i = false := testBit_of_lt h hi

theorem natBits_byte (r : Nat) (x : Byte) :
    natBits r x.toNat = (List.range r).reverse.map x.getLsbD := rfl

/-- Bound from bits: if all bits from `r` on are clear then the value is below `2^r`. -/
theorem toNat_lt_of_bits {x : Byte} {r : Nat} (h : ∀ i, r ≤ i → i < 8 → x.getLsbD i = false) :
    x.toNat < 2 ^ r := by
  apply Nat.lt_pow_two_of_testBit
  intro i hi
  by_cases h8 : i < 8
  · exact h i hi h8
  · exact testBit_of_lt x.isLt (by omega)

/-- `bitsimp`: decide an equation of explicit lists of bits. -/
macro "bitsimp" "[" ls:Lean.Parser.Tactic.simpLemma,* "]" : tactic =>
  `(tactic| simp [natBits_byte, byteBits, List.range, List.range.loop, BitVec.getLsbD_or,
      BitVec.getLsbD_and, BitVec.getLsbD_shiftLeft, BitVec.getLsbD_ushiftRight,
      -BitVec.toNat_or, -BitVec.toNat_and, -BitVec.toNat_shiftLeft, -BitVec.toNat_ushiftRight, $ls,*])

/-- Number of pending bits in decoder mode `m`. -/
def pend (m : Nat) : Nat := 5 * m % 8

theorem lt_of_high {x : Byte} (r : Nat) (hr : r ≤ 8)
    (h : (List.range (8 - r)).all (fun j => !x.getLsbD (r + j)) = true) : x.toNat < 2 ^ r := by
  apply toNat_lt_of_bits
  intro i h1 h2
  simp only [List.all_eq_true, List.mem_range, Bool.not_eq_true'] at h
  have := h (i - r) (by omega)
  rwa [show r + (i - r) = i by omega] at this

theorem dec_step (mode : Nat) (hm : mode < 8) (left val : Byte) (hl : left.toNat < 2 ^ pend mode)
    (hv : val.toNat < 2 ^ 5) :
    natBits (pend mode) left.toNat ++ natBits 5 val.toNat =
      match (generalizing := false) mode with
      | 0 => natBits 5 val.toNat
      | 1 => byteBits ((left <<< 3) ||| (val >>> 2)) ++ natBits 2 (val &&& 3).toNat
      | 2 => natBits 7 ((left <<< 5) ||| val).toNat
      | 3 => byteBits ((left <<< 1) ||| (val >>> 4)) ++ natBits 4 (val &&& 15).toNat
      | 4 => byteBits ((left <<< 4) ||| (val >>> 1)) ++ natBits 1 (val &&& 1).toNat
      | 5 => natBits 6 ((left <<< 5) ||| val).toNat
      | 6 => byteBits ((left <<< 2) ||| (val >>> 3)) ++ natBits 3 (val &&& 7).toNat
      | _ => byteBits ((left <<< 5) ||| val) ++ natBits 0 (0 : Byte).toNat := by
  have v5 : val[5] = false := getLsbD_of_lt (i := 5) hv (by omega)
  have v6 : val[6] = false := getLsbD_of_lt (i := 6) hv (by omega)
  have v7 : val[7] = false := getLsbD_of_lt (i := 7) hv (by omega)
  have l : ∀ i, pend mode ≤ i → left.getLsbD i = false := fun i hi => getLsbD_of_lt hl hi
  interval_cases mode <;> simp only [pend] at l ⊢ <;>
    bitsimp [v5, v6, v7, l 0, l 1, l 2, l 3, l 4, l 5, l 6, l 7, show natBits 0 0 = [] from rfl]

theorem and_lt : ∀ v : Byte, (v &&& 3).toNat < 4 ∧ (v &&& 15).toNat < 16 ∧ (v &&& 1).toNat < 2 ∧
    (v &&& 7).toNat < 8 := by decide +kernel

theorem join_lt (left val : Byte) (r : Nat) (hr : r ≤ 3) (hl : left.toNat < 2 ^ r)
    (hv : val.toNat < 2 ^ 5) : ((left <<< 5) ||| val).toNat < 2 ^ (r + 5) := by
  apply toNat_lt_of_bits
  intro i h1 h2
  rw [BitVec.getLsbD_or, BitVec.getLsbD_shiftLeft, getLsbD_of_lt hv (by omega),
    getLsbD_of_lt hl (by omega)]
  simp

/-- Invariant of the decoder's main loop. -/
theorem dec_loop (table : Vector Byte 256)
    (ht : ∀ c, validC table c = true → (look table c).toNat < 2 ^ 5) :
    ∀ (s : List Byte) (i mode : Nat) (left : Byte), mode < 8 → left.toNat < 2 ^ pend mode →
    ∃ (mode' : Nat) (left' : Byte) (dst : List Byte),
      base32_decode_loop table i mode left s =
        ⟨i + (s.takeWhile (validC table)).length, mode', left', dst⟩ ∧
      mode' = (mode + (s.takeWhile (validC table)).length) % 8 ∧
      left'.toNat < 2 ^ pend mode' ∧
      natBits (pend mode) left.toNat ++ bitsK 5 (vals table (s.takeWhile (validC table))) =
        bits dst ++ natBits (pend mode') left'.toNat
  | [], i, mode, left, hm, hl => by
    refine ⟨mode, left, [], by simp [base32_decode_loop], by simp; omega, hl, ?_⟩
    simp [vals, bits]
  | c :: s, i, mode, left, hm, hl => by
    rw [base32_decode_loop]
    by_cases hc : validC table c = true
    · have hz : ¬ (look table c &&& 0x80 ≠ 0) := by simpa [validC] using hc
      have hv := ht c hc
      have hstep := dec_step mode hm left (look table c) hl hv
      rw [List.takeWhile_cons_of_pos hc]
      simp only [hz, if_false, List.length_cons, vals, List.map_cons, bitsK_cons]
      rw [← List.append_assoc, hstep]
      have ha := and_lt (look table c)
      have IH := dec_loop table ht s (i + 1)
      simp only [vals] at IH
      interval_cases mode <;> simp only
      · obtain ⟨m', l', d, e, hm', hl', hb⟩ := IH 1 (look table c) (by omega) hv
        refine ⟨m', l', d, ?_, by omega, hl', ?_⟩
        · rw [e, Nat.add_assoc, Nat.add_comm 1]
        · exact hb
      · obtain ⟨m', l', d, e, hm', hl', hb⟩ := IH 2 (look table c &&& 3) (by omega) ha.1
        refine ⟨m', l', _ :: d, by rw [e, Nat.add_assoc, Nat.add_comm 1], by omega, hl', ?_⟩
        · rw [List.append_assoc, bits_cons, List.append_assoc, ← hb]; rfl
      · obtain ⟨m', l', d, e, hm', hl', hb⟩ := IH 3 ((left <<< 5) ||| look table c) (by omega)
          (join_lt left _ 2 (by omega) hl hv)
        refine ⟨m', l', d, ?_, by omega, hl', ?_⟩
        · rw [e, Nat.add_assoc, Nat.add_comm 1]
        · exact hb
      · obtain ⟨m', l', d, e, hm', hl', hb⟩ := IH 4 (look table c &&& 15) (by omega) ha.2.1
        refine ⟨m', l', _ :: d, by rw [e, Nat.add_assoc, Nat.add_comm 1], by omega, hl', ?_⟩
        · rw [List.append_assoc, bits_cons, List.append_assoc, ← hb]; rfl
      · obtain ⟨m', l', d, e, hm', hl', hb⟩ := IH 5 (look table c &&& 1) (by omega) ha.2.2.1
        refine ⟨m', l', _ :: d, by rw [e, Nat.add_assoc, Nat.add_comm 1], by omega, hl', ?_⟩
        · rw [List.append_assoc, bits_cons, List.append_assoc, ← hb]; rfl
      · obtain ⟨m', l', d, e, hm', hl', hb⟩ := IH 6 ((left <<< 5) ||| look table c) (by omega)
          (join_lt left _ 1 (by omega) hl hv)
        refine ⟨m', l', d, ?_, by omega, hl', ?_⟩
        · rw [e, Nat.add_assoc, Nat.add_comm 1]
        · exact hb
      · obtain ⟨m', l', d, e, hm', hl', hb⟩ := IH 7 (look table c &&& 7) (by omega) ha.2.2.2
        refine ⟨m', l', _ :: d, by rw [e, Nat.add_assoc, Nat.add_comm 1], by omega, hl', ?_⟩
        · rw [List.append_assoc, bits_cons, List.append_assoc, ← hb]; rfl
      · obtain ⟨m', l', d, e, hm', hl', hb⟩ := IH 0 0 (by omega) (by decide)
        refine ⟨m', l', _ :: d, by rw [e, Nat.add_assoc, Nat.add_comm 1], by omega, hl', ?_⟩
        · rw [List.append_assoc, bits_cons, List.append_assoc, ← hb]; rfl
    · have hz : look table c &&& 0x80 ≠ 0 := by simpa [validC] using hc
      rw [List.takeWhile_cons_of_neg hc]
      refine ⟨mode, left, [], by rw [if_pos hz]; rfl, by simp; omega, hl, ?_⟩
      simp [vals, bits]

theorem natBits_zero (r : Nat) : natBits r 0 = List.replicate r false := by
  apply List.ext_getElem (by simp)
  intro i h1 h2
  simp [natBits]

theorem pend_lt (m : Nat) : pend m < 8 := by unfold pend; omega

/-- If two decompositions into whole bytes and fewer than 8 (resp. `z`) trailing bits agree. -/
theorem bits_split {a b : List Byte} {x : List Bool} {z : Nat} (hx : x.length < 8) (hz : z < 8)
    (h : bits a ++ x = bits b ++ List.replicate z false) :
    a = b ∧ x = List.replicate z false := by
  have hl := congrArg List.length h
  rw [List.length_append, List.length_append, bits_len, bits_len, List.length_replicate] at hl
  have e : a.length = b.length := by omega
  obtain ⟨h1, h2⟩ := List.append_inj h (by rw [bits_len, bits_len, e])
  exact ⟨bits_inj h1, h2⟩

theorem byte_pos_iff (x : Byte) : x > 0 ↔ x.toNat ≠ 0 := by
  rw [gt_iff_lt, BitVec.lt_def, show (0 : Byte).toNat = 0 from rfl]
  omega

theorem Alpha.valid {k : Nat} {cs table al fold} (A : Alpha k cs table al fold) (hk : k < 8) (c : Byte) :
    (validC table c = true ∧ (look table c).toNat < 2 ^ k ∧ al (look table c).toNat = fold c) ∨
    (validC table c = false ∧ look table c = 255 ∧ ∀ n < 2 ^ k, al n ≠ fold c) := by
  rcases A.tab c with ⟨h1, h2⟩ | ⟨h1, h2⟩
  · right
    exact ⟨by simp [validC, h1], h1, h2⟩
  · left
    refine ⟨?_, h1, h2⟩
    have h7 : (look table c).getLsbD 7 = false := getLsbD_of_lt h1 (by omega)
    have := hi_bit (look table c)
    rw [h7] at this
    simpa [validC] using this

theorem Alpha.vals_map {k : Nat} {cs table al fold} (A : Alpha k cs table al fold) (hk : k < 8)
    (s : List Byte) (h : ∀ c ∈ s, validC table c = true) :
    (vals table s).map al = s.map fold ∧ ∀ v ∈ vals table s, v < 2 ^ k := by
  constructor
  · rw [vals, List.map_map]
    apply List.map_congr_left
    intro c hc
    rcases A.valid hk c with ⟨_, _, h3⟩ | ⟨h1, _⟩
    · exact h3
    · rw [h c hc] at h1; cases h1
  · intro v hv
    simp only [vals, List.mem_map] at hv
    obtain ⟨c, hc, rfl⟩ := hv
    rcases A.valid hk c with ⟨_, h2, _⟩ | ⟨h1, _⟩
    · exact h2
    · rw [h c hc] at h1; cases h1

theorem takeWhile_all {α : Type} (p : α → Bool) (l : List α) : ∀ c ∈ l.takeWhile p, p c = true := by
  intro c hc
  induction l with
  | nil => simp at hc
  | cons a l ih =>
    rw [List.takeWhile_cons] at hc
    split at hc
    · rcases List.mem_cons.1 hc with rfl | hc
      · assumption
      · exact ih hc
    · simp at hc

/-- Decoding of well-formed text: the converse direction needs to recognise the valid prefix. -/
theorem Alpha.split {k : Nat} {cs table al fold} (A : Alpha k cs table al fold) (hk : k < 8)
    {vs : List Nat} (hv : ∀ v ∈ vs, v < 2 ^ k) {s : List Byte} {n : Nat}
    (h : s.map fold = vs.map al ++ List.replicate n 61) :
    s.takeWhile (validC table) = s.take vs.length ∧ vals table (s.take vs.length) = vs ∧
      s.drop vs.length = List.replicate n 61 ∧ s.length = vs.length + n := by
  induction vs generalizing s with
  | nil =>
    simp only [List.map_nil, List.nil_append] at h
    have hs : s = List.replicate n 61 := by
      have hl := congrArg List.length h
      simp at hl
      apply List.ext_getElem (by simp [hl])
      intro i h1 h2
      have : (s.map fold)[i]'(by simpa using h1) = 61 := by simp [h]
      rw [List.getElem_map, A.fold_eq] at this
      simp [this]
    subst hs
    have h61 : validC table 61 = false := by
      rcases A.valid hk 61 with ⟨_, h2, h3⟩ | ⟨h1, _⟩
      · rw [(A.fold_eq 61).2 rfl] at h3
        exact absurd h3 (A.al_eq _ h2)
      · exact h1
    refine ⟨?_, by simp [vals], by simp, by simp⟩
    rcases n with _ | n
    · simp
    · rw [List.replicate_succ, List.takeWhile_cons_of_neg (by rw [h61]; exact Bool.false_ne_true)]
      simp
  | cons v vs ih =>
    rcases s with _ | ⟨c, s⟩
    · simp at h
    · simp only [List.map_cons, List.cons_append, List.cons.injEq] at h
      obtain ⟨hc, hs⟩ := h
      obtain ⟨i1, i2, i3, i4⟩ := ih (fun x hx => hv x (by simp [hx])) hs
      have hvv := hv v (by simp)
      rcases A.valid hk c with ⟨h1, h2, h3⟩ | ⟨_, _, h3⟩
      · have : (look table c).toNat = v := A.inj _ h2 _ hvv (by rw [h3, hc])
        refine ⟨?_, ?_, ?_, ?_⟩
        · rw [List.takeWhile_cons_of_pos h1, List.length_cons, List.take_succ_cons, i1]
        · rw [List.length_cons, List.take_succ_cons]
          simp only [vals, List.map_cons, this] at i2 ⊢
          rw [i2]
        · rw [List.length_cons, List.drop_succ_cons, i3]
        · simp [i4]; omega
      · exact absurd hc.symm (h3 v hvv)

/-- Full characterisation of the decoder: it accepts exactly the RFC encodings, up to case. -/
theorem base32_decode0_iff {cs table al} (A : Alpha 5 cs table al lower) (s b : List Byte)
    (unpad : Bool) :
    base32_decode0 s table unpad = ⟨b, true⟩ ↔ encode 5 8 al unpad b = s.map lower := by
  have ht : ∀ c, validC table c = true → (look table c).toNat < 2 ^ 5 := by
    intro c hc
    rcases A.valid (by decide) c with ⟨_, h2, _⟩ | ⟨h1, _⟩
    · exact h2
    · rw [hc] at h1; cases h1
  obtain ⟨mode, left, dst, e, hm, hl, hb⟩ := dec_loop table ht s 0 0 0 (by decide) (by decide)
  simp only [Nat.zero_add, show natBits (pend 0) (0 : Byte).toNat = [] from rfl,
    List.nil_append] at e hm hb
  have hm8 : mode < 8 := by omega
  have hlen8 : (natBits (pend mode) left.toNat).length < 8 := by
    rw [natBits_len]; exact pend_lt mode
  obtain ⟨hmap, hlt⟩ := A.vals_map (by decide) _ (takeWhile_all (validC table) s)
  have hbl := congrArg List.length hb
  rw [bitsK_len, List.length_append, bits_len, natBits_len] at hbl
  have hvl : (vals table (s.takeWhile (validC table))).length =
      (s.takeWhile (validC table)).length := by simp [vals]
  generalize hpre : s.takeWhile (validC table) = pre at *
  have hspl : s = pre ++ s.drop pre.length := by
    have h1 := List.takeWhile_append_dropWhile (p := validC table) (l := s)
    rw [hpre] at h1
    conv_lhs => rw [← h1]
    congr 1
    have := congrArg (List.drop pre.length) h1
    rw [List.drop_left] at this
    exact this
  have hsl : s.length = pre.length + (s.drop pre.length).length := by
    conv_lhs => rw [hspl, List.length_append]
  unfold base32_decode0
  simp only [e]
  constructor
  · intro h
    split at h
    · simp at h
    rename_i hmode
    split at h
    · simp at h
    rename_i hleft
    split at h
    · simp at h
    rename_i hlen
    split at h
    · simp at h
    rename_i hany
    simp only [DecOut.mk.injEq, and_true] at h
    subst h
    rw [byte_pos_iff] at hleft
    have hl0 : left.toNat = 0 := by omega
    rw [hl0, natBits_zero] at hb
    have hp5 : pend mode < 5 := by
      unfold pend
      clear hm hl e hb hbl hlen hlen8
      interval_cases mode <;> simp at hmode ⊢
    have hg := groups_of_bitsK (by decide) _ _ _ hlt hp5 hb
    have hrest : s.drop pre.length = List.replicate (s.length - pre.length) 61 := by
      rw [List.eq_replicate_iff]
      refine ⟨by simp, ?_⟩
      intro c hc
      simp only [List.any_eq_true, not_exists, not_and] at hany
      have := hany c hc
      simpa [ch] using this
    have h61 : lower 61 = 61 := by decide
    unfold encode
    simp only [hg, hmap]
    have : s.map lower = pre.map lower ++ List.replicate (s.length - pre.length) 61 := by
      conv_lhs => rw [hspl, List.map_append, hrest, List.map_replicate, h61]
    rw [this]
    simp only [ne_eq, Decidable.not_not] at hlen
    cases unpad
    · simp at hlen ⊢
      omega
    · simp [eqPad] at hlen ⊢
      omega
  · intro h
    obtain ⟨gl, z, hz, hg⟩ := bitsK_groups (k := 5) (by decide) (bits b)
    unfold encode at h
    simp only [List.length_map] at h
    have h' : s.map lower = (groups 5 (bits b)).map al ++
        List.replicate (((8 - (groups 5 (bits b)).length % 8) % 8) * unpad.toNat) 61 := by
      rw [← h]
      cases unpad <;> simp [eqPad]
    obtain ⟨s1, s2, s3, s4⟩ := A.split (by decide) gl h'
    rw [hpre] at s1
    rw [← s1] at s2
    rw [s2] at hb hvl
    rw [hb] at hg
    obtain ⟨rfl, hx⟩ := bits_split hlen8 (by omega) hg
    have hpz : pend mode = z := by simpa using congrArg List.length hx
    have hleft : left.toNat = 0 := by
      have h0 : natBits (pend mode) left.toNat = natBits (pend mode) 0 := by
        rw [hx, natBits_zero, hpz]
      exact natBits_inj hl (Nat.two_pow_pos _) h0
    rw [if_neg, if_neg, if_neg, if_neg]
    · simp only [List.any_eq_true, not_exists, not_and]
      intro c hc
      rw [hvl.symm, s3] at hc
      simp [(List.mem_replicate.1 hc).2, ch]
    · simp only [ne_eq, Decidable.not_not]
      rw [s4, hvl, hm]
    · rw [byte_pos_iff]; omega
    · rintro (h | h | h) <;> rw [h] at hpz <;> simp [pend] at hpz <;> omega

/-! ## Encoder -/

/-- Number of pending bits in encoder mode `m`. -/
def ependC (m : Nat) : Nat := 8 * m % 5

theorem enc_step (mode : Nat) (hm : mode < 5) (left c : Byte)
    (hl : ∀ i, (i < 5 - ependC mode ∨ 5 ≤ i) → mode ≠ 0 → left.getLsbD i = false) :
    (natBits 5 left.toNat).take (ependC mode) ++ byteBits c =
      match (generalizing := false) mode with
      | 0 => natBits 5 (c >>> 3).toNat ++ (natBits 5 ((c &&& 7) <<< 2).toNat).take 3
      | 1 => natBits 5 (left ||| (c >>> 6)).toNat ++ natBits 5 ((c >>> 1) &&& 31).toNat ++
          (natBits 5 ((c &&& 1) <<< 4).toNat).take 1
      | 2 => natBits 5 (left ||| (c >>> 4)).toNat ++ (natBits 5 ((c &&& 15) <<< 1).toNat).take 4
      | 3 => natBits 5 (left ||| (c >>> 7)).toNat ++ natBits 5 ((c >>> 2) &&& 31).toNat ++
          (natBits 5 ((c &&& 3) <<< 3).toNat).take 2
      | _ => natBits 5 (left ||| (c >>> 5)).toNat ++ natBits 5 (c &&& 31).toNat := by
  have hl' : ∀ i (h : i < 8), (i < 5 - ependC mode ∨ 5 ≤ i) → mode ≠ 0 → left[i] = false :=
    fun i h h1 h2 => by rw [← BitVec.getLsbD_eq_getElem]; exact hl i h1 h2
  clear hl
  interval_cases mode <;> simp only [ependC] at hl' ⊢ <;>
    bitsimp [hl' 0 (by decide), hl' 1 (by decide), hl' 2 (by decide), hl' 3 (by decide),
      hl' 4 (by decide)]

/-- The indices and the leftover never leave the 32-character alphabet, and the leftover has
only the pending bits set. -/
theorem enc_bounds : ∀ c : Byte, (c >>> 3).toNat < 32 ∧ ((c >>> 1) &&& 31).toNat < 32 ∧
    ((c >>> 2) &&& 31).toNat < 32 ∧ (c &&& 31).toNat < 32 ∧
    (∀ i < 2, ((c &&& 7) <<< 2).getLsbD i = false) ∧ ((c &&& 7) <<< 2).toNat < 32 ∧
    (∀ i < 4, ((c &&& 1) <<< 4).getLsbD i = false) ∧ ((c &&& 1) <<< 4).toNat < 32 ∧
    (∀ i < 1, ((c &&& 15) <<< 1).getLsbD i = false) ∧ ((c &&& 15) <<< 1).toNat < 32 ∧
    (∀ i < 3, ((c &&& 3) <<< 3).getLsbD i = false) ∧ ((c &&& 3) <<< 3).toNat < 32 := by
  decide +kernel

theorem enc_or_bound (left c : Byte) (hl : left.toNat < 32) (n : Nat) (hn : 4 ≤ n) (hn8 : n < 8) :
    (left ||| (c >>> n)).toNat < 2 ^ 5 := by
  apply toNat_lt_of_bits
  intro i h1 h2
  rw [BitVec.getLsbD_or, BitVec.getLsbD_ushiftRight, getLsbD_of_lt (r := 5) hl h1,
    BitVec.getLsbD_of_ge _ _ (by omega)]
  rfl

/-- The `take` of the pending bits recovers the 5-bit group when the rest is zero. -/
theorem take_pad (left : Byte) (r : Nat) (hr : r ≤ 5) (hl : ∀ i < 5 - r, left.getLsbD i = false) :
    natBits 5 left.toNat = (natBits 5 left.toNat).take r ++ List.replicate (5 - r) false := by
  conv_lhs => rw [← List.take_append_drop r (natBits 5 left.toNat)]
  congr 1
  apply List.ext_getElem (by simp)
  intro i h1 h2
  simp only [List.length_replicate] at h2
  simp only [natBits_byte, List.getElem_drop, List.getElem_map, List.getElem_reverse,
    List.getElem_range, List.length_range, List.getElem_replicate]
  exact hl _ (by omega)

/-- Padding characters emitted when the input ends in mode `m`. -/
def padOf (pad : Bool) (m : Nat) : List Byte :=
  if pad ∧ m > 0 then List.replicate (base32_padding.getD m 0) 61 else []

theorem enc_loop {cs table al fold} (A : Alpha 5 cs table al fold) (pad : Bool) :
    ∀ (src : List Byte) (mode : Nat) (left : Byte), mode < 5 → left.toNat < 32 →
    (mode ≠ 0 → ∀ i < 5 - ependC mode, left.getLsbD i = false) →
    ∃ vs z, base32_encode_loop cs pad mode left src =
        .ok (vs.map al ++ padOf pad ((mode + src.length) % 5)) ∧
      (∀ v ∈ vs, v < 2 ^ 5) ∧ z < 5 ∧
      bitsK 5 vs = (natBits 5 left.toNat).take (ependC mode) ++ bits src ++ List.replicate z false
  | [], mode, left, hm, hl, hb => by
    rw [base32_encode_loop]
    by_cases h0 : mode = 0
    · subst h0
      exact ⟨[], 0, by simp [padOf], by simp, by decide, by simp [ependC, bits]⟩
    · refine ⟨[left.toNat], 5 - ependC mode, ?_, by simpa using hl, ?_, ?_⟩
      · rw [if_pos (by omega), A.cs_ok _ hl]
        simp only [C.ok_bind]
        cases pad
        · simp [padOf]
        · have : mode < base32_padding.length := hm
          rw [rd_of_lt this]
          simp only [C.ok_bind, if_true, padOf, List.length_nil, Nat.add_zero,
            Nat.mod_eq_of_lt hm, List.map_cons, List.map_nil]
          rw [if_pos ⟨trivial, by omega⟩]
          simp [List.getD, this, ch]
      · unfold ependC; interval_cases mode <;> simp at h0 ⊢
      · rw [bitsK_cons, bitsK_nil, List.append_nil,
          show bits [] = [] from rfl, List.append_nil]
        exact take_pad left (ependC mode) (by unfold ependC; omega) (hb h0)
  | c :: src, mode, left, hm, hl, hb => by
    have hs := enc_step mode hm left c (fun i hi h0 => by
      rcases hi with hi | hi
      · exact hb h0 i hi
      · exact getLsbD_of_lt (r := 5) hl hi)
    obtain ⟨b1, b2, b3, b4, b5, b5', b6, b6', b7, b7', b8, b8'⟩ := enc_bounds c
    have IH := enc_loop A pad src
    rw [bits_cons, List.length_cons]
    have hor := enc_or_bound left c hl
    interval_cases mode <;> simp only [base32_encode_loop] at hs ⊢
    · obtain ⟨vs, z, e, hv, hz, hbits⟩ := IH 1 _ (by decide) b5' (fun _ => b5)
      refine ⟨(c >>> 3).toNat :: vs, z, ?_, ?_, hz, ?_⟩
      · rw [A.cs_ok _ b1, e]
        simp only [C.ok_bind, List.map_cons, List.cons_append]
        rw [Nat.add_comm 1, Nat.zero_add]
      · intro v h; rcases List.mem_cons.1 h with rfl | h
        · exact b1
        · exact hv v h
      · rw [← List.append_assoc, hs, bitsK_cons, hbits]; simp [ependC]
    · obtain ⟨vs, z, e, hv, hz, hbits⟩ := IH 2 _ (by decide) b6' (fun _ => b6)
      refine ⟨(left ||| (c >>> 6)).toNat :: ((c >>> 1) &&& 31).toNat :: vs, z, ?_, ?_, hz, ?_⟩
      · rw [A.cs_ok _ (hor 6 (by omega) (by omega)), A.cs_ok _ b2, e]
        simp only [C.ok_bind, List.map_cons, List.cons_append]
        rw [show 2 + src.length = 1 + (src.length + 1) by omega]
      · intro v h; rcases List.mem_cons.1 h with rfl | h
        · exact hor 6 (by omega) (by omega)
        · rcases List.mem_cons.1 h with rfl | h
          · exact b2
          · exact hv v h
      · rw [← List.append_assoc, hs, bitsK_cons, bitsK_cons, hbits]; simp [ependC]
    · obtain ⟨vs, z, e, hv, hz, hbits⟩ := IH 3 _ (by decide) b7' (fun _ => b7)
      refine ⟨(left ||| (c >>> 4)).toNat :: vs, z, ?_, ?_, hz, ?_⟩
      · rw [A.cs_ok _ (hor 4 (by omega) (by omega)), e]
        simp only [C.ok_bind, List.map_cons, List.cons_append]
        rw [show 3 + src.length = 2 + (src.length + 1) by omega]
      · intro v h; rcases List.mem_cons.1 h with rfl | h
        · exact hor 4 (by omega) (by omega)
        · exact hv v h
      · rw [← List.append_assoc, hs, bitsK_cons, hbits]; simp [ependC]
    · obtain ⟨vs, z, e, hv, hz, hbits⟩ := IH 4 _ (by decide) b8' (fun _ => b8)
      refine ⟨(left ||| (c >>> 7)).toNat :: ((c >>> 2) &&& 31).toNat :: vs, z, ?_, ?_, hz, ?_⟩
      · rw [A.cs_ok _ (hor 7 (by omega) (by omega)), A.cs_ok _ b3, e]
        simp only [C.ok_bind, List.map_cons, List.cons_append]
        rw [show 4 + src.length = 3 + (src.length + 1) by omega]
      · intro v h; rcases List.mem_cons.1 h with rfl | h
        · exact hor 7 (by omega) (by omega)
        · rcases List.mem_cons.1 h with rfl | h
          · exact b3
          · exact hv v h
      · rw [← List.append_assoc, hs, bitsK_cons, bitsK_cons, hbits]; simp [ependC]
    · obtain ⟨vs, z, e, hv, hz, hbits⟩ := IH 0 left (by decide) hl (fun h => absurd rfl h)
      refine ⟨(left ||| (c >>> 5)).toNat :: (c &&& 31).toNat :: vs, z, ?_, ?_, hz, ?_⟩
      · rw [A.cs_ok _ (hor 5 (by omega) (by omega)), A.cs_ok _ b4, e]
        simp only [C.ok_bind, List.map_cons, List.cons_append]
        rw [show (4 + (src.length + 1)) % 5 = (0 + src.length) % 5 by omega]
      · intro v h; rcases List.mem_cons.1 h with rfl | h
        · exact hor 5 (by omega) (by omega)
        · rcases List.mem_cons.1 h with rfl | h
          · exact b4
          · exact hv v h
      · rw [← List.append_assoc, hs, bitsK_cons, bitsK_cons, hbits]; simp [ependC]

/-- The encoder is RFC 4648. -/
theorem base32_encode0_eq {cs table al fold} (A : Alpha 5 cs table al fold) (src : List Byte)
    (pad : Bool) : base32_encode0 src cs pad = .ok (encode 5 8 al pad src) := by
  obtain ⟨vs, z, e, hv, hz, hb⟩ := enc_loop A pad src 0 0 (by decide) (by decide)
    (fun h => absurd rfl h)
  simp only [ependC, Nat.mul_zero, Nat.zero_mod, List.take_zero, List.nil_append] at hb
  have hg := groups_of_bitsK (by decide) _ _ _ hv hz hb
  rw [base32_encode0, e, encode, hg]
  congr 1
  have hlen := congrArg List.length hb
  rw [bitsK_len, List.length_append, bits_len, List.length_replicate] at hlen
  cases pad
  · simp [padOf]
  · simp only [if_true, List.length_map, eqPad, padOf, Nat.zero_add]
    congr 1
    have h5 : src.length % 5 < 5 := Nat.mod_lt _ (by decide)
    have key : vs.length % 8 = (8 * (src.length % 5) + z) / 5 % 8 := by omega
    generalize hr : src.length % 5 = r at *
    have hz' : (8 * r + z) % 5 = 0 := by omega
    interval_cases r <;> interval_cases z <;> simp at hz' key ⊢ <;> simp [key, base32_padding]

/-! ## Facts about the end state of the decoder -/

/-- Everything about the decoder's end state in terms of the valid prefix. -/
theorem dec_end {cs table al fold} (A : Alpha 5 cs table al fold) (s : List Byte) :
    ∃ (left : Byte) (dst : List Byte),
      base32_decode_loop table 0 0 0 s =
        ⟨(s.takeWhile (validC table)).length, (s.takeWhile (validC table)).length % 8, left, dst⟩ ∧
      left.toNat < 2 ^ pend ((s.takeWhile (validC table)).length % 8) ∧
      bitsK 5 (vals table (s.takeWhile (validC table))) =
        bits dst ++ natBits (pend ((s.takeWhile (validC table)).length % 8)) left.toNat := by
  have ht : ∀ c, validC table c = true → (look table c).toNat < 2 ^ 5 := by
    intro c hc
    rcases A.valid (by decide) c with ⟨_, h2, _⟩ | ⟨h1, _⟩
    · exact h2
    · rw [hc] at h1; cases h1
  obtain ⟨mode, left, dst, e, hm, hl, hb⟩ := dec_loop table ht s 0 0 0 (by decide) (by decide)
  simp only [Nat.zero_add] at e hm
  subst hm
  exact ⟨left, dst, e, hl, hb⟩

theorem dst_len {cs table al fold} (A : Alpha 5 cs table al fold) (s : List Byte) (unpad : Bool) :
    (base32_decode0 s table unpad).dst.length = 5 * (s.takeWhile (validC table)).length / 8 := by
  obtain ⟨left, dst, e, hl, hb⟩ := dec_end A s
  have hlen := congrArg List.length hb
  rw [bitsK_len, List.length_append, bits_len, natBits_len] at hlen
  have hp := pend_lt ((s.takeWhile (validC table)).length % 8)
  have hv : (vals table (s.takeWhile (validC table))).length =
      (s.takeWhile (validC table)).length := by simp [vals]
  rw [hv] at hlen
  have : (base32_decode0 s table unpad).dst = dst := by
    unfold base32_decode0
    simp only [e]
    split
    · rfl
    split
    · rfl
    split
    · rfl
    split <;> rfl
  rw [this]
  omega

theorem test_scan_eq {cs table al fold} (A : Alpha 5 cs table al fold) (s : List Byte) :
    base32_test_scan table s = (s.takeWhile (validC table)).length := by
  induction s with
  | nil => rfl
  | cons c s ih =>
    rw [base32_test_scan]
    rcases A.valid (by decide) c with ⟨h1, h2, _⟩ | ⟨h1, h2, _⟩
    · rw [if_neg, ih, List.takeWhile_cons_of_pos h1, List.length_cons]
      intro h; rw [h] at h2; simp at h2
    · rw [if_pos h2, List.takeWhile_cons_of_neg (by simp [h1])]; rfl

theorem mask_iff : ∀ v : Byte, ((v &&& 3 = 0) ↔ v.toNat % 2 ^ 2 = 0) ∧
    ((v &&& 15 = 0) ↔ v.toNat % 2 ^ 4 = 0) ∧ ((v &&& 1 = 0) ↔ v.toNat % 2 ^ 1 = 0) ∧
    ((v &&& 7 = 0) ↔ v.toNat % 2 ^ 3 = 0) := by decide +kernel

/-- The pending value is the low bits of the last character. -/
theorem left_last {table} (s : List Byte) (left : Byte)
    (dst : List Byte) (hr : pend ((s.takeWhile (validC table)).length % 8) ≤ 5)
    (hl : left.toNat < 2 ^ pend ((s.takeWhile (validC table)).length % 8))
    (hb : bitsK 5 (vals table (s.takeWhile (validC table))) =
        bits dst ++ natBits (pend ((s.takeWhile (validC table)).length % 8)) left.toNat)
    (h0 : (s.takeWhile (validC table)).length ≠ 0) :
    ∃ c, C.rd s ((s.takeWhile (validC table)).length - 1) = .ok c ∧
      left.toNat = (look table c).toNat % 2 ^ pend ((s.takeWhile (validC table)).length % 8) := by
  generalize hpre : s.takeWhile (validC table) = pre at *
  have hspl : s = pre ++ s.dropWhile (validC table) := by
    rw [← hpre, List.takeWhile_append_dropWhile]
  rcases List.eq_nil_or_concat pre with h | ⟨ini, c, h⟩
  · simp [h] at h0
  · rw [List.concat_eq_append] at h
    refine ⟨c, ?_, ?_⟩
    · rw [hspl, rd_append _ _ _ (by omega), h]
      rw [rd_of_lt (by simp)]
      simp
    · generalize pend (pre.length % 8) = r at *
      rw [h, vals, List.map_append, bitsK_append] at hb
      simp only [List.map_cons, List.map_nil, bitsK_cons, bitsK_nil, List.append_nil] at hb
      have := congrArg (fun l => l.drop ((bits dst).length)) hb
      simp only [List.drop_left] at this
      have hlen := congrArg List.length hb
      simp only [List.length_append, natBits_len] at hlen
      rw [List.drop_append, List.drop_eq_nil_of_le (by omega), List.nil_append,
        show (bits dst).length - (bitsK 5 (List.map (fun c => (look table c).toNat) ini)).length
          = 5 - r by omega, natBits_drop _ _ _ hr, ← natBits_mod] at this
      exact (natBits_inj (Nat.mod_lt _ (Nat.two_pow_pos _)) hl this).symm

theorem base32_test0_eq {cs table al fold} (A : Alpha 5 cs table al fold) (s : List Byte)
    (unpad : Bool) : base32_test0 s table unpad = .ok (base32_decode0 s table unpad).ret := by
  obtain ⟨left, dst, e, hl, hb⟩ := dec_end A s
  have hlast := left_last (table := table) s left dst
  unfold base32_test0 base32_decode0
  simp only [e, test_scan_eq A]
  generalize hn : (s.takeWhile (validC table)).length = n at *
  have h8 : n % 8 < 8 := Nat.mod_lt _ (by decide)
  have key : ∀ m : Byte, (∀ v : Byte, (v &&& m = 0) ↔ v.toNat % 2 ^ pend (n % 8) = 0) →
      pend (n % 8) ≤ 5 → n ≠ 0 →
      base32_test_last table s n m = .ok (decide (¬ left > 0)) := by
    intro m hm hp h0
    obtain ⟨c, hc, hv⟩ := hlast hp hl hb h0
    rw [base32_test_last, hc, C.ok_bind]
    congr 1
    have := hm (look table c)
    rw [Bool.eq_iff_iff, beq_iff_eq, decide_eq_true_iff, byte_pos_iff, this, hv, ne_eq,
      Decidable.not_not]
  have hmask := mask_iff
  have rest : ∀ g : Bool, (g = decide (¬ left > 0)) → ¬(n % 8 = 1 ∨ n % 8 = 3 ∨ n % 8 = 6) →
      (if (!g) = true then (C.ok false : C Bool)
        else if s.length ≠ n + ((8 - n % 8) % 8) * unpad.toNat then .ok false
        else .ok (!(s.drop n).any (fun c => c != ch '='))) =
      .ok (if n % 8 = 1 ∨ n % 8 = 3 ∨ n % 8 = 6 then (⟨dst, false⟩ : DecOut)
        else if left > 0 then ⟨dst, false⟩
        else if s.length ≠ n + ((8 - n % 8) % 8) * unpad.toNat then ⟨dst, false⟩
        else if (s.drop n).any (fun c => c != ch '=') then ⟨dst, false⟩
        else ⟨dst, true⟩).ret := by
    intro g hg hmode
    rw [if_neg hmode]
    by_cases hle : left > 0
    · have hd : decide (¬ left > 0) = false := decide_eq_false (fun h => h hle)
      rw [if_pos hle, hg, hd]; rfl
    · have hd : decide (¬ left > 0) = true := decide_eq_true hle
      rw [if_neg hle, hg, hd]
      simp only [Bool.not_true, Bool.false_eq_true, if_false]
      split
      · rfl
      · cases (s.drop n).any (fun c => c != ch '=') <;> rfl
  generalize hm : n % 8 = m at *
  have hn0 : m ≠ 0 → n ≠ 0 := by omega
  interval_cases m
  · have hleft : left.toNat = 0 := by simpa [pend] using hl
    exact rest true (by symm; rw [decide_eq_true_iff, byte_pos_iff]; omega) (by decide)
  · rfl
  · simp only [key 3 (fun v => (hmask v).1) (by decide) (hn0 (by decide)), C.ok_bind]
    exact rest _ rfl (by decide)
  · rfl
  · simp only [key 15 (fun v => (hmask v).2.1) (by decide) (hn0 (by decide)), C.ok_bind]
    exact rest _ rfl (by decide)
  · simp only [key 1 (fun v => (hmask v).2.2.1) (by decide) (hn0 (by decide)), C.ok_bind]
    exact rest _ rfl (by decide)
  · rfl
  · simp only [key 7 (fun v => (hmask v).2.2.2) (by decide) (hn0 (by decide)), C.ok_bind]
    exact rest _ rfl (by decide)

/-! ## Sizes -/

theorem strip_spec (str : List Byte) : ∀ k len, len ≤ str.length →
    ∃ len', base32_strip str k len = .ok len' ∧ len' ≤ len ∧
      (∀ i, len' ≤ i → i < len → str[i]? = some 61) ∧
      (len - len' = k ∨ len' = 0 ∨ str[len' - 1]? ≠ some 61)
  | 0, len, h => ⟨len, rfl, Nat.le_refl _, fun i h1 h2 => by omega, by left; omega⟩
  | k + 1, len, h => by
    rw [base32_strip]
    by_cases h0 : len > 0
    · rw [if_pos h0, rd_of_lt (by omega), C.ok_bind]
      by_cases hc : str[len - 1] = ch '='
      · rw [if_pos hc]
        obtain ⟨len', e, h1, h2, h3⟩ := strip_spec str k (len - 1) (by omega)
        refine ⟨len', e, by omega, ?_, ?_⟩
        · intro i hi1 hi2
          by_cases hi : i = len - 1
          · subst hi
            rw [List.getElem?_eq_getElem (by omega), hc]; rfl
          · exact h2 i hi1 (by omega)
        · rcases h3 with h | h | h
          · left; omega
          · right; left; exact h
          · right; right; exact h
      · rw [if_neg hc]
        obtain ⟨len', e, h1, h2, h3⟩ := strip_spec str k len h
        have : len' = len := by
          by_contra hne
          have := h2 (len - 1) (by omega) (by omega)
          rw [List.getElem?_eq_getElem (by omega)] at this
          exact hc (Option.some.inj this)
        subst this
        refine ⟨len', e, h1, h2, ?_⟩
        right; right
        rw [List.getElem?_eq_getElem (by omega)]
        intro h; exact hc (Option.some.inj h)
    · rw [if_neg h0]
      exact ⟨len, rfl, Nat.le_refl _, fun i h1 h2 => by omega, by right; left; omega⟩

theorem decode_extra_eq (n : Nat) : n / 8 * 5 + base32_decode_extra (n % 8) = 5 * n / 8 := by
  have h8 : n % 8 < 8 := Nat.mod_lt _ (by decide)
  have : n = 8 * (n / 8) + n % 8 := by omega
  generalize n / 8 = q at *
  generalize n % 8 = r at *
  subst this
  interval_cases r <;> simp [base32_decode_extra] <;> omega

theorem prefix_no_eq {cs table al fold} (A : Alpha 5 cs table al fold) (s : List Byte) (i : Nat)
    (hi : i < (s.takeWhile (validC table)).length) : s[i]? ≠ some 61 := by
  intro h
  have hp : s.takeWhile (validC table) <+: s := List.takeWhile_prefix _
  have h2 : (s.takeWhile (validC table))[i]? = some 61 := by
    obtain ⟨t, ht⟩ := hp
    rw [← h]
    conv_rhs => rw [← ht]
    rw [List.getElem?_append_left hi]
  have hm : (61 : Byte) ∈ s.takeWhile (validC table) := List.mem_of_getElem? h2
  have hv := takeWhile_all _ _ _ hm
  rcases A.valid (by decide) 61 with ⟨_, h2, h3⟩ | ⟨h1, _⟩
  · rw [(A.fold_eq 61).2 rfl] at h3
    exact absurd h3 (A.al_eq _ h2)
  · rw [hv] at h1; cases h1

theorem base32_size_bound {cs table al fold} (A : Alpha 5 cs table al fold) (s : List Byte)
    (unpad : Bool) : ∃ n, base32_decode_size s = .ok n ∧
      (base32_decode0 s table unpad).dst.length ≤ n ∧
      ((base32_decode0 s table unpad).ret = true → (base32_decode0 s table unpad).dst.length = n) ∧
      n ≤ (s.length / 8) * 5 + 4 := by
  obtain ⟨len, e, h1, h2, h3⟩ := strip_spec s 6 s.length (Nat.le_refl _)
  refine ⟨_, by rw [base32_decode_size, e, C.ok_bind], ?_⟩
  rw [decode_extra_eq, dst_len A]
  have hle : (s.takeWhile (validC table)).length ≤ len := by
    by_contra hlt
    have hpl : (s.takeWhile (validC table)).length ≤ s.length := by
      exact (List.takeWhile_prefix _).length_le
    exact prefix_no_eq A s len (by omega) (h2 len (Nat.le_refl _) (by omega))
  refine ⟨by omega, ?_, by omega⟩
  intro hret
  have : len = (s.takeWhile (validC table)).length := by
    obtain ⟨left, dst, e, hl, hb⟩ := dec_end A s
    unfold base32_decode0 at hret
    simp only [e] at hret
    split at hret
    · simp at hret
    rename_i hmode
    split at hret
    · simp at hret
    split at hret
    · simp at hret
    rename_i hlen
    split at hret
    · simp at hret
    rename_i hany
    simp only [ne_eq, Decidable.not_not] at hlen
    have hu : unpad.toNat ≤ 1 := by cases unpad <;> simp
    have hrest : s.length ≤ (s.takeWhile (validC table)).length + 6 := by
      rw [hlen]
      have : (8 - (s.takeWhile (validC table)).length % 8) % 8 ≤ 6 := by omega
      have := Nat.mul_le_mul this hu
      omega
    by_contra hne
    have hgt : (s.takeWhile (validC table)).length < len := by omega
    have heq : s[len - 1]? = some 61 := by
      have hlt : len - 1 < s.length := by omega
      rw [List.getElem?_eq_getElem hlt]
      simp only [List.any_eq_true, not_exists, not_and] at hany
      have := hany s[len - 1] (by
        rw [List.mem_drop_iff_getElem]
        exact ⟨len - 1 - (s.takeWhile (validC table)).length, by omega, by congr 1; omega⟩)
      simpa [ch] using this
    rcases h3 with h | h | h
    · omega
    · omega
    · exact h heq
  rw [this]

theorem encode_len (al : Nat → Byte) (pad : Bool) (b : List Byte) :
    base32_encode_size b.length pad = .ok (encode 5 8 al pad b).length ∧
      (encode 5 8 al pad b).length ≤ (b.length / 5) * 8 + 13 - 1 := by
  have hg := groups_len (k := 5) (by decide) (bits b)
  rw [bits_len] at hg
  have h5 : b.length % 5 < 5 := Nat.mod_lt _ (by decide)
  have hb : b.length = 5 * (b.length / 5) + b.length % 5 := by omega
  unfold base32_encode_size encode
  simp only
  generalize b.length / 5 = q at *
  generalize b.length % 5 = r at *
  rw [hb] at hg
  cases pad
  · simp only [Bool.false_eq_true, if_false, List.length_map, hg]
    interval_cases r <;> simp [base32_encode_extra] <;> omega
  · simp only [if_true, List.length_append, List.length_map, hg, eqPad, List.length_replicate]
    interval_cases r <;> simp [base32_encode_extra, C.rd, base32_padding] <;> omega

end Torsion
