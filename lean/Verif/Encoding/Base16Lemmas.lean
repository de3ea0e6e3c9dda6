import Verif.Encoding.Base16
import Verif.Encoding.Spec
import Mathlib.Tactic.ByContra
import Mathlib.Data.List.Induction

namespace Torsion
open Spec

theorem rd_of_lt {α : Type} {xs : List α} {i : Nat} (h : i < xs.length) :
    C.rd xs i = .ok xs[i] := by
  simp [C.rd, h]

theorem rd_append {α : Type} (xs ys : List α) (i : Nat) (h : i < xs.length) :
    C.rd (xs ++ ys) i = C.rd xs i := by
  rw [rd_of_lt h, rd_of_lt (by rw [List.length_append]; omega), List.getElem_append_left h]

theorem hex_hi : ∀ c : Byte, C.rd base16_charset (c >>> 4).toNat = .ok (hexDigit (c.toNat / 16)) := by
  decide +kernel

theorem hex_lo : ∀ c : Byte, C.rd base16_charset (c &&& 15).toNat = .ok (hexDigit (c.toNat % 16)) := by
  decide +kernel

theorem look_hexDigit : ∀ n : Fin 16, look base16_table (hexDigit n.val) = BitVec.ofNat 8 n.val := by
  decide +kernel

/-- The table answers exactly on hexadecimal digits. -/
theorem look16 : ∀ c : Byte,
    (IsHex c ∧ look base16_table c = BitVec.ofNat 8 (hexVal c) ∧ hexVal c < 16 ∧
      hexDigit (hexVal c) = lower c) ∨
    (¬ IsHex c ∧ look base16_table c = 255) := by
  decide +kernel

theorem nib_join : ∀ c : Byte,
    ((BitVec.ofNat 8 (c.toNat / 16) <<< 4) ||| BitVec.ofNat 8 (c.toNat % 16) : Byte) = c := by
  decide +kernel

theorem nib_val : ∀ a b : Fin 16,
    ((BitVec.ofNat 8 a.val <<< 4) ||| BitVec.ofNat 8 b.val : Byte).toNat = 16 * a.val + b.val := by
  decide +kernel

theorem hi_bit : ∀ x : Byte, (x &&& 0x80 ≠ 0) ↔ x.getLsbD 7 = true := by
  decide +kernel

theorem base16_encode_eq (b : List Byte) : base16_encode b = .ok (b.flatMap hex) := by
  induction b with
  | nil => rfl
  | cons c b ih =>
    simp only [base16_encode, hex_hi, hex_lo, ih, C.ok_bind, List.flatMap_cons, hex]; rfl

/-- Bit 7 of the accumulator: set iff it was set or some character is bad. -/
theorem decode_loop_z : ∀ (s : List Byte) (z : Byte), s.length % 2 = 0 →
    ((base16_decode_loop z s).1.getLsbD 7 = true ↔ z.getLsbD 7 = true ∨ ∃ c ∈ s, ¬ IsHex c)
  | [], z, _ => by simp [base16_decode_loop]
  | [_], z, h => by simp at h
  | c1 :: c2 :: s, z, h => by
    have h' : s.length % 2 = 0 := by simp at h; omega
    have hb : ∀ c : Byte, (look base16_table c).getLsbD 7 = true ↔ ¬ IsHex c := by decide +kernel
    simp only [base16_decode_loop]
    rw [decode_loop_z s _ h']
    simp only [BitVec.getLsbD_or, Bool.or_eq_true, hb, List.mem_cons]
    constructor
    · rintro ((hz | hz | hz) | ⟨c, hc, hz⟩)
      · exact .inl hz
      · exact .inr ⟨c1, .inl rfl, hz⟩
      · exact .inr ⟨c2, .inr (.inl rfl), hz⟩
      · exact .inr ⟨c, .inr (.inr hc), hz⟩
    · rintro (hz | ⟨c, rfl | rfl | hc, hz⟩)
      · exact .inl (.inl hz)
      · exact .inl (.inr (.inl hz))
      · exact .inl (.inr (.inr hz))
      · exact .inr ⟨c, hc, hz⟩

theorem decode_loop_len : ∀ (s : List Byte) (z : Byte),
    (base16_decode_loop z s).2.length = s.length / 2
  | [], z => rfl
  | [_], z => by simp [base16_decode_loop]
  | c1 :: c2 :: s, z => by
    simp only [base16_decode_loop, List.length_cons, decode_loop_len s]
    omega

/-- Re-encoding what the loop stored gives the characters lower-cased. -/
theorem decode_loop_canon : ∀ (s : List Byte) (z : Byte), s.length % 2 = 0 →
    (∀ c ∈ s, IsHex c) → (base16_decode_loop z s).2.flatMap hex = s.map lower
  | [], z, _, _ => rfl
  | [_], z, h, _ => by simp at h
  | c1 :: c2 :: s, z, h, hh => by
    have h' : s.length % 2 = 0 := by simp at h; omega
    have h1 := look16 c1
    have h2 := look16 c2
    simp only [hh c1 (by simp), hh c2 (by simp), true_and, not_true, false_and, or_false] at h1 h2
    obtain ⟨e1, l1, d1⟩ := h1
    obtain ⟨e2, l2, d2⟩ := h2
    have := nib_val ⟨_, l1⟩ ⟨_, l2⟩
    simp only at this
    simp only [base16_decode_loop, List.flatMap_cons, List.map_cons]
    rw [decode_loop_canon s _ h' (fun c hc => hh c (by simp [hc]))]
    simp only [hex, e1, e2, this, show (16 * hexVal c1 + hexVal c2) / 16 = hexVal c1 by omega,
      show (16 * hexVal c1 + hexVal c2) % 16 = hexVal c2 by omega, d1, d2]
    rfl

theorem decode_loop_encode (b : List Byte) : ∀ z : Byte,
    (base16_decode_loop z (b.flatMap hex)).2 = b := by
  induction b with
  | nil => intro z; rfl
  | cons c b ih =>
    intro z
    have h1 := look_hexDigit ⟨c.toNat / 16, by have := c.isLt; omega⟩
    have h2 := look_hexDigit ⟨c.toNat % 16, by omega⟩
    simp only at h1 h2
    simp [base16_decode_loop, hex, h1, h2, ih, nib_join]

theorem hexDigit_isHex : ∀ n : Fin 16, IsHex (hexDigit n.val) := by decide +kernel

theorem hex_all (b : List Byte) : ∀ c ∈ b.flatMap hex, IsHex c := by
  intro c hc
  simp only [List.mem_flatMap, hex, List.mem_cons, List.not_mem_nil, or_false] at hc
  obtain ⟨x, _, rfl | rfl⟩ := hc
  · exact hexDigit_isHex ⟨x.toNat / 16, by have := x.isLt; omega⟩
  · exact hexDigit_isHex ⟨x.toNat % 16, by omega⟩

theorem hex_len (b : List Byte) : (b.flatMap hex).length = 2 * b.length := by
  induction b with
  | nil => rfl
  | cons c b ih => simp [hex, ih]; omega

theorem test_loop_eq (s : List Byte) : ∀ n, n ≤ s.length →
    base16_test_loop s n = .ok (decide (∀ c ∈ s.take n, IsHex c)) := by
  intro n
  induction n with
  | zero => intro _; simp [base16_test_loop]
  | succ n ih =>
    intro h
    rw [base16_test_loop, rd_of_lt (by omega), C.ok_bind]
    have hc := look16 s[n]
    have hne : ∀ v : Fin 16, (BitVec.ofNat 8 v.val : Byte) ≠ 255 := by decide
    rcases hc with ⟨hx, e, l, _⟩ | ⟨hx, e⟩
    · rw [e, if_neg (hne ⟨_, l⟩), ih (by omega)]
      congr 1
      rw [decide_eq_decide, List.take_add_one, List.getElem?_eq_getElem (by omega)]
      simp only [Option.toList_some, List.mem_append, List.mem_singleton]
      constructor
      · rintro h c (hc | rfl)
        · exact h c hc
        · exact hx
      · intro h c hc; exact h c (.inl hc)
    · rw [e, if_pos rfl]
      congr 1
      symm
      rw [decide_eq_false_iff_not]
      intro hall
      exact hx (hall _ (by rw [List.mem_take_iff_getElem]; exact ⟨n, by omega, rfl⟩))

theorem base16_decode_ret (s : List Byte) :
    (base16_decode s).ret = true ↔ s.length % 2 = 0 ∧ ∀ c ∈ s, IsHex c := by
  unfold base16_decode
  by_cases h : s.length % 2 = 1
  · simp [h]
  · have h0 : s.length % 2 = 0 := by omega
    rw [if_neg h]
    have := decode_loop_z s 0 h0
    rw [show (0 : Byte).getLsbD 7 = false from rfl] at this
    simp only [Bool.false_eq_true, false_or] at this
    rcases hdl : base16_decode_loop 0 s with ⟨z, dst⟩
    rw [hdl] at this
    simp only at this ⊢
    split
    · rename_i hz
      rw [hi_bit, this] at hz
      simp only [Bool.false_eq_true, h0, true_and, false_iff]
      intro hall
      obtain ⟨c, hc, hn⟩ := hz
      exact hn (hall c hc)
    · rename_i hz
      rw [hi_bit, this] at hz
      simp only [h0, true_and, true_iff]
      intro c hc
      by_contra hn
      exact hz ⟨c, hc, hn⟩

theorem base16_decode_dst (s : List Byte) (h : s.length % 2 = 0) :
    (base16_decode s).dst = (base16_decode_loop 0 s).2 := by
  unfold base16_decode
  rw [if_neg (by omega)]
  simp only
  split <;> rfl

theorem le_encode_loop_eq (src : List Byte) : ∀ n, n ≤ src.length →
    base16le_encode_loop src n = .ok ((src.take n).reverse.flatMap hex) := by
  intro n
  induction n with
  | zero => intro _; rfl
  | succ n ih =>
    intro h
    rw [base16le_encode_loop, rd_of_lt (by omega)]
    simp only [C.ok_bind, hex_hi, hex_lo, ih (Nat.le_of_succ_le h)]
    rw [List.take_add_one, List.getElem?_eq_getElem (by omega)]
    simp [hex, -List.take_append_getElem]

/-- The little-endian loop computes the same accumulator bit and the reversed bytes. -/
theorem le_decode_loop_eq (src : List Byte) : ∀ n z, 2 * n ≤ src.length →
    ∃ z', base16le_decode_loop src n z =
        .ok (z', (base16_decode_loop 0 (src.take (2 * n))).2.reverse) ∧
      (z'.getLsbD 7 = true ↔ z.getLsbD 7 = true ∨ ∃ c ∈ src.take (2 * n), ¬ IsHex c) := by
  have hb : ∀ c : Byte, (look base16_table c).getLsbD 7 = true ↔ ¬ IsHex c := by decide +kernel
  have app : ∀ (a : List Byte) (z : Byte) (x y : Byte), a.length % 2 = 0 →
      (base16_decode_loop z (a ++ [x, y])).2 =
        (base16_decode_loop z a).2 ++ [(look base16_table x <<< 4) ||| look base16_table y] := by
    intro a
    induction a using List.twoStepInduction with
    | nil => intro z x y _; rfl
    | singleton a => intro z x y h; simp at h
    | cons_cons a b l ih _ =>
      intro z x y h
      have h' : l.length % 2 = 0 := by simp at h; omega
      simp only [List.cons_append, base16_decode_loop]
      rw [ih _ _ _ h']
  intro n
  induction n with
  | zero =>
    intro z _
    exact ⟨z, by simp [base16le_decode_loop, base16_decode_loop], by simp⟩
  | succ n ih =>
    intro z h
    rw [base16le_decode_loop, rd_of_lt (by omega), rd_of_lt (by omega)]
    simp only [C.ok_bind]
    obtain ⟨z', e, hz⟩ := ih (z ||| (look base16_table (src[2 * n]'(by omega)) |||
      look base16_table (src[2 * n + 1]'(by omega)))) (by omega)
    refine ⟨z', ?_, ?_⟩
    · rw [e]
      simp only [C.ok_bind]
      rw [show 2 * (n + 1) = 2 * n + 1 + 1 by omega, List.take_add_one, List.take_add_one,
        List.getElem?_eq_getElem (by omega), List.getElem?_eq_getElem (by omega)]
      simp only [Option.toList_some, List.append_assoc, List.cons_append, List.nil_append]
      rw [app _ _ _ _ (by simp; omega)]
      simp
    · rw [hz]
      rw [show 2 * (n + 1) = 2 * n + 1 + 1 by omega, List.take_add_one, List.take_add_one,
        List.getElem?_eq_getElem (by omega), List.getElem?_eq_getElem (by omega)]
      simp only [Option.toList_some, List.mem_append, List.mem_singleton, BitVec.getLsbD_or,
        Bool.or_eq_true, hb]
      constructor
      · rintro ((h | h | h) | ⟨c, hc, h⟩)
        · exact .inl h
        · exact .inr ⟨_, .inl (.inr rfl), h⟩
        · exact .inr ⟨_, .inr rfl, h⟩
        · exact .inr ⟨c, .inl (.inl hc), h⟩
      · rintro (h | ⟨c, (hc | rfl) | rfl, h⟩)
        · exact .inl (.inl h)
        · exact .inr ⟨c, hc, h⟩
        · exact .inl (.inr (.inl h))
        · exact .inl (.inr (.inr h))

end Torsion
