import Verif.Util.Bio
import Verif.Util.Spec
import Mathlib.Data.Nat.Digits.Lemmas
import Mathlib.Tactic.Ring

/-!
# Properties C14 (comparison) and C15 (byte order, increment)
-/
namespace Torsion
open Spec

theorem leVal_nil : leVal [] = 0 := rfl

theorem leVal_cons (c : Byte) (b : List Byte) : leVal (c :: b) = c.toNat + 256 * leVal b := by
  simp [leVal, Nat.ofDigits_cons]

theorem leVal_append (a b : List Byte) : leVal (a ++ b) = leVal a + 256 ^ a.length * leVal b := by
  simp [leVal, Nat.ofDigits_append]

theorem leVal_lt (b : List Byte) : leVal b < 256 ^ b.length := by
  have := Nat.ofDigits_lt_base_pow_length (b := 256) (l := b.map BitVec.toNat) (by decide)
    (fun x hx => by
      obtain ⟨y, _, rfl⟩ := List.mem_map.1 hx
      exact y.isLt)
  simpa [leVal] using this

theorem leVal_inj : ∀ {a b : List Byte}, a.length = b.length → leVal a = leVal b → a = b
  | [], [], _, _ => rfl
  | x :: a, y :: b, h, hv => by
    rw [leVal_cons, leVal_cons] at hv
    have hx := x.isLt
    have hy := y.isLt
    have h1 : x.toNat = y.toNat := by omega
    have h2 : leVal a = leVal b := by omega
    rw [BitVec.eq_of_toNat_eq h1, leVal_inj (by simpa using h) h2]

theorem beVal_eq (b : List Byte) : beVal b = leVal b.reverse := by
  simp [beVal, leVal]

/-! ## C15: words -/

theorem or_two (a b k : Nat) (h : b < 2 ^ k) : a * 2 ^ k ||| b = a * 2 ^ k + b := by
  rw [Nat.mul_comm, Nat.two_pow_add_eq_or_of_lt h]

theorem zx_shl {w : Nat} (x : Byte) (k : Nat) (h : 8 + k ≤ w) :
    ((x.zeroExtend w) <<< k).toNat = x.toNat * 2 ^ k := by
  have hx := x.isLt
  have h8 : x.toNat % 2 ^ w = x.toNat :=
    Nat.mod_eq_of_lt (Nat.lt_of_lt_of_le hx (Nat.pow_le_pow_right (by decide) (by omega)))
  have hlt : x.toNat * 2 ^ k < 2 ^ w := by
    calc x.toNat * 2 ^ k < 2 ^ 8 * 2 ^ k := Nat.mul_lt_mul_of_pos_right hx (Nat.two_pow_pos k)
      _ = 2 ^ (8 + k) := by rw [Nat.pow_add]
      _ ≤ 2 ^ w := Nat.pow_le_pow_right (by decide) h
  rw [BitVec.toNat_shiftLeft, BitVec.zeroExtend, BitVec.toNat_setWidth, h8, Nat.shiftLeft_eq]
  exact Nat.mod_eq_of_lt hlt

theorem tr_shr {w : Nat} (x : BitVec w) (k : Nat) :
    ((x >>> k).truncate 8).toNat = x.toNat / 2 ^ k % 256 := by
  rw [BitVec.truncate, BitVec.toNat_setWidth, BitVec.toNat_ushiftRight, Nat.shiftRight_eq_div_pow]

/-- C15: value of `read16le` etc.: the little / big endian number of the bytes read. -/
theorem read16_val (s : Vector Byte 2) :
    (read16le s).toNat = leVal s.toList ∧ (read16be s).toNat = beVal s.toList := by
  obtain ⟨⟨l⟩, h⟩ := s
  match l, h with
  | [a, b], _ =>
    have ha := a.isLt; have hb := b.isLt
    refine ⟨?_, ?_⟩
    · show (_ ||| _ : BitVec 16).toNat = leVal [a, b]
      rw [BitVec.toNat_or, zx_shl _ _ (by decide), zx_shl _ _ (by decide)]
      show b.toNat * 2 ^ 8 ||| a.toNat * 2 ^ 0 = _
      rw [or_two _ _ _ (by omega)]
      simp only [leVal_cons, leVal_nil]; omega
    · show (_ ||| _ : BitVec 16).toNat = beVal [a, b]
      rw [BitVec.toNat_or, zx_shl _ _ (by decide), zx_shl _ _ (by decide)]
      show a.toNat * 2 ^ 8 ||| b.toNat * 2 ^ 0 = _
      rw [or_two _ _ _ (by omega), beVal_eq]
      simp only [List.reverse_cons, List.reverse_nil, List.nil_append, List.cons_append,
        leVal_cons, leVal_nil]; omega

theorem or4 (a b c d : Nat) (hb : b < 256) (hc : c < 256) (hd : d < 256) :
    a * 2 ^ 24 ||| b * 2 ^ 16 ||| c * 2 ^ 8 ||| d * 2 ^ 0 =
      d + 256 * (c + 256 * (b + 256 * a)) := by
  rw [or_two a _ 24 (by omega), show a * 2 ^ 24 + b * 2 ^ 16 = (a * 256 + b) * 2 ^ 16 by ring,
    or_two _ _ 16 (by omega),
    show (a * 256 + b) * 2 ^ 16 + c * 2 ^ 8 = ((a * 256 + b) * 256 + c) * 2 ^ 8 by ring,
    or_two _ _ 8 (by omega)]
  ring

theorem read32_val (s : Vector Byte 4) :
    (read32le s).toNat = leVal s.toList ∧ (read32be s).toNat = beVal s.toList := by
  obtain ⟨⟨l⟩, h⟩ := s
  match l, h with
  | [a, b, c, d], _ =>
    have ha := a.isLt; have hb := b.isLt; have hc := c.isLt; have hd := d.isLt
    refine ⟨?_, ?_⟩
    · show (_ ||| _ : BitVec 32).toNat = leVal [a, b, c, d]
      simp only [BitVec.toNat_or]
      rw [zx_shl _ _ (by decide), zx_shl _ _ (by decide), zx_shl _ _ (by decide),
        zx_shl _ _ (by decide)]
      show d.toNat * 2 ^ 24 ||| c.toNat * 2 ^ 16 ||| b.toNat * 2 ^ 8 ||| a.toNat * 2 ^ 0 = _
      rw [or4 _ _ _ _ hc hb ha]
      simp only [leVal_cons, leVal_nil]; omega
    · show (_ ||| _ : BitVec 32).toNat = beVal [a, b, c, d]
      simp only [BitVec.toNat_or]
      rw [zx_shl _ _ (by decide), zx_shl _ _ (by decide), zx_shl _ _ (by decide),
        zx_shl _ _ (by decide)]
      show a.toNat * 2 ^ 24 ||| b.toNat * 2 ^ 16 ||| c.toNat * 2 ^ 8 ||| d.toNat * 2 ^ 0 = _
      rw [or4 _ _ _ _ hb hc hd, beVal_eq]
      simp only [List.reverse_cons, List.reverse_nil, List.nil_append, List.cons_append,
        leVal_cons, leVal_nil]; omega

theorem or8 (a b c d e f g h : Nat) (hb : b < 256) (hc : c < 256) (hd : d < 256) (he : e < 256)
    (hf : f < 256) (hg : g < 256) (hh : h < 256) :
    a * 2 ^ 56 ||| b * 2 ^ 48 ||| c * 2 ^ 40 ||| d * 2 ^ 32 ||| e * 2 ^ 24 ||| f * 2 ^ 16
        ||| g * 2 ^ 8 ||| h * 2 ^ 0 =
      h + 256 * (g + 256 * (f + 256 * (e + 256 * (d + 256 * (c + 256 * (b + 256 * a)))))) := by
  rw [or_two a _ 56 (by omega), show a * 2 ^ 56 + b * 2 ^ 48 = (a * 256 + b) * 2 ^ 48 by ring,
    or_two _ _ 48 (by omega),
    show (a * 256 + b) * 2 ^ 48 + c * 2 ^ 40 = ((a * 256 + b) * 256 + c) * 2 ^ 40 by ring,
    or_two _ _ 40 (by omega),
    show ((a * 256 + b) * 256 + c) * 2 ^ 40 + d * 2 ^ 32 =
      (((a * 256 + b) * 256 + c) * 256 + d) * 2 ^ 32 by ring,
    or_two _ _ 32 (by omega),
    show (((a * 256 + b) * 256 + c) * 256 + d) * 2 ^ 32 + e * 2 ^ 24 =
      ((((a * 256 + b) * 256 + c) * 256 + d) * 256 + e) * 2 ^ 24 by ring,
    or_two _ _ 24 (by omega),
    show ((((a * 256 + b) * 256 + c) * 256 + d) * 256 + e) * 2 ^ 24 + f * 2 ^ 16 =
      (((((a * 256 + b) * 256 + c) * 256 + d) * 256 + e) * 256 + f) * 2 ^ 16 by ring,
    or_two _ _ 16 (by omega),
    show (((((a * 256 + b) * 256 + c) * 256 + d) * 256 + e) * 256 + f) * 2 ^ 16 + g * 2 ^ 8 =
      ((((((a * 256 + b) * 256 + c) * 256 + d) * 256 + e) * 256 + f) * 256 + g) * 2 ^ 8 by ring,
    or_two _ _ 8 (by omega)]
  ring

theorem read64_val (s : Vector Byte 8) :
    (read64le s).toNat = leVal s.toList ∧ (read64be s).toNat = beVal s.toList := by
  obtain ⟨⟨l⟩, hl⟩ := s
  match l, hl with
  | [a, b, c, d, e, f, g, h], _ =>
    have ha := a.isLt; have hb := b.isLt; have hc := c.isLt; have hd := d.isLt
    have he := e.isLt; have hf := f.isLt; have hg := g.isLt; have hh := h.isLt
    refine ⟨?_, ?_⟩
    · show (_ ||| _ : BitVec 64).toNat = leVal [a, b, c, d, e, f, g, h]
      simp only [BitVec.toNat_or]
      rw [zx_shl _ _ (by decide), zx_shl _ _ (by decide), zx_shl _ _ (by decide),
        zx_shl _ _ (by decide), zx_shl _ _ (by decide), zx_shl _ _ (by decide),
        zx_shl _ _ (by decide), zx_shl _ _ (by decide)]
      show h.toNat * 2 ^ 56 ||| g.toNat * 2 ^ 48 ||| f.toNat * 2 ^ 40 ||| e.toNat * 2 ^ 32 |||
        d.toNat * 2 ^ 24 ||| c.toNat * 2 ^ 16 ||| b.toNat * 2 ^ 8 ||| a.toNat * 2 ^ 0 = _
      rw [or8 _ _ _ _ _ _ _ _ hg hf he hd hc hb ha]
      simp only [leVal_cons, leVal_nil]; omega
    · show (_ ||| _ : BitVec 64).toNat = beVal [a, b, c, d, e, f, g, h]
      simp only [BitVec.toNat_or]
      rw [zx_shl _ _ (by decide), zx_shl _ _ (by decide), zx_shl _ _ (by decide),
        zx_shl _ _ (by decide), zx_shl _ _ (by decide), zx_shl _ _ (by decide),
        zx_shl _ _ (by decide), zx_shl _ _ (by decide)]
      show a.toNat * 2 ^ 56 ||| b.toNat * 2 ^ 48 ||| c.toNat * 2 ^ 40 ||| d.toNat * 2 ^ 32 |||
        e.toNat * 2 ^ 24 ||| f.toNat * 2 ^ 16 ||| g.toNat * 2 ^ 8 ||| h.toNat * 2 ^ 0 = _
      rw [or8 _ _ _ _ _ _ _ _ hb hc hd he hf hg hh, beVal_eq]
      simp only [List.reverse_cons, List.reverse_nil, List.nil_append, List.cons_append,
        leVal_cons, leVal_nil]; omega

/-- C15: value of what the writers store. -/
theorem write16_val (w : BitVec 16) :
    leVal (write16le w).toList = w.toNat ∧ beVal (write16be w).toList = w.toNat := by
  have hw := w.isLt
  rw [beVal_eq]
  simp only [write16le, write16be, Vector.toList_mk, List.reverse_cons, List.reverse_nil,
    List.nil_append, List.cons_append, leVal_cons, leVal_nil, tr_shr]
  omega

theorem write32_val (w : BitVec 32) :
    leVal (write32le w).toList = w.toNat ∧ beVal (write32be w).toList = w.toNat := by
  have hw := w.isLt
  rw [beVal_eq]
  simp only [write32le, write32be, Vector.toList_mk, List.reverse_cons, List.reverse_nil,
    List.nil_append, List.cons_append, leVal_cons, leVal_nil, tr_shr]
  omega

theorem write64_val (w : BitVec 64) :
    leVal (write64le w).toList = w.toNat ∧ beVal (write64be w).toList = w.toNat := by
  have hw := w.isLt
  rw [beVal_eq]
  simp only [write64le, write64be, Vector.toList_mk, List.reverse_cons, List.reverse_nil,
    List.nil_append, List.cons_append, leVal_cons, leVal_nil, tr_shr]
  omega

/-- C15: reading back what was written, all six pairs. -/
theorem read_write (w16 : BitVec 16) (w32 : BitVec 32) (w64 : BitVec 64) :
    read16le (write16le w16) = w16 ∧ read16be (write16be w16) = w16 ∧
    read32le (write32le w32) = w32 ∧ read32be (write32be w32) = w32 ∧
    read64le (write64le w64) = w64 ∧ read64be (write64be w64) = w64 := by
  refine ⟨?_, ?_, ?_, ?_, ?_, ?_⟩ <;> apply BitVec.eq_of_toNat_eq
  · rw [(read16_val _).1, (write16_val _).1]
  · rw [(read16_val _).2, (write16_val _).2]
  · rw [(read32_val _).1, (write32_val _).1]
  · rw [(read32_val _).2, (write32_val _).2]
  · rw [(read64_val _).1, (write64_val _).1]
  · rw [(read64_val _).2, (write64_val _).2]

theorem vec_leVal {n : Nat} {a b : Vector Byte n} (h : leVal a.toList = leVal b.toList) : a = b :=
  Vector.toList_inj.1 (leVal_inj (by simp) h)

theorem vec_beVal {n : Nat} {a b : Vector Byte n} (h : beVal a.toList = beVal b.toList) : a = b := by
  rw [beVal_eq, beVal_eq] at h
  exact Vector.toList_inj.1 (List.reverse_inj.1 (leVal_inj (by simp) h))

/-- C15: writing back what was read, all six pairs. -/
theorem write_read (s2 : Vector Byte 2) (s4 : Vector Byte 4) (s8 : Vector Byte 8) :
    write16le (read16le s2) = s2 ∧ write16be (read16be s2) = s2 ∧
    write32le (read32le s4) = s4 ∧ write32be (read32be s4) = s4 ∧
    write64le (read64le s8) = s8 ∧ write64be (read64be s8) = s8 := by
  refine ⟨vec_leVal ?_, vec_beVal ?_, vec_leVal ?_, vec_beVal ?_, vec_leVal ?_, vec_beVal ?_⟩
  · rw [(write16_val _).1, (read16_val _).1]
  · rw [(write16_val _).2, (read16_val _).2]
  · rw [(write32_val _).1, (read32_val _).1]
  · rw [(write32_val _).2, (read32_val _).2]
  · rw [(write64_val _).1, (read64_val _).1]
  · rw [(write64_val _).2, (read64_val _).2]

theorem bswap16_bits (x : BitVec 16) (k : Fin 16) :
    (torsion_bswap16 x).getLsbD k.val = x.getLsbD (if k.val < 8 then k.val + 8 else k.val - 8) := by
  unfold torsion_bswap16
  rcases k with ⟨k, hk⟩
  interval_cases k <;> simp

/-- C15: byte swapping turns the little-endian reader into the big-endian one. -/
theorem bswap16_spec (s : Vector Byte 2) : torsion_bswap16 (read16le s) = read16be s := by
  apply BitVec.eq_of_getLsbD_eq
  intro i hi
  rw [bswap16_bits _ ⟨i, hi⟩]
  interval_cases i <;> simp [read16le, read16be]

theorem bswap32_spec (s : Vector Byte 4) : torsion_bswap32 (read32le s) = read32be s := by
  apply BitVec.eq_of_getLsbD_eq
  intro i hi
  unfold torsion_bswap32 read32le read32be
  interval_cases i <;> simp

theorem bswap64_spec (s : Vector Byte 8) : torsion_bswap64 (read64le s) = read64be s := by
  apply BitVec.eq_of_getLsbD_eq
  intro i hi
  unfold torsion_bswap64 read64le read64be
  interval_cases i <;> simp

/-! ## C15: increment -/

theorem increment_le_loop_val : ∀ (x : List Byte) (c : Nat), c ≤ 1 →
    (increment_le_loop c x).length = x.length ∧
    leVal (increment_le_loop c x) = (leVal x + c) % 256 ^ x.length
  | [], c, hc => by simp [increment_le_loop, leVal_nil]; omega
  | x :: xs, c, hc => by
    have hx := x.isLt
    obtain ⟨h1, h2⟩ := increment_le_loop_val xs ((c + x.toNat) / 256) (by omega)
    simp only [increment_le_loop, List.length_cons, h1, leVal_cons, h2, BitVec.toNat_ofNat,
      true_and]
    rw [show 256 ^ (xs.length + 1) = 256 * 256 ^ xs.length by rw [Nat.pow_succ, Nat.mul_comm],
      Nat.mod_mul]
    have e1 : (x.toNat + 256 * leVal xs + c) % 256 = (c + x.toNat) % 2 ^ 8 := by omega
    have e2 : (x.toNat + 256 * leVal xs + c) / 256 = leVal xs + (c + x.toNat) / 256 := by omega
    rw [e1, e2]

/-- C15: `increment_le` adds one modulo `256^n`. -/
theorem increment_le_spec (x : List Byte) :
    (increment_le x).length = x.length ∧
      leVal (increment_le x) = (leVal x + 1) % 256 ^ x.length :=
  increment_le_loop_val x 1 (Nat.le_refl _)

theorem increment_le_loop_zero : ∀ x : List Byte, increment_le_loop 0 x = x
  | [] => rfl
  | x :: xs => by
    have hx := x.isLt
    have : x.toNat / 256 = 0 := by omega
    simp [increment_le_loop, this, increment_le_loop_zero xs]

theorem carry_step : ∀ x : Byte, BitVec.ofNat 8 (1 + x.toNat) = x + 1 ∧
    (1 + x.toNat) / 256 = (if x + 1 < (1 : Byte) then 1 else 0) := by decide +kernel

/-- C15: the early-exit version agrees with the constant-time one. -/
theorem increment_le_var_eq : ∀ x : List Byte, increment_le_var x = increment_le x
  | [] => rfl
  | x :: xs => by
    have ih := increment_le_var_eq xs
    obtain ⟨h1, h2⟩ := carry_step x
    unfold increment_le_var increment_le at *
    rw [increment_le_var_loop, increment_le_loop, if_pos (by decide)]
    simp only [h1, h2]
    congr 1
    by_cases hlt : x + 1 < (1 : Byte)
    · rw [if_pos hlt, if_pos hlt]; exact ih
    · rw [if_neg hlt, if_neg hlt, increment_le_loop_zero]
      cases xs <;> rfl

theorem rd_mid {α : Type} (a : List α) (x : α) (b : List α) :
    C.rd (a ++ x :: b) a.length = .ok x := by
  simp [C.rd]

theorem wr_mid {α : Type} (a : List α) (x y : α) (b : List α) :
    C.wr (a ++ x :: b) a.length y = .ok (a ++ y :: b) := by
  simp [C.wr]

theorem increment_be_loop_eq : ∀ (r : List Byte) (c : Nat) (t : List Byte),
    increment_be_loop r.length c (r.reverse ++ t) = .ok ((increment_le_loop c r).reverse ++ t)
  | [], c, t => by simp [increment_be_loop, increment_le_loop]
  | x :: r, c, t => by
    have hlen : r.length = r.reverse.length := by simp
    rw [List.length_cons, increment_be_loop, List.reverse_cons, List.append_assoc,
      List.singleton_append]
    conv_lhs => enter [1, 2]; rw [hlen]
    rw [rd_mid, C.ok_bind]
    simp only
    conv_lhs => enter [1, 2]; rw [hlen]
    rw [wr_mid, C.ok_bind, increment_be_loop_eq r _ _]
    simp [increment_le_loop]

/-- C15: `increment_be` never leaves the buffer and adds one modulo `256^n`. -/
theorem increment_be_spec (x : List Byte) : ∃ y, increment_be x = .ok y ∧
    y.length = x.length ∧ beVal y = (beVal x + 1) % 256 ^ x.length := by
  have h := increment_be_loop_eq x.reverse 1 []
  rw [List.length_reverse, List.reverse_reverse, List.append_nil, List.append_nil] at h
  refine ⟨_, h, ?_, ?_⟩
  · rw [List.length_reverse]; simpa using (increment_le_loop_val x.reverse 1 (Nat.le_refl _)).1
  · rw [beVal_eq, beVal_eq, List.reverse_reverse]
    simpa using (increment_le_loop_val x.reverse 1 (Nat.le_refl _)).2

theorem increment_be_var_loop_eq : ∀ (r : List Byte) (c : Byte) (t : List Byte),
    increment_be_var_loop r.length c (r.reverse ++ t) =
      .ok ((increment_le_var_loop c r).reverse ++ t)
  | [], c, t => by simp [increment_be_var_loop, increment_le_var_loop]
  | x :: r, c, t => by
    have hlen : r.length = r.reverse.length := by simp
    rw [List.length_cons, increment_be_var_loop, increment_le_var_loop]
    by_cases hc : c ≠ 0
    · rw [if_pos hc, if_pos hc, List.reverse_cons, List.append_assoc, List.singleton_append]
      conv_lhs => enter [1, 2]; rw [hlen]
      rw [rd_mid, C.ok_bind]
      simp only
      conv_lhs => enter [1, 2]; rw [hlen]
      rw [wr_mid, C.ok_bind, increment_be_var_loop_eq r _ _]
      simp
    · rw [if_neg hc, if_neg hc]

/-- C15: the early-exit big-endian version agrees with the constant-time one. -/
theorem increment_be_var_eq (x : List Byte) : increment_be_var x = increment_be x := by
  have h := increment_be_loop_eq x.reverse 1 []
  have h' := increment_be_var_loop_eq x.reverse 1 []
  have e := increment_le_var_eq x.reverse
  rw [List.length_reverse, List.reverse_reverse, List.append_nil, List.append_nil] at h h'
  unfold increment_le_var increment_le at e
  unfold increment_be_var increment_be
  rw [h, h', e]

example : increment_le [255, 255, 3] = [0, 0, 4] := by decide
example : increment_be [255, 255, 255] = .ok [0, 0, 0] := by decide
example : increment_be_var [1, 255] = .ok [2, 0] := by decide

/-! ## C14: comparison -/

/-- Lexicographic comparison of byte strings, as mathematics has it. -/
def Spec.lexCmp : List Byte → List Byte → Ordering
  | x :: xs, y :: ys => if x.toNat < y.toNat then .lt else if y.toNat < x.toNat then .gt
      else lexCmp xs ys
  | _, _ => .eq

theorem lt_bit (x y : Byte) :
    ((x.zeroExtend 32 - y.zeroExtend 32 : BitVec 32) >>> 31) =
      if x.toNat < y.toNat then 1#32 else 0#32 := by
  have hx := x.isLt; have hy := y.isLt
  apply BitVec.eq_of_toNat_eq
  rw [BitVec.toNat_ushiftRight, BitVec.toNat_sub, BitVec.zeroExtend,
    BitVec.toNat_setWidth, BitVec.toNat_setWidth, Nat.shiftRight_eq_div_pow]
  by_cases h : x.toNat < y.toNat
  · rw [if_pos h]; show _ = 1; omega
  · rw [if_neg h]; show _ = 0; omega

theorem eq_bit (x y : Byte) :
    (((x.zeroExtend 32 ^^^ y.zeroExtend 32) - 1 : BitVec 32) >>> 31) =
      if x = y then 1#32 else 0#32 := by
  have hx := x.isLt; have hy := y.isLt
  have hn : (x.zeroExtend 32 ^^^ y.zeroExtend 32 : BitVec 32).toNat = (x ^^^ y).toNat := by
    rw [BitVec.toNat_xor, BitVec.toNat_xor, BitVec.zeroExtend,
      BitVec.toNat_setWidth, BitVec.toNat_setWidth, Nat.mod_eq_of_lt (by omega),
      Nat.mod_eq_of_lt (by omega)]
  have hl := (x ^^^ y).isLt
  apply BitVec.eq_of_toNat_eq
  rw [BitVec.toNat_ushiftRight, BitVec.toNat_sub, hn, Nat.shiftRight_eq_div_pow]
  by_cases h : x = y
  · rw [if_pos h, h, BitVec.xor_self]; rfl
  · rw [if_neg h]
    have : (x ^^^ y).toNat ≠ 0 := by
      intro h0
      apply h
      have h1 : x ^^^ y = 0#8 := BitVec.eq_of_toNat_eq h0
      exact BitVec.xor_eq_zero_iff.1 h1
    show (2 ^ 32 - 1 + (x ^^^ y).toNat) % 2 ^ 32 / 2 ^ 31 = 0
    omega

theorem memcmp_loop_done : ∀ (x y : List Byte) (lt : BitVec 32),
    torsion_memcmp_loop 0 lt x y = (0, lt)
  | [], _, _ => by unfold torsion_memcmp_loop; rfl
  | _ :: _, [], _ => by unfold torsion_memcmp_loop; rfl
  | x :: xs, y :: ys, lt => by
    unfold torsion_memcmp_loop
    simp only
    have := memcmp_loop_done xs ys lt
    have h0 : ∀ a : BitVec 32, (0 : BitVec 32) &&& a = 0 := by intro a; exact BitVec.zero_and
    have h1 : lt ||| (0 : BitVec 32) = lt := BitVec.or_zero
    simp only [h0, h1, this]

theorem memcmp_loop_eq : ∀ x y : List Byte,
    torsion_memcmp_loop 1 0 x y = match lexCmp x y with
      | .lt => (0, 1) | .eq => (1, 0) | .gt => (0, 0)
  | [], _ => by unfold torsion_memcmp_loop lexCmp; rfl
  | _ :: _, [] => by unfold torsion_memcmp_loop lexCmp; rfl
  | x :: xs, y :: ys => by
    unfold torsion_memcmp_loop lexCmp
    simp only [lt_bit, eq_bit]
    by_cases h1 : x.toNat < y.toNat
    · have hne : x ≠ y := by rintro rfl; omega
      rw [if_pos h1, if_neg hne, if_pos h1]
      exact memcmp_loop_done xs ys _
    · rw [if_neg h1, if_neg h1]
      by_cases h2 : y.toNat < x.toNat
      · have hne : x ≠ y := by rintro rfl; omega
        rw [if_neg hne, if_pos h2]
        exact memcmp_loop_done xs ys _
      · have he : x = y := BitVec.eq_of_toNat_eq (by omega)
        rw [if_pos he, if_neg h2]
        exact memcmp_loop_eq xs ys

/-- C14: `torsion_memcmp` is the lexicographic order, as `-1`, `0`, `1`. -/
theorem torsion_memcmp_spec (x y : List Byte) :
    torsion_memcmp x y = match lexCmp x y with
      | .lt => -1 | .eq => 0 | .gt => 1 := by
  unfold torsion_memcmp
  rw [memcmp_loop_eq]
  cases lexCmp x y <;> rfl

/-- C14: the variable-time comparison has the same sign. -/
theorem torsion_memcmp_var_sign (x y : List Byte) :
    (torsion_memcmp_var x y).sign = torsion_memcmp x y := by
  rw [torsion_memcmp_spec]
  induction x generalizing y with
  | nil => simp [torsion_memcmp_var, lexCmp]
  | cons a x ih =>
    cases y with
    | nil => simp [torsion_memcmp_var, lexCmp]
    | cons b y =>
      unfold torsion_memcmp_var lexCmp
      by_cases he : a = b
      · subst he
        simp only [ne_eq, not_true_eq_false, if_false, Nat.lt_irrefl]
        exact ih y
      · rw [if_pos he]
        have hn : a.toNat ≠ b.toNat := fun h => he (BitVec.eq_of_toNat_eq h)
        by_cases h1 : a.toNat < b.toNat
        · rw [if_pos h1]; simp only
          exact Int.sign_eq_neg_one_of_neg (by omega)
        · rw [if_neg h1, if_pos (by omega)]; simp only
          exact Int.sign_eq_one_of_pos (by omega)

/-- C14: zero means equal (equal lengths). -/
theorem torsion_memcmp_zero_iff (x y : List Byte) (h : x.length = y.length) :
    torsion_memcmp x y = 0 ↔ x = y := by
  rw [torsion_memcmp_spec]
  induction x generalizing y with
  | nil => cases y <;> simp_all [lexCmp]
  | cons a x ih =>
    cases y with
    | nil => simp at h
    | cons b y =>
      unfold lexCmp
      by_cases h1 : a.toNat < b.toNat
      · have : a ≠ b := by rintro rfl; omega
        simp [if_pos h1, this]
      · by_cases h2 : b.toNat < a.toNat
        · have : a ≠ b := by rintro rfl; omega
          simp [if_neg h1, if_pos h2, this]
        · have he : a = b := BitVec.eq_of_toNat_eq (by omega)
          rw [if_neg h1, if_neg h2, he, List.cons.injEq, eq_self_iff_true, true_and]
          exact ih y (by simpa using h)

theorem memequal_loop_zero : ∀ (x y : List Byte) (z : BitVec 32), x.length = y.length →
    z.toNat < 256 → (torsion_memequal_loop z x y).toNat < 256 ∧
    (torsion_memequal_loop z x y = 0 ↔ z = 0 ∧ x = y)
  | [], [], z, _, hz => by
    unfold torsion_memequal_loop; simp [hz]
  | x :: xs, y :: ys, z, h, hz => by
    unfold torsion_memequal_loop
    have hx := (x ^^^ y).isLt
    have hlt : (z ||| (x ^^^ y).zeroExtend 32).toNat < 256 := by
      rw [BitVec.toNat_or, BitVec.zeroExtend, BitVec.toNat_setWidth, Nat.mod_eq_of_lt (by omega)]
      exact Nat.or_lt_two_pow (n := 8) hz hx
    obtain ⟨i1, i2⟩ := memequal_loop_zero xs ys _ (by simpa using h) hlt
    refine ⟨i1, i2.trans ?_⟩
    have hz' : (z ||| (x ^^^ y).zeroExtend 32 = 0) ↔ z = 0 ∧ x = y := by
      constructor
      · intro hh
        have h0 := congrArg BitVec.toNat hh
        rw [BitVec.toNat_or, BitVec.zeroExtend, BitVec.toNat_setWidth,
          Nat.mod_eq_of_lt (by omega)] at h0
        have h1 : z.toNat = 0 ∧ (x ^^^ y).toNat = 0 := Nat.or_eq_zero_iff.1 h0
        exact ⟨BitVec.eq_of_toNat_eq h1.1, BitVec.xor_eq_zero_iff.1 (BitVec.eq_of_toNat_eq h1.2)⟩
      · rintro ⟨rfl, rfl⟩
        rw [BitVec.xor_self]; rfl
    rw [hz', List.cons.injEq]
    tauto

/-- C14: `torsion_memequal` returns 1 exactly on equal strings, else 0. -/
theorem torsion_memequal_spec (x y : List Byte) (h : x.length = y.length) :
    torsion_memequal x y = if x = y then 1 else 0 := by
  obtain ⟨h1, h2⟩ := memequal_loop_zero x y 0 h (by decide)
  unfold torsion_memequal
  generalize torsion_memequal_loop 0 x y = z at *
  have hiff : z = 0 ↔ x = y := by rw [h2]; simp
  by_cases he : x = y
  · rw [if_pos he, hiff.2 he]; rfl
  · rw [if_neg he]
    have hz : z.toNat ≠ 0 := fun h0 => he (hiff.1 (BitVec.eq_of_toNat_eq h0))
    have : (z - 1) >>> 31 = 0 := by
      apply BitVec.eq_of_toNat_eq
      rw [BitVec.toNat_ushiftRight, BitVec.toNat_sub, Nat.shiftRight_eq_div_pow]
      show (2 ^ 32 - 1 + z.toNat) % 2 ^ 32 / 2 ^ 31 = 0
      omega
    rw [this]; rfl

example : torsion_memcmp [1, 2, 3] [1, 3, 0] = -1 := by decide
example : torsion_memcmp_var [1, 3, 0] [1, 2, 3] = 1 := by decide
example : torsion_memequal [1, 2] [1, 2] = 1 ∧ torsion_memequal [1, 2] [1, 3] = 0 := by decide

end Torsion
