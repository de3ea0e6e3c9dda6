import Verif.Asn1.Model
import Verif.Asn1.Spec
import Verif.Util.Props
import Mathlib.Data.Nat.Digits.Lemmas
import Mathlib.Tactic.Ring

/-! # Lemmas for src/asn1.c -/
namespace Torsion.Asn1
open Spec

theorem beVal_nil : beVal [] = 0 := rfl

theorem beVal_append (a b : List Byte) : beVal (a ++ b) = beVal a * 256 ^ b.length + beVal b := by
  rw [beVal_eq, beVal_eq, beVal_eq, List.reverse_append, leVal_append, List.length_reverse]; ring

theorem beVal_single (c : Byte) : beVal [c] = c.toNat := by
  rw [beVal_eq, List.reverse_singleton, leVal_cons, leVal_nil]; omega

theorem beVal_cons (c : Byte) (b : List Byte) :
    beVal (c :: b) = c.toNat * 256 ^ b.length + beVal b := by
  rw [← List.singleton_append, beVal_append, beVal_single]

theorem beVal_snoc (b : List Byte) (c : Byte) : beVal (b ++ [c]) = 256 * beVal b + c.toNat := by
  rw [beVal_append, beVal_single]; simp; omega

theorem beVal_lt (b : List Byte) : beVal b < 256 ^ b.length := by
  rw [beVal_eq]; simpa using leVal_lt b.reverse

theorem beVal_inj {a b : List Byte} (hl : a.length = b.length) (h : beVal a = beVal b) : a = b := by
  rw [beVal_eq, beVal_eq] at h
  exact List.reverse_inj.1 (leVal_inj (by simpa using hl) h)

theorem toNat_ofNat_map {l : List Nat} (h : ∀ d ∈ l, d < 256) :
    (l.map (BitVec.ofNat 8)).map BitVec.toNat = l := by
  rw [List.map_map]
  conv_rhs => rw [← List.map_id l]
  apply List.map_congr_left
  intro d hd
  simp [Nat.mod_eq_of_lt (h d hd)]

theorem ofNat_toNat_map (l : List Byte) :
    (l.map BitVec.toNat).map (BitVec.ofNat 8) = l := by
  rw [List.map_map]
  conv_rhs => rw [← List.map_id l]
  apply List.map_congr_left
  intro d hd
  simp

theorem beVal_beBytes (v : Nat) : beVal (beBytes v) = v := by
  rw [beVal, beBytes, List.map_reverse, List.reverse_reverse,
    toNat_ofNat_map (fun d hd => Nat.digits_lt_base (by omega) hd), Nat.ofDigits_digits]

theorem beBytes_of {b : List Byte} (h : b.head? ≠ some 0) : beBytes (beVal b) = b := by
  rw [beVal, beBytes, Nat.digits_ofDigits 256 (by omega)]
  · rw [← List.map_reverse, List.reverse_reverse, ofNat_toNat_map]
  · intro l hl
    obtain ⟨c, -, rfl⟩ := List.mem_map.1 (List.mem_reverse.1 hl)
    exact c.isLt
  · intro hne
    rw [List.getLast_reverse]
    rcases b with _ | ⟨c, b⟩
    · simp at hne
    · simp only [List.map_cons, List.head_cons]
      intro hc
      apply h
      simp only [List.head?_cons, Option.some.injEq]
      exact BitVec.eq_of_toNat_eq hc

theorem beBytes_len_le (v n : Nat) : (beBytes v).length ≤ n ↔ v < 256 ^ n := by
  rw [beBytes, List.length_reverse, List.length_map]
  constructor
  · intro h
    exact lt_of_lt_of_le (Nat.lt_base_pow_length_digits (by omega)) (Nat.pow_le_pow_right (by omega) h)
  · intro h
    exact (Nat.digits_length_le_iff (by omega) v).2 h

theorem beBytes_head (v : Nat) : (beBytes v).head? ≠ some 0 := by
  intro h
  rcases hb : beBytes v with _ | ⟨c, b⟩
  · rw [hb] at h; simp at h
  · rw [hb] at h
    simp only [List.head?_cons, Option.some.injEq] at h
    have hv := beVal_beBytes v
    rw [hb, h, beVal_cons] at hv
    have hlt : v < 256 ^ b.length := by
      rw [← hv]
      have := beVal_lt b
      simp; exact this
    have := (beBytes_len_le v b.length).2 hlt
    rw [hb] at this
    simp at this

theorem skip_zeroes_eq : ∀ num : List Byte, asn1_skip_zeroes num = beBytes (beVal num)
  | [] => by rw [asn1_skip_zeroes]; exact (beBytes_of (b := []) (by simp)).symm
  | c :: num => by
    rw [asn1_skip_zeroes]
    by_cases h : c = 0
    · rw [if_pos h, skip_zeroes_eq num, h, beVal_cons]; simp
    · rw [if_neg h, beBytes_of (by simpa using h)]

theorem beBytes_split (b : List Byte) :
    b = List.replicate (b.length - (beBytes (beVal b)).length) 0 ++ beBytes (beVal b) ∧
      (beBytes (beVal b)).length ≤ b.length := by
  have hl : (beBytes (beVal b)).length ≤ b.length := (beBytes_len_le _ _).2 (beVal_lt b)
  refine ⟨beVal_inj (by simp; omega) ?_, hl⟩
  rw [beVal_append, beVal_beBytes]
  have : ∀ n, beVal (List.replicate n (0 : Byte)) = 0 := by
    intro n
    induction n with
    | zero => rfl
    | succ n ih => rw [List.replicate_succ, beVal_cons, ih]; simp
  rw [this]; omega

theorem import_eq (b : List Byte) : mpz_import_be b = beVal b := by
  suffices h : ∀ (b : List Byte) (v : Nat),
      b.foldl (fun v (c : Byte) => 256 * v + c.toNat) v = v * 256 ^ b.length + beVal b by
    rw [mpz_import_be, h]; simp
  intro b
  induction b with
  | nil => intro v; simp [beVal_nil]
  | cons c b ih =>
    intro v
    rw [List.foldl_cons, ih, beVal_cons, List.length_cons, pow_succ]; ring

theorem export_len (n size : Nat) : (mpz_export_be n size).length = size := by
  simp [mpz_export_be]

theorem export_val (n size : Nat) : beVal (mpz_export_be n size) = n % 256 ^ size := by
  rw [beVal_eq, mpz_export_be, List.reverse_reverse]
  induction size with
  | zero => simp [leVal_nil, Nat.mod_one]
  | succ k ih =>
    rw [List.range_succ, List.map_append, leVal_append, ih, List.length_map, List.length_range,
      List.map_singleton, leVal_cons, leVal_nil, Nat.mod_pow_succ, BitVec.toNat_ofNat]
    simp

theorem bitlen_le (n k : Nat) : mpz_bitlen_nat n ≤ k ↔ n < 2 ^ k := by
  rw [mpz_bitlen_nat]
  by_cases h : n = 0
  · subst h; simp
  · rw [if_neg h, Nat.add_one_le_iff, Nat.log2_lt h]

theorem pow8 (k : Nat) : 2 ^ (8 * k) = 256 ^ k := by rw [Nat.pow_mul]

theorem bytelen_eq (n : Nat) : mpz_bytelen_nat n = (beBytes n).length := by
  have h1 : ∀ k, mpz_bytelen_nat n ≤ k ↔ n < 256 ^ k := by
    intro k
    rw [← pow8, ← bitlen_le, mpz_bytelen_nat]; omega
  apply Nat.le_antisymm
  · rw [h1, ← beBytes_len_le]
  · rw [beBytes_len_le, ← h1]

theorem export_eq (n : Nat) : mpz_export_be n (beBytes n).length = beBytes n := by
  apply beVal_inj
  · rw [export_len]
  · rw [export_val, beVal_beBytes, Nat.mod_eq_of_lt]
    rw [← beBytes_len_le]

/-- The top byte of `n` has its high bit set exactly when the bit length is a multiple of 8. -/
theorem top_bit {n : Nat} {c : Byte} {b : List Byte} (h : beBytes n = c :: b) :
    (128 ≤ c.toNat ↔ mpz_bitlen_nat n % 8 = 0) ∧ 0 < mpz_bitlen_nat n := by
  have hv := beVal_beBytes n
  rw [h, beVal_cons] at hv
  have hb := beVal_lt b
  have hlen := bytelen_eq n
  rw [h, List.length_cons, mpz_bytelen_nat] at hlen
  have hk := bitlen_le n (8 * b.length + 7)
  have hpow : (2 : Nat) ^ (8 * b.length + 7) = 128 * 256 ^ b.length := by
    rw [pow_add, pow8]; ring
  have hiff : n < 2 ^ (8 * b.length + 7) ↔ c.toNat < 128 := by
    rw [hpow]
    have hp : 0 < 256 ^ b.length := by positivity
    constructor
    · intro h1
      by_contra h2
      have : 128 * 256 ^ b.length ≤ c.toNat * 256 ^ b.length :=
        Nat.mul_le_mul_right _ (by omega)
      omega
    · intro h1
      have : (c.toNat + 1) * 256 ^ b.length ≤ 128 * 256 ^ b.length :=
        Nat.mul_le_mul_right _ (by omega)
      rw [Nat.add_mul] at this
      omega
  rw [hiff] at hk
  constructor
  · constructor <;> intro _ <;> omega
  · omega

theorem testBit_top {n : Nat} (h : 0 < mpz_bitlen_nat n) : n.testBit (mpz_bitlen_nat n - 1) = true := by
  have h0 : n ≠ 0 := by
    rintro rfl; simp [mpz_bitlen_nat] at h
  have h1 : n < 2 ^ mpz_bitlen_nat n := (bitlen_le n _).1 le_rfl
  have h2 : ¬ n < 2 ^ (mpz_bitlen_nat n - 1) := by rw [← bitlen_le]; omega
  apply Nat.testBit_of_two_pow_le_and_two_pow_add_one_gt (by omega)
  rw [Nat.sub_add_cancel (by omega)]; exact h1

/-! ## Writers -/

theorem beBytes_one {n : Nat} (h0 : 0 < n) (h : n < 256) : beBytes n = [BitVec.ofNat 8 n] := by
  have := beBytes_of (b := [BitVec.ofNat 8 n]) (by
    simp only [List.head?_cons, ne_eq, Option.some.injEq]
    intro e
    have := congrArg BitVec.toNat e
    simp at this; omega)
  rwa [beVal_single, BitVec.toNat_ofNat, Nat.mod_eq_of_lt (by omega)] at this

theorem beBytes_two {n : Nat} (h0 : 256 ≤ n) (h : n < 65536) :
    beBytes n = [BitVec.ofNat 8 (n / 256), BitVec.ofNat 8 (n % 256)] := by
  have := beBytes_of (b := [BitVec.ofNat 8 (n / 256), BitVec.ofNat 8 (n % 256)]) (by
    simp only [List.head?_cons, ne_eq, Option.some.injEq]
    intro e
    have := congrArg BitVec.toNat e
    simp at this; omega)
  rw [beVal_cons, beVal_single, BitVec.toNat_ofNat, BitVec.toNat_ofNat] at this
  rw [show n / 256 % 2 ^ 8 * 256 ^ ([BitVec.ofNat 8 (n % 256)] : List Byte).length +
    n % 256 % 2 ^ 8 = n by simp; omega] at this
  exact this

theorem write_size_eq (n : Nat) :
    asn1_write_size n = if n ≤ 0xffff then .ok (derLen n) else .abort := by
  rw [asn1_write_size, derLen]
  by_cases h1 : n ≤ 0x7f
  · rw [if_pos h1, if_pos (by omega), if_pos (by omega)]
  rw [if_neg h1]
  by_cases h2 : n ≤ 0xff
  · rw [if_pos h2, if_pos (by omega), if_neg (by omega), beBytes_one (by omega) (by omega)]; rfl
  rw [if_neg h2]
  by_cases h3 : n ≤ 0xffff
  · rw [if_pos h3, if_neg (by omega), beBytes_two (by omega) (by omega), C.check,
      if_pos (by simpa using h3), C.ok_bind, Nat.shiftRight_eq_div_pow,
      show (0xff : Nat) = 2 ^ 8 - 1 from rfl, Nat.and_two_pow_sub_one_eq_mod]
    rfl
  · rw [if_neg h3, C.check, if_neg (by simpa using h3)]; rfl

theorem shr7 : ∀ c : Byte, (c >>> 7).toNat = if c.toNat < 128 then 0 else 1 := by decide +kernel

theorem write_int_eq (num : List Byte) : asn1_write_int num =
    if (derContent (beVal num)).length ≤ 0xffff then .ok (derInt (beVal num)) else .abort := by
  rw [asn1_write_int, skip_zeroes_eq, derInt, derContent]
  rcases hb : beBytes (beVal num) with _ | ⟨c, b⟩
  · dsimp only
    rw [if_pos (by simp)]; rfl
  dsimp only
  rw [shr7, write_size_eq]
  by_cases hc : c.toNat < 128
  · simp only [if_pos hc, Nat.zero_add]
    by_cases hl : (c :: b).length ≤ 0xffff
    · rw [if_pos hl, if_pos hl]; simp
    · rw [if_neg hl, if_neg hl]; rfl
  · simp only [if_neg hc]
    rw [show 1 + (c :: b).length = (0 :: c :: b).length by simp; omega]
    by_cases hl : (0 :: c :: b).length ≤ 0xffff
    · rw [if_pos hl, if_pos hl]; simp
    · rw [if_neg hl, if_neg hl]; rfl

theorem size_size_eq {n : Nat} (h : n ≤ 0xffff) : asn1_size_size n = (derLen n).length := by
  rw [asn1_size_size, derLen]
  by_cases h1 : n ≤ 0x7f
  · rw [if_pos h1, if_pos (by omega)]; rfl
  rw [if_neg h1, if_neg (show ¬ n < 128 by omega)]
  by_cases h2 : n ≤ 0xff
  · rw [if_pos h2, beBytes_one (by omega) (by omega)]; rfl
  · rw [if_neg h2, beBytes_two (by omega) (by omega)]; rfl

theorem size_int_eq {num : List Byte} (h : (derContent (beVal num)).length ≤ 0xffff) :
    asn1_size_int num = (derInt (beVal num)).length := by
  rw [asn1_size_int, skip_zeroes_eq]
  rw [derInt, List.length_cons, List.length_append, ← size_size_eq h]
  rw [derContent] at *
  rcases hb : beBytes (beVal num) with _ | ⟨c, b⟩
  · rfl
  rw [hb] at h
  dsimp only at h ⊢
  rw [shr7]
  by_cases hc : c.toNat < 128
  · simp only [if_pos hc, Nat.add_zero]; omega
  · simp only [if_neg hc]
    rw [show (c :: b).length + 1 = (0 :: c :: b).length by simp]; omega

theorem and7 (n : Nat) : n &&& 7 = n % 8 := Nat.and_two_pow_sub_one_eq_mod n 3

theorem write_mpz_pad {n : Nat} {c : Byte} {b : List Byte} (hb : beBytes n = c :: b) :
    (if mpz_bitlen_nat n > 0 ∧ mpz_bitlen_nat n &&& 7 = 0 then
      (n.testBit (mpz_bitlen_nat n - 1)).toNat else 0) = if c.toNat < 128 then 0 else 1 := by
  obtain ⟨h1, h2⟩ := top_bit hb
  rw [and7, testBit_top h2]
  by_cases hc : c.toNat < 128
  · rw [if_pos hc, if_neg (by omega)]
  · rw [if_neg hc, if_pos (by omega)]; rfl

theorem beBytes_nil {n : Nat} (h : beBytes n = []) : n = 0 := by
  rw [← beVal_beBytes n, h]; rfl

theorem write_mpz_eq (n : Nat) : asn1_write_mpz n =
    if (derContent n).length ≤ 0xffff then .ok (derInt n) else .abort := by
  rw [asn1_write_mpz, derInt, derContent]
  rcases hb : beBytes n with _ | ⟨c, b⟩
  · rw [beBytes_nil hb]; decide
  obtain ⟨h1, h2⟩ := top_bit hb
  dsimp only
  rw [write_mpz_pad hb, if_neg (show ¬ mpz_bitlen_nat n = 0 by omega), write_size_eq]
  have hlen : (mpz_bitlen_nat n + 7) / 8 = (beBytes n).length := bytelen_eq n
  rw [hlen, export_eq, hb]
  by_cases hc : c.toNat < 128
  · simp only [if_pos hc, Nat.zero_add]
    by_cases hl : (c :: b).length ≤ 0xffff
    · rw [if_pos hl, if_pos hl]; simp
    · rw [if_neg hl, if_neg hl]; rfl
  · simp only [if_neg hc]
    rw [show 1 + (c :: b).length = (0 :: c :: b).length by simp; omega]
    by_cases hl : (0 :: c :: b).length ≤ 0xffff
    · rw [if_pos hl, if_pos hl]; simp
    · rw [if_neg hl, if_neg hl]; rfl

theorem size_mpz_eq {n : Nat} (h : (derContent n).length ≤ 0xffff) :
    asn1_size_mpz n = (derInt n).length := by
  rw [derInt, List.length_cons, List.length_append, ← size_size_eq h]
  rw [asn1_size_mpz, derContent] at *
  have hlen : (mpz_bitlen_nat n + 7) / 8 = (beBytes n).length := bytelen_eq n
  rcases hb : beBytes n with _ | ⟨c, b⟩
  · rw [beBytes_nil hb]; rfl
  obtain ⟨h1, h2⟩ := top_bit hb
  rw [hb] at h
  dsimp only at h ⊢
  rw [hlen, hb, if_neg (by omega), and7, testBit_top h2]
  by_cases hc : c.toNat < 128
  · simp only [if_pos hc]
    rw [if_neg (by omega)]; omega
  · simp only [if_neg hc]
    rw [if_pos (by omega)]
    simp only [Bool.toNat_true]
    rw [show (c :: b).length + 1 = (0 :: c :: b).length by simp]; omega

/-! ## Readers -/

/-- The state over a buffer read up to its end. -/
abbrev exact (d : List Byte) : Asn1St := ⟨d, d.length⟩

theorem adv_exact {n : Nat} {d : List Byte} (h : n ≤ d.length) :
    (exact d).adv n = .ok (exact (d.drop n)) := by
  simp [Asn1St.adv, h, exact]

theorem shl_or (size : Nat) (c : Byte) (h : size < 2 ^ 24) :
    ((size <<< 8) % 2 ^ 32) ||| c.toNat = 256 * size + c.toNat := by
  rw [Nat.shiftLeft_eq, Nat.mod_eq_of_lt (by omega), or_two _ _ _ c.isLt]; omega

/-- When the length loop succeeds. -/
def SizeGood (strict : Bool) (k size : Nat) (d : List Byte) : Prop :=
  k ≤ d.length ∧ (k = 0 ∨ size * 256 ^ k + beVal (d.take k) < 2 ^ 32) ∧
    (strict = true → k = 0 ∨ size ≠ 0 ∨ d.head? ≠ some 0)

theorem size_loop_eq (strict : Bool) : ∀ (k size : Nat) (d : List Byte),
    ∃ o d', asn1_size_loop strict k size (exact d) = .ok (o, exact d') ∧ d' <:+ d ∧
      (SizeGood strict k size d → o = some (size * 256 ^ k + beVal (d.take k)) ∧ d' = d.drop k) ∧
      (¬ SizeGood strict k size d → o = none)
  | 0, size, d => by
    refine ⟨some size, d, rfl, List.suffix_refl _, ?_, ?_⟩
    · intro _; simp [beVal_nil]
    · intro h; exact absurd ⟨by omega, Or.inl rfl, fun _ => Or.inl rfl⟩ h
  | k + 1, size, [] => by
    refine ⟨none, [], rfl, List.suffix_refl _, ?_, fun _ => rfl⟩
    rintro ⟨h, -⟩; simp at h
  | k + 1, size, c :: d => by
    have e : asn1_size_loop strict (k + 1) size (exact (c :: d)) =
        if size ≥ 1 <<< 24 then .ok (none, exact d)
        else if strict ∧ ((size <<< 8) % 2 ^ 32) ||| c.toNat = 0 then .ok (none, exact d)
        else asn1_size_loop strict k (((size <<< 8) % 2 ^ 32) ||| c.toNat) (exact d) := by
      rw [asn1_size_loop, if_neg (by simp), show C.rd (exact (c :: d)).data 0 = .ok c from rfl,
        C.ok_bind, adv_exact (by simp), C.ok_bind, List.drop_succ_cons, List.drop_zero]
    rw [e]
    have hval : size * 256 ^ (k + 1) + beVal ((c :: d).take (k + 1)) =
        (256 * size + c.toNat) * 256 ^ k + beVal (d.take k) ∨ ¬ k ≤ d.length := by
      by_cases hk : k ≤ d.length
      · left
        rw [List.take_succ_cons, beVal_cons, List.length_take, Nat.min_eq_left hk, pow_succ]; ring
      · right; exact hk
    have h24 : (1 <<< 24 : Nat) = 2 ^ 24 := by decide
    rw [h24]
    by_cases hs : size ≥ 2 ^ 24
    · rw [if_pos hs]
      refine ⟨none, d, rfl, List.suffix_cons _ _, ?_, fun _ => rfl⟩
      rintro ⟨h1, h2, -⟩
      rcases h2 with h2 | h2
      · omega
      · exfalso
        have : 2 ^ 24 * 256 ^ (k + 1) ≤ size * 256 ^ (k + 1) := Nat.mul_le_mul_right _ hs
        have h3 : 1 ≤ 256 ^ k := Nat.one_le_pow _ _ (by omega)
        have h4 : 2 ^ 32 ≤ 2 ^ 24 * 256 ^ (k + 1) := by rw [pow_succ]; omega
        omega
    rw [if_neg hs, shl_or size c (by omega)]
    by_cases hz : strict ∧ 256 * size + c.toNat = 0
    · rw [if_pos hz]
      refine ⟨none, d, rfl, List.suffix_cons _ _, ?_, fun _ => rfl⟩
      rintro ⟨h1, h2, h3⟩
      exfalso
      rcases h3 hz.1 with h | h | h
      · omega
      · omega
      · apply h
        simp only [List.head?_cons, Option.some.injEq]
        apply BitVec.eq_of_toNat_eq
        simp; omega
    rw [if_neg hz]
    obtain ⟨o, d', h1, h2, h3, h4⟩ := size_loop_eq strict k (256 * size + c.toNat) d
    refine ⟨o, d', h1, h2.trans (List.suffix_cons _ _), ?_, ?_⟩
    · rintro ⟨g1, g2, g3⟩
      have hk : k ≤ d.length := by simpa using g1
      have hv := hval.resolve_right (by omega)
      rw [hv] at g2 ⊢
      rw [List.drop_succ_cons]
      apply h3
      refine ⟨hk, Or.inr (g2.resolve_left (by omega)), ?_⟩
      intro hst
      right; left
      intro h0
      exact hz ⟨hst, h0⟩
    · intro hg
      apply h4
      rintro ⟨g1, g2, g3⟩
      apply hg
      have hv := hval.resolve_right (by omega)
      refine ⟨by simpa using g1, Or.inr ?_, ?_⟩
      · rw [hv]
        rcases g2 with rfl | g2
        · have := c.isLt
          simp [beVal_nil]; omega
        · exact g2
      · intro hst
        right
        by_cases h0 : size = 0
        · right
          simp only [List.head?_cons, ne_eq, Option.some.injEq]
          intro hc
          exact hz ⟨hst, by rw [hc, h0]; rfl⟩
        · left; exact h0

theorem hi_bit : ∀ c : Byte, (c &&& 0x80 = 0 ↔ c.toNat < 128) ∧ (c &&& 0x80 ≠ 0 ↔ 128 ≤ c.toNat) ∧
    (c &&& 0x7f).toNat = c.toNat % 128 := by decide +kernel

/-- Everything about `asn1_read_size`. -/
theorem read_size_all (strict : Bool) (d : List Byte) :
    ∃ out, asn1_read_size (exact d) strict = .ok out ∧
      (∃ d', out.st = exact d' ∧ d' <:+ d) ∧
      (out.ret = false → out.size = 0) ∧
      ∀ n r, (out = ⟨n, exact r, true⟩ ↔ ∃ enc, d = enc ++ r ∧ LenEnc strict n enc) := by
  rcases d with _ | ⟨c, d⟩
  · refine ⟨⟨0, exact [], false⟩, rfl, ⟨[], rfl, List.suffix_refl _⟩, fun _ => rfl, ?_⟩
    intro n r
    constructor
    · intro h; simp at h
    · rintro ⟨enc, h1, h2⟩
      exfalso
      have : enc = [] := by
        rcases enc with _ | ⟨x, enc⟩
        · rfl
        · simp at h1
      rw [this] at h2
      rw [LenEnc] at h2
      split at h2
      · rw [derLen] at h2; split at h2 <;> simp at h2
      · rcases h2 with ⟨-, h⟩ | ⟨bs, -, h, -⟩ <;> simp at h
  have e : asn1_read_size (exact (c :: d)) strict =
      if c &&& 0x80 = 0 then .ok ⟨c.toNat, exact d, true⟩
      else if strict ∧ (c &&& 0x7f).toNat = 0 then .ok ⟨0, exact d, false⟩
      else (do
        let (size, s) ← asn1_size_loop strict (c &&& 0x7f).toNat 0 (exact d)
        match size with
        | none => .ok ⟨0, s, false⟩
        | some size =>
          if strict ∧ size < 0x80 then .ok ⟨0, s, false⟩ else .ok ⟨size, s, true⟩) := by
    rw [asn1_read_size, if_neg (by simp), show C.rd (exact (c :: d)).data 0 = .ok c from rfl,
        C.ok_bind, adv_exact (by simp), C.ok_bind, List.drop_succ_cons, List.drop_zero]
    rfl
  rw [e]
  obtain ⟨b1, b2, b3⟩ := hi_bit c
  by_cases hc : c &&& 0x80 = 0
  · rw [if_pos hc]
    refine ⟨_, rfl, ⟨d, rfl, List.suffix_cons _ _⟩, by simp, ?_⟩
    intro n r
    have hc' := b1.1 hc
    constructor
    · intro h
      simp only [Asn1Size.mk.injEq, and_true, Asn1St.mk.injEq] at h
      obtain ⟨rfl, rfl, -⟩ := h
      refine ⟨[c], rfl, ?_⟩
      rw [LenEnc]
      split
      · refine ⟨by omega, ?_⟩
        rw [derLen, if_pos hc']; simp
      · left; exact ⟨hc', by simp⟩
    · rintro ⟨enc, h1, h2⟩
      have : enc = [c] ∧ n = c.toNat := by
        rw [LenEnc] at h2
        split at h2
        · obtain ⟨h2, h3⟩ := h2
          rw [derLen] at h3
          split at h3
          · rw [h3] at h1
            simp only [List.cons_append, List.nil_append, List.cons.injEq] at h1
            refine ⟨by rw [h3, h1.1], ?_⟩
            rw [h1.1, BitVec.toNat_ofNat]; omega
          · exfalso
            rw [h3] at h1
            simp only [List.cons_append, List.cons.injEq] at h1
            have hl := (beBytes_len_le n 4).2 (by omega)
            rw [h1.1, BitVec.toNat_ofNat] at hc'
            omega
        · rcases h2 with ⟨h3, h4⟩ | ⟨bs, h3, h4, -⟩
          · rw [h4] at h1
            simp only [List.cons_append, List.nil_append, List.cons.injEq] at h1
            refine ⟨by rw [h4, h1.1], ?_⟩
            rw [h1.1, BitVec.toNat_ofNat]; omega
          · exfalso
            rw [h4] at h1
            simp only [List.cons_append, List.cons.injEq] at h1
            rw [h1.1, BitVec.toNat_ofNat] at hc'
            omega
      obtain ⟨rfl, rfl⟩ := this
      simp only [List.cons_append, List.nil_append, List.cons.injEq, true_and] at h1
      rw [h1]
  rw [if_neg hc, b3]
  have hc' := b2.1 hc
  have hclt := c.isLt
  -- shape of an encoding that starts with this octet
  have shape : ∀ {n : Nat} {enc r : List Byte}, c :: d = enc ++ r → LenEnc strict n enc →
      ∃ bs : List Byte, bs.length = c.toNat % 128 ∧ enc = c :: bs ∧ d = bs ++ r ∧ beVal bs = n ∧
        n < 2 ^ 32 ∧ (strict = true → bs.head? ≠ some 0 ∧ 128 ≤ n) := by
    intro n enc r h1 h2
    rw [LenEnc] at h2
    split at h2
    · obtain ⟨h2, h3⟩ := h2
      rw [derLen] at h3
      split at h3
      · exfalso
        rw [h3] at h1
        simp only [List.cons_append, List.nil_append, List.cons.injEq] at h1
        rw [h1.1, BitVec.toNat_ofNat] at hc'
        omega
      · rw [h3] at h1
        simp only [List.cons_append, List.cons.injEq] at h1
        have hl := (beBytes_len_le n 4).2 (by omega)
        refine ⟨beBytes n, ?_, by rw [h3, h1.1], h1.2, beVal_beBytes n, h2,
          fun _ => ⟨beBytes_head n, by omega⟩⟩
        rw [h1.1, BitVec.toNat_ofNat]; omega
    · rename_i hst
      rcases h2 with ⟨h3, h4⟩ | ⟨bs, h3, h4, h5, h6⟩
      · exfalso
        rw [h4] at h1
        simp only [List.cons_append, List.nil_append, List.cons.injEq] at h1
        rw [h1.1, BitVec.toNat_ofNat] at hc'
        omega
      · rw [h4] at h1
        simp only [List.cons_append, List.cons.injEq] at h1
        refine ⟨bs, ?_, by rw [h4, h1.1], h1.2, h5, h6, fun h => absurd h hst⟩
        rw [h1.1, BitVec.toNat_ofNat]; omega
  by_cases hz : strict ∧ c.toNat % 128 = 0
  · rw [if_pos hz]
    refine ⟨_, rfl, ⟨d, rfl, List.suffix_cons _ _⟩, by simp, ?_⟩
    intro n r
    constructor
    · intro h; simp at h
    · rintro ⟨enc, h1, h2⟩
      exfalso
      obtain ⟨bs, g1, g2, g3, g4, g5, g6⟩ := shape h1 h2
      have : bs = [] := List.length_eq_zero_iff.1 (by omega)
      have g7 := (g6 hz.1).2
      rw [← g4, this] at g7
      simp [beVal_nil] at g7
  rw [if_neg hz]
  obtain ⟨o, d', h1, h2, h3, h4⟩ := size_loop_eq strict (c.toNat % 128) 0 d
  rw [h1]
  simp only [C.ok_bind]
  have hsuf : d' <:+ c :: d := h2.trans (List.suffix_cons _ _)
  -- an encoding makes the loop succeed
  have good : ∀ {n : Nat} {enc r : List Byte}, c :: d = enc ++ r → LenEnc strict n enc →
      SizeGood strict (c.toNat % 128) 0 d ∧ beVal (d.take (c.toNat % 128)) = n ∧
        d.drop (c.toNat % 128) = r ∧ (strict = true → 128 ≤ n) := by
    intro n enc r e1 e2
    obtain ⟨bs, g1, g2, g3, g4, g5, g6⟩ := shape e1 e2
    have t1 : d.take (c.toNat % 128) = bs := by rw [g3, List.take_left' g1]
    have t2 : d.drop (c.toNat % 128) = r := by rw [g3, List.drop_left' g1]
    refine ⟨⟨by rw [g3]; simp; omega, Or.inr (by rw [t1, g4]; omega), ?_⟩, by rw [t1, g4], t2,
      fun h => (g6 h).2⟩
    intro hst
    rcases bs with _ | ⟨x, bs⟩
    · left; simpa using g1.symm
    · right; right
      have := (g6 hst).1
      rw [g3]; simpa using this
  by_cases hg : SizeGood strict (c.toNat % 128) 0 d
  case neg =>
    rw [h4 hg]
    refine ⟨_, rfl, ⟨d', rfl, hsuf⟩, by simp, ?_⟩
    intro n r
    constructor
    · intro h; simp at h
    · rintro ⟨enc, e1, e2⟩
      exact absurd (good e1 e2).1 hg
  obtain ⟨ho, hd'⟩ := h3 hg
  rw [ho]
  simp only [Nat.zero_mul, Nat.zero_add]
  by_cases hs : strict ∧ beVal (d.take (c.toNat % 128)) < 0x80
  · rw [if_pos hs]
    refine ⟨_, rfl, ⟨d', rfl, hsuf⟩, by simp, ?_⟩
    intro n r
    constructor
    · intro h; simp at h
    · rintro ⟨enc, e1, e2⟩
      obtain ⟨-, g1, -, g2⟩ := good e1 e2
      have := g2 hs.1
      omega
  rw [if_neg hs]
  refine ⟨_, rfl, ⟨d', rfl, hsuf⟩, by simp, ?_⟩
  intro n r
  constructor
  · intro h
    simp only [Asn1Size.mk.injEq, and_true, Asn1St.mk.injEq] at h
    obtain ⟨hn, hr, -⟩ := h
    obtain ⟨k1, k2, k3⟩ := hg
    have hlen : (d.take (c.toNat % 128)).length = c.toNat % 128 := by simp; omega
    refine ⟨c :: d.take (c.toNat % 128), ?_, ?_⟩
    · rw [← hr, hd', List.cons_append, List.take_append_drop]
    have hlt : n < 2 ^ 32 := by
      rcases k2 with k2 | k2
      · rw [← hn, k2]; simp [beVal_nil]
      · omega
    have hcc : c = BitVec.ofNat 8 (128 + (d.take (c.toNat % 128)).length) := by
      apply BitVec.eq_of_toNat_eq
      rw [hlen, BitVec.toNat_ofNat]; omega
    rw [LenEnc]
    split
    · rename_i hst
      have hst' : strict = true := hst
      refine ⟨hlt, ?_⟩
      have hn128 : ¬ n < 128 := by
        intro h; exact hs ⟨hst', by omega⟩
      have hhead : (d.take (c.toNat % 128)).head? ≠ some 0 := by
        rcases k3 hst' with h | h | h
        · rw [h]; simp
        · exact absurd rfl h
        · rw [List.head?_take]
          split
          · simp
          · exact h
      rw [derLen, if_neg hn128, ← hn, beBytes_of hhead, ← hcc]
    · right
      exact ⟨_, by omega, by rw [← hcc], hn, hlt⟩
  · rintro ⟨enc, e1, e2⟩
    obtain ⟨-, g1, g2, -⟩ := good e1 e2
    rw [g1, hd', g2]

/-! ## Integers -/

theorem derContent_iff (c : List Byte) : c = derContent (beVal c) ↔
    ∃ x t, c = x :: t ∧ x.toNat < 128 ∧ (x = 0 → ∀ y t', t = y :: t' → 128 ≤ y.toNat) := by
  rcases c with _ | ⟨x, t⟩
  · constructor
    · intro h
      rw [derContent] at h
      split at h
      · simp at h
      · split at h <;> simp at h
    · rintro ⟨x, t, h, -⟩; simp at h
  by_cases hx : x = 0
  · subst hx
    rw [beVal_cons, show (0 : Byte).toNat * 256 ^ t.length + beVal t = beVal t by simp]
    rcases t with _ | ⟨y, t⟩
    · constructor
      · intro _; exact ⟨0, [], rfl, by decide, fun _ y t' h => by simp at h⟩
      · intro _; rw [beVal_nil]; decide
    by_cases hy : y = 0
    · subst hy
      constructor
      · intro h
        exfalso
        rw [beVal_cons, show (0 : Byte).toNat * 256 ^ t.length + beVal t = beVal t by simp] at h
        have hl := (beBytes_split t).2
        have := congrArg List.length h
        rw [derContent] at this
        split at this
        · simp at this
        · rename_i c b hcb
          rw [hcb] at hl
          split at this <;> simp at this hl <;> omega
      · rintro ⟨x, t', h, -, h'⟩
        simp only [List.cons.injEq] at h
        obtain ⟨rfl, rfl⟩ := h
        have := h' rfl _ _ rfl
        simp at this
    · rw [derContent, beBytes_of (by simpa using hy)]
      dsimp only
      constructor
      · intro h
        refine ⟨0, y :: t, rfl, by decide, ?_⟩
        intro _ y' t' e
        simp only [List.cons.injEq] at e
        rw [← e.1]
        by_contra hlt
        rw [if_pos (by omega)] at h
        have := congrArg List.length h
        simp at this
      · rintro ⟨x, t', h, -, h'⟩
        simp only [List.cons.injEq] at h
        obtain ⟨rfl, rfl⟩ := h
        have := h' rfl _ _ rfl
        rw [if_neg (by omega)]
  · rw [derContent, beBytes_of (by simpa using hx)]
    dsimp only
    constructor
    · intro h
      refine ⟨x, t, rfl, ?_, fun h => absurd h hx⟩
      by_contra hlt
      rw [if_neg hlt] at h
      have := congrArg List.length h
      simp at this
    · rintro ⟨x', t', h, h', -⟩
      simp only [List.cons.injEq] at h
      obtain ⟨rfl, rfl⟩ := h
      rw [if_pos h']

theorem int_strict_eq (c r : List Byte) :
    asn1_int_strict (c ++ r) c.length = .ok (decide (c = derContent (beVal c))) := by
  rcases c with _ | ⟨x, t⟩
  · rw [asn1_int_strict, if_pos (by rfl), decide_eq_false]
    rw [derContent_iff]
    rintro ⟨x, t, h, -⟩; simp at h
  rw [asn1_int_strict, if_neg (by simp), List.cons_append,
    show C.rd (x :: (t ++ r)) 0 = .ok x from rfl, C.ok_bind]
  by_cases h1 : x &&& 0x80 ≠ 0
  · rw [if_pos h1, decide_eq_false]
    rw [derContent_iff]
    rintro ⟨x', t', h, h', -⟩
    simp only [List.cons.injEq] at h
    have := (hi_bit x).2.1.1 h1
    rw [h.1] at this; omega
  rw [if_neg h1]
  have hx : x.toNat < 128 := (hi_bit x).1.1 (by simpa using h1)
  by_cases h2 : (x :: t).length > 1 ∧ x = 0
  · rw [if_pos h2]
    obtain ⟨y, t', rfl⟩ : ∃ y t', t = y :: t' := by
      rcases t with _ | ⟨y, t'⟩
      · simp at h2
      · exact ⟨y, t', rfl⟩
    rw [List.cons_append, show C.rd (x :: y :: (t' ++ r)) 1 = .ok y from rfl, C.ok_bind]
    by_cases h3 : y &&& 0x80 = 0
    · rw [if_pos h3, decide_eq_false]
      rw [derContent_iff]
      rintro ⟨x', t'', h, -, h'⟩
      simp only [List.cons.injEq] at h
      obtain ⟨rfl, rfl⟩ := h
      have := h' h2.2 _ _ rfl
      have := (hi_bit y).1.1 h3
      omega
    · rw [if_neg h3, decide_eq_true]
      rw [derContent_iff]
      refine ⟨x, _, rfl, hx, ?_⟩
      intro _ y' t'' h
      simp only [List.cons.injEq] at h
      rw [← h.1]; exact (hi_bit y).2.1.1 h3
  · rw [if_neg h2, decide_eq_true]
    rw [derContent_iff]
    refine ⟨x, t, rfl, hx, ?_⟩
    intro h0 y t' h
    exact absurd ⟨by rw [h]; simp, h0⟩ h2

theorem eat_eq : ∀ (c r : List Byte),
    asn1_eat_zeroes c.length (exact (c ++ r)) =
      .ok ((beBytes (beVal c)).length, exact (beBytes (beVal c) ++ r))
  | [], r => by
    rw [show beBytes (beVal []) = [] from beBytes_of (b := []) (by simp)]; rfl
  | x :: c, r => by
    rw [List.length_cons, asn1_eat_zeroes, show C.rd (exact (x :: c ++ r)).data 0 = .ok x from rfl,
      C.ok_bind]
    by_cases h : x = 0
    · rw [if_pos h, adv_exact (by simp), C.ok_bind, List.cons_append, List.drop_succ_cons,
        List.drop_zero, eat_eq c r, h, beVal_cons]
      simp
    · rw [if_neg h, beBytes_of (by simpa using h)]; rfl

theorem beBytes_suffix (c : List Byte) : beBytes (beVal c) <:+ c :=
  ⟨_, (beBytes_split c).1.symm⟩

theorem beVal_replicate (n : Nat) : beVal (List.replicate n (0 : Byte)) = 0 := by
  induction n with
  | zero => rfl
  | succ n ih => rw [List.replicate_succ, beVal_cons, ih]; simp

set_option maxHeartbeats 1000000 in
/-- Everything about `asn1_read_int`. -/
theorem read_int_all (out_len : Nat) (strict : Bool) (d : List Byte) :
    ∃ out, asn1_read_int out_len (exact d) strict = .ok out ∧
      (∃ d', out.st = exact d' ∧ d' <:+ d) ∧
      (out.ret = false → out.out = List.replicate out_len 0) ∧
      ∀ o r, (out = ⟨o, exact r, true⟩ ↔ ∃ enc c, d = 2 :: (enc ++ c ++ r) ∧
        LenEnc strict c.length enc ∧ (strict = true → c = derContent (beVal c)) ∧
        o.length = out_len ∧ beVal o = beVal c) := by
  rcases d with _ | ⟨tag, d⟩
  · refine ⟨⟨List.replicate out_len 0, exact [], false⟩, rfl, ⟨[], rfl, List.suffix_refl _⟩,
      fun _ => rfl, ?_⟩
    intro o r
    constructor
    · intro h; simp at h
    · rintro ⟨enc, c, h, -⟩; simp at h
  rw [asn1_read_int, if_neg (by simp), show C.rd (exact (tag :: d)).data 0 = .ok tag from rfl,
    C.ok_bind]
  by_cases ht : tag ≠ 2
  · rw [if_pos ht]
    refine ⟨_, rfl, ⟨_, rfl, List.suffix_refl _⟩, fun _ => rfl, ?_⟩
    intro o r
    constructor
    · intro h; simp at h
    · rintro ⟨enc, c, h, -⟩
      simp only [List.cons.injEq] at h
      exact absurd h.1 ht
  rw [if_neg ht, adv_exact (by simp), C.ok_bind, List.drop_succ_cons, List.drop_zero]
  obtain ⟨rs, hrs, ⟨d', hst, hsuf⟩, -, hiff⟩ := read_size_all strict d
  have hsuf' : d' <:+ tag :: d := hsuf.trans (List.suffix_cons _ _)
  have htag : tag = 2 := by simpa using ht
  subst htag
  rw [hrs]
  simp only [C.ok_bind, hst]
  -- candidates agree with what was read
  have cand : ∀ {enc c r : List Byte}, (2 : Byte) :: d = 2 :: (enc ++ c ++ r) →
      LenEnc strict c.length enc → rs.ret = true ∧ rs.size = c.length ∧ d' = c ++ r := by
    intro enc c r h1 h2
    have := (hiff c.length (c ++ r)).2 ⟨enc, by simpa using h1, h2⟩
    rw [this] at hst ⊢
    simp only [Asn1St.mk.injEq] at hst
    exact ⟨rfl, rfl, hst.1.symm⟩
  rcases hr : rs.ret with _ | _
  · rw [if_pos (by simp)]
    refine ⟨_, rfl, ⟨_, rfl, hsuf'⟩, fun _ => rfl, ?_⟩
    intro o r
    constructor
    · intro h; simp at h
    · rintro ⟨enc, c, h1, h2, -⟩
      have := (cand h1 h2).1
      rw [hr] at this; simp at this
  rw [if_neg (by simp)]
  by_cases hgt : rs.size > d'.length
  · rw [if_pos hgt]
    refine ⟨_, rfl, ⟨_, rfl, hsuf'⟩, fun _ => rfl, ?_⟩
    intro o r
    constructor
    · intro h; simp at h
    · rintro ⟨enc, c, h1, h2, -⟩
      obtain ⟨-, g1, g2⟩ := cand h1 h2
      rw [g1, g2] at hgt; simp at hgt
  rw [if_neg hgt]
  obtain ⟨c, r, hcr, hcl⟩ : ∃ c r, d' = c ++ r ∧ rs.size = c.length :=
    ⟨d'.take rs.size, d'.drop rs.size, (List.take_append_drop _ _).symm, by simp; omega⟩
  have cand' : ∀ {enc c' r' : List Byte}, (2 : Byte) :: d = 2 :: (enc ++ c' ++ r') →
      LenEnc strict c'.length enc → c' = c ∧ r' = r := by
    intro enc c' r' h1 h2
    obtain ⟨-, g1, g2⟩ := cand h1 h2
    rw [hcr] at g2
    have := List.append_inj g2 (by omega)
    exact ⟨this.1.symm, this.2.symm⟩
  obtain ⟨enc, henc1, henc2⟩ := (hiff c.length (c ++ r)).1 (by
    cases rs; simp_all)
  have hgo : (if strict then asn1_int_strict d' rs.size else .ok true : C Bool) =
      .ok (decide (strict = true → c = derContent (beVal c))) := by
    rcases strict with _ | _
    · simp
    · rw [if_pos rfl, hcr, hcl, int_strict_eq]; simp
  rw [hgo, C.ok_bind]
  by_cases hstr : strict = true → c = derContent (beVal c)
  case neg =>
    rw [if_pos (by simp only [decide_eq_false hstr]; rfl)]
    refine ⟨_, rfl, ⟨_, rfl, hsuf'⟩, fun _ => rfl, ?_⟩
    intro o r'
    constructor
    · intro h; simp at h
    · rintro ⟨enc, c', h1, h2, h3, -⟩
      obtain ⟨rfl, rfl⟩ := cand' h1 h2
      exact absurd h3 hstr
  rw [if_neg (by simp only [decide_eq_true hstr]; decide), hcl, hcr, eat_eq]
  simp only [C.ok_bind]
  have hsuf2 : beBytes (beVal c) ++ r <:+ 2 :: d := by
    rw [hcr] at hsuf'
    exact (List.IsSuffix.trans (by
      obtain ⟨z, hz⟩ := beBytes_suffix c
      exact ⟨z, by rw [← List.append_assoc, hz]⟩) hsuf')
  by_cases hol : (beBytes (beVal c)).length > out_len
  · rw [if_pos hol]
    refine ⟨_, rfl, ⟨_, rfl, hsuf2⟩, fun _ => rfl, ?_⟩
    intro o r'
    constructor
    · intro h; simp at h
    · rintro ⟨enc, c', h1, h2, h3, h4, h5⟩
      obtain ⟨rfl, rfl⟩ := cand' h1 h2
      have := beVal_lt o
      rw [h5, h4, ← beBytes_len_le] at this
      omega
  rw [if_neg hol, Asn1St.bytes, if_pos (by simp), C.ok_bind, adv_exact (by simp), C.ok_bind,
    List.take_left' rfl, List.drop_left' rfl]
  have hsuf3 : r <:+ 2 :: d := List.IsSuffix.trans ⟨_, rfl⟩ hsuf2
  refine ⟨_, rfl, ⟨_, rfl, hsuf3⟩, by simp, ?_⟩
  intro o r'
  have hval : beVal (List.replicate (out_len - (beBytes (beVal c)).length) (0 : Byte) ++
      beBytes (beVal c)) = beVal c := by
    rw [beVal_append, beVal_replicate, beVal_beBytes]; simp
  constructor
  · intro h
    simp only [Asn1Int.mk.injEq, and_true, Asn1St.mk.injEq] at h
    obtain ⟨rfl, rfl, -⟩ := h
    exact ⟨enc, c, by rw [List.append_assoc, ← henc1], henc2, hstr, by simp; omega, hval⟩
  · rintro ⟨enc, c', h1, h2, h3, h4, h5⟩
    obtain ⟨rfl, rfl⟩ := cand' h1 h2
    have : o = List.replicate (out_len - (beBytes (beVal c')).length) (0 : Byte) ++
      beBytes (beVal c') := beVal_inj (by simp; omega) (by rw [hval, h5])
    rw [this]

set_option maxHeartbeats 1000000 in
/-- Everything about `asn1_read_mpz`. -/
theorem read_mpz_all (strict : Bool) (d : List Byte) :
    ∃ out, asn1_read_mpz (exact d) strict = .ok out ∧
      (∃ d', out.st = exact d' ∧ d' <:+ d) ∧
      (out.ret = false → out.n = 0) ∧
      ∀ n r, (out = ⟨n, exact r, true⟩ ↔ ∃ c, d = 2 :: (derLen c.length ++ c ++ r) ∧
        c.length < 2 ^ 32 ∧ (strict = true → c = derContent (beVal c)) ∧
        n = beVal c ∧ n < 256 ^ 2048) := by
  rcases d with _ | ⟨tag, d⟩
  · refine ⟨⟨0, exact [], false⟩, rfl, ⟨[], rfl, List.suffix_refl _⟩, fun _ => rfl, ?_⟩
    intro o r
    constructor
    · intro h; simp at h
    · rintro ⟨c, h, -⟩; simp at h
  rw [asn1_read_mpz, if_neg (by simp), show C.rd (exact (tag :: d)).data 0 = .ok tag from rfl,
    C.ok_bind]
  by_cases ht : tag ≠ 2
  · rw [if_pos ht]
    refine ⟨_, rfl, ⟨_, rfl, List.suffix_refl _⟩, fun _ => rfl, ?_⟩
    intro o r
    constructor
    · intro h; simp at h
    · rintro ⟨c, h, -⟩
      simp only [List.cons.injEq] at h
      exact absurd h.1 ht
  rw [if_neg ht, adv_exact (by simp), C.ok_bind, List.drop_succ_cons, List.drop_zero]
  obtain ⟨rs, hrs, ⟨d', hst, hsuf⟩, -, hiff⟩ := read_size_all true d
  have hsuf' : d' <:+ tag :: d := hsuf.trans (List.suffix_cons _ _)
  have htag : tag = 2 := by simpa using ht
  subst htag
  rw [hrs]
  simp only [C.ok_bind, hst]
  -- candidates agree with what was read
  have cand : ∀ {c r : List Byte}, (2 : Byte) :: d = 2 :: (derLen c.length ++ c ++ r) →
      c.length < 2 ^ 32 → rs.ret = true ∧ rs.size = c.length ∧ d' = c ++ r := by
    intro c r h1 h2
    have := (hiff c.length (c ++ r)).2 ⟨_, by simpa using h1, h2, rfl⟩
    rw [this] at hst ⊢
    simp only [Asn1St.mk.injEq] at hst
    exact ⟨rfl, rfl, hst.1.symm⟩
  rcases hr : rs.ret with _ | _
  · rw [if_pos (by simp)]
    refine ⟨_, rfl, ⟨_, rfl, hsuf'⟩, fun _ => rfl, ?_⟩
    intro o r
    constructor
    · intro h; simp at h
    · rintro ⟨c, h1, h2, -⟩
      have := (cand h1 h2).1
      rw [hr] at this; simp at this
  rw [if_neg (by simp)]
  by_cases hgt : rs.size > d'.length
  · rw [if_pos hgt]
    refine ⟨_, rfl, ⟨_, rfl, hsuf'⟩, fun _ => rfl, ?_⟩
    intro o r
    constructor
    · intro h; simp at h
    · rintro ⟨c, h1, h2, -⟩
      obtain ⟨-, g1, g2⟩ := cand h1 h2
      rw [g1, g2] at hgt; simp at hgt
  rw [if_neg hgt]
  obtain ⟨c, r, hcr, hcl⟩ : ∃ c r, d' = c ++ r ∧ rs.size = c.length :=
    ⟨d'.take rs.size, d'.drop rs.size, (List.take_append_drop _ _).symm, by simp; omega⟩
  have cand' : ∀ {c' r' : List Byte}, (2 : Byte) :: d = 2 :: (derLen c'.length ++ c' ++ r') →
      c'.length < 2 ^ 32 → c' = c ∧ r' = r := by
    intro c' r' h1 h2
    obtain ⟨-, g1, g2⟩ := cand h1 h2
    rw [hcr] at g2
    have := List.append_inj g2 (by omega)
    exact ⟨this.1.symm, this.2.symm⟩
  obtain ⟨enc, henc1, henc2, henc3⟩ := (hiff c.length (c ++ r)).1 (by
    cases rs; simp_all)
  have hgo : (if strict then asn1_int_strict d' rs.size else .ok true : C Bool) =
      .ok (decide (strict = true → c = derContent (beVal c))) := by
    rcases strict with _ | _
    · simp
    · rw [if_pos rfl, hcr, hcl, int_strict_eq]; simp
  rw [hgo, C.ok_bind]
  by_cases hstr : strict = true → c = derContent (beVal c)
  case neg =>
    rw [if_pos (by simp only [decide_eq_false hstr]; rfl)]
    refine ⟨_, rfl, ⟨_, rfl, hsuf'⟩, fun _ => rfl, ?_⟩
    intro o r'
    constructor
    · intro h; simp at h
    · rintro ⟨c', h1, h2, h3, -⟩
      obtain ⟨rfl, rfl⟩ := cand' h1 h2
      exact absurd h3 hstr
  rw [if_neg (by simp only [decide_eq_true hstr]; decide), hcl, hcr, eat_eq]
  simp only [C.ok_bind]
  have hsuf2 : beBytes (beVal c) ++ r <:+ 2 :: d := by
    rw [hcr] at hsuf'
    exact (List.IsSuffix.trans (by
      obtain ⟨z, hz⟩ := beBytes_suffix c
      exact ⟨z, by rw [← List.append_assoc, hz]⟩) hsuf')
  by_cases hol : (beBytes (beVal c)).length > 2048
  · rw [if_pos hol]
    refine ⟨_, rfl, ⟨_, rfl, hsuf2⟩, fun _ => rfl, ?_⟩
    intro o r'
    constructor
    · intro h; simp at h
    · rintro ⟨c', h1, h2, h3, h4, h5⟩
      obtain ⟨rfl, rfl⟩ := cand' h1 h2
      rw [h4, ← beBytes_len_le] at h5
      omega
  rw [if_neg hol, Asn1St.bytes, if_pos (by simp), C.ok_bind, adv_exact (by simp), C.ok_bind,
    List.take_left' rfl, List.drop_left' rfl]
  have hsuf3 : r <:+ 2 :: d := List.IsSuffix.trans ⟨_, rfl⟩ hsuf2
  refine ⟨_, rfl, ⟨_, rfl, hsuf3⟩, by simp, ?_⟩
  intro n r'
  rw [import_eq, beVal_beBytes]
  constructor
  · intro h
    simp only [Asn1Mpz.mk.injEq, and_true, Asn1St.mk.injEq] at h
    obtain ⟨rfl, rfl, -⟩ := h
    refine ⟨c, by rw [List.append_assoc, ← henc3, ← henc1], henc2, hstr, rfl, ?_⟩
    rw [← beBytes_len_le]; omega
  · rintro ⟨c', h1, h2, h3, h4, h5⟩
    obtain ⟨rfl, rfl⟩ := cand' h1 h2
    rw [h4]

end Torsion.Asn1
