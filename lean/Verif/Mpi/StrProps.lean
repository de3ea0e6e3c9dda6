import Verif.Mpi.StrOut
import Verif.Mpi.MpzProps

/-!
# Import, export and strings: property C36

`Spec.beVal` and `Spec.leVal` (Util/Spec.lean) are the numbers written by a byte string,
`Spec.parseInt` and `Spec.signedNumeral` (Mpi/StrSpec.lean) the integer of a string and the string of
an integer, in terms of Mathlib's `Nat.digits`.
-/
namespace Torsion
open Spec Mpi

/-! ## Bytes -/

/-- Importing takes the number of the bytes modulo the size of the destination. -/
theorem mpn_import_exact (zn : Nat) (xp : List Byte) :
    (∃ z, mpn_import zn xp 1 = .ok z ∧ z.length = zn ∧ val z = beVal xp % 2 ^ (64 * zn)) ∧
    (∃ z, mpn_import zn xp (-1) = .ok z ∧ z.length = zn ∧ val z = leVal xp % 2 ^ (64 * zn)) ∧
    mpn_import zn xp 0 = mpn_import zn xp (-1) ∧
    (∀ endian, endian ∉ [1, -1, 0] → mpn_import zn xp endian = .abort) := by
  refine ⟨?_, ?_, rfl, fun e he => ?_⟩
  · obtain ⟨z, h1, h2, h3⟩ := import_be_val xp zn xp.length (Nat.le_refl _)
    rw [List.take_length] at h3
    exact ⟨z, h1, h2, h3⟩
  · obtain ⟨z, h1, h2, h3⟩ := import_le_val xp zn 0 (Nat.zero_le _)
    exact ⟨z, h1, h2, h3⟩
  · simp only [List.mem_cons, List.not_mem_nil, or_false, not_or] at he
    unfold mpn_import
    simp only [if_neg he.2.2]
    rw [if_neg he.1, if_neg he.2.1]

/-- Exporting writes the number modulo the size of the destination. -/
theorem mpn_export_exact (zn : Nat) (xp : List Limb) :
    (∃ z, mpn_export zn xp 1 = .ok z ∧ z.length = zn ∧ beVal z = val xp % 256 ^ zn) ∧
    (∃ z, mpn_export zn xp (-1) = .ok z ∧ z.length = zn ∧ leVal z = val xp % 256 ^ zn) ∧
    mpn_export zn xp 0 = mpn_export zn xp (-1) ∧
    (∀ endian, endian ∉ [1, -1, 0] → mpn_export zn xp endian = .abort) := by
  obtain ⟨h1, h2⟩ := export_le_val xp zn
  refine ⟨⟨_, rfl, ?_, ?_⟩, ⟨_, rfl, h1, h2⟩, rfl, fun e he => ?_⟩
  · rw [export_be_rev, List.length_reverse, h1]
  · rw [export_be_rev, beVal_eq, List.reverse_reverse, h2]
  · simp only [List.mem_cons, List.not_mem_nil, or_false, not_or] at he
    unfold mpn_export
    simp only [if_neg he.2.2]
    rw [if_neg he.1, if_neg he.2.1]

theorem import_pow (n : Nat) : 256 ^ n ≤ 2 ^ (64 * ((n + 7) / 8)) := by
  rw [show 256 = 2 ^ 8 by norm_num, ← Nat.pow_mul]
  exact Nat.pow_le_pow_right (by decide) (by omega)

/-- `mpz_import` gives the number of the bytes. -/
theorem mpz_import_exact (z : Dest) (raw : List Byte) (hz : Room z ((raw.length + 7) / 8)) :
    (∃ x, mpz_import z raw 1 = .ok x ∧ Rep x (beVal raw)) ∧
    (∃ x, mpz_import z raw (-1) = .ok x ∧ Rep x (leVal raw)) := by
  unfold mpz_import
  by_cases h0 : (raw.length + 7) / 8 = 0
  · have : raw = [] := List.length_eq_zero_iff.1 (by omega)
    subst this
    exact ⟨⟨_, rfl, zero_rep⟩, ⟨_, rfl, zero_rep⟩⟩
  · obtain ⟨⟨u, h1, -, h2⟩, ⟨v, h3, -, h4⟩, -⟩ := mpn_import_exact ((raw.length + 7) / 8) raw
    simp only [if_neg h0, grow_ok hz, C.ok_bind, h1, h3]
    have hp := import_pow raw.length
    rw [Nat.mod_eq_of_lt (Nat.lt_of_lt_of_le (be_lt raw) hp)] at h2
    rw [Nat.mod_eq_of_lt (Nat.lt_of_lt_of_le (leVal_lt raw) hp)] at h4
    have hu := pos_rep (strip_norm u)
    have hv := pos_rep (strip_norm v)
    rw [strip_val, h2] at hu
    rw [strip_val, h4] at hv
    exact ⟨⟨_, rfl, hu⟩, ⟨_, rfl, hv⟩⟩

theorem fits_iff (i n : Nat) : (Nat.size i + 7) / 8 ≤ n ↔ i < 256 ^ n := by
  rw [show (256 : Nat) ^ n = 2 ^ (8 * n) by rw [Nat.pow_mul], ← Nat.size_le]
  omega

/-- `mpz_export` writes the absolute value if it fits and aborts otherwise. -/
theorem mpz_export_exact {x : Mpz} {i : Int} (hx : Rep x i) (size : Nat) :
    (i.natAbs < 256 ^ size → (∃ z, mpz_export x size 1 = .ok z ∧ z.length = size ∧ beVal z = i.natAbs) ∧
      (∃ z, mpz_export x size (-1) = .ok z ∧ z.length = size ∧ leVal z = i.natAbs)) ∧
    (¬ i.natAbs < 256 ^ size → ∀ endian, mpz_export x size endian = .abort) := by
  unfold mpz_export
  rw [bytelen_rep hx, ← fits_iff]
  constructor
  · intro h
    obtain ⟨⟨u, h1, h2, h3⟩, ⟨v, h4, h5, h6⟩, -⟩ := mpn_export_exact size x.mag
    rw [rep_abs hx, Nat.mod_eq_of_lt ((fits_iff _ _).1 h)] at h3 h6
    simp only [C.check, decide_eq_true_eq, ge_iff_le, if_pos h, C.ok_bind, h1, h4]
    exact ⟨⟨u, rfl, h2, h3⟩, ⟨v, rfl, h5, h6⟩⟩
  · intro h e
    rw [C.ok_bind]
    simp only [C.check, decide_eq_true_eq, ge_iff_le, if_neg h, C.abort_bind]

/-- Importing an exported number gives it back. -/
theorem mpz_export_import {x : Mpz} {i : Nat} (hx : Rep x i) {size : Nat} (h : i < 256 ^ size) {endian : Int}
    (he : endian = 1 ∨ endian = -1) :
    ∃ raw, mpz_export x size endian = .ok raw ∧ ∃ y, mpz_import .heap raw endian = .ok y ∧ Rep y i := by
  obtain ⟨⟨u, h1, -, h2⟩, ⟨v, h3, -, h4⟩⟩ := (mpz_export_exact hx size).1 (by simpa using h)
  rcases he with rfl | rfl
  · obtain ⟨⟨y, h5, h6⟩, -⟩ := mpz_import_exact .heap u trivial
    rw [h2, Int.natAbs_natCast] at h6
    exact ⟨u, h1, y, h5, h6⟩
  · obtain ⟨-, y, h5, h6⟩ := mpz_import_exact .heap v trivial
    rw [h4, Int.natAbs_natCast] at h6
    exact ⟨v, h3, y, h5, h6⟩

/-- Exporting imported bytes at their length gives them back. -/
theorem mpz_import_export (raw : List Byte) {endian : Int} (he : endian = 1 ∨ endian = -1) :
    ∃ x, mpz_import .heap raw endian = .ok x ∧ mpz_export x raw.length endian = .ok raw := by
  obtain ⟨⟨x, h1, h2⟩, ⟨y, h3, h4⟩⟩ := mpz_import_exact .heap raw trivial
  rcases he with rfl | rfl
  · obtain ⟨⟨u, h5, h6, h7⟩, -⟩ := (mpz_export_exact h2 raw.length).1 (by simpa using be_lt raw)
    refine ⟨x, h1, ?_⟩
    rw [Int.natAbs_natCast, beVal_eq, beVal_eq] at h7
    have := leVal_inj (by simp [h6]) h7
    rw [h5, List.reverse_injective this]
  · obtain ⟨-, u, h5, h6, h7⟩ := (mpz_export_exact h4 raw.length).1 (by simpa using leVal_lt raw)
    refine ⟨y, h3, ?_⟩
    rw [Int.natAbs_natCast] at h7
    rw [h5, leVal_inj h6 h7]

example : mpz_import .heap [1, 2, 3, 4, 5, 6, 7, 8, 9] 1 = .ok ⟨false, [0x0203040506070809, 1]⟩ := by decide
example : mpz_export ⟨true, [0x0203040506070809, 1]⟩ 10 (-1) = .ok [9, 8, 7, 6, 5, 4, 3, 2, 1, 0] := by decide
example : mpz_export ⟨false, [256]⟩ 1 1 = .abort := by decide

/-! ## Strings -/

theorem pow_of_test {b : Nat} (h2 : 2 ≤ b) (hb : b < 2 ^ 64) (h : b &&& (b - 1) = 0) :
    b = 2 ^ mp_bitlen (BitVec.ofNat 64 (b - 1)) ∧ 0 < mp_bitlen (BitVec.ofNat 64 (b - 1)) := by
  obtain ⟨k, hk⟩ := (Nat.and_sub_one_eq_zero_iff_isPowerOfTwo (by omega)).1 h
  have hk0 : 0 < k := Nat.pos_of_ne_zero (fun e => by subst e; omega)
  have e : mp_bitlen (BitVec.ofNat 64 (b - 1)) = k := by
    rw [mp_bitlen_eq, BitVec.toNat_ofNat, Nat.mod_eq_of_lt (by omega)]
    apply Nat.le_antisymm
    · rw [Nat.size_le, hk]; omega
    · have : k - 1 < Nat.size (b - 1) := by
        rw [Nat.lt_size, hk]
        have : 2 ^ k = 2 * 2 ^ (k - 1) := by rw [← Nat.pow_succ']; congr 1; omega
        have : 0 < 2 ^ (k - 1) := Nat.pos_of_ne_zero (by positivity)
        omega
      omega
  rw [e]
  exact ⟨hk, hk0⟩

theorem digits_len {w v : Nat} (hw : 0 < w) (hv : 0 < v) :
    (Nat.digits (2 ^ w) v).length = (Nat.size v + w - 1) / w := by
  have h1 : 1 < 2 ^ w := Nat.one_lt_two_pow (by omega)
  have key : ∀ k, (Nat.digits (2 ^ w) v).length ≤ k ↔ (Nat.size v + w - 1) / w ≤ k := by
    intro k
    rw [Nat.digits_length_le_iff h1, ← Nat.pow_mul, ← Nat.size_le, ← Nat.lt_add_one_iff (n := k),
      Nat.div_lt_iff_lt_mul hw, Nat.add_mul, Nat.one_mul, Nat.mul_comm w k]
    omega
  exact Nat.le_antisymm ((key _).2 (Nat.le_refl _)) ((key _).1 (Nat.le_refl _))

/-- `mpn_sizeinbase` is the number of digits, for every `int` base. -/
theorem mpn_sizeinbase_exact (xp : List Limb) (b : Nat) (h2 : 2 ≤ b) (hb : b < 2 ^ 31) :
    mpn_sizeinbase xp b = .ok (if val xp = 0 then 1 else (Nat.digits b (val xp)).length) := by
  unfold mpn_sizeinbase
  have h2' : (2 : Int) ≤ b := by omega
  simp only [C.check, h2', decide_true, if_true, C.ok_bind, Int.toNat_natCast]
  have hn := strip_norm xp
  have hv := strip_val xp
  generalize mpn_strip xp = a at hn hv
  rw [← hv]
  by_cases h0 : a.length = 0
  · have : a = [] := List.length_eq_zero_iff.1 h0
    subst this
    rfl
  rw [if_neg h0]
  have hne : a ≠ [] := fun e => h0 (by rw [e]; rfl)
  have hpos := Mpi.val_pos hn hne
  rw [if_neg (by omega : ¬ val a = 0)]
  by_cases hp : b &&& (b - 1) = 0
  · obtain ⟨top, ht, hs⟩ := top_bits hn hne
    rw [if_pos hp, ht, C.ok_bind, hs]
    obtain ⟨h3, h4⟩ := pow_of_test h2 (by omega) hp
    generalize mp_bitlen (BitVec.ofNat 64 (b - 1)) = w at h3 h4
    rw [h3, digits_len h4 hpos]
  · rw [if_neg hp]
    have hbn : (BitVec.ofNat 64 b).toNat = b := by rw [BitVec.toNat_ofNat]; omega
    obtain ⟨den, hd, hden⟩ := small_2by1 (BitVec.ofNat 64 b) (fun e => by rw [e] at hbn; simp at hbn; omega)
    obtain ⟨ds, hds, hm⟩ := digits_loop (BitVec.ofNat 64 b) (by omega) den hden (64 * a.length + 1) a hn hne
      (Nat.lt_of_lt_of_le (val_lt a) (Nat.pow_le_pow_right (by decide) (by omega)))
    rw [hd, C.ok_bind, hds, C.ok_bind, ← List.length_map (f := BitVec.toNat), hm, hbn]

theorem mpn_sizeinbase_abort (xp : List Limb) (b : Int) (h : b < 2) : mpn_sizeinbase xp b = .abort := by
  unfold mpn_sizeinbase
  have : ¬ (2 : Int) ≤ b := by omega
  simp only [C.check, this, decide_false, Bool.false_eq_true, if_false, C.abort_bind]

/-- The digits found by the three branches of `mpn_get_str`. -/
theorem get_str_digits (a : List Limb) (hn : Norm a) (hne : a ≠ []) (b : Nat) (h2 : 2 ≤ b) (h62 : b ≤ 62) :
    ∃ ds, (if b = 2 ∨ b = 4 ∨ b = 16 then
        mpn_pow_digits (BitVec.ofNat 64 (b - 1)) (mp_bitlen (BitVec.ofNat 64 (b - 1))) a
      else if b &&& (b - 1) = 0 then do
        let top ← C.rd a (a.length - 1)
        let bits := a.length * 64 - mp_clz top
        mpn_bits_digits a bits (mp_bitlen (BitVec.ofNat 64 (b - 1))) bits 0
      else do
        let den ← mpn_divmod_init_1 (BitVec.ofNat 64 b)
        mpn_digits_loop den (64 * a.length + 1) a) = .ok ds ∧ ds.map BitVec.toNat = Nat.digits b (val a) := by
  have hpos := Mpi.val_pos hn hne
  by_cases hs : b = 2 ∨ b = 4 ∨ b = 16
  · rw [if_pos hs]
    rcases hs with rfl | rfl | rfl
    · exact pow_digits 1 (by decide) (by decide) (by decide) a hn hne
    · exact pow_digits 2 (by decide) (by decide) (by decide) a hn hne
    · exact pow_digits 4 (by decide) (by decide) (by decide) a hn hne
  rw [if_neg hs]
  by_cases hp : b &&& (b - 1) = 0
  · obtain ⟨top, ht, hs⟩ := top_bits hn hne
    rw [if_pos hp, ht, C.ok_bind]
    dsimp only
    rw [hs]
    obtain ⟨h3, h4, h5⟩ := pow_shift b h2 h62 hp
    generalize mp_bitlen (BitVec.ofNat 64 (b - 1)) = w at h3 h4 h5
    have := bits_digits a w h5 h4 (Nat.size (val a)) 0 (by simpa using hpos) (by simpa using Nat.lt_size_self _)
    rw [Nat.pow_zero, Nat.div_one, ← h3] at this
    exact this
  · rw [if_neg hp]
    have hbn : (BitVec.ofNat 64 b).toNat = b := by rw [BitVec.toNat_ofNat]; omega
    obtain ⟨den, hd, hden⟩ := small_2by1 (BitVec.ofNat 64 b) (fun e => by rw [e] at hbn; simp at hbn; omega)
    obtain ⟨ds, hds, hm⟩ := digits_loop (BitVec.ofNat 64 b) (by omega) den hden (64 * a.length + 1) a hn hne
      (Nat.lt_of_lt_of_le (val_lt a) (Nat.pow_le_pow_right (by decide) (by omega)))
    rw [hbn] at hm
    rw [hd, C.ok_bind]
    exact ⟨ds, hds, hm⟩

/-- `mpn_get_str` writes the numeral, in every base from 2 to 62. -/
theorem mpn_get_str_exact (xp : List Limb) (b : Nat) (h2 : 2 ≤ b) (h62 : b ≤ 62) :
    mpn_get_str xp b = .ok (numeral b (val xp)) := by
  unfold mpn_get_str numeral
  have h2' : (2 : Int) ≤ b ∧ (b : Int) ≤ 62 := by omega
  simp only [C.check, h2', and_self, decide_true, if_true, C.ok_bind, Int.toNat_natCast]
  have hn := strip_norm xp
  have hv := strip_val xp
  generalize mpn_strip xp = a at hn hv
  rw [← hv]
  by_cases h0 : a.length = 0
  · have : a = [] := List.length_eq_zero_iff.1 h0
    subst this
    rfl
  rw [if_neg h0]
  have hne : a ≠ [] := fun e => h0 (by rw [e]; rfl)
  have hpos := Mpi.val_pos hn hne
  rw [if_neg (by omega : ¬ val a = 0)]
  obtain ⟨ds, hds, hm⟩ := get_str_digits a hn hne b h2 h62
  rw [hds, C.ok_bind, str_chars b h62 ds, C.ok_bind]
  · have := swap_rev (ds.map fun d => charOf b d.toNat) [] [] rfl
    simp only [List.nil_append, List.append_nil, List.length_nil, Nat.zero_add] at this
    rw [Nat.shiftRight_one, this, ← hm, ← List.map_reverse, List.map_reverse, List.map_reverse, List.map_map]
    rfl
  · intro d hd
    have : d.toNat ∈ Nat.digits b (val a) := by
      rw [← hm]; exact List.mem_map_of_mem hd
    exact Nat.digits_lt_base (by omega) this

theorem mpn_get_str_abort (xp : List Limb) (b : Int) (h : b < 2 ∨ 62 < b) : mpn_get_str xp b = .abort := by
  unfold mpn_get_str
  have : ¬ ((2 : Int) ≤ b ∧ b ≤ 62) := by omega
  simp only [C.check, this, decide_false, Bool.false_eq_true, if_false, C.abort_bind]

/-- `mpz_get_str` writes the signed numeral inside the memory it allocates. -/
theorem mpz_get_str_exact {x : Mpz} {i : Int} (hx : Rep x i) (b : Nat) (h2 : 2 ≤ b) (h62 : b ≤ 62) :
    mpz_get_str x b = .ok (signedNumeral b i) := by
  unfold mpz_get_str mpz_sizeinbase signedNumeral
  rw [mpn_sizeinbase_exact x.mag b h2 (by omega), C.ok_bind, mpn_get_str_exact x.mag b h2 h62, C.ok_bind, rep_abs hx]
  rw [if_neg]
  · have hs : x.size < 0 ↔ i < 0 := by
      rw [← rep_neg hx]
      unfold Mpz.size
      have := hx.1.2
      cases hneg : x.neg with
      | false => simp
      | true =>
        have hne : x.mag ≠ [] := this hneg
        have := List.length_pos_of_ne_nil hne
        simp only [if_true, iff_true]
        omega
    by_cases hi : i < 0
    · rw [if_pos (hs.2 hi), if_pos hi]; rfl
    · rw [if_neg (mt hs.1 hi), if_neg hi]
  · unfold numeral
    split
    · simp
    · simp

/-- `mpz_set_str` accepts exactly the numerals of the base (2 to 62, or 0 for the base announced by the
prefix) and gives their integer. -/
theorem mpz_set_str_exact (b : Nat) (hb : b = 0 ∨ 2 ≤ b ∧ b ≤ 62) (s : List Byte) (h0 : 0 ∉ s) :
    (∀ i, parseInt b s = some i → ∃ z, mpz_set_str .heap s b = .ok (z, true) ∧ Rep z i) ∧
    (parseInt b s = none → mpz_set_str .heap s b = .ok (⟨false, []⟩, false)) := by
  have key := mpz_setstr b hb s h0
  constructor
  · intro i hi
    rw [hi] at key
    exact key
  · intro hi
    rw [hi] at key
    exact key

/-- Other bases are refused. -/
theorem mpz_set_str_bad_base (b : Int) (hb : b ≠ 0 ∧ b < 2 ∨ 62 < b) (s : List Byte) (h0 : 0 ∉ s) :
    mpz_set_str .heap s b = .ok (⟨false, []⟩, false) := mpz_setstr_base b hb s h0

/-- `mpn_set_str` into `zn` limbs accepts exactly the numerals whose number fits. -/
theorem mpn_set_str_exact (zn b : Nat) (h2 : 2 ≤ b) (h62 : b ≤ 62) (s : List Byte) (h0 : 0 ∉ s) :
    (∀ v, parseNat b s = some v → v < 2 ^ (64 * zn) →
      ∃ z, mpn_set_str zn s b = (z, true) ∧ z.length = zn ∧ val z = v) ∧
    ((∀ v, parseNat b s = some v → ¬ v < 2 ^ (64 * zn)) → mpn_set_str zn s b = (List.replicate zn 0, false)) := by
  have key := setstr_val zn b h2 h62 s h0
  cases hp : parseNat b s with
  | none =>
    rw [hp] at key
    exact ⟨fun v h => (by cases h), fun _ => key⟩
  | some w =>
    rw [hp] at key
    simp only at key
    constructor
    · intro v h hv
      cases h
      rw [if_pos hv] at key
      exact key
    · intro h
      rw [if_neg (h w rfl)] at key
      exact key

theorem digit_char {b d : Nat} (h62 : b ≤ 62) (hd : d < b) : digitOf b (charOf b d) = some d ∧
    isBlank (charOf b d) = false ∧ charOf b d ≠ 0 ∧ charOf b d ≠ 45 ∧ charOf b d ≠ 43 := by
  by_cases hb : b ≤ 36
  · have h1 : ∀ n : Fin 36, ∃ m : Byte, m = charOf 36 n.val ∧ digitOf 36 m = some n.val ∧ isBlank m = false ∧
        m ≠ 0 ∧ m ≠ 45 ∧ m ≠ 43 := by decide
    obtain ⟨m, hm, h2, h3⟩ := h1 ⟨d, by omega⟩
    have hc : charOf b d = m := by rw [hm]; unfold charOf; simp only [if_pos hb, le_refl, if_true]
    rw [hc]
    refine ⟨?_, h3⟩
    unfold digitOf at h2 ⊢
    simp only [if_pos hb, le_refl, if_true] at h2 ⊢
    rw [Option.filter_eq_some_iff] at h2 ⊢
    exact ⟨h2.1, by simpa using hd⟩
  · have h1 : ∀ n : Fin 62, ∃ m : Byte, m = charOf 62 n.val ∧ digitOf 62 m = some n.val ∧ isBlank m = false ∧
        m ≠ 0 ∧ m ≠ 45 ∧ m ≠ 43 := by decide
    obtain ⟨m, hm, h2, h3⟩ := h1 ⟨d, by omega⟩
    have h62' : ¬ (62 ≤ 36) := by decide
    have hc : charOf b d = m := by rw [hm]; unfold charOf; simp only [if_neg hb, if_neg h62']
    rw [hc]
    refine ⟨?_, h3⟩
    unfold digitOf at h2 ⊢
    simp only [if_neg hb, if_neg h62'] at h2 ⊢
    rw [Option.filter_eq_some_iff] at h2 ⊢
    exact ⟨h2.1, by simpa using hd⟩

theorem chars_parse {b : Nat} (h62 : b ≤ 62) : ∀ ds : List Nat, (∀ d ∈ ds, d < b) →
    ((ds.map (charOf b)).filter fun c => !isBlank c).mapM (digitOf b) = some ds
  | [], _ => rfl
  | d :: ds, h => by
    obtain ⟨h1, h2, -⟩ := digit_char h62 (h d (List.mem_cons_self ..))
    rw [List.map_cons, List.filter_cons_of_pos (by simp [h2]), List.mapM_cons, h1,
      chars_parse h62 ds (fun x hx => h x (List.mem_cons_of_mem _ hx))]
    rfl

/-- The numeral as characters of digits. -/
theorem numeral_digits {b : Nat} (h2 : 2 ≤ b) (v : Nat) : ∃ d ds, numeral b v = (d :: ds).map (charOf b) ∧
    (∀ x ∈ d :: ds, x < b) ∧ Nat.ofDigits b (d :: ds).reverse = v := by
  unfold numeral
  by_cases hv : v = 0
  · rw [if_pos hv]
    exact ⟨0, [], rfl, by simp; omega, by simp [hv]⟩
  · rw [if_neg hv]
    have hne : (Nat.digits b v).reverse ≠ [] := by
      simpa using Nat.digits_ne_nil_iff_ne_zero.2 hv
    obtain ⟨d, ds, e⟩ := List.exists_cons_of_ne_nil hne
    refine ⟨d, ds, by rw [e], fun x hx => ?_, ?_⟩
    · rw [← e] at hx
      exact Nat.digits_lt_base (by omega) (List.mem_reverse.1 hx)
    · rw [← e, List.reverse_reverse, Nat.ofDigits_digits]

/-- Reading a numeral gives the integer it was written for. -/
theorem parseInt_numeral (b : Nat) (h2 : 2 ≤ b) (h62 : b ≤ 62) (i : Int) :
    parseInt b (signedNumeral b i) = some i ∧ 0 ∉ signedNumeral b i := by
  obtain ⟨d, ds, hn, hd, hv⟩ := numeral_digits h2 i.natAbs
  obtain ⟨-, hbl, -, h45, h43⟩ := digit_char h62 (hd d (List.mem_cons_self ..))
  have hp : parseAbs b (numeral b i.natAbs) = some i.natAbs := by
    unfold parseAbs parseNat
    rw [if_neg (by omega), hn, chars_parse h62 _ hd, Option.map_some, hv]
  have hz : 0 ∉ numeral b i.natAbs := by
    rw [hn]
    intro h
    obtain ⟨x, hx, e⟩ := List.mem_map.1 h
    exact (digit_char h62 (hd x hx)).2.2.1 e
  unfold signedNumeral parseInt
  by_cases hi : i < 0
  · rw [if_pos hi]
    refine ⟨?_, by simpa using hz⟩
    rw [List.dropWhile_cons_of_neg (by decide)]
    simp only [parseSigned, if_true, hp, BitVec.ofNat_eq_ofNat, Option.map_some, Option.some.injEq, Option.bind_eq_bind,
      Option.bind_some, pure]
    omega
  · rw [if_neg hi]
    refine ⟨?_, hz⟩
    rw [hn, List.map_cons, List.dropWhile_cons_of_neg (by simp [hbl])]
    rw [hn, List.map_cons] at hp
    simp only [parseSigned]
    rw [if_neg (show ¬ charOf b d = 45#8 from h45), if_neg (show ¬ charOf b d = 43#8 from h43), hp]
    simp only [Option.map_some, Option.some.injEq, Option.bind_eq_bind, Option.bind_some, pure]
    omega

/-- Writing an integer and reading it back. -/
theorem mpz_str_round_trip {x : Mpz} {i : Int} (hx : Rep x i) (b : Nat) (h2 : 2 ≤ b) (h62 : b ≤ 62) :
    ∃ s, mpz_get_str x b = .ok s ∧ ∃ z, mpz_set_str .heap s b = .ok (z, true) ∧ Rep z i := by
  obtain ⟨h1, h3⟩ := parseInt_numeral b h2 h62 i
  exact ⟨_, mpz_get_str_exact hx b h2 h62, (mpz_set_str_exact b (Or.inr ⟨h2, h62⟩) _ h3).1 i h1⟩

/-- Also a string without any digit is accepted, as zero. -/
theorem mpz_set_str_empty (b : Nat) (hb : b = 0 ∨ 2 ≤ b ∧ b ≤ 62) :
    ∃ z, mpz_set_str .heap [45] b = .ok (z, true) ∧ Rep z 0 := by
  refine (mpz_set_str_exact b hb [45] (by decide)).1 0 ?_
  have : parseAbs b [] = some 0 := by
    unfold parseAbs
    split <;> rfl
  simp only [parseInt, List.dropWhile_cons_of_neg (show ¬ isBlank 45 = true by decide), parseSigned]
  simp [this]

-- "-1z" in base 36 is -71; " 0x F" is 15
example : mpz_get_str ⟨true, [71]⟩ 36 = .ok [45, 49, 122] := by decide
example : mpz_set_str .heap [32, 48, 120, 32, 70] 0 = .ok (⟨false, [15]⟩, true) := by decide +kernel
example : Rep ⟨true, [71]⟩ (-71) := ⟨⟨by decide, by decide⟩, by decide⟩

end Torsion
