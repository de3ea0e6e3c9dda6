import Verif.Encoding.Bech32
import Verif.Encoding.BitsLemmas
import Mathlib.Tactic.Linarith

/-! # Lemmas for convert_bits -/
namespace Torsion
open Spec

theorem natBits_split (d r n : Nat) :
    natBits (d + r) n = natBits d (n / 2 ^ r) ++ natBits r n := by
  induction r generalizing n with
  | zero => simp [natBits]
  | succ r ih =>
    rw [← Nat.add_assoc, natBits_succ, ih, natBits_succ r, Nat.div_div_eq_div_mul,
      ← pow_succ', List.append_assoc]

theorem natBits_mod_le {r w : Nat} (n : Nat) (h : r ≤ w) : natBits r (n % 2 ^ w) = natBits r n := by
  rw [← natBits_mod r, ← natBits_mod r n, Nat.mod_mod_of_dvd _ (Nat.pow_dvd_pow 2 h)]

theorem natBits_zero (r : Nat) : natBits r 0 = List.replicate r false := by
  induction r with
  | zero => rfl
  | succ r ih => rw [natBits_succ, Nat.zero_div, ih, List.replicate_succ']; simp

theorem convert_emit_succ (d acc n bits : Nat) : convert_emit d acc (n + 1) bits =
    if bits ≥ d then
      (BitVec.ofNat 8 ((acc >>> (bits - d)) &&& (2 ^ d - 1)) :: (convert_emit d acc n (bits - d)).1,
        (convert_emit d acc n (bits - d)).2)
    else ([], bits) := rfl

theorem convert_loop_cons (w s d acc bits : Nat) (x : Byte) (src : List Byte) :
    convert_loop w s d acc bits (x :: src) =
      let A := ((acc <<< s) ||| x.toNat) % 2 ^ w
      let E := convert_emit d A (bits + s) (bits + s)
      let R := convert_loop w s d A E.2 src
      (E.1 ++ R.1, R.2.1, R.2.2) := rfl

theorem convert_bits_eq (w d : Nat) (src : List Byte) (s : Nat) (pad : Bool) :
    convert_bits w d src s pad =
      let L := convert_loop w s d 0 0 src
      let last := (L.2.1 <<< (d - L.2.2)) &&& (2 ^ d - 1)
      if pad then
        if L.2.2 ≠ 0 then ⟨L.1 ++ [BitVec.ofNat 8 last], true⟩ else ⟨L.1, true⟩
      else if last ≠ 0 ∨ L.2.2 ≥ s then ⟨L.1, false⟩
      else ⟨L.1, true⟩ := rfl

theorem emit_eq {d : Nat} (hd : 0 < d) (hd8 : d ≤ 8) (acc : Nat) : ∀ (n bits : Nat), bits ≤ n →
    (convert_emit d acc n bits).2 < d ∧
    natBits bits acc = bitsK d ((convert_emit d acc n bits).1.map (·.toNat)) ++
      natBits (convert_emit d acc n bits).2 acc ∧
    ∀ v ∈ (convert_emit d acc n bits).1.map (·.toNat), v < 2 ^ d
  | 0, bits, h => by
    have : bits = 0 := by omega
    subst this
    simp [convert_emit, hd]
  | n + 1, bits, h => by
    rw [convert_emit_succ]
    by_cases hb : bits ≥ d
    · obtain ⟨i1, i2, i3⟩ := emit_eq hd hd8 acc n (bits - d) (by omega)
      rw [if_pos hb]
      have hv : (BitVec.ofNat 8 ((acc >>> (bits - d)) &&& (2 ^ d - 1))).toNat =
          acc / 2 ^ (bits - d) % 2 ^ d := by
        rw [Nat.and_two_pow_sub_one_eq_mod, Nat.shiftRight_eq_div_pow, BitVec.toNat_ofNat]
        apply Nat.mod_eq_of_lt
        exact lt_of_lt_of_le (Nat.mod_lt _ (by positivity)) (Nat.pow_le_pow_right (by omega) hd8)
      dsimp only
      refine ⟨i1, ?_, ?_⟩
      · rw [List.map_cons, bitsK_cons, hv, natBits_mod, List.append_assoc, ← i2,
          ← natBits_split, Nat.add_sub_cancel' hb]
      · intro v hvm
        rw [List.map_cons, hv] at hvm
        rcases List.mem_cons.1 hvm with rfl | hvm
        · exact Nat.mod_lt _ (by positivity)
        · exact i3 v hvm
    · rw [if_neg hb]
      simp; omega

theorem loop_eq {d s w : Nat} (hd : 0 < d) (hd8 : d ≤ 8) (hw : s + d ≤ w + 1) :
    ∀ (src : List Byte) (acc b : Nat), b < d → (∀ x ∈ src, x.toNat < 2 ^ s) →
    (convert_loop w s d acc b src).2.2 < d ∧
    natBits b acc ++ bitsK s (src.map (·.toNat)) =
      bitsK d ((convert_loop w s d acc b src).1.map (·.toNat)) ++
        natBits (convert_loop w s d acc b src).2.2 (convert_loop w s d acc b src).2.1 ∧
    ∀ v ∈ (convert_loop w s d acc b src).1.map (·.toNat), v < 2 ^ d
  | [], acc, b, hb, _ => by simp [convert_loop, hb]
  | x :: src, acc, b, hb, hx => by
    have hx0 := hx x (by simp)
    obtain ⟨e1, e2, e3⟩ := emit_eq hd hd8 (((acc <<< s) ||| x.toNat) % 2 ^ w) (b + s) (b + s)
      (Nat.le_refl _)
    have hor : (acc <<< s) ||| x.toNat = acc * 2 ^ s + x.toNat := by
      rw [← Nat.shiftLeft_add_eq_or_of_lt hx0, Nat.shiftLeft_eq]
    have hacc : natBits (b + s) (((acc <<< s) ||| x.toNat) % 2 ^ w) =
        natBits b acc ++ natBits s x.toNat := by
      rw [natBits_mod_le _ (by omega), hor, natBits_split]
      have h1 : (acc * 2 ^ s + x.toNat) / 2 ^ s = acc := by
        rw [Nat.add_comm, Nat.add_mul_div_right _ _ (by positivity), Nat.div_eq_of_lt hx0,
          Nat.zero_add]
      have h2 : natBits s (acc * 2 ^ s + x.toNat) = natBits s x.toNat := by
        rw [← natBits_mod s (acc * 2 ^ s + x.toNat), Nat.mul_add_mod_self_right, natBits_mod]
      rw [h1, h2]
    rw [convert_loop_cons]
    dsimp only
    generalize hE : convert_emit d (((acc <<< s) ||| x.toNat) % 2 ^ w) (b + s) (b + s) = E at *
    obtain ⟨i1, i2, i3⟩ := loop_eq hd hd8 hw src (((acc <<< s) ||| x.toNat) % 2 ^ w) E.2 e1
      (fun y hy => hx y (by simp [hy]))
    refine ⟨i1, ?_, ?_⟩
    · rw [List.map_append, bitsK_append, List.append_assoc, ← i2, List.map_cons, bitsK_cons,
        ← List.append_assoc, ← List.append_assoc, ← e2, hacc]
    · intro v hv
      rw [List.map_append] at hv
      rcases List.mem_append.1 hv with h | h
      · exact e3 v h
      · exact i3 v h

theorem natBits_pad {d r : Nat} (acc : Nat) (h : r ≤ d) :
    natBits d ((acc <<< (d - r)) &&& (2 ^ d - 1)) = natBits r acc ++ List.replicate (d - r) false := by
  rw [Nat.and_two_pow_sub_one_eq_mod, natBits_mod, Nat.shiftLeft_eq]
  conv_lhs => rw [show d = r + (d - r) by omega]
  rw [Nat.add_sub_cancel_left, natBits_split, Nat.mul_div_cancel _ (by positivity)]
  congr 1
  rw [← natBits_mod, Nat.mul_mod_left, natBits_zero]

/-- Padding conversion: exactly the bit groups. -/
theorem convert_pad {d s w : Nat} (hd : 0 < d) (hd8 : d ≤ 8) (hw : s + d ≤ w + 1)
    (src : List Byte) (hs : ∀ x ∈ src, x.toNat < 2 ^ s) :
    (convert_bits w d src s true).ret = true ∧
    (convert_bits w d src s true).dst.map (·.toNat) = groups d (bitsK s (src.map (·.toNat))) := by
  obtain ⟨i1, i2, i3⟩ := loop_eq hd hd8 hw src 0 0 hd hs
  have hn : natBits 0 0 = [] := rfl
  rw [hn, List.nil_append] at i2
  rw [convert_bits_eq]
  dsimp only
  generalize convert_loop w s d 0 0 src = L at *
  rw [if_pos rfl]
  by_cases hb : L.2.2 ≠ 0
  · rw [if_pos hb]
    refine ⟨rfl, ?_⟩
    symm
    have hlt : (L.2.1 <<< (d - L.2.2)) &&& (2 ^ d - 1) < 2 ^ d := by
      rw [Nat.and_two_pow_sub_one_eq_mod]; exact Nat.mod_lt _ (by positivity)
    have hv : (BitVec.ofNat 8 ((L.2.1 <<< (d - L.2.2)) &&& (2 ^ d - 1))).toNat =
        (L.2.1 <<< (d - L.2.2)) &&& (2 ^ d - 1) := by
      rw [BitVec.toNat_ofNat]
      exact Nat.mod_eq_of_lt (lt_of_lt_of_le hlt (Nat.pow_le_pow_right (by omega) hd8))
    dsimp only
    rw [List.map_append, List.map_cons, List.map_nil, hv]
    apply groups_of_bitsK hd _ _ (d - L.2.2)
    · intro v hvm
      rcases List.mem_append.1 hvm with h | h
      · exact i3 v h
      · rw [List.mem_singleton] at h; rw [h]; exact hlt
    · omega
    · rw [bitsK_append, i2, bitsK_cons, bitsK_nil, List.append_nil, natBits_pad _ (by omega),
        List.append_assoc]
  · rw [if_neg hb]
    refine ⟨rfl, ?_⟩
    symm
    apply groups_of_bitsK hd _ _ 0 i3 hd
    simp only [ne_eq, not_not] at hb
    rw [i2, hb]
    simp [natBits]

/-- Conversion without padding succeeds exactly when the left-over bits are zero and too few to
hold a whole input symbol. -/
theorem convert_nopad {d s w : Nat} (hd : 0 < d) (hd8 : d ≤ 8) (hw : s + d ≤ w + 1)
    (src : List Byte) (hs : ∀ x ∈ src, x.toNat < 2 ^ s) (dst : List Byte)
    (hdst : ∀ x ∈ dst, x.toNat < 2 ^ d) :
    convert_bits w d src s false = ⟨dst, true⟩ ↔
      ∃ z, z < d ∧ z < s ∧
        bitsK s (src.map (·.toNat)) = bitsK d (dst.map (·.toNat)) ++ List.replicate z false := by
  obtain ⟨i1, i2, i3⟩ := loop_eq hd hd8 hw src 0 0 hd hs
  have hn : natBits 0 0 = [] := rfl
  rw [hn, List.nil_append] at i2
  rw [convert_bits_eq]
  dsimp only
  generalize convert_loop w s d 0 0 src = L at *
  rw [if_neg (by simp)]
  have hlast : (L.2.1 <<< (d - L.2.2)) &&& (2 ^ d - 1) = 0 ↔
      natBits L.2.2 L.2.1 = List.replicate L.2.2 false := by
    have hp := natBits_pad (d := d) (r := L.2.2) L.2.1 (by omega)
    constructor
    · intro h
      rw [h, natBits_zero] at hp
      have := congrArg (List.take L.2.2) hp
      rw [List.take_left' (natBits_len _ _), List.take_replicate, Nat.min_eq_left (by omega)] at this
      exact this.symm
    · intro h
      rw [h, List.replicate_append_replicate, Nat.add_sub_cancel' (by omega), ← natBits_zero] at hp
      refine natBits_inj ?_ (by positivity) hp
      rw [Nat.and_two_pow_sub_one_eq_mod]; exact Nat.mod_lt _ (by positivity)
  constructor
  · intro h
    by_cases hc : (L.2.1 <<< (d - L.2.2)) &&& (2 ^ d - 1) ≠ 0 ∨ L.2.2 ≥ s
    · rw [if_pos hc] at h; simp at h
    · rw [if_neg hc] at h
      simp only [DecOut.mk.injEq, and_true] at h
      push Not at hc
      exact ⟨L.2.2, i1, hc.2, by rw [i2, hlast.1 hc.1, h]⟩
  · rintro ⟨z, h1, h2, h3⟩
    rw [i2] at h3
    have hlen := congrArg List.length h3
    rw [List.length_append, List.length_append, bitsK_len, bitsK_len, natBits_len,
      List.length_replicate, List.length_map, List.length_map] at hlen
    have hz : L.2.2 = z ∧ L.1.length = dst.length := by
      have m1 : (d * L.1.length + L.2.2) % d = L.2.2 := by
        rw [Nat.mul_add_mod, Nat.mod_eq_of_lt i1]
      have m2 : (d * dst.length + z) % d = z := by
        rw [Nat.mul_add_mod, Nat.mod_eq_of_lt h1]
      have e : L.2.2 = z := by rw [← m1, ← m2, hlen]
      refine ⟨e, ?_⟩
      have : d * L.1.length = d * dst.length := by omega
      exact Nat.eq_of_mul_eq_mul_left hd this
    have hle : (bitsK d (L.1.map (·.toNat))).length = (bitsK d (dst.map (·.toNat))).length := by
      rw [bitsK_len, bitsK_len, List.length_map, List.length_map, hz.2]
    obtain ⟨g1, g2⟩ := List.append_inj h3 hle
    have hdd : L.1 = dst := by
      have k1 := groups_of_bitsK hd (L.1.map (·.toNat)) (bitsK d (L.1.map (·.toNat))) 0 i3 hd (by simp)
      have k2 := groups_of_bitsK hd (dst.map (·.toNat)) (bitsK d (dst.map (·.toNat))) 0
        (by
          intro v hv
          obtain ⟨x, hx, rfl⟩ := List.mem_map.1 hv
          exact hdst x hx) hd (by simp)
      rw [g1, k2] at k1
      exact ((List.map_inj_right (fun a b h => BitVec.eq_of_toNat_eq h)).1 k1).symm
    rw [if_neg]
    · rw [hdd]
    · push Not
      refine ⟨hlast.2 ?_, by omega⟩
      rw [g2, hz.1]

/-- Number of bytes stored by a conversion without padding. -/
theorem convert_nopad_len {d s w : Nat} (hd : 0 < d) (hd8 : d ≤ 8) (hw : s + d ≤ w + 1)
    (src : List Byte) (hs : ∀ x ∈ src, x.toNat < 2 ^ s) :
    (convert_bits w d src s false).dst.length = s * src.length / d := by
  obtain ⟨i1, i2, i3⟩ := loop_eq hd hd8 hw src 0 0 hd hs
  have hn : natBits 0 0 = [] := rfl
  rw [hn, List.nil_append] at i2
  have hL : (convert_bits w d src s false).dst = (convert_loop w s d 0 0 src).1 := by
    rw [convert_bits_eq]; dsimp only
    rw [if_neg (by simp)]
    split <;> rfl
  rw [hL]
  have hlen := congrArg List.length i2
  rw [List.length_append, bitsK_len, bitsK_len, natBits_len, List.length_map,
    List.length_map] at hlen
  rw [hlen, Nat.mul_add_div hd, Nat.div_eq_of_lt i1, Nat.add_zero]

theorem bits_bitsK (b : List Byte) : bits b = bitsK 8 (b.map (·.toNat)) := by
  induction b with
  | nil => rfl
  | cons c b ih => rw [bits_cons, List.map_cons, bitsK_cons, ih, byteBits_eq]

theorem conv85 {w : Nat} (hw : 12 ≤ w) (hash : List Byte) :
    (convert_bits w 5 hash 8 true).ret = true ∧
    (convert_bits w 5 hash 8 true).dst.map (·.toNat) = groups 5 (bits hash) := by
  have := convert_pad (d := 5) (s := 8) (w := w) (by omega) (by omega) (by omega) hash
    (fun x _ => x.isLt)
  rw [bits_bitsK]; exact this

theorem conv58_iff {w : Nat} (hw : 12 ≤ w) (vs : List Byte) (hv : ∀ v ∈ vs, v.toNat < 32)
    (hash : List Byte) :
    convert_bits w 8 vs 5 false = ⟨hash, true⟩ ↔ vs.map (·.toNat) = groups 5 (bits hash) := by
  rw [convert_nopad (d := 8) (s := 5) (by omega) (by omega) (by omega) vs hv hash
    (fun x _ => x.isLt), ← bits_bitsK]
  constructor
  · rintro ⟨z, h1, h2, h3⟩
    symm
    exact groups_of_bitsK (by omega) _ _ z (by simpa using hv) h2 h3
  · intro h
    obtain ⟨_, z, hz, h2⟩ := bitsK_groups (k := 5) (by omega) (bits hash)
    exact ⟨z, by omega, hz, by rw [h, h2]⟩

end Torsion
