import Verif.Encoding.Base16Lemmas
import Mathlib.Tactic.Ring

/-!
# Lemmas about bit strings and groups of bits
-/
namespace Torsion
open Spec

/-- `w` bits of a number, most significant first. -/
def natBits (w n : Nat) : List Bool := (List.range w).reverse.map n.testBit

@[simp] theorem natBits_len (w n : Nat) : (natBits w n).length = w := by simp [natBits]

theorem bitsVal_append_single (l : List Bool) (b : Bool) :
    bitsVal (l ++ [b]) = 2 * bitsVal l + b.toNat := by
  simp [bitsVal, List.foldl_append]

theorem natBits_succ (w n : Nat) : natBits (w + 1) n = natBits w (n / 2) ++ [n.testBit 0] := by
  apply List.ext_getElem (by simp)
  intro i h1 h2
  simp only [natBits_len] at h1
  simp only [natBits, List.getElem_map, List.getElem_reverse, List.getElem_range, List.length_range,
    List.getElem_append, List.length_map, List.length_reverse]
  split
  · rw [← Nat.testBit_succ]; congr 1; omega
  · have : i = w := by omega
    subst this
    simp

theorem bitsVal_natBits : ∀ (w n : Nat), n < 2 ^ w → bitsVal (natBits w n) = n
  | 0, n, h => by simp at h; subst h; rfl
  | w + 1, n, h => by
    rw [natBits_succ, bitsVal_append_single, bitsVal_natBits w (n / 2) (by rw [Nat.pow_succ] at h; omega)]
    rw [Nat.testBit_zero]
    rcases Nat.mod_two_eq_zero_or_one n with h | h <;> simp [h]
    all_goals omega

theorem natBits_bitsVal (l : List Bool) : natBits l.length (bitsVal l) = l := by
  induction l using List.reverseRecOn with
  | nil => rfl
  | append_singleton l b ih =>
    rw [List.length_append, List.length_singleton, natBits_succ, bitsVal_append_single]
    have e1 : (2 * bitsVal l + b.toNat) / 2 = bitsVal l := by cases b <;> simp <;> omega
    have e2 : (2 * bitsVal l + b.toNat).testBit 0 = b := by
      rw [Nat.testBit_zero]; cases b <;> simp [Nat.add_mod]
    rw [e1, e2, ih]

theorem bitsVal_lt (l : List Bool) : bitsVal l < 2 ^ l.length := by
  induction l using List.reverseRecOn with
  | nil => simp [bitsVal]
  | append_singleton l b ih =>
    rw [List.length_append, List.length_singleton, bitsVal_append_single, Nat.pow_succ]
    cases b <;> simp
    all_goals omega

theorem natBits_inj {w a b : Nat} (ha : a < 2 ^ w) (hb : b < 2 ^ w)
    (h : natBits w a = natBits w b) : a = b := by
  rw [← bitsVal_natBits w a ha, ← bitsVal_natBits w b hb, h]

theorem byteBits_eq (b : Byte) : byteBits b = natBits 8 b.toNat := by
  simp [byteBits, natBits, BitVec.getLsbD, List.range, List.range.loop]

@[simp] theorem byteBits_len (b : Byte) : (byteBits b).length = 8 := rfl

theorem byteBits_inj {a b : Byte} (h : byteBits a = byteBits b) : a = b := by
  rw [byteBits_eq, byteBits_eq] at h
  exact BitVec.eq_of_toNat_eq (natBits_inj a.isLt b.isLt h)

theorem bits_len (l : List Byte) : (bits l).length = 8 * l.length := by
  induction l with
  | nil => rfl
  | cons b l ih => simp [bits] at *; omega

theorem bits_cons (b : Byte) (l : List Byte) : bits (b :: l) = byteBits b ++ bits l := rfl
theorem bits_append (a b : List Byte) : bits (a ++ b) = bits a ++ bits b := by simp [bits]

theorem bits_inj : ∀ {a b : List Byte}, bits a = bits b → a = b
  | [], [], _ => rfl
  | [], y :: b, h => by simp [bits, byteBits] at h
  | x :: a, [], h => by simp [bits, byteBits] at h
  | x :: a, y :: b, h => by
    rw [bits_cons, bits_cons] at h
    obtain ⟨h1, h2⟩ := List.append_inj h rfl
    rw [byteBits_inj h1, bits_inj h2]

/-- Concatenated `k`-bit representations. -/
def bitsK (k : Nat) (vs : List Nat) : List Bool := vs.flatMap (natBits k)

theorem bitsK_cons (k v : Nat) (vs : List Nat) : bitsK k (v :: vs) = natBits k v ++ bitsK k vs := rfl

@[simp] theorem bitsK_nil (k : Nat) : bitsK k [] = [] := rfl

theorem bitsK_append (k : Nat) (a b : List Nat) : bitsK k (a ++ b) = bitsK k a ++ bitsK k b := by
  simp [bitsK]

theorem bitsK_len (k : Nat) (vs : List Nat) : (bitsK k vs).length = k * vs.length := by
  induction vs with
  | nil => rfl
  | cons v vs ih => rw [bitsK_cons, List.length_append, ih, natBits_len, List.length_cons]; ring_nf

theorem groups_nil (k : Nat) : groups k [] = [] := by rw [groups]; simp

/-- Characterisation of `groups`: the groups are the numbers whose `k`-bit representations
spell the bit string followed by fewer than `k` zeros. -/
theorem groups_of_bitsK {k : Nat} (hk : 0 < k) : ∀ (vs : List Nat) (l : List Bool) (z : Nat),
    (∀ v ∈ vs, v < 2 ^ k) → z < k → bitsK k vs = l ++ List.replicate z false → groups k l = vs
  | [], l, z, _, _, h => by
    have : l = [] := by
      have := congrArg List.length h
      simp at this
      exact List.length_eq_zero_iff.1 (by omega)
    subst this
    exact groups_nil k
  | v :: vs, l, z, hv, hz, h => by
    have hl : l ≠ [] := by
      rintro rfl
      have := congrArg List.length h
      rw [bitsK_len] at this
      simp [Nat.mul_add] at this
      omega
    rw [groups, dif_neg (by simp [hl]; omega)]
    rw [bitsK_cons] at h
    have hlen := congrArg List.length h
    rw [List.length_append, List.length_append, natBits_len, bitsK_len, List.length_replicate] at hlen
    by_cases hc : k ≤ l.length
    · have h1 : natBits k v = l.take k := by
        have := congrArg (List.take k) h
        rw [List.take_left' (natBits_len k v), List.take_append_of_le_length hc] at this
        exact this
      have h2 : bitsK k vs = l.drop k ++ List.replicate z false := by
        have := congrArg (List.drop k) h
        rw [List.drop_left' (natBits_len k v), List.drop_append_of_le_length hc] at this
        exact this
      rw [groups_of_bitsK hk vs _ z (fun x hx => hv x (by simp [hx])) hz h2, ← h1,
        Nat.sub_eq_zero_of_le hc]
      simp [bitsVal_natBits k v (hv v (by simp))]
    · have hvs : vs = [] := by
        rcases vs with _ | ⟨w, ws⟩
        · rfl
        · simp [Nat.mul_add] at hlen
          omega
      subst hvs
      simp only [List.length_nil, Nat.mul_zero] at hlen
      have hz' : z = k - l.length := by omega
      rw [bitsK_nil, List.append_nil] at h
      rw [List.take_of_length_le (by omega), ← hz', ← h, bitsVal_natBits k v (hv v (by simp)),
        List.drop_eq_nil_of_le (by omega), groups_nil]

/-- Every bit string has such groups. -/
theorem bitsK_groups {k : Nat} (hk : 0 < k) (l : List Bool) :
    (∀ v ∈ groups k l, v < 2 ^ k) ∧
      ∃ z, z < k ∧ bitsK k (groups k l) = l ++ List.replicate z false := by
  induction hn : l.length using Nat.strong_induction_on generalizing l with
  | _ n ih =>
    by_cases hl : l = []
    · subst hl
      rw [groups_nil]
      exact ⟨by simp, 0, hk, by simp⟩
    · have hpos := List.length_pos_iff.2 hl
      rw [groups, dif_neg (by simp [hl]; omega)]
      obtain ⟨i1, z, hz, i2⟩ := ih (l.drop k).length (by rw [List.length_drop]; omega) _ rfl
      have hlenk : (l.take k ++ List.replicate (k - l.length) false).length = k := by
        simp; omega
      constructor
      · intro v hv
        rcases List.mem_cons.1 hv with rfl | hv
        · have := bitsVal_lt (l.take k ++ List.replicate (k - l.length) false)
          rwa [hlenk] at this
        · exact i1 v hv
      · rw [bitsK_cons]
        have hnb := natBits_bitsVal (l.take k ++ List.replicate (k - l.length) false)
        rw [hlenk] at hnb
        rw [hnb, i2]
        by_cases hc : k ≤ l.length
        · refine ⟨z, hz, ?_⟩
          rw [Nat.sub_eq_zero_of_le hc]
          simp [← List.append_assoc]
        · rw [List.drop_eq_nil_of_le (by omega), groups_nil] at i2
          have hz0 : z = 0 := by
            have := congrArg List.length i2
            simp at this; omega
          refine ⟨k - l.length, by omega, ?_⟩
          rw [List.drop_eq_nil_of_le (by omega), List.take_of_length_le (by omega), hz0]
          simp

theorem groups_len {k : Nat} (hk : 0 < k) (l : List Bool) :
    (groups k l).length = (l.length + (k - 1)) / k := by
  obtain ⟨_, z, hz, h⟩ := bitsK_groups hk l
  have := congrArg List.length h
  rw [bitsK_len, List.length_append, List.length_replicate] at this
  symm
  rw [Nat.div_eq_iff hk]
  constructor
  · rw [Nat.mul_comm]; omega
  · rw [Nat.mul_comm]; omega

/-- The last `r` bits of the `w`-bit representation are the `r`-bit representation. -/
theorem natBits_drop (w r n : Nat) (h : r ≤ w) : (natBits w n).drop (w - r) = natBits r n := by
  apply List.ext_getElem (by simp; omega)
  intro i h1 h2
  simp only [natBits_len] at h2
  simp only [natBits, List.getElem_drop, List.getElem_map, List.getElem_reverse,
    List.getElem_range, List.length_range]
  congr 1
  omega

theorem natBits_mod (r n : Nat) : natBits r (n % 2 ^ r) = natBits r n := by
  apply List.ext_getElem (by simp)
  intro i h1 h2
  simp only [natBits_len] at h1
  simp only [natBits, List.getElem_map, List.getElem_reverse,
    List.getElem_range, List.length_range, Nat.testBit_mod_two_pow]
  simp; omega

end Torsion
