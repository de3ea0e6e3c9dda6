import Verif.Cipher.Spec

/-!
# Lemmas: PKCS#7 padding
-/
namespace Torsion.Ciph

/-- A truth value as a 32-bit word. -/
def b32 (p : Prop) [Decidable p] : BitVec 32 := if p then 1 else 0

theorem b32_pos {p : Prop} [Decidable p] (h : p) : b32 p = 1 := if_pos h
theorem b32_neg {p : Prop} [Decidable p] (h : ¬ p) : b32 p = 0 := if_neg h

theorem b32_and {p q : Prop} [Decidable p] [Decidable q] : b32 p &&& b32 q = b32 (p ∧ q) := by
  by_cases hp : p <;> by_cases hq : q <;> simp [b32, hp, hq]

theorem b32_or {p q : Prop} [Decidable p] [Decidable q] : b32 p ||| b32 q = b32 (p ∨ q) := by
  by_cases hp : p <;> by_cases hq : q <;> simp [b32, hp, hq]

theorem b32_not {p : Prop} [Decidable p] : b32 p ^^^ 1 = b32 (¬ p) := by
  by_cases hp : p <;> simp [b32, hp]

theorem b32_congr {p q : Prop} [Decidable p] [Decidable q] (h : p ↔ q) : b32 p = b32 q := by
  by_cases hp : p
  · rw [b32_pos hp, b32_pos (h.1 hp)]
  · rw [b32_neg hp, b32_neg (fun hq => hp (h.2 hq))]

theorem and_neg_b32 {p : Prop} [Decidable p] (x : BitVec 32) : x &&& -(b32 p) = if p then x else 0 := by
  by_cases hp : p
  · rw [b32_pos hp, if_pos hp, show (-(1 : BitVec 32)) = BitVec.allOnes 32 by decide, BitVec.and_allOnes]
  · rw [b32_neg hp, if_neg hp]; simp

theorem sr31 (x : BitVec 32) : x >>> 31 = b32 (2 ^ 31 ≤ x.toNat) := by
  apply BitVec.eq_of_toNat_eq
  have := x.isLt
  rw [BitVec.toNat_ushiftRight, Nat.shiftRight_eq_div_pow]
  by_cases h : 2 ^ 31 ≤ x.toNat
  · rw [b32_pos h, show (1 : BitVec 32).toNat = 1 from rfl]; omega
  · rw [b32_neg h, show (0 : BitVec 32).toNat = 0 from rfl]; omega

/-- `(a - b) >> 31` is `a < b` for words below `2^31`. -/
theorem lt31 {a b : BitVec 32} (ha : a.toNat < 2 ^ 31) (hb : b.toNat < 2 ^ 31) :
    (a - b) >>> 31 = b32 (a.toNat < b.toNat) := by
  rw [sr31]
  apply b32_congr
  rw [BitVec.toNat_sub]
  omega

/-- `(x - 1) >> 31` is `x == 0` for words below `2^31`. -/
theorem zero31 {a : BitVec 32} (ha : a.toNat < 2 ^ 31) : (a - 1) >>> 31 = b32 (a.toNat = 0) := by
  rw [lt31 ha (by decide)]
  apply b32_congr
  rw [show (1 : BitVec 32).toNat = 1 from rfl]; omega

theorem xor_small (ch : Byte) (left : BitVec 32) (hl : left.toNat < 256) :
    (((ch.zeroExtend 32 ^^^ left) - 1) >>> 31) = b32 (ch.toNat = left.toNat) := by
  have h1 : (ch.zeroExtend 32).toNat = ch.toNat := by
    rw [BitVec.toNat_setWidth]; have := ch.isLt; omega
  have h2 : (ch.zeroExtend 32 ^^^ left).toNat < 256 := by
    rw [BitVec.toNat_xor, h1]
    exact Nat.xor_lt_two_pow (n := 8) ch.isLt hl
  rw [zero31 (by omega)]
  apply b32_congr
  rw [BitVec.toNat_xor, h1]
  constructor
  · intro h
    have := congrArg (· ^^^ left.toNat) h
    simpa [Nat.xor_assoc] using this
  · intro h; rw [h]; simp

theorem loop_val (src : List Byte) (lim left : BitVec 32) (hn : src.length < 2 ^ 31)
    (hl : left.toNat < 256) (hlim : lim.toNat < 2 ^ 31) :
    ∀ (k i : Nat) (p : Prop) [Decidable p], i + k = src.length →
    pkcs7_loop src lim left k (BitVec.ofNat 32 i) (b32 p) =
      .ok (b32 (p ∧ ∀ j, j < src.length → i ≤ j → j < lim.toNat ∨ (src.getD j 0).toNat = left.toNat))
  | 0, i, p, _, h => by
    rw [pkcs7_loop]
    congr 1
    apply b32_congr
    constructor
    · exact fun hp => ⟨hp, fun j h1 h2 => by omega⟩
    · exact fun h => h.1
  | k + 1, i, p, _, h => by
    have hi : (BitVec.ofNat 32 i).toNat = i := by
      rw [BitVec.toNat_ofNat]; exact Nat.mod_eq_of_lt (by omega)
    rw [pkcs7_loop, hi, C.rd, List.getElem?_eq_getElem (show i < src.length by omega)]
    rw [C.ok_bind, lt31 (by rw [hi]; omega) hlim, xor_small _ _ hl, b32_or, b32_and, hi,
      show BitVec.ofNat 32 i + 1 = BitVec.ofNat 32 (i + 1) from (BitVec.ofNat_add i 1).symm,
      loop_val src lim left hn hl hlim k (i + 1) _ (by omega)]
    congr 1
    apply b32_congr
    constructor
    · rintro ⟨⟨h1, h2⟩, h3⟩
      refine ⟨h1, fun j hj hij => ?_⟩
      rcases Nat.lt_or_ge i j with h4 | h4
      · exact h3 j hj h4
      · have : j = i := by omega
        subst this
        rw [List.getD_eq_getElem?_getD, List.getElem?_eq_getElem hj]; exact h2
    · rintro ⟨h1, h2⟩
      refine ⟨⟨h1, ?_⟩, fun j hj hij => h2 j hj (by omega)⟩
      have := h2 i (by omega) (Nat.le_refl _)
      rw [List.getD_eq_getElem?_getD, List.getElem?_eq_getElem (show i < src.length by omega)] at this
      exact this

/-- What the branch-free arithmetic computes. -/
theorem unpad_val (b : List Byte) (h1 : 1 ≤ b.length) (h2 : b.length < 2 ^ 31) :
    pkcs7_unpad b =
      (if 1 ≤ (b.getD (b.length - 1) 0).toNat ∧ (b.getD (b.length - 1) 0).toNat ≤ b.length ∧
          ∀ j, j < b.length → b.length - (b.getD (b.length - 1) 0).toNat ≤ j →
            b.getD j 0 = b.getD (b.length - 1) 0
       then .ok (1, b.length - (b.getD (b.length - 1) 0).toNat, b) else .ok (0, 0, b)) := by
  have hbs : (BitVec.ofNat 32 b.length).toNat = b.length := by
    rw [BitVec.toNat_ofNat]; exact Nat.mod_eq_of_lt (by omega)
  have hb1 : (BitVec.ofNat 32 b.length - 1).toNat = b.length - 1 := by
    rw [BitVec.toNat_sub, hbs, show (1 : BitVec 32).toNat = 1 from rfl]; omega
  unfold pkcs7_unpad
  dsimp only
  rw [hb1, C.rd, List.getElem?_eq_getElem (show b.length - 1 < b.length by omega)]
  rw [C.ok_bind]
  have hgd : b.getD (b.length - 1) 0 = b[b.length - 1] := by
    rw [List.getD_eq_getElem?_getD, List.getElem?_eq_getElem (show b.length - 1 < b.length by omega)]; rfl
  rw [hgd]
  generalize hL : b[b.length - 1] = L
  have hLt := L.isLt
  have hL32 : (L.zeroExtend 32).toNat = L.toNat := by
    rw [BitVec.toNat_setWidth]; omega
  have e1 : ((L.zeroExtend 32 - 1) >>> 31) ^^^ 1 = b32 (1 ≤ L.toNat) := by
    rw [zero31 (by omega), b32_not]
    apply b32_congr; omega
  have e2 : (L.zeroExtend 32 - BitVec.ofNat 32 b.length - 1) >>> 31 = b32 (L.toNat ≤ b.length) := by
    rw [sr31]
    apply b32_congr
    rw [BitVec.toNat_sub, BitVec.toNat_sub, hL32, hbs, show (1 : BitVec 32).toNat = 1 from rfl]
    omega
  have e0 : (1 : BitVec 32) = b32 True := (b32_pos trivial).symm
  rw [e1, e2]
  conv_lhs => rw [e0]
  rw [b32_and, b32_and, and_neg_b32]
  by_cases hr : (True ∧ 1 ≤ L.toNat) ∧ L.toNat ≤ b.length
  · rw [if_pos hr]
    have hlim : (BitVec.ofNat 32 b.length - L.zeroExtend 32).toNat = b.length - L.toNat := by
      rw [BitVec.toNat_sub, hL32, hbs]; omega
    rw [hbs, show (0 : BitVec 32) = BitVec.ofNat 32 0 from rfl,
      loop_val b _ _ h2 (by omega) (by omega) b.length 0 _ (by omega), C.ok_bind, and_neg_b32, hlim, hL32]
    by_cases hc : 1 ≤ L.toNat ∧ L.toNat ≤ b.length ∧
          ∀ j, j < b.length → b.length - L.toNat ≤ j → b.getD j 0 = L
    · have hc' : ((True ∧ 1 ≤ L.toNat) ∧ L.toNat ≤ b.length) ∧ ∀ j, j < b.length → 0 ≤ j →
          j < b.length - L.toNat ∨ (b.getD j 0).toNat = L.toNat := by
        refine ⟨hr, fun j hj _ => ?_⟩
        rcases Nat.lt_or_ge j (b.length - L.toNat) with h | h
        · exact .inl h
        · exact .inr (congrArg _ (hc.2.2 j hj h))
      rw [if_pos hc, b32_pos hc', if_pos hc', hlim]
    · have hc' : ¬ (((True ∧ 1 ≤ L.toNat) ∧ L.toNat ≤ b.length) ∧ ∀ j, j < b.length → 0 ≤ j →
          j < b.length - L.toNat ∨ (b.getD j 0).toNat = L.toNat) := by
        rintro ⟨h3, h4⟩
        refine hc ⟨h3.1.2, h3.2, fun j hj hij => ?_⟩
        rcases h4 j hj (Nat.zero_le _) with h | h
        · omega
        · exact BitVec.eq_of_toNat_eq h
      rw [if_neg hc, b32_neg hc', if_neg hc']
      rfl
  · rw [if_neg hr, if_neg (fun h => hr ⟨⟨trivial, h.1⟩, h.2.1⟩)]
    have hlim : (BitVec.ofNat 32 b.length - 0).toNat = b.length := by
      rw [BitVec.toNat_sub, hbs, show (0 : BitVec 32).toNat = 0 from rfl]; omega
    conv_lhs => enter [1, 4]; rw [hbs]
    rw [show (0 : BitVec 32) = BitVec.ofNat 32 0 from rfl] at *
    rw [loop_val b _ _ h2 (by decide) (by omega) b.length 0 _ (by omega), C.ok_bind,
      b32_neg (fun h => hr h.1)]
    rw [show (-(0 : BitVec 32)) = 0 by decide]
    simp

end Torsion.Ciph
