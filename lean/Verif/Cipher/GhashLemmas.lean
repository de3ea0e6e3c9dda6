import Verif.Cipher.AeadSpec
import Verif.Cipher.SessionLemmas
import Verif.Mac.PolyLemmas
import Verif.Asn1.Lemmas

/-!
# GHASH: the table multiplication, buffering and padding
-/
namespace Torsion.Ciph
open Spec Blk

/-- A field element as a block. -/
def gval (x : Gfe) : BitVec 128 := x.lo ++ x.hi

theorem gval_bit (x : Gfe) (i : Nat) :
    (gval x).getLsbD i = if i < 64 then x.hi.getLsbD i else x.lo.getLsbD (i - 64) := by
  rw [gval, BitVec.getLsbD_append]

theorem gval_add (x y : Gfe) : gval (gfe_add x y) = gval x ^^^ gval y := by
  apply BitVec.eq_of_getLsbD_eq
  intro i _
  rw [BitVec.getLsbD_xor, gval_bit, gval_bit, gval_bit]
  split <;> simp [gfe_add]

theorem gcmShift_bit (v : BitVec 128) {i : Nat} (hi : i < 128) :
    (gcmShift v).getLsbD i = (v.getLsbD (i + 1) ^^ (v.getLsbD 0 && gcmR.getLsbD i)) := by
  rw [gcmShift]
  by_cases h : v.getLsbD 0 = true
  · rw [if_pos h, BitVec.getLsbD_xor, BitVec.getLsbD_ushiftRight, h, Nat.add_comm]; simp
  · rw [if_neg h, BitVec.getLsbD_ushiftRight, Nat.add_comm]
    rw [Bool.eq_false_iff.2 h, Bool.false_and, Bool.xor_false]

theorem gcmShift_xor (a b : BitVec 128) : gcmShift (a ^^^ b) = gcmShift a ^^^ gcmShift b := by
  apply BitVec.eq_of_getLsbD_eq
  intro i hi
  rw [BitVec.getLsbD_xor, gcmShift_bit _ hi, gcmShift_bit _ hi, gcmShift_bit _ hi, BitVec.getLsbD_xor,
    BitVec.getLsbD_xor]
  cases a.getLsbD (i + 1) <;> cases b.getLsbD (i + 1) <;> cases a.getLsbD 0 <;> cases b.getLsbD 0 <;> simp

theorem gcmShift_zero : gcmShift 0 = 0 := by decide

/-- Sum of the multiples of `v` for `k` bits of `x` from bit `i` on. -/
def gsum (x : BitVec 128) : Nat → Nat → BitVec 128 → BitVec 128
  | _, 0, _ => 0
  | i, k + 1, v => (if x.getMsbD i then v else 0) ^^^ gsum x (i + 1) k (gcmShift v)

theorem gsum_shift (x : BitVec 128) : ∀ (k i : Nat) (v : BitVec 128),
    gsum x i k (gcmShift v) = gcmShift (gsum x i k v)
  | 0, i, v => by rw [gsum, gsum, gcmShift_zero]
  | k + 1, i, v => by
    rw [gsum, gsum, gsum_shift x k, gcmShift_xor, gsum_shift x k]
    cases x.getMsbD i
    · rw [if_neg (by decide), if_neg (by decide), gcmShift_zero]
    · rfl

theorem gcmMul_fold (x : BitVec 128) : ∀ (k i : Nat) (z v : BitVec 128),
    ((List.range' i k).foldl (fun zv i => (if x.getMsbD i then zv.1 ^^^ zv.2 else zv.1, gcmShift zv.2)) (z, v)).1 =
      z ^^^ gsum x i k v
  | 0, i, z, v => by simp [gsum]
  | k + 1, i, z, v => by
    rw [List.range'_succ, List.foldl_cons, gcmMul_fold x k]
    dsimp only
    rw [gsum]
    cases x.getMsbD i
    · simp
    · simp [BitVec.xor_assoc]

theorem gcmMul_eq (x y : BitVec 128) : gcmMul x y = gsum x 0 128 y := by
  rw [gcmMul, List.range_eq_range', gcmMul_fold]; simp

/-- Four bits at once. -/
theorem gsum_four (x : BitVec 128) (i k : Nat) (v : BitVec 128) :
    gsum x i (k + 4) v = gsum x i 4 v ^^^ gcmShift (gcmShift (gcmShift (gcmShift (gsum x (i + 4) k v)))) := by
  rw [← gsum_shift, ← gsum_shift, ← gsum_shift, ← gsum_shift]
  simp only [gsum, BitVec.xor_assoc]
  rw [show (0 : BitVec 128) = 0#128 from rfl, BitVec.zero_xor]

theorem shift4_high (z : BitVec 128) (h : ∀ i < 4, z.getLsbD i = false) :
    gcmShift (gcmShift (gcmShift (gcmShift z))) = z >>> 4 := by
  have hs : ∀ w : BitVec 128, w.getLsbD 0 = false → gcmShift w = w >>> 1 := by
    intro w hw; rw [gcmShift, if_neg (by rw [hw]; decide)]
  rw [hs z (h 0 (by decide)), hs (z >>> 1) (by simpa using h 1 (by decide)),
    hs (z >>> 1 >>> 1) (by simpa using h 2 (by decide)),
    hs (z >>> 1 >>> 1 >>> 1) (by simpa using h 3 (by decide))]
  simp only [← BitVec.shiftRight_add]

theorem shift4_low : ∀ k : Fin 16,
    gcmShift (gcmShift (gcmShift (gcmShift (BitVec.ofNat 128 k.val)))) =
      (ghash_reduction[k.val].zeroExtend 128) <<< 112 := by decide +kernel

theorem nib_lt (w : BitVec 64) : (w &&& 0x0f).toNat < 16 := by
  rw [BitVec.toNat_and]
  exact Nat.lt_of_le_of_lt Nat.and_le_right (by decide)

theorem nib_bit (w : BitVec 64) {j : Nat} (hj : j < 4) : (w &&& 0x0f).toNat.testBit j = w.getLsbD j := by
  rw [BitVec.toNat_and, Nat.testBit_and]
  rw [show (0x0f : BitVec 64).toNat.testBit j = true by
    rcases (by omega : j = 0 ∨ j = 1 ∨ j = 2 ∨ j = 3) with rfl | rfl | rfl | rfl <;> decide, Bool.and_true]
  rfl

theorem shift4_bits (z : Gfe) (r : BitVec 16) {i : Nat} (hi : i < 128) :
    (gval ⟨(z.lo >>> 4) ^^^ (r.zeroExtend 64 <<< 48), (z.hi >>> 4) ||| (z.lo <<< 60)⟩).getLsbD i =
      ((gval z).getLsbD (4 + i) ^^ (r.zeroExtend 128 <<< 112).getLsbD i) := by
  rw [gval_bit, gval_bit]
  dsimp only
  rw [BitVec.getLsbD_or, BitVec.getLsbD_xor, BitVec.getLsbD_ushiftRight, BitVec.getLsbD_ushiftRight,
    BitVec.getLsbD_shiftLeft, BitVec.getLsbD_shiftLeft, BitVec.getLsbD_shiftLeft, BitVec.zeroExtend_eq_setWidth,
    BitVec.zeroExtend_eq_setWidth, BitVec.getLsbD_setWidth, BitVec.getLsbD_setWidth]
  by_cases h1 : i < 60
  · rw [if_pos (by omega), if_pos (by omega), decide_eq_true h1, decide_eq_true (show i < 112 by omega)]
    simp only [Bool.not_true, Bool.and_false, Bool.false_and, Bool.or_false, Bool.xor_false]
  · rw [if_neg (show ¬ 4 + i < 64 by omega)]
    by_cases h2 : i < 64
    · rw [if_pos h2, BitVec.getLsbD_of_ge _ _ (show 64 ≤ 4 + i by omega), decide_eq_true h2, decide_eq_false h1,
        decide_eq_true (show i < 112 by omega), show i - 60 = 4 + i - 64 by omega]
      simp only [Bool.not_true, Bool.not_false, Bool.and_false, Bool.false_and, Bool.false_or, Bool.true_and, Bool.xor_false]
    · rw [if_neg h2, show 4 + (i - 64) = 4 + i - 64 by omega, show i - 64 - 48 = i - 112 by omega,
        decide_eq_true (show i - 64 < 64 by omega), decide_eq_true hi, decide_eq_true (show i - 112 < 64 by omega),
        decide_eq_true (show i - 112 < 128 by omega)]
      by_cases h3 : i < 112
      · rw [decide_eq_true h3, decide_eq_true (show i - 64 < 48 by omega)]
      · rw [decide_eq_false h3, decide_eq_false (show ¬ i - 64 < 48 by omega)]

/-- Multiplication by `x^4` as the code does it. -/
theorem shift4_eq (z : Gfe) :
    gval ⟨(z.lo >>> 4) ^^^ ((nib ghash_reduction z.hi).zeroExtend 64 <<< 48), (z.hi >>> 4) ||| (z.lo <<< 60)⟩ =
      gcmShift (gcmShift (gcmShift (gcmShift (gval z)))) := by
  have hlow := shift4_low ⟨_, nib_lt z.hi⟩
  have hsplit : gval z = (gval z ^^^ BitVec.ofNat 128 (z.hi &&& 0x0f).toNat) ^^^ BitVec.ofNat 128 (z.hi &&& 0x0f).toNat := by
    rw [BitVec.xor_assoc]; simp
  have hob : ∀ i < 128, (BitVec.ofNat 128 (z.hi &&& 0x0f).toNat).getLsbD i = (decide (i < 4) && z.hi.getLsbD i) := by
    intro i hi
    rw [BitVec.getLsbD_ofNat, decide_eq_true hi, Bool.true_and]
    by_cases h : i < 4
    · rw [nib_bit _ h]; simp [h]
    · rw [decide_eq_false h, Bool.false_and]
      exact Nat.testBit_lt_two_pow (Nat.lt_of_lt_of_le (nib_lt z.hi) (by
        have : 2 ^ 4 ≤ 2 ^ i := Nat.pow_le_pow_right (by decide) (by omega)
        omega))
  have hhigh := shift4_high (gval z ^^^ BitVec.ofNat 128 (z.hi &&& 0x0f).toNat) (by
    intro i hi
    rw [BitVec.getLsbD_xor, gval_bit, if_pos (by omega), hob i (by omega)]
    simp [hi])
  have hall : gcmShift (gcmShift (gcmShift (gcmShift (gval z)))) =
      gcmShift (gcmShift (gcmShift (gcmShift (gval z ^^^ BitVec.ofNat 128 (z.hi &&& 0x0f).toNat)))) ^^^
      gcmShift (gcmShift (gcmShift (gcmShift (BitVec.ofNat 128 (z.hi &&& 0x0f).toNat)))) := by
    rw [← gcmShift_xor, ← gcmShift_xor, ← gcmShift_xor, ← gcmShift_xor, ← hsplit]
  rw [hall, hhigh, hlow]
  apply BitVec.eq_of_getLsbD_eq
  intro i hi
  rw [BitVec.getLsbD_xor (x := (gval z ^^^ _) >>> 4), BitVec.getLsbD_ushiftRight, BitVec.getLsbD_xor (x := gval z)]
  have hnz : (BitVec.ofNat 128 (z.hi &&& 0x0f).toNat).getLsbD (4 + i) = false := by
    by_cases h : 4 + i < 128
    · rw [hob _ h]; simp
    · exact BitVec.getLsbD_of_ge _ _ (by omega)
  rw [hnz, Bool.xor_false]
  exact shift4_bits _ _ hi

theorem gcmR_low {i : Nat} (h : i < 120) : gcmR.getLsbD i = false := by
  rw [gcmR, BitVec.getLsbD_append, if_pos h]; simp

theorem gval_dbl (x : Gfe) : gval (gfe_dbl x) = gcmShift (gval x) := by
  apply BitVec.eq_of_getLsbD_eq
  intro i hi
  rw [gcmShift_bit _ hi, gval_bit, gval_bit, gval_bit, if_pos (by decide : 0 < 64)]
  have hm : ∀ j, (0xe100000000000000 &&& -(x.hi &&& 1) : BitVec 64).getLsbD j =
      (x.hi.getLsbD 0 && (0xe100000000000000 : BitVec 64).getLsbD j) := by
    intro j
    have : x.hi &&& 1 = if x.hi.getLsbD 0 then 1 else 0 := by
      apply BitVec.eq_of_getLsbD_eq
      intro k hk
      rcases k with _ | k
      · rw [BitVec.getLsbD_and]
        cases h : x.hi.getLsbD 0 <;> rfl
      · rw [BitVec.getLsbD_and]
        cases h : x.hi.getLsbD 0 <;> simp [BitVec.getLsbD_one]
    rw [this]
    cases x.hi.getLsbD 0
    · simp
    · simp only [if_true, Bool.true_and]
      congr 1
  simp only [gfe_dbl, BitVec.getLsbD_or, BitVec.getLsbD_xor, BitVec.getLsbD_ushiftRight, BitVec.getLsbD_shiftLeft, hm]
  by_cases h1 : i < 63
  · simp [h1, show i < 64 by omega, show i + 1 < 64 by omega, gcmR_low (show i < 120 by omega), Nat.add_comm]
  · by_cases h2 : i < 64
    · have : i = 63 := by omega
      subst this
      rw [gcmR_low (by decide)]
      simp
    · rw [if_neg h2, if_neg (by omega)]
      have : (0xe100000000000000 : BitVec 64).getLsbD (i - 64) = gcmR.getLsbD i := by
        have : ∀ j : Fin 64, (0xe100000000000000 : BitVec 64).getLsbD j.val = gcmR.getLsbD (j.val + 64) := by
          decide +kernel
        have := this ⟨i - 64, by omega⟩
        rw [this, show i - 64 + 64 = i by omega]
      rw [this, show i + 1 - 64 = 1 + (i - 64) by omega]

/-- The table entries. -/
def GTable (y : BitVec 128) (t : Vector Gfe 16) : Prop :=
  ∀ (x : BitVec 128) (i : Nat) (w : BitVec 64), (∀ j < 4, x.getMsbD (i + j) = w.getLsbD (3 - j)) →
    gval (nib t w) = gsum x i 4 y

theorem mul_word {y : BitVec 128} {t : Vector Gfe 16} (ht : GTable y t) (x : BitVec 128) (r : Nat) :
    ∀ (i k : Nat) (w : BitVec 64) (z : Gfe), i + 4 * (k + r) = 128 →
    (∀ j < 4 * r, w.getLsbD j = x.getLsbD (4 * k + j)) → gval z = gsum x (i + 4 * r) (4 * k) y →
    gval (gfe_mul_word t r w z) = gsum x i (4 * (k + r)) y := by
  induction r with
  | zero => intro i k w z _ _ hz; rw [gfe_mul_word]; exact hz
  | succ r ih =>
    intro i k w z hle hw hz
    rw [gfe_mul_word]
    have hadd := gval_add ⟨(z.lo >>> 4) ^^^ ((nib ghash_reduction z.hi).zeroExtend 64 <<< 48),
      (z.hi >>> 4) ||| (z.lo <<< 60)⟩ (nib t w)
    rw [gfe_add] at hadd
    rw [show k + (r + 1) = (k + 1) + r by omega]
    refine ih i (k + 1) _ _ (by omega) ?_ ?_
    · intro j hj
      rw [BitVec.getLsbD_ushiftRight, hw _ (by omega)]
      congr 1; omega
    · rw [hadd, shift4_eq, hz, ht x (i + 4 * r) w, show 4 * (k + 1) = 4 * k + 4 by omega, gsum_four _ _ (4 * k),
        show i + 4 * (r + 1) = i + 4 * r + 4 by omega]
      · exact BitVec.xor_comm _ _
      intro j hj
      rw [hw _ (by omega), BitVec.getMsbD_eq_getLsbD, decide_eq_true (by omega), Bool.true_and]
      congr 1; omega

theorem gfe_mul_eq {y : BitVec 128} {t : Vector Gfe 16} (ht : GTable y t) (x : Gfe) :
    gval (gfe_mul x t) = gcmMul (gval x) y := by
  rw [gcmMul_eq, gfe_mul]
  refine mul_word ht (gval x) 16 0 16 x.lo _ (by omega) ?_ ?_
  · intro j hj
    rw [gval_bit, if_neg (by omega)]
    congr 1; omega
  · refine mul_word ht (gval x) 16 (0 + 4 * 16) 0 x.hi ⟨0, 0⟩ (by omega) ?_ ?_
    · intro j hj
      rw [gval_bit, if_pos (by omega)]
      congr 1; omega
    · rw [Nat.mul_zero, gsum]; decide

/-- `ghash_table` for any doubling `f` and addition `g`. -/
def tableF (f : Gfe → Gfe) (g : Gfe → Gfe → Gfe) (x : Gfe) : List Nat → Vector Gfe 16 → Vector Gfe 16
  | [], t => t
  | i :: is, t =>
    let t := t.setIfInBounds (revbits (i + 0)) (f (t.getD (revbits (i / 2)) ⟨0, 0⟩))
    let t := t.setIfInBounds (revbits (i + 1)) (g (t.getD (revbits i) ⟨0, 0⟩) x)
    tableF f g x is t

theorem ghash_table_eq (x : Gfe) : ∀ (l : List Nat) (t : Vector Gfe 16), ghash_table x l t = tableF gfe_dbl gfe_add x l t
  | [], _ => rfl
  | _ :: l, _ => ghash_table_eq x l _

/-- The table of the multiples of `x`. -/
def gtab (f : Gfe → Gfe) (g : Gfe → Gfe → Gfe) (x : Gfe) : Vector Gfe 16 :=
  #v[⟨0, 0⟩, f (f (f x)), f (f x), f (f (g (f x) x)), f x, f (g (f (f x)) x), f (g (f x) x),
    f (g (f (g (f x) x)) x), x, g (f (f (f x))) x, g (f (f x)) x, g (f (f (g (f x) x))) x, g (f x) x,
    g (f (g (f (f x)) x)) x, g (f (g (f x) x)) x, g (f (g (f (g (f x) x)) x)) x]

section
variable (f : Gfe → Gfe) (g : Gfe → Gfe → Gfe) (x : Gfe) (l : List Nat) (a0 a1 a2 a3 a4 a5 a6 a7 a8 a9 a10 a11 a12 a13 a14 a15 : Gfe)
theorem step2 : tableF f g x (2 :: l) #v[a0, a1, a2, a3, a4, a5, a6, a7, a8, a9, a10, a11, a12, a13, a14, a15] = tableF f g x l #v[a0, a1, a2, a3, f a8, a5, a6, a7, a8, a9, a10, a11, g (f a8) x, a13, a14, a15] := rfl
theorem step4 : tableF f g x (4 :: l) #v[a0, a1, a2, a3, a4, a5, a6, a7, a8, a9, a10, a11, a12, a13, a14, a15] = tableF f g x l #v[a0, a1, f a4, a3, a4, a5, a6, a7, a8, a9, g (f a4) x, a11, a12, a13, a14, a15] := rfl
theorem step6 : tableF f g x (6 :: l) #v[a0, a1, a2, a3, a4, a5, a6, a7, a8, a9, a10, a11, a12, a13, a14, a15] = tableF f g x l #v[a0, a1, a2, a3, a4, a5, f a12, a7, a8, a9, a10, a11, a12, a13, g (f a12) x, a15] := rfl
theorem step8 : tableF f g x (8 :: l) #v[a0, a1, a2, a3, a4, a5, a6, a7, a8, a9, a10, a11, a12, a13, a14, a15] = tableF f g x l #v[a0, f a2, a2, a3, a4, a5, a6, a7, a8, g (f a2) x, a10, a11, a12, a13, a14, a15] := rfl
theorem step10 : tableF f g x (10 :: l) #v[a0, a1, a2, a3, a4, a5, a6, a7, a8, a9, a10, a11, a12, a13, a14, a15] = tableF f g x l #v[a0, a1, a2, a3, a4, f a10, a6, a7, a8, a9, a10, a11, a12, g (f a10) x, a14, a15] := rfl
theorem step12 : tableF f g x (12 :: l) #v[a0, a1, a2, a3, a4, a5, a6, a7, a8, a9, a10, a11, a12, a13, a14, a15] = tableF f g x l #v[a0, a1, a2, f a6, a4, a5, a6, a7, a8, a9, a10, g (f a6) x, a12, a13, a14, a15] := rfl
theorem step14 : tableF f g x (14 :: l) #v[a0, a1, a2, a3, a4, a5, a6, a7, a8, a9, a10, a11, a12, a13, a14, a15] = tableF f g x l #v[a0, a1, a2, a3, a4, a5, a6, f a14, a8, a9, a10, a11, a12, a13, a14, g (f a14) x] := rfl
end

theorem tableF_eq (f : Gfe → Gfe) (g : Gfe → Gfe → Gfe) (x : Gfe) :
    tableF f g x [2, 4, 6, 8, 10, 12, 14] ((Vector.replicate 16 ⟨0, 0⟩).setIfInBounds (revbits 1) x) = gtab f g x := by
  have h : (Vector.replicate 16 (⟨0, 0⟩ : Gfe)).setIfInBounds (revbits 1) x =
      #v[⟨0, 0⟩, ⟨0, 0⟩, ⟨0, 0⟩, ⟨0, 0⟩, ⟨0, 0⟩, ⟨0, 0⟩, ⟨0, 0⟩, ⟨0, 0⟩, x, ⟨0, 0⟩, ⟨0, 0⟩, ⟨0, 0⟩, ⟨0, 0⟩, ⟨0, 0⟩, ⟨0, 0⟩, ⟨0, 0⟩] := rfl
  rw [h, step2, step4, step6, step8, step10, step12, step14, tableF, gtab]

theorem table_eq (key : Vector Byte 16) : (ghash_init key).table =
    gtab gfe_dbl gfe_add ⟨read64be (vsub key 0 8), read64be (vsub key 8 8)⟩ := by
  rw [ghash_init, ← tableF_eq, ← ghash_table_eq]

theorem gtab_nib (x : Gfe) : ∀ k : Fin 16, gval (gtab gfe_dbl gfe_add x)[k.val] =
    (if k.val.testBit 3 then gval x else 0) ^^^ ((if k.val.testBit 2 then gcmShift (gval x) else 0) ^^^
      ((if k.val.testBit 1 then gcmShift (gcmShift (gval x)) else 0) ^^^
        ((if k.val.testBit 0 then gcmShift (gcmShift (gcmShift (gval x))) else 0) ^^^ 0))) := by
  intro ⟨k, hk⟩
  have h0 : gval ⟨0, 0⟩ = 0#128 := by decide
  rcases (by omega : k = 0 ∨ k = 1 ∨ k = 2 ∨ k = 3 ∨ k = 4 ∨ k = 5 ∨ k = 6 ∨ k = 7 ∨ k = 8 ∨ k = 9 ∨ k = 10 ∨
    k = 11 ∨ k = 12 ∨ k = 13 ∨ k = 14 ∨ k = 15) with rfl | rfl | rfl | rfl | rfl | rfl | rfl | rfl | rfl | rfl | rfl |
    rfl | rfl | rfl | rfl | rfl <;>
  simp only [gtab, Vector.getElem_mk, List.getElem_toArray, List.getElem_cons_zero, List.getElem_cons_succ, h0,
    gval_add, gval_dbl, gcmShift_xor, show Nat.testBit 0 0 = false from rfl] <;>
  simp [Nat.testBit, BitVec.xor_comm, BitVec.xor_assoc]

theorem gtab_table (x : Gfe) : GTable (gval x) (gtab gfe_dbl gfe_add x) := by
  intro v i w h
  rw [nib, gtab_nib x ⟨_, nib_lt w⟩]
  simp only [gsum]
  rw [nib_bit w (by decide), nib_bit w (by decide), nib_bit w (by decide), nib_bit w (by decide),
    ← h 0 (by decide), ← h 1 (by decide), ← h 2 (by decide), ← h 3 (by decide)]
  rfl

end Torsion.Ciph
