import Verif.Mpi.MpzScan
import Mathlib.Data.Nat.Digits.Lemmas

namespace Torsion.Mpi

open Spec (val ival Canon Rep Room bit ones)

theorem ones_zero : ones 0 = 0 := by unfold ones; simp

theorem ones_step (n : Nat) : ones n = n % 2 + ones (n / 2) := by
  unfold ones
  by_cases h : n = 0
  · subst h; simp
  · rw [Nat.digits_def' (by omega) (by omega), List.sum_cons]

theorem ones_split (k : Nat) : ∀ a b : Nat, a < 2 ^ k → ones (a + 2 ^ k * b) = ones a + ones b := by
  induction k with
  | zero =>
    intro a b h
    have : a = 0 := by simpa using h
    subst this
    simp [ones_zero]
  | succ k ih =>
    intro a b h
    rw [ones_step (a + 2 ^ (k + 1) * b), ones_step a]
    have e : 2 ^ (k + 1) * b = 2 * (2 ^ k * b) := by rw [pow_succ]; ring
    have h1 : (a + 2 ^ (k + 1) * b) % 2 = a % 2 := by omega
    have h2 : (a + 2 ^ (k + 1) * b) / 2 = a / 2 + 2 ^ k * b := by omega
    rw [h1, h2, ih (a / 2) b (by rw [pow_succ] at h; omega)]
    omega

theorem ones_val (xs : List Limb) : ones (val xs) = (xs.map fun x => ones x.toNat).sum := by
  induction xs with
  | nil => rw [val_nil, ones_zero]; rfl
  | cons x xs ih => rw [val_cons, ones_split 64 _ _ x.isLt, ih, List.map_cons, List.sum_cons]

theorem and_split (u v c m : Nat) (hc : c < 256) (hu : u < 256) :
    (u + 256 * v) &&& (c + 256 * m) = (u &&& c) + 256 * (v &&& m) := by
  apply Nat.eq_of_testBit_eq
  intro n
  have h := Nat.and_lt_two_pow u (n := 8) hc
  rw [Nat.testBit_and, Nat.add_comm u, Nat.add_comm c, Nat.add_comm (u &&& c), show (256 : Nat) = 2 ^ 8 from rfl,
    Nat.testBit_two_pow_mul_add _ hu, Nat.testBit_two_pow_mul_add _ hc, Nat.testBit_two_pow_mul_add _ h]
  split
  · rw [Nat.testBit_and]
  · rw [Nat.testBit_and]

/-- `n` copies of the byte `c`. -/
def rep8 (c : Nat) : Nat → Nat
  | 0 => 0
  | n + 1 => c + 256 * rep8 c n

def y1 (n x : Nat) : Nat := x - (x / 2 &&& rep8 0x55 n)
def y2 (n x : Nat) : Nat := (y1 n x &&& rep8 0x33 n) + (y1 n x / 4 &&& rep8 0x33 n)
def y3 (n x : Nat) : Nat := (y2 n x + y2 n x / 16) &&& rep8 0x0f n

/-- The number of ones of each byte. -/
def byteOnes : Nat → Nat → Nat
  | 0, _ => 0
  | n + 1, x => ones (x % 256) + 256 * byteOnes n (x / 256)

theorem y1_split (n a b : Nat) (ha : a < 256) : y1 (n + 1) (a + 256 * b) = y1 1 a + 256 * y1 n b := by
  have e1 : (a + 256 * b) / 2 = (a / 2 + 128 * (b % 2)) + 256 * (b / 2) := by omega
  have e2 : (a / 2 + 128 * (b % 2)) &&& 0x55 = a / 2 &&& 0x55 := by
    have : ∀ a < 256, ∀ b < 2, (a / 2 + 128 * b) &&& 0x55 = a / 2 &&& 0x55 := by decide +kernel
    exact this a ha _ (by omega)
  have h1 : a / 2 &&& 0x55 ≤ a := le_trans Nat.and_le_left (by omega)
  have h2 : b / 2 &&& rep8 0x55 n ≤ b := le_trans Nat.and_le_left (by omega)
  have e3 : rep8 0x55 1 = 0x55 := rfl
  unfold y1
  rw [e3, show rep8 0x55 (n + 1) = 0x55 + 256 * rep8 0x55 n from rfl, e1, and_split _ _ _ _ (by omega) (by omega), e2]
  omega

theorem y1_lt (a : Nat) (ha : a < 256) : y1 1 a < 256 := by unfold y1; omega

theorem y2_split (n a b : Nat) (ha : a < 256) : y2 (n + 1) (a + 256 * b) = y2 1 a + 256 * y2 n b := by
  unfold y2
  rw [y1_split n a b ha]
  have ha1 := y1_lt a ha
  generalize y1 1 a = p at *
  generalize y1 n b = q at *
  have e1 : (p + 256 * q) / 4 = (p / 4 + 64 * (q % 4)) + 256 * (q / 4) := by omega
  have e2 : (p / 4 + 64 * (q % 4)) &&& 0x33 = p / 4 &&& 0x33 := by
    have : ∀ a < 256, ∀ b < 4, (a / 4 + 64 * b) &&& 0x33 = a / 4 &&& 0x33 := by decide +kernel
    exact this p ha1 _ (by omega)
  have e3 : rep8 0x33 1 = 0x33 := rfl
  rw [e3, show rep8 0x33 (n + 1) = 0x33 + 256 * rep8 0x33 n from rfl, e1, and_split _ _ _ _ (by omega) (by omega),
    and_split _ _ _ _ (by omega) (by omega), e2]
  ring

theorem y2_byte (a : Nat) (ha : a < 256) :
    y2 1 a < 256 ∧ y2 1 a % 16 ≤ 4 ∧ y2 1 a / 16 ≤ 4 ∧ y2 1 a % 16 + y2 1 a / 16 = ones a := by
  have h : ∀ a < 256, y2 1 a < 256 ∧ y2 1 a % 16 ≤ 4 ∧ y2 1 a / 16 ≤ 4 := by decide +kernel
  obtain ⟨h1, h2, h3⟩ := h a ha
  refine ⟨h1, h2, h3, ?_⟩
  have h8 : ∀ a < 256, y2 1 a % 16 + y2 1 a / 16 =
      a % 2 + a / 2 % 2 + a / 4 % 2 + a / 8 % 2 + a / 16 % 2 + a / 32 % 2 + a / 64 % 2 + a / 128 % 2 := by decide +kernel
  rw [h8 a ha, ones_step a, ones_step (a / 2), ones_step (a / 2 / 2), ones_step (a / 2 / 2 / 2),
    ones_step (a / 2 / 2 / 2 / 2), ones_step (a / 2 / 2 / 2 / 2 / 2), ones_step (a / 2 / 2 / 2 / 2 / 2 / 2),
    ones_step (a / 2 / 2 / 2 / 2 / 2 / 2 / 2), show a / 2 / 2 / 2 / 2 / 2 / 2 / 2 / 2 = 0 by omega, ones_zero]
  omega

theorem y2_zero (x : Nat) : y2 0 x = 0 := by unfold y2 rep8; simp

theorem y3_byte : ∀ (n x : Nat), y3 n x = byteOnes n x ∧ y2 n x % 16 ≤ 4
  | 0, x => by unfold y3; rw [y2_zero]; simp [byteOnes, rep8]
  | n + 1, x => by
    obtain ⟨ih1, ih2⟩ := y3_byte n (x / 256)
    have ha : x % 256 < 256 := Nat.mod_lt _ (by omega)
    have hx : x = x % 256 + 256 * (x / 256) := by omega
    have hs := y2_split n (x % 256) (x / 256) ha
    rw [← hx] at hs
    obtain ⟨b1, b2, b3, b4⟩ := y2_byte (x % 256) ha
    unfold y3 at ih1 ⊢
    unfold byteOnes
    rw [hs, ← ih1, ← b4]
    generalize y2 1 (x % 256) = p at *
    generalize y2 n (x / 256) = q at *
    refine ⟨?_, by omega⟩
    have e1 : p + 256 * q + (p + 256 * q) / 16 = (p + p / 16 + 16 * (q % 16)) + 256 * (q + q / 16) := by omega
    rw [show rep8 0x0f (n + 1) = 0x0f + 256 * rep8 0x0f n from rfl, e1, and_split _ _ _ _ (by omega) (by omega),
      show (0x0f : Nat) = 2 ^ 4 - 1 from rfl, Nat.and_two_pow_sub_one_eq_mod]
    omega

theorem ones_byte_le (x : Nat) (h : x < 256) : ones x ≤ 8 := by
  obtain ⟨-, h2, h3, h4⟩ := y2_byte x h
  omega

theorem ones_bytes (x : Nat) (h : x < 2 ^ 64) : byteOnes 8 x * 0x0101010101010101 % 2 ^ 64 / 2 ^ 56 = ones x := by
  have hs : ∀ y, ones y = ones (y % 256) + ones (y / 256) := fun y => by
    have := ones_split 8 (y % 256) (y / 256) (Nat.mod_lt _ (by omega))
    rw [← this]; congr 1; omega
  have hz : x / 256 / 256 / 256 / 256 / 256 / 256 / 256 / 256 = 0 := by omega
  rw [hs x, hs (x / 256), hs (x / 256 / 256), hs (x / 256 / 256 / 256), hs (x / 256 / 256 / 256 / 256),
    hs (x / 256 / 256 / 256 / 256 / 256), hs (x / 256 / 256 / 256 / 256 / 256 / 256),
    hs (x / 256 / 256 / 256 / 256 / 256 / 256 / 256), hz, ones_zero]
  unfold byteOnes byteOnes byteOnes byteOnes byteOnes byteOnes byteOnes byteOnes byteOnes
  have hb : ∀ y, ones (y % 256) ≤ 8 := fun y => ones_byte_le _ (Nat.mod_lt _ (by omega))
  have h0 := hb x
  have h1 := hb (x / 256)
  have h2 := hb (x / 256 / 256)
  have h3 := hb (x / 256 / 256 / 256)
  have h4 := hb (x / 256 / 256 / 256 / 256)
  have h5 := hb (x / 256 / 256 / 256 / 256 / 256)
  have h6 := hb (x / 256 / 256 / 256 / 256 / 256 / 256)
  have h7 := hb (x / 256 / 256 / 256 / 256 / 256 / 256 / 256)
  clear hb hs hz h
  generalize ones (x % 256) = t0 at *
  generalize ones (x / 256 % 256) = t1 at *
  generalize ones (x / 256 / 256 % 256) = t2 at *
  generalize ones (x / 256 / 256 / 256 % 256) = t3 at *
  generalize ones (x / 256 / 256 / 256 / 256 % 256) = t4 at *
  generalize ones (x / 256 / 256 / 256 / 256 / 256 % 256) = t5 at *
  generalize ones (x / 256 / 256 / 256 / 256 / 256 / 256 % 256) = t6 at *
  generalize ones (x / 256 / 256 / 256 / 256 / 256 / 256 / 256 % 256) = t7 at *
  clear x
  obtain ⟨R, hR⟩ : ∃ R, R = 256 ^ 0 * (t0) + 256 ^ 1 * (t0 + t1) + 256 ^ 2 * (t0 + t1 + t2) + 256 ^ 3 * (t0 + t1 + t2 + t3) + 256 ^ 4 * (t0 + t1 + t2 + t3 + t4) + 256 ^ 5 * (t0 + t1 + t2 + t3 + t4 + t5) + 256 ^ 6 * (t0 + t1 + t2 + t3 + t4 + t5 + t6) := ⟨_, rfl⟩
  obtain ⟨Q, hQ⟩ : ∃ Q, Q = 256 ^ 0 * (t1 + t2 + t3 + t4 + t5 + t6 + t7) + 256 ^ 1 * (t2 + t3 + t4 + t5 + t6 + t7) + 256 ^ 2 * (t3 + t4 + t5 + t6 + t7) + 256 ^ 3 * (t4 + t5 + t6 + t7) + 256 ^ 4 * (t5 + t6 + t7) + 256 ^ 5 * (t6 + t7) + 256 ^ 6 * (t7) := ⟨_, rfl⟩
  have hlt : R < 2 ^ 56 := by rw [hR]; norm_num; omega
  have e : (t0 + 256 * (t1 + 256 * (t2 + 256 * (t3 + 256 * (t4 + 256 * (t5 + 256 * (t6 + 256 * (t7 + 256 * 0)))))))) *
      0x0101010101010101 = R + 2 ^ 56 * (t0 + t1 + t2 + t3 + t4 + t5 + t6 + t7) + 2 ^ 64 * Q := by rw [hR, hQ]; ring
  rw [e]
  clear e hR hQ
  omega

theorem mp_popcount_eq (x : Limb) : mp_popcount x = ones x.toNat := by
  have m1 : (0x5555555555555555 : Limb).toNat = rep8 0x55 8 := by decide
  have m2 : (0x3333333333333333 : Limb).toNat = rep8 0x33 8 := by decide
  have m3 : (0x0f0f0f0f0f0f0f0f : Limb).toNat = rep8 0x0f 8 := by decide
  unfold mp_popcount
  dsimp only
  have hx := x.isLt
  have e1 : (x - ((x >>> 1) &&& 0x5555555555555555)).toNat = y1 8 x.toNat := by
    unfold y1
    have hle : x.toNat / 2 &&& rep8 0x55 8 ≤ x.toNat := le_trans Nat.and_le_left (by omega)
    rw [BitVec.toNat_sub, BitVec.toNat_and, m1, shr_toNat, show (2 : Nat) ^ 1 = 2 from rfl]
    omega
  generalize x - ((x >>> 1) &&& 0x5555555555555555) = u at *
  have e2 : ((u &&& (0x3333333333333333 : Limb)) + ((u >>> 2) &&& (0x3333333333333333 : Limb))).toNat = y2 8 x.toNat := by
    unfold y2
    rw [BitVec.toNat_add, BitVec.toNat_and, BitVec.toNat_and, m2, shr_toNat, show (2 : Nat) ^ 2 = 4 from rfl, e1]
    have h1 := Nat.and_le_right (n := y1 8 x.toNat) (m := rep8 0x33 8)
    have h2 := Nat.and_le_right (n := y1 8 x.toNat / 4) (m := rep8 0x33 8)
    have h3 : rep8 0x33 8 = 0x3333333333333333 := by decide
    exact Nat.mod_eq_of_lt (by omega)
  have b2 : y2 8 x.toNat ≤ 0x6666666666666666 := by
    unfold y2
    have h1 := Nat.and_le_right (n := y1 8 x.toNat) (m := rep8 0x33 8)
    have h2 := Nat.and_le_right (n := y1 8 x.toNat / 4) (m := rep8 0x33 8)
    have h3 : rep8 0x33 8 = 0x3333333333333333 := by decide
    omega
  generalize (u &&& (0x3333333333333333 : Limb)) + ((u >>> 2) &&& (0x3333333333333333 : Limb)) = v at *
  have e3 : ((v + (v >>> 4)) &&& 0x0f0f0f0f0f0f0f0f).toNat = byteOnes 8 x.toNat := by
    rw [BitVec.toNat_and, BitVec.toNat_add, shr_toNat, e2, m3, ← (y3_byte 8 x.toNat).1]
    unfold y3
    rw [show (2 : Nat) ^ 4 = 16 from rfl, Nat.mod_eq_of_lt (a := y2 8 x.toNat + _) (by omega)]
  rw [shr_toNat, BitVec.toNat_mul, e3, show (0x0101010101010101 : Limb).toNat = 0x0101010101010101 from rfl]
  exact ones_bytes _ hx

theorem foldl_add {α : Type} (f : α → Nat) (xs : List α) (c : Nat) :
    xs.foldl (fun c x => c + f x) c = c + (xs.map f).sum := by
  induction xs generalizing c with
  | nil => simp
  | cons x xs ih => rw [List.foldl_cons, ih, List.map_cons, List.sum_cons]; omega

theorem mpn_popcount_eq (xs : List Limb) : mpn_popcount xs = ones (val xs) := by
  unfold mpn_popcount
  rw [foldl_add, ones_val, Nat.zero_add]
  congr 1
  exact List.map_congr_left fun x _ => mp_popcount_eq x

theorem mpn_hamdist_eq (xs ys : List Limb) (h : xs.length = ys.length) :
    mpn_hamdist xs ys = ones (val xs ^^^ val ys) := by
  have e : mpn_hamdist xs ys = mpn_popcount (List.zipWith (fun x y => x ^^^ y) xs ys) := rfl
  rw [e, mpn_popcount_eq]
  have := zip_tail xor (by simp) (fun x y => x ^^^ y) xor_bitwise xs ys h.ge
  rw [← h, List.drop_length, List.append_nil] at this
  rw [this]
  rfl

theorem popcount_rep {x : Mpz} {i : Int} (hx : Rep x i) :
    mpz_popcount x = if i < 0 then mp_bits_max else ones i.natAbs := by
  unfold mpz_popcount
  by_cases hi : i < 0
  · rw [if_pos ((rep_sizen hx).2 hi), if_pos hi]
  · rw [if_neg (mt (rep_sizen hx).1 hi), if_neg hi, mpn_popcount_eq, rep_abs hx]

theorem hamdist_loop_val : ∀ (xs ys : List Limb) (cx cy : Limb) (X Y bx bY : Nat), ys.length ≤ xs.length →
    X < 2 ^ (64 * xs.length) → X + cx.toNat = val xs + 2 ^ (64 * xs.length) * bx →
    Y < 2 ^ (64 * ys.length) → Y + cy.toNat = val ys + 2 ^ (64 * ys.length) * bY →
    mpz_hamdist_loop cx cy xs ys = ones (X ^^^ Y)
  | [], ys, cx, cy, X, Y, bx, bY, hl, hX, h1, hY, h2 => by
    have : ys = [] := List.length_eq_zero_iff.1 (by simpa using hl)
    subst this
    have hX0 : X = 0 := by simpa using hX
    have hY0 : Y = 0 := by simpa using hY
    subst hX0 hY0
    unfold mpz_hamdist_loop
    rw [Nat.xor_self, ones_zero]
  | x :: xs, [], cx, cy, X, Y, bx, bY, hl, hX, h1, hY, h2 => by
    have hY0 : Y = 0 := by simpa using hY
    subst hY0
    rw [List.length_cons, pow64'] at hX h1
    rw [val_cons, Nat.mul_assoc] at h1
    obtain ⟨X', e, hl', h'⟩ := sub_split hX h1
    have ih := hamdist_loop_val xs [] (mp_sub x cx).2 cy X' 0 bx bY (by simp) hl' h' hY h2
    unfold mpz_hamdist_loop
    dsimp only
    rw [ih, e, mp_popcount_eq, Nat.xor_zero, Nat.xor_zero, ones_split 64 _ _ (BitVec.isLt _)]
  | x :: xs, y :: ys, cx, cy, X, Y, bx, bY, hl, hX, h1, hY, h2 => by
    rw [List.length_cons, pow64'] at hX h1 hY h2
    rw [val_cons, Nat.mul_assoc] at h1 h2
    obtain ⟨X', e, hl', h'⟩ := sub_split hX h1
    obtain ⟨Y', ey, hly', hy'⟩ := sub_split hY h2
    have ih := hamdist_loop_val xs ys (mp_sub x cx).2 (mp_sub y cy).2 X' Y' bx bY (by simpa using hl) hl' h' hly' hy'
    unfold mpz_hamdist_loop
    dsimp only
    rw [ih, e, ey, mp_popcount_eq, BitVec.toNat_xor, ← ones_split 64 _ _ (Nat.xor_lt_two_pow (BitVec.isLt _) (BitVec.isLt _))]
    congr 1
    apply Nat.eq_of_testBit_eq
    intro n
    rw [Nat.testBit_xor, Nat.add_comm _ (2 ^ 64 * X'), Nat.add_comm _ (2 ^ 64 * Y'), Nat.add_comm _ (2 ^ 64 * _),
      Nat.testBit_two_pow_mul_add _ (BitVec.isLt _), Nat.testBit_two_pow_mul_add _ (BitVec.isLt _),
      Nat.testBit_two_pow_mul_add _ (Nat.xor_lt_two_pow (BitVec.isLt _) (BitVec.isLt _))]
    split
    · rw [Nat.testBit_xor]
    · rw [Nat.testBit_xor]

theorem hamdist_sorted_rep {x y : Mpz} {i j : Int} (hx : Rep x i) (hy : Rep y j) (hs : i < 0 ↔ j < 0)
    (hl : y.mag.length ≤ x.mag.length) : mpz_hamdist_sorted x y = ones (low i ^^^ low j) := by
  unfold mpz_hamdist_sorted
  obtain ⟨x1, x2⟩ := low_spec hx
  obtain ⟨y1, y2⟩ := low_spec hy
  by_cases hi : i < 0
  · rw [if_pos ((rep_sizen hx).2 hi)]
    rw [rep_neg' hx, decide_eq_true hi] at x2
    rw [rep_neg' hy, decide_eq_true (hs.1 hi)] at y2
    exact hamdist_loop_val _ _ 1 1 _ _ 0 0 hl x1 x2 y1 y2
  · rw [if_neg (mt (rep_sizen hx).1 hi), low_nonneg hi, low_nonneg (mt hs.2 hi), ← rep_abs hx, ← rep_abs hy]
    have e : mpn_hamdist x.mag y.mag + mpn_popcount (x.mag.drop y.mag.length) =
        mpn_popcount (List.zipWith (fun x y => x ^^^ y) x.mag y.mag ++ x.mag.drop y.mag.length) := by
      unfold mpn_hamdist mpn_popcount
      rw [List.foldl_append, foldl_add, foldl_add, foldl_add]
      omega
    rw [e, mpn_popcount_eq, zip_tail xor (by simp) (fun x y => x ^^^ y) xor_bitwise _ _ hl]
    rfl

theorem hamdist_rep {x y : Mpz} {i j : Int} (hx : Rep x i) (hy : Rep y j) :
    mpz_hamdist x y = if i < 0 ↔ j < 0 then ones (low i ^^^ low j) else mp_bits_max := by
  unfold mpz_hamdist
  rw [rep_neg' hx, rep_neg' hy]
  by_cases hs : i < 0 ↔ j < 0
  · have hd : (decide (i < 0) != decide (j < 0)) = false := by
      rw [show decide (i < 0) = decide (j < 0) from decide_eq_decide.2 hs]; simp
    rw [if_pos hs, hd, if_neg (by simp)]
    by_cases h : x.mag.length < y.mag.length
    · rw [if_pos h, hamdist_sorted_rep hy hx hs.symm h.le, Nat.xor_comm]
    · rw [if_neg h, hamdist_sorted_rep hx hy hs (by omega)]
  · rw [if_neg hs, if_pos]
    rw [bne_iff_ne]
    intro e
    exact hs (decide_eq_decide.1 e)

end Torsion.Mpi
