import Verif.Mpi.Limb
import Mathlib.Tactic.Ring
import Mathlib.Tactic.Linarith
import Mathlib.Data.Nat.Size

/-! Lemmas about single limbs. -/
namespace Torsion.Mpi

theorem flag_toNat (p : Prop) [Decidable p] : (flag p).toNat = if p then 1 else 0 := by
  unfold flag; split <;> rfl

theorem flag_le (p : Prop) [Decidable p] : (flag p).toNat ≤ 1 := by
  rw [flag_toNat]; split <;> omega

theorem mp_add_val (x y : Limb) :
    (mp_add x y).1.toNat + 2 ^ 64 * (mp_add x y).2.toNat = x.toNat + y.toNat ∧
      (mp_add x y).2.toNat ≤ 1 := by
  unfold mp_add
  simp only [flag_toNat, BitVec.lt_def, BitVec.toNat_add]
  have := x.isLt; have := y.isLt
  split <;> omega

theorem mp_sub_val (x y : Limb) :
    (mp_sub x y).1.toNat + y.toNat = x.toNat + 2 ^ 64 * (mp_sub x y).2.toNat ∧
      (mp_sub x y).2.toNat ≤ 1 := by
  unfold mp_sub
  simp only [flag_toNat, BitVec.lt_def, BitVec.toNat_sub, GT.gt]
  have := x.isLt; have := y.isLt
  split <;> omega

theorem low_toNat (x : Limb) : (x &&& MP_LOW_MASK).toNat = x.toNat % 2 ^ 32 := by
  rw [BitVec.toNat_and]
  exact Nat.and_two_pow_sub_one_eq_mod x.toNat 32

theorem shr_toNat (x : Limb) (n : Nat) : (x >>> n).toNat = x.toNat / 2 ^ n := by
  rw [BitVec.toNat_ushiftRight, Nat.shiftRight_eq_div_pow]

theorem shl_toNat (x : Limb) (n : Nat) : (x <<< n).toNat = x.toNat * 2 ^ n % 2 ^ 64 := by
  rw [BitVec.toNat_shiftLeft, Nat.shiftLeft_eq]

theorem mul_half (a b : Nat) (ha : a < 2 ^ 32) (hb : b < 2 ^ 32) : a * b ≤ 18446744065119617025 :=
  le_trans (Nat.mul_le_mul (Nat.le_sub_one_of_lt ha) (Nat.le_sub_one_of_lt hb)) (by norm_num)

theorem mp_mul_val (x y : Limb) :
    (mp_mul x y).2.toNat + 2 ^ 64 * (mp_mul x y).1.toNat = x.toNat * y.toNat := by
  unfold mp_mul
  simp only [BitVec.toNat_add, BitVec.toNat_mul, low_toNat, shr_toNat, shl_toNat]
  generalize hX : x.toNat = X
  generalize hY : y.toNat = Y
  have hx : X < 2 ^ 64 := hX ▸ x.isLt
  have hy : Y < 2 ^ 64 := hY ▸ y.isLt
  have hXY : X * Y = (X / 2 ^ 32 * (Y / 2 ^ 32)) * 2 ^ 64
      + (X / 2 ^ 32 * (Y % 2 ^ 32) + X % 2 ^ 32 * (Y / 2 ^ 32)) * 2 ^ 32
      + X % 2 ^ 32 * (Y % 2 ^ 32) := by
    conv_lhs => rw [← Nat.div_add_mod X (2 ^ 32), ← Nat.div_add_mod Y (2 ^ 32)]
    ring
  rw [hXY]
  have h0 : X / 2 ^ 32 < 2 ^ 32 := by omega
  have h1 : X % 2 ^ 32 < 2 ^ 32 := by omega
  have h2 : Y / 2 ^ 32 < 2 ^ 32 := by omega
  have h3 : Y % 2 ^ 32 < 2 ^ 32 := by omega
  have b1 := mul_half _ _ h0 h2
  have b2 := mul_half _ _ h0 h3
  have b3 := mul_half _ _ h1 h2
  have b4 := mul_half _ _ h1 h3
  generalize X / 2 ^ 32 * (Y / 2 ^ 32) = A at *
  generalize X / 2 ^ 32 * (Y % 2 ^ 32) = B at *
  generalize X % 2 ^ 32 * (Y / 2 ^ 32) = C at *
  generalize X % 2 ^ 32 * (Y % 2 ^ 32) = D at *
  clear hXY h0 h1 h2 h3 hX hY hx hy x y X Y
  omega

theorem mp_sqr_eq (x : Limb) : mp_sqr x = mp_mul x x := by
  unfold mp_sqr mp_mul
  simp only [BitVec.mul_comm ((x &&& MP_LOW_MASK)) (x >>> 32)]

theorem mul_limb_le (x y : Limb) : x.toNat * y.toNat ≤ (2 ^ 64 - 1) * (2 ^ 64 - 1) :=
  Nat.mul_le_mul (by have := x.isLt; omega) (by have := y.isLt; omega)

theorem mp_add_1_val (x y c : Limb) :
    (mp_add_1 x y c).1.toNat + 2 ^ 64 * (mp_add_1 x y c).2.toNat = x.toNat + y.toNat + c.toNat := by
  unfold mp_add_1
  simp only [BitVec.toNat_add, flag_toNat, BitVec.lt_def]
  have := x.isLt; have := y.isLt; have := c.isLt
  split <;> split <;> omega

theorem mp_add_1_carry (x y c : Limb) (h : c.toNat ≤ 1) : (mp_add_1 x y c).2.toNat ≤ 1 := by
  have := mp_add_1_val x y c
  have := x.isLt; have := y.isLt
  omega

theorem mp_sub_1_val (x y c : Limb) :
    (mp_sub_1 x y c).1.toNat + y.toNat + c.toNat = x.toNat + 2 ^ 64 * (mp_sub_1 x y c).2.toNat := by
  unfold mp_sub_1
  simp only [BitVec.toNat_add, BitVec.toNat_sub, flag_toNat, BitVec.lt_def, GT.gt]
  have := x.isLt; have := y.isLt; have := c.isLt
  split <;> split <;> omega

theorem mp_sub_1_borrow (x y c : Limb) (h : c.toNat ≤ 1) : (mp_sub_1 x y c).2.toNat ≤ 1 := by
  have := mp_sub_1_val x y c
  have := x.isLt; have := y.isLt; have := (mp_sub_1 x y c).1.isLt
  omega

theorem mp_mul_1_val (x y c : Limb) :
    (mp_mul_1 x y c).1.toNat + 2 ^ 64 * (mp_mul_1 x y c).2.toNat = x.toNat * y.toNat + c.toNat := by
  unfold mp_mul_1
  have h := mp_mul_val x y
  have hb := mul_limb_le x y
  simp only [BitVec.toNat_add, flag_toNat, BitVec.lt_def]
  generalize mp_mul x y = p at *
  have := c.isLt; have := p.1.isLt; have := p.2.isLt
  rw [← h] at hb ⊢
  split <;> omega

theorem mp_addmul_1_val (z x y c : Limb) :
    (mp_addmul_1 z x y c).1.toNat + 2 ^ 64 * (mp_addmul_1 z x y c).2.toNat
      = z.toNat + x.toNat * y.toNat + c.toNat := by
  unfold mp_addmul_1
  have h := mp_mul_val x y
  have hb := mul_limb_le x y
  simp only [BitVec.toNat_add, flag_toNat, BitVec.lt_def]
  generalize mp_mul x y = p at *
  have := c.isLt; have := z.isLt; have := p.1.isLt; have := p.2.isLt
  rw [← h] at hb ⊢
  split <;> split <;> omega

theorem mp_submul_1_val (z x y c : Limb) :
    (mp_submul_1 z x y c).1.toNat + x.toNat * y.toNat + c.toNat
      = z.toNat + 2 ^ 64 * (mp_submul_1 z x y c).2.toNat := by
  unfold mp_submul_1
  have h := mp_mul_val x y
  have hb := mul_limb_le x y
  simp only [BitVec.toNat_add, BitVec.toNat_sub, flag_toNat, BitVec.lt_def, GT.gt]
  generalize mp_mul x y = p at *
  have := c.isLt; have := z.isLt; have := p.1.isLt; have := p.2.isLt
  rw [← h] at hb ⊢
  split <;> split <;> omega

theorem mp_neg_1_val (x c : Limb) :
    (mp_neg_1 x c).1.toNat + x.toNat + 1 + 2 ^ 64 * (mp_neg_1 x c).2.toNat = 2 ^ 64 + c.toNat := by
  unfold mp_neg_1
  simp only [BitVec.toNat_add, BitVec.toNat_not, flag_toNat, BitVec.lt_def]
  have := x.isLt; have := c.isLt
  split <;> omega

/-! ### The wide versions -/

theorem wide_toNat (x : Limb) : (wide x).toNat = x.toNat := by
  unfold wide
  rw [BitVec.zeroExtend_eq_setWidth, BitVec.toNat_setWidth]
  have := x.isLt
  omega

theorem lo64_toNat (w : BitVec 128) : (lo64 w).toNat = w.toNat % 2 ^ 64 := by
  unfold lo64; rw [BitVec.truncate_eq_setWidth, BitVec.toNat_setWidth]

theorem hi64_toNat (w : BitVec 128) : (hi64 w).toNat = w.toNat / 2 ^ 64 := by
  unfold hi64
  rw [BitVec.truncate_eq_setWidth, BitVec.toNat_setWidth, BitVec.toNat_ushiftRight,
    Nat.shiftRight_eq_div_pow]
  have := w.isLt
  omega

theorem neg_hi_toNat (w : BitVec 128) :
    (lo64 (-(w >>> 64))).toNat = (2 ^ 64 - w.toNat / 2 ^ 64) % 2 ^ 64 := by
  rw [lo64_toNat, BitVec.toNat_neg, BitVec.toNat_ushiftRight, Nat.shiftRight_eq_div_pow]
  have := w.isLt
  omega

theorem pair_ext {a b : Limb × Limb} (h1 : a.1.toNat = b.1.toNat) (h2 : a.2.toNat = b.2.toNat) :
    a = b := Prod.ext (BitVec.eq_of_toNat_eq h1) (BitVec.eq_of_toNat_eq h2)

theorem mp_add_wide_eq (x y : Limb) : mp_add_wide x y = mp_add x y := by
  have h := (mp_add_val x y).1
  have e1 : (mp_add_wide x y).1.toNat = (x.toNat + y.toNat) % 2 ^ 64 := by
    simp only [mp_add_wide, lo64_toNat, BitVec.toNat_add, wide_toNat]; omega
  have e2 : (mp_add_wide x y).2.toNat = (x.toNat + y.toNat) / 2 ^ 64 := by
    simp only [mp_add_wide, hi64_toNat, BitVec.toNat_add, wide_toNat]
    have := x.isLt; have := y.isLt; omega
  have := (mp_add x y).1.isLt
  apply pair_ext <;> omega

theorem mp_sub_wide_eq (x y : Limb) : mp_sub_wide x y = mp_sub x y := by
  have h := mp_sub_val x y
  have hx := x.isLt; have hy := y.isLt
  have e1 : (mp_sub_wide x y).1.toNat = (2 ^ 64 + x.toNat - y.toNat) % 2 ^ 64 := by
    simp only [mp_sub_wide, lo64_toNat, BitVec.toNat_sub, wide_toNat]; omega
  have e2 : (mp_sub_wide x y).2.toNat = if x.toNat < y.toNat then 1 else 0 := by
    simp only [mp_sub_wide, neg_hi_toNat, BitVec.toNat_sub, wide_toNat]
    split <;> omega
  have := (mp_sub x y).1.isLt
  apply pair_ext
  · omega
  · rw [e2]; split <;> omega

theorem mp_mul_wide_eq (x y : Limb) : mp_mul_wide x y = mp_mul x y := by
  have h := mp_mul_val x y
  have hb := mul_limb_le x y
  have e : (wide x * wide y).toNat = x.toNat * y.toNat := by
    rw [BitVec.toNat_mul, wide_toNat, wide_toNat, Nat.mod_eq_of_lt (by omega)]
  have := (mp_mul x y).2.isLt
  apply pair_ext
  · simp only [mp_mul_wide, hi64_toNat, e]; omega
  · simp only [mp_mul_wide, lo64_toNat, e]; omega

theorem mp_add_1_wide_eq (x y c : Limb) : mp_add_1_wide x y c = mp_add_1 x y c := by
  have h := mp_add_1_val x y c
  have := x.isLt; have := y.isLt; have := c.isLt
  have e : (wide x + wide y + wide c).toNat = x.toNat + y.toNat + c.toNat := by
    simp only [BitVec.toNat_add, wide_toNat]; omega
  have := (mp_add_1 x y c).1.isLt
  apply pair_ext
  · simp only [mp_add_1_wide, lo64_toNat, e]; omega
  · simp only [mp_add_1_wide, hi64_toNat, e]; omega

theorem mp_sub_1_wide_eq (x y c : Limb) : mp_sub_1_wide x y c = mp_sub_1 x y c := by
  have h := mp_sub_1_val x y c
  have := x.isLt; have := y.isLt; have := c.isLt
  have e : (wide x - wide y - wide c).toNat
      = (2 ^ 128 + x.toNat - (y.toNat + c.toNat)) % 2 ^ 128 := by
    simp only [BitVec.toNat_sub, wide_toNat]; omega
  have := (mp_sub_1 x y c).1.isLt
  apply pair_ext
  · simp only [mp_sub_1_wide, lo64_toNat, e]; omega
  · simp only [mp_sub_1_wide, neg_hi_toNat, e]; omega

theorem mp_mul_1_wide_eq (x y c : Limb) : mp_mul_1_wide x y c = mp_mul_1 x y c := by
  have h := mp_mul_1_val x y c
  have hb := mul_limb_le x y
  have := c.isLt
  have e : (wide x * wide y + wide c).toNat = x.toNat * y.toNat + c.toNat := by
    rw [BitVec.toNat_add, BitVec.toNat_mul]; simp only [wide_toNat]
    rw [Nat.mod_eq_of_lt (a := x.toNat * y.toNat) (by omega), Nat.mod_eq_of_lt (by omega)]
  have := (mp_mul_1 x y c).1.isLt
  apply pair_ext
  · simp only [mp_mul_1_wide, lo64_toNat, e]; omega
  · simp only [mp_mul_1_wide, hi64_toNat, e]; omega

theorem mp_addmul_1_wide_eq (z x y c : Limb) : mp_addmul_1_wide z x y c = mp_addmul_1 z x y c := by
  have h := mp_addmul_1_val z x y c
  have hb := mul_limb_le x y
  have := c.isLt; have := z.isLt
  have e : (wide z + wide x * wide y + wide c).toNat = z.toNat + x.toNat * y.toNat + c.toNat := by
    rw [BitVec.toNat_add, BitVec.toNat_add, BitVec.toNat_mul]; simp only [wide_toNat]
    rw [Nat.mod_eq_of_lt (a := x.toNat * y.toNat) (by omega)]
    omega
  have := (mp_addmul_1 z x y c).1.isLt
  apply pair_ext
  · simp only [mp_addmul_1_wide, lo64_toNat, e]; omega
  · simp only [mp_addmul_1_wide, hi64_toNat, e]; omega

theorem mp_submul_1_wide_eq (z x y c : Limb) : mp_submul_1_wide z x y c = mp_submul_1 z x y c := by
  have h := mp_submul_1_val z x y c
  have hb := mul_limb_le x y
  have := c.isLt; have := z.isLt
  have e : (wide z - wide x * wide y - wide c).toNat
      = (2 ^ 128 + z.toNat - (x.toNat * y.toNat + c.toNat)) % 2 ^ 128 := by
    rw [BitVec.toNat_sub, BitVec.toNat_sub, BitVec.toNat_mul]; simp only [wide_toNat]
    rw [Nat.mod_eq_of_lt (a := x.toNat * y.toNat) (by omega)]
    omega
  have := (mp_submul_1 z x y c).1.isLt; have := (mp_submul_1 z x y c).2.isLt
  apply pair_ext
  · simp only [mp_submul_1_wide, lo64_toNat, e]; omega
  · simp only [mp_submul_1_wide, neg_hi_toNat, e]; omega

theorem mp_neg_1_wide_eq (x c : Limb) : mp_neg_1_wide x c = mp_neg_1 x c := by
  have h := mp_neg_1_val x c
  have := x.isLt; have := c.isLt
  have e : (wide (~~~x) + wide c).toNat = 2 ^ 64 - 1 - x.toNat + c.toNat := by
    simp only [BitVec.toNat_add, wide_toNat, BitVec.toNat_not]; omega
  have := (mp_neg_1 x c).1.isLt
  apply pair_ext
  · simp only [mp_neg_1_wide, lo64_toNat, e]; omega
  · simp only [mp_neg_1_wide, hi64_toNat, e]; omega

end Torsion.Mpi
