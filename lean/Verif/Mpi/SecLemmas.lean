import Verif.Mpi.MpnLemmas

/-! Lemmas about the branch-free vector functions. -/
namespace Torsion.Mpi
open Spec (val)

theorem flag_pos {p : Prop} [Decidable p] (h : p) : flag p = 1 := by unfold flag; rw [if_pos h]
theorem flag_neg {p : Prop} [Decidable p] (h : ¬ p) : flag p = 0 := by unfold flag; rw [if_neg h]

theorem flag_congr {p q : Prop} [Decidable p] [Decidable q] (h : p ↔ q) : flag p = flag q := by
  unfold flag; simp only [h]

theorem cndMask_zero : cndMask 0 = 0 := by decide
theorem cndMask_ne {c : Limb} (h : c ≠ 0) : cndMask c = BitVec.allOnes 64 := by
  unfold cndMask; rw [flag_pos h]; decide

theorem and_not_zero (x : Limb) : x &&& ~~~(0 : Limb) = x := by
  rw [show ~~~(0 : Limb) = BitVec.allOnes 64 from rfl, BitVec.and_allOnes]

theorem and_not_ones (x : Limb) : x &&& ~~~(BitVec.allOnes 64) = 0 := by
  rw [show ~~~(BitVec.allOnes 64) = (0 : Limb) from rfl]; exact BitVec.and_zero

theorem and_zero' (x : Limb) : x &&& (0 : Limb) = 0 := BitVec.and_zero
theorem or_zero' (x : Limb) : x ||| (0 : Limb) = x := BitVec.or_zero
theorem zero_or' (x : Limb) : (0 : Limb) ||| x = x := BitVec.zero_or
theorem xor_zero' (x : Limb) : x ^^^ (0 : Limb) = x := BitVec.xor_zero
theorem add_zero' (x : Limb) : x + (0 : Limb) = x := BitVec.add_zero x

theorem cnd_zero_eq (a : List Limb) (c : Limb) :
    mpn_cnd_zero a c = if c = 0 then a else mpn_zero a.length := by
  unfold mpn_cnd_zero mpn_zero
  by_cases h : c = 0
  · rw [if_pos h, h, cndMask_zero]
    simp only [and_not_zero, List.map_id']
  · rw [if_neg h, cndMask_ne h]
    simp only [and_not_ones]
    induction a with
    | nil => rfl
    | cons x a ih => simp only [List.map_cons, ih, List.length_cons, List.replicate_succ]

theorem zip_left {α : Type} (a b : List α) (h : a.length = b.length) :
    List.zipWith (fun x _ => x) a b = a := by
  induction a generalizing b with
  | nil => simp
  | cons x a ih =>
    cases b with
    | nil => simp at h
    | cons y b => simp only [List.zipWith_cons_cons]; rw [ih b (by simpa using h)]

theorem zip_right {α : Type} (a b : List α) (h : a.length = b.length) :
    List.zipWith (fun _ y => y) a b = b := by
  induction a generalizing b with
  | nil => cases b with
    | nil => rfl
    | cons y b => simp at h
  | cons x a ih =>
    cases b with
    | nil => simp at h
    | cons y b => simp only [List.zipWith_cons_cons]; rw [ih b (by simpa using h)]

theorem cnd_select_eq (a b : List Limb) (c : Limb) (hl : a.length = b.length) :
    mpn_cnd_select a b c = if c = 0 then a else b := by
  unfold mpn_cnd_select
  by_cases h : c = 0
  · rw [if_pos h, h, cndMask_zero]
    simp only [and_not_zero, and_zero', or_zero']
    exact zip_left a b hl
  · rw [if_neg h, cndMask_ne h]
    simp only [and_not_ones, BitVec.and_allOnes, zero_or']
    exact zip_right a b hl

theorem xor_xor_self_left (x y : Limb) : x ^^^ (x ^^^ y) = y := by
  rw [← BitVec.xor_assoc]; simp

theorem xor_xor_self_right (x y : Limb) : y ^^^ (x ^^^ y) = x := by
  rw [BitVec.xor_comm x, ← BitVec.xor_assoc]; simp

theorem cnd_swap_eq (a b : List Limb) (c : Limb) (hl : a.length = b.length) :
    mpn_cnd_swap a b c = if c = 0 then (a, b) else (b, a) := by
  unfold mpn_cnd_swap
  by_cases h : c = 0
  · rw [if_pos h, h, cndMask_zero]
    simp only [and_zero', xor_zero', zip_left a b hl, zip_right a b hl]
  · rw [if_neg h, cndMask_ne h]
    simp only [BitVec.and_allOnes, xor_xor_self_left, xor_xor_self_right, zip_left a b hl,
      zip_right a b hl]

theorem cnd_add_ones (c : Limb) (a b : List Limb) :
    mpn_cnd_add_nc (BitVec.allOnes 64) c a b = mpn_add_nc c a b := by
  induction a generalizing b c with
  | nil => cases b <;> rfl
  | cons x a ih =>
    cases b with
    | nil => rfl
    | cons y b => unfold mpn_cnd_add_nc mpn_add_nc; simp only [BitVec.and_allOnes, ih]

theorem cnd_sub_ones (c : Limb) (a b : List Limb) :
    mpn_cnd_sub_nc (BitVec.allOnes 64) c a b = mpn_sub_nc c a b := by
  induction a generalizing b c with
  | nil => cases b <;> rfl
  | cons x a ih =>
    cases b with
    | nil => rfl
    | cons y b => unfold mpn_cnd_sub_nc mpn_sub_nc; simp only [BitVec.and_allOnes, ih]

theorem mp_add_1_zero (x : Limb) : mp_add_1 x 0 0 = (x, 0) := by
  apply pair_ext
  · have := mp_add_1_val x 0 0; have := x.isLt; have := (mp_add_1 x 0 0).1.isLt; simp at *; omega
  · have := mp_add_1_val x 0 0; have := x.isLt; have := (mp_add_1 x 0 0).1.isLt; simp at *; omega

theorem mp_sub_1_zero (x : Limb) : mp_sub_1 x 0 0 = (x, 0) := by
  apply pair_ext
  · have := mp_sub_1_val x 0 0; have := x.isLt; have := (mp_sub_1 x 0 0).1.isLt; simp at *; omega
  · have := mp_sub_1_val x 0 0; have := x.isLt; have := (mp_sub_1 x 0 0).1.isLt; simp at *; omega

theorem cnd_add_zero (a b : List Limb) (hl : a.length = b.length) : mpn_cnd_add_nc 0 0 a b = (a, 0) := by
  induction a generalizing b with
  | nil => cases b <;> rfl
  | cons x a ih =>
    cases b with
    | nil => simp at hl
    | cons y b =>
      unfold mpn_cnd_add_nc
      rw [show y &&& (0 : Limb) = 0 by simp]
      simp only [mp_add_1_zero, ih b (by simpa using hl)]

theorem cnd_sub_zero (a b : List Limb) (hl : a.length = b.length) : mpn_cnd_sub_nc 0 0 a b = (a, 0) := by
  induction a generalizing b with
  | nil => cases b <;> rfl
  | cons x a ih =>
    cases b with
    | nil => simp at hl
    | cons y b =>
      unfold mpn_cnd_sub_nc
      rw [show y &&& (0 : Limb) = 0 by simp]
      simp only [mp_sub_1_zero, ih b (by simpa using hl)]

theorem cnd_add_n_eq (a b : List Limb) (c : Limb) (hl : a.length = b.length) :
    mpn_cnd_add_n a b c = if c = 0 then (a, 0) else mpn_add_n a b := by
  unfold mpn_cnd_add_n mpn_add_n
  by_cases h : c = 0
  · rw [if_pos h, h, cndMask_zero, cnd_add_zero a b hl]
  · rw [if_neg h, cndMask_ne h, cnd_add_ones]

theorem cnd_sub_n_eq (a b : List Limb) (c : Limb) (hl : a.length = b.length) :
    mpn_cnd_sub_n a b c = if c = 0 then (a, 0) else mpn_sub_n a b := by
  unfold mpn_cnd_sub_n mpn_sub_n
  by_cases h : c = 0
  · rw [if_pos h, h, cndMask_zero, cnd_sub_zero a b hl]
  · rw [if_neg h, cndMask_ne h, cnd_sub_ones]

/-! ### Negation -/

theorem neg_c_val : ∀ (c : Limb) (a : List Limb), c.toNat ≤ 1 →
    val (mpn_neg_c c a).1 + val a + 1 + 2 ^ (64 * a.length) * (mpn_neg_c c a).2.toNat
      = 2 ^ (64 * a.length) + c.toNat ∧
    (mpn_neg_c c a).1.length = a.length ∧ (mpn_neg_c c a).2.toNat ≤ 1
  | c, [], h => by simp [mpn_neg_c, val_nil, h]
  | c, x :: a, h => by
    unfold mpn_neg_c
    dsimp only
    have e := mp_neg_1_val x c
    have hk : (mp_neg_1 x c).2.toNat ≤ 1 := by
      have := x.isLt; have := (mp_neg_1 x c).1.isLt; omega
    obtain ⟨ih, il, ic⟩ := neg_c_val (mp_neg_1 x c).2 a hk
    refine ⟨?_, by simp [il], ic⟩
    rw [val_cons, val_cons, List.length_cons, pow64, pow64']
    omega

theorem neg_val (a : List Limb) :
    val (mpn_neg a).1 = (2 ^ (64 * a.length) - val a) % 2 ^ (64 * a.length) ∧
    (mpn_neg a).1.length = a.length ∧ (mpn_neg a).2.toNat = if val a = 0 then 0 else 1 := by
  unfold mpn_neg
  obtain ⟨e, l, c⟩ := neg_c_val 1 a (by decide)
  have h1 := val_lt (mpn_neg_c 1 a).1
  have h2 := val_lt a
  rw [l] at h1
  dsimp only
  rw [show (1 : Limb).toNat = 1 from rfl] at e
  have hx : ((mpn_neg_c 1 a).2 ^^^ 1).toNat = 1 - (mpn_neg_c 1 a).2.toNat := by
    rw [BitVec.toNat_xor]
    rcases Nat.le_one_iff_eq_zero_or_eq_one.1 c with h | h <;> rw [h] <;> rfl
  refine ⟨?_, l, ?_⟩
  · rcases Nat.le_one_iff_eq_zero_or_eq_one.1 c with h | h <;> rw [h] at e
    · rw [Nat.mod_eq_of_lt] <;> omega
    · have : val a = 0 := by omega
      rw [this, Nat.sub_zero, Nat.mod_self]; omega
  · rw [hx]
    rcases Nat.le_one_iff_eq_zero_or_eq_one.1 c with h | h <;> rw [h] at e ⊢ <;> split <;> omega

theorem cnd_neg_c_ones : ∀ (c : Limb) (a : List Limb),
    mpn_cnd_neg_c (BitVec.allOnes 64) c a = mpn_neg_c c a
  | c, [] => rfl
  | c, x :: a => by
    unfold mpn_cnd_neg_c mpn_neg_c mp_neg_1
    simp only [BitVec.xor_allOnes, cnd_neg_c_ones]

theorem cnd_neg_c_zero : ∀ a : List Limb, mpn_cnd_neg_c 0 0 a = (a, 0)
  | [] => rfl
  | x :: a => by
    unfold mpn_cnd_neg_c
    have h : flag (x < (0 : Limb)) = 0 := flag_neg (by rw [BitVec.lt_def]; exact Nat.not_lt_zero _)
    simp only [xor_zero', add_zero', h, cnd_neg_c_zero a]

theorem cnd_neg_eq (a : List Limb) (c : Limb) :
    mpn_cnd_neg a c = if c = 0 then (a, 0) else mpn_neg a := by
  unfold mpn_cnd_neg
  by_cases h : c = 0
  · rw [if_pos h, h, cndMask_zero]
    simp only [and_zero', cnd_neg_c_zero]
  · rw [if_neg h, cndMask_ne h]
    unfold mpn_neg
    simp only [BitVec.and_allOnes, cnd_neg_c_ones]

/-! ### Comparison -/

theorem top_bit (w : Limb) : ((((w >>> 1) ||| (w &&& 1)) - 1) >>> 63) = flag (w = 0) := by
  apply BitVec.eq_of_toNat_eq
  rw [shr_toNat, BitVec.toNat_sub, flag_toNat, show (1 : Limb).toNat = 1 from rfl]
  have hlt : ((w >>> 1) ||| (w &&& 1)).toNat < 2 ^ 63 := by
    rw [BitVec.toNat_or]
    apply Nat.or_lt_two_pow
    · rw [shr_toNat]; have := w.isLt; omega
    · rw [BitVec.toNat_and]
      exact lt_of_le_of_lt Nat.and_le_right (by decide)
  by_cases h : w = 0
  · subst h; rfl
  · rw [if_neg h]
    have hne : ((w >>> 1) ||| (w &&& 1)).toNat ≠ 0 := by
      intro h0
      rw [BitVec.toNat_or, Nat.or_eq_zero_iff, shr_toNat, BitVec.toNat_and] at h0
      obtain ⟨h1, h2⟩ := h0
      rw [show (1 : Limb).toNat = 2 ^ 1 - 1 from rfl, Nat.and_two_pow_sub_one_eq_mod] at h2
      apply h
      apply BitVec.eq_of_toNat_eq
      have : w.toNat = 0 := by omega
      rw [this]; rfl
    omega

theorem foldl_or (a : List Limb) : ∀ w : Limb,
    a.foldl (fun w x => w ||| x) w = 0 ↔ w = 0 ∧ ∀ x ∈ a, x = 0 := by
  induction a with
  | nil => intro w; simp
  | cons x a ih =>
    intro w
    rw [List.foldl_cons, ih]
    simp only [List.mem_cons, forall_eq_or_imp]
    constructor
    · rintro ⟨h1, h2⟩
      have h := BitVec.or_eq_zero_iff.1 h1
      exact ⟨h.1, h.2, h2⟩
    · rintro ⟨h1, h2, h3⟩
      refine ⟨by rw [h1, h2]; rfl, h3⟩

theorem val_zero_iff (a : List Limb) : val a = 0 ↔ ∀ x ∈ a, x = 0 := by
  induction a with
  | nil => simp [val_nil]
  | cons x a ih =>
    rw [val_cons]
    simp only [List.mem_cons, forall_eq_or_imp]
    rw [← ih, ← toNat_eq_zero]
    omega

theorem sec_zero_p_eq (a : List Limb) : mpn_sec_zero_p a = flag (val a = 0) := by
  unfold mpn_sec_zero_p
  dsimp only
  rw [top_bit]
  apply flag_congr
  rw [foldl_or, val_zero_iff]; simp

theorem zip_xor_zero (a b : List Limb) (hl : a.length = b.length) :
    (∀ x ∈ List.zipWith (fun x y => x ^^^ y) a b, x = 0) ↔ a = b := by
  induction a generalizing b with
  | nil => cases b with
    | nil => simp
    | cons y b => simp at hl
  | cons x a ih =>
    cases b with
    | nil => simp at hl
    | cons y b =>
      simp only [List.zipWith_cons_cons, List.mem_cons, forall_eq_or_imp, ih b (by simpa using hl),
        List.cons.injEq]
      constructor
      · rintro ⟨h, h'⟩; exact ⟨BitVec.xor_eq_zero_iff.1 h, h'⟩
      · rintro ⟨h, h'⟩; exact ⟨BitVec.xor_eq_zero_iff.2 h, h'⟩

theorem sec_equal_p_eq (a b : List Limb) (hl : a.length = b.length) :
    mpn_sec_equal_p a b = flag (val a = val b) := by
  unfold mpn_sec_equal_p
  dsimp only
  rw [top_bit]
  apply flag_congr
  rw [foldl_or, zip_xor_zero a b hl]
  constructor
  · rintro ⟨_, h⟩; rw [h]
  · intro h; exact ⟨rfl, val_inj hl h⟩

theorem half_lt (a b : Limb) (ha : a.toNat < 2 ^ 32) (hb : b.toNat < 2 ^ 32) :
    (a - b) >>> 63 = flag (a.toNat < b.toNat) := by
  apply BitVec.eq_of_toNat_eq
  rw [shr_toNat, BitVec.toNat_sub, flag_toNat]
  split <;> omega

theorem half_eq (a b : Limb) (ha : a.toNat < 2 ^ 32) (hb : b.toNat < 2 ^ 32) :
    ((a ^^^ b) - 1) >>> 63 = flag (a.toNat = b.toNat) := by
  apply BitVec.eq_of_toNat_eq
  rw [shr_toNat, BitVec.toNat_sub, flag_toNat, show (1 : Limb).toNat = 1 from rfl]
  have h1 : (a ^^^ b).toNat < 2 ^ 32 := by
    rw [BitVec.toNat_xor]; exact Nat.xor_lt_two_pow ha hb
  by_cases h : a.toNat = b.toNat
  · rw [if_pos h, BitVec.eq_of_toNat_eq h]; simp
  · rw [if_neg h]
    have : (a ^^^ b).toNat ≠ 0 := by
      intro h0
      exact h (congrArg BitVec.toNat (BitVec.xor_eq_zero_iff.1 (toNat_eq_zero.1 h0)))
    omega

theorem flag_and (p q : Prop) [Decidable p] [Decidable q] : flag p &&& flag q = flag (p ∧ q) := by
  unfold flag; by_cases p <;> by_cases q <;> simp [*]

theorem flag_or (p q : Prop) [Decidable p] [Decidable q] : flag p ||| flag q = flag (p ∨ q) := by
  unfold flag; by_cases p <;> by_cases q <;> simp [*]

theorem flag_not (p : Prop) [Decidable p] : flag p ^^^ 1 = flag (¬ p) := by
  unfold flag; by_cases p <;> simp [*]

theorem sec_step (a b : Limb) (P Q : Prop) [Decidable P] [Decidable Q]
    (ha : a.toNat < 2 ^ 32) (hb : b.toNat < 2 ^ 32) :
    mpn_sec_compare_step a b (flag P, flag Q)
      = (flag (P ∨ (Q ∧ a.toNat < b.toNat)), flag (Q ∧ a.toNat = b.toNat)) := by
  unfold mpn_sec_compare_step
  simp only [half_lt a b ha hb, half_eq a b ha hb, flag_and, flag_or]

theorem sec_compare_loop_eq : ∀ (a b : List Limb), a.length = b.length →
    mpn_sec_compare_loop a b = (flag (val a < val b), flag (val a = val b))
  | [], [], _ => by simp [mpn_sec_compare_loop, flag]
  | [], _ :: _, h => by simp at h
  | _ :: _, [], h => by simp at h
  | x :: a, y :: b, h => by
    unfold mpn_sec_compare_loop
    dsimp only
    have hx := x.isLt; have hy := y.isLt
    have e1 : ((x >>> 32) &&& MP_LOW_MASK).toNat = x.toNat / 2 ^ 32 := by
      rw [low_toNat, shr_toNat]; omega
    have e2 : ((y >>> 32) &&& MP_LOW_MASK).toNat = y.toNat / 2 ^ 32 := by
      rw [low_toNat, shr_toNat]; omega
    rw [sec_compare_loop_eq a b (by simpa using h), sec_step _ _ _ _ (by omega) (by omega),
      sec_step _ _ _ _ (by rw [low_toNat]; omega) (by rw [low_toNat]; omega)]
    rw [e1, e2, low_toNat, low_toNat, val_cons, val_cons]
    congr 1
    · apply flag_congr; omega
    · apply flag_congr; omega

theorem sec_compare_parts (P Q : Prop) [Decidable P] [Decidable Q] :
    ((flag P <<< 1) ||| flag Q) >>> 1 = flag P ∧ ((flag P <<< 1) ||| flag Q) &&& 1 = flag Q := by
  unfold flag
  by_cases P <;> by_cases Q <;> simp [*]

theorem sec_lt_p_eq (a b : List Limb) (h : a.length = b.length) :
    mpn_sec_lt_p a b = flag (val a < val b) := by
  unfold mpn_sec_lt_p mpn_sec_compare
  simp only [sec_compare_loop_eq a b h, (sec_compare_parts _ _).1, (sec_compare_parts _ _).2, flag_not,
    flag_and]
  apply flag_congr; omega

theorem sec_lte_p_eq (a b : List Limb) (h : a.length = b.length) :
    mpn_sec_lte_p a b = flag (val a ≤ val b) := by
  unfold mpn_sec_lte_p mpn_sec_compare
  simp only [sec_compare_loop_eq a b h, (sec_compare_parts _ _).1, (sec_compare_parts _ _).2, flag_or]
  apply flag_congr; omega

theorem sec_gt_p_eq (a b : List Limb) (h : a.length = b.length) :
    mpn_sec_gt_p a b = flag (val a > val b) := by
  unfold mpn_sec_gt_p mpn_sec_compare
  simp only [sec_compare_loop_eq a b h, (sec_compare_parts _ _).1, (sec_compare_parts _ _).2, flag_or,
    flag_not]
  apply flag_congr; omega

theorem sec_gte_p_eq (a b : List Limb) (h : a.length = b.length) :
    mpn_sec_gte_p a b = flag (val a ≥ val b) := by
  unfold mpn_sec_gte_p mpn_sec_compare
  simp only [sec_compare_loop_eq a b h, (sec_compare_parts _ _).1, (sec_compare_parts _ _).2, flag_or,
    flag_not]
  apply flag_congr; omega

theorem sec_cmp_eq (a b : List Limb) (h : a.length = b.length) : mpn_sec_cmp a b = mpn_cmp a b := by
  unfold mpn_sec_cmp mpn_sec_compare
  rw [cmp_val a b h]
  simp only [sec_compare_loop_eq a b h, (sec_compare_parts _ _).1, (sec_compare_parts _ _).2, flag_toNat]
  rcases Nat.lt_trichotomy (val a) (val b) with h1 | h1 | h1
  · rw [if_pos h1, if_neg (by omega), if_pos h1]; rfl
  · rw [if_neg (by omega), if_pos h1, if_neg (by omega), if_pos h1]; rfl
  · rw [if_neg (by omega), if_neg (by omega), if_neg (by omega), if_neg (by omega)]; rfl

theorem tabselect_loop (which n : Nat) : ∀ (i : Nat) (z : List Limb) (ts : List (List Limb)),
    z.length = n → (∀ t ∈ ts, t.length = n) →
    mpn_sec_tabselect_loop which i z ts
      = if i ≤ which ∧ which < i + ts.length then ts.getD (which - i) z else z
  | i, z, [], _, _ => by
    unfold mpn_sec_tabselect_loop
    rw [if_neg (by simp)]
  | i, z, t :: ts, hz, ht => by
    unfold mpn_sec_tabselect_loop
    have htl : t.length = n := ht t (by simp)
    rw [cnd_select_eq z t _ (by rw [hz, htl])]
    by_cases h : i = which
    · rw [flag_pos h, if_neg (by decide), tabselect_loop which n (i + 1) t ts htl
        (fun u hu => ht u (by simp [hu])), if_neg (by omega), if_pos (by simp; omega)]
      simp [h]
    · rw [flag_neg h, if_pos rfl, tabselect_loop which n (i + 1) z ts hz
        (fun u hu => ht u (by simp [hu]))]
      by_cases hc : i + 1 ≤ which ∧ which < i + 1 + ts.length
      · rw [if_pos hc, if_pos (by simp; omega)]
        obtain ⟨k, hk⟩ : ∃ k, which = i + 1 + k := ⟨which - (i + 1), by omega⟩
        rw [hk, show i + 1 + k - (i + 1) = k by omega, show i + 1 + k - i = k + 1 by omega]
        simp
      · rw [if_neg hc, if_neg (by simp; omega)]

theorem tabselect_eq (z : List Limb) (ts : List (List Limb)) (which : Nat)
    (ht : ∀ t ∈ ts, t.length = z.length) (h : which < ts.length) :
    mpn_sec_tabselect z ts which = ts[which] := by
  unfold mpn_sec_tabselect
  rw [tabselect_loop which z.length 0 z ts rfl ht, if_pos (by omega)]
  simp [h]

theorem reduce_weak_val (x n : List Limb) (hi : Limb) (hl : x.length = n.length)
    (h : val x + 2 ^ (64 * n.length) * hi.toNat < 2 * val n) :
    val (mpn_reduce_weak x n hi).1 = (val x + 2 ^ (64 * n.length) * hi.toNat) % val n ∧
    (mpn_reduce_weak x n hi).1.length = n.length := by
  unfold mpn_reduce_weak
  obtain ⟨e, l, c⟩ := sub_n_val x n hl
  have hb := sub_n_borrow x n hl
  have hx := val_lt x
  have hn := val_lt n
  have hlt := val_lt (mpn_sub_n x n).1
  dsimp only
  rw [cnd_select_eq _ _ _ (by rw [l])]
  rw [l] at hlt
  rw [hl] at e hx hlt
  have hi1 : hi.toNat ≤ 1 := by
    by_contra hc
    have : 2 ^ (64 * n.length) * 2 ≤ 2 ^ (64 * n.length) * hi.toNat := Nat.mul_le_mul_left _ (by omega)
    omega
  have hi' : hi.toNat = 0 ∨ hi.toNat = 1 := by omega
  by_cases hlt1 : hi < (mpn_sub_n x n).2
  · rw [flag_pos hlt1, flag_neg (by decide), if_pos rfl]
    rw [BitVec.lt_def] at hlt1
    have h0 : hi.toNat = 0 := by omega
    have : (mpn_sub_n x n).2.toNat = 1 := by omega
    rw [this] at hb
    have hxn : val x < val n := by
      by_contra hc
      rw [if_neg hc] at hb; omega
    rw [h0, Nat.mul_zero, Nat.add_zero, Nat.mod_eq_of_lt hxn]
    exact ⟨rfl, hl⟩
  · rw [flag_neg hlt1, flag_pos rfl, if_neg (by decide)]
    rw [BitVec.lt_def] at hlt1
    refine ⟨?_, by rw [l, hl]⟩
    have key : val (mpn_sub_n x n).1 + val n = val x + 2 ^ (64 * n.length) * hi.toNat := by
      rcases hi' with h0 | h0
      · have : (mpn_sub_n x n).2.toNat = 0 := by omega
        rw [this] at e
        rw [h0]; exact e
      · rw [h0] at h ⊢
        split at hb <;> rw [hb] at e <;> omega
    rw [← key, Nat.add_mod_right, Nat.mod_eq_of_lt (by omega)]

end Torsion.Mpi
