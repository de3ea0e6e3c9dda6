import Verif.Mpi.MpzSpec
import Verif.Mpi.DivLemmas
import Verif.Mpi.MpnBits
import Verif.Mpi.SecLemmas

namespace Torsion.Mpi

open Spec (val ival Canon Rep Room)

theorem grow_ok {z : Dest} {n : Nat} (h : Room z n) : mpz_grow z n = .ok () := by
  cases z with
  | heap => rfl
  | vla a => unfold mpz_grow; exact if_neg (Nat.not_lt.2 h)

theorem room_mono {z : Dest} {m n : Nat} (h : Room z n) (hm : m ≤ n) : Room z m := by
  cases z with
  | heap => trivial
  | vla a => exact Nat.le_trans hm h

theorem room_heap (n : Nat) : Room .heap n := trivial

theorem room_vla (n m : Nat) (h : m ≤ n) : Room (mpz_init_vla n) m :=
  Nat.le_trans h (Nat.le_max_right 1 n)

theorem make_rep (s : Bool) {zp : List Limb} (h : Norm zp) :
    Rep (mpz_make s zp) (if s then -(val zp : Int) else val zp) := by
  unfold mpz_make
  refine ⟨⟨h, ?_⟩, ?_⟩
  · intro hn e
    simp only at hn e
    rw [e] at hn
    simp at hn
  · unfold ival
    simp only
    cases zp with
    | nil => simp [val_nil]
    | cons x xs => simp

theorem zero_rep : Rep ⟨false, []⟩ 0 := ⟨⟨norm_nil, by simp⟩, rfl⟩

theorem pos_rep {zp : List Limb} (h : Norm zp) : Rep ⟨false, zp⟩ (val zp) :=
  ⟨⟨h, by simp⟩, rfl⟩

theorem rep_norm {x : Mpz} {i : Int} (h : Rep x i) : Norm x.mag := h.1.1

theorem rep_abs {x : Mpz} {i : Int} (h : Rep x i) : val x.mag = i.natAbs := by
  obtain ⟨⟨hn, hs⟩, hi⟩ := h
  rw [← hi]; unfold ival
  split <;> simp

theorem rep_neg {x : Mpz} {i : Int} (h : Rep x i) : x.neg = true ↔ i < 0 := by
  obtain ⟨⟨hn, hs⟩, hi⟩ := h
  rw [← hi]; unfold ival
  constructor
  · intro hx
    have := hs hx
    have h0 : val x.mag ≠ 0 := fun e => this ((norm_zero hn).1 e)
    rw [if_pos hx]; omega
  · intro hx
    by_contra hc
    rw [if_neg hc] at hx; omega

theorem rep_neg' {x : Mpz} {i : Int} (h : Rep x i) : x.neg = decide (i < 0) := by
  have := rep_neg h
  by_cases hi : i < 0
  · rw [this.2 hi]; simp [hi]
  · have : x.neg = false := by
      cases hx : x.neg with
      | false => rfl
      | true => exact absurd (this.1 hx) hi
    rw [this]; simp [hi]

theorem rep_nil {x : Mpz} {i : Int} (h : Rep x i) : x.mag = [] ↔ i = 0 := by
  rw [← norm_zero (rep_norm h), rep_abs h]; omega

theorem rep_len {x : Mpz} {i : Int} (h : Rep x i) : x.mag.length = 0 ↔ i = 0 := by
  rw [← rep_nil h, List.length_eq_zero_iff]

theorem rep_size0 {x : Mpz} {i : Int} (h : Rep x i) : x.size = 0 ↔ i = 0 := by
  rw [← rep_len h]; unfold Mpz.size; split <;> omega

theorem rep_sizen {x : Mpz} {i : Int} (h : Rep x i) : x.size < 0 ↔ i < 0 := by
  have h1 := rep_len h
  have h2 := rep_neg h
  unfold Mpz.size
  split
  · rename_i hx
    have := h2.1 hx
    have h3 : x.mag.length ≠ 0 := fun e => by have := h1.1 e; omega
    constructor <;> intro <;> omega
  · rename_i hx
    constructor
    · intro; omega
    · intro hi; exact absurd (h2.2 hi) hx

theorem rep_ival {x : Mpz} (h : Canon x) : Rep x (ival x) := ⟨h, rfl⟩

/-- An integer has one representation. -/
theorem rep_unique {x y : Mpz} {i : Int} (hx : Rep x i) (hy : Rep y i) : x = y := by
  have h1 : x.neg = y.neg := by rw [rep_neg' hx, rep_neg' hy]
  have h2 : x.mag = y.mag := norm_inj (rep_norm hx) (rep_norm hy) (by rw [rep_abs hx, rep_abs hy])
  cases x; cases y; simp only at h1 h2; rw [h1, h2]

theorem norm_len_lt {a : List Limb} {n : Nat} (h : Norm a) (hv : val a < 2 ^ (64 * n)) : a.length ≤ n := by
  by_contra hc
  have hne : a ≠ [] := by rintro rfl; rw [List.length_nil] at hc; omega
  have h1 := norm_val_pos h hne
  have h2 : 2 ^ (64 * n) ≤ 2 ^ (64 * (a.length - 1)) := Nat.pow_le_pow_right (by omega) (by omega)
  omega

theorem rep_len_le {x : Mpz} {i : Int} {n : Nat} (h : Rep x i) (hv : i.natAbs < 2 ^ (64 * n)) :
    x.mag.length ≤ n := norm_len_lt (rep_norm h) (by rw [rep_abs h]; exact hv)

theorem rep_lt {x : Mpz} {i : Int} (h : Rep x i) : i.natAbs < 2 ^ (64 * x.mag.length) := by
  rw [← rep_abs h]; exact val_lt _

theorem rep_len_mono {x y : Mpz} {i j : Int} (hx : Rep x i) (hy : Rep y j) (h : i.natAbs ≤ j.natAbs) :
    x.mag.length ≤ y.mag.length :=
  norm_length_le (rep_norm hx) (by rw [rep_abs hx, rep_abs hy]; exact h)

/-! ### Trimming -/

theorem trim_ok (zp : List Limb) (hne : zp ≠ []) (h : 2 ^ (64 * (zp.length - 2)) ≤ val zp ∨ zp.length ≤ 1) :
    ∃ t, trimTop zp = .ok t ∧ Norm t ∧ val t = val zp := by
  obtain ⟨lo, top, rfl⟩ : ∃ lo top, zp = lo ++ [top] :=
    ⟨zp.dropLast, zp.getLast hne, (List.dropLast_concat_getLast hne).symm⟩
  unfold trimTop
  rw [List.getLast?_concat]
  simp only [List.dropLast_concat]
  by_cases ht : top = 0
  · subst ht
    rw [if_pos rfl]
    have hv : val (lo ++ [0]) = val lo := by
      rw [val_append, val_singleton]; simp
    refine ⟨lo, rfl, ?_, hv.symm⟩
    rw [hv, List.length_append, List.length_singleton] at h
    by_cases hl : lo = []
    · rw [hl]; exact norm_nil
    · obtain ⟨l2, t2, rfl⟩ : ∃ l2 t2, lo = l2 ++ [t2] :=
        ⟨lo.dropLast, lo.getLast hl, (List.dropLast_concat_getLast hl).symm⟩
      rw [List.length_append, List.length_singleton, val_append, val_singleton] at h
      unfold Norm
      rw [List.getLast?_concat]
      intro e
      have e : t2 = 0 := by simpa using e
      subst e
      have := val_lt l2
      rcases h with h | h
      · rw [show l2.length + 1 + 1 - 2 = l2.length by omega] at h
        have h0 : (0 : Limb).toNat = 0 := rfl
        rw [h0, Nat.mul_zero] at h
        omega
      · omega
  · rw [if_neg ht]
    refine ⟨_, rfl, ?_, rfl⟩
    unfold Norm
    rw [List.getLast?_concat]
    intro e; exact ht (by simpa using e)

theorem push_norm {zp : List Limb} {c : Limb} (h : c = 0 → Norm zp) : Norm (pushTop zp c) := by
  unfold pushTop
  by_cases hc : c = 0
  · rw [if_neg (by simpa using hc)]; exact h hc
  · rw [if_pos hc]
    unfold Norm
    rw [List.getLast?_concat]
    intro e; exact hc (by simpa using e)

theorem push_val (zp : List Limb) (c : Limb) :
    val (pushTop zp c) = val zp + 2 ^ (64 * zp.length) * c.toNat := by
  unfold pushTop
  by_cases hc : c = 0
  · rw [if_neg (by simpa using hc), hc]; simp
  · rw [if_pos hc, val_append, val_singleton]

/-- A vector that is at least as large as a normal one of its length is normal. -/
theorem norm_of_ge {a b : List Limb} (hb : Norm b) (hl : a.length = b.length) (h : val b ≤ val a) : Norm a := by
  by_cases hn : b = []
  · subst hn
    have : a = [] := List.length_eq_zero_iff.1 hl
    subst this; exact norm_nil
  · have h1 := norm_val_pos hb hn
    have hpos : 0 < b.length := List.length_pos_iff.2 hn
    have hne : a ≠ [] := by rintro rfl; rw [List.length_nil] at hl; omega
    obtain ⟨lo, top, rfl⟩ : ∃ lo top, a = lo ++ [top] :=
      ⟨a.dropLast, a.getLast hne, (List.dropLast_concat_getLast hne).symm⟩
    unfold Norm
    rw [List.getLast?_concat]
    intro e
    have e : top = 0 := by simpa using e
    subst e
    rw [List.length_append, List.length_singleton] at hl
    rw [val_append, val_singleton, show (0 : Limb).toNat = 0 from rfl, Nat.mul_zero] at h
    have := val_lt lo
    rw [show b.length - 1 = lo.length by omega] at h1
    omega

/-! ### Addition and subtraction -/

theorem addabs_val {x y : Mpz} {z : Dest} (hx : Norm x.mag) (hy : Norm y.mag)
    (hr : Room z (max x.mag.length y.mag.length + 1)) :
    ∃ t, mpz_addabs z x y = .ok t ∧ Norm t ∧ val t = val x.mag + val y.mag := by
  unfold mpz_addabs
  have key : ∀ a b : Mpz, Norm a.mag → b.mag.length ≤ a.mag.length →
      Room z (a.mag.length + 1) →
      ∃ t, (do
        mpz_grow z (a.mag.length + 1)
        let t ← mpn_add a.mag b.mag
        .ok (pushTop t.1 t.2) : C (List Limb)) = .ok t ∧ Norm t ∧ val t = val a.mag + val b.mag := by
    intro a b ha hl hr
    rw [grow_ok hr, C.ok_bind]
    obtain ⟨t, c, e, lt, hc, ev⟩ := add_val a.mag b.mag hl
    rw [e, C.ok_bind]
    refine ⟨_, rfl, push_norm ?_, ?_⟩
    · rintro hc0
      have hc0 : c = 0 := hc0
      subst hc0
      rw [show (0 : Limb).toNat = 0 from rfl, Nat.mul_zero] at ev
      exact norm_of_ge ha lt (by dsimp only; omega)
    · rw [push_val]; simp only [lt]; exact ev
  by_cases h : x.mag.length < y.mag.length
  · simp only [if_pos h]
    obtain ⟨t, e, n, v⟩ := key y x hy h.le (room_mono hr (by omega))
    exact ⟨t, e, n, by omega⟩
  · simp only [if_neg h]
    exact key x y hx (by omega) (room_mono hr (by omega))

theorem addabs_ui_val {x : Mpz} {y : Limb} {z : Dest} (hx : Norm x.mag) (hr : Room z (x.mag.length + 1)) :
    ∃ t, mpz_addabs_ui z x y = .ok t ∧ Norm t ∧ val t = val x.mag + y.toNat := by
  unfold mpz_addabs_ui
  rw [grow_ok hr, C.ok_bind]
  obtain ⟨ev, lt⟩ := add_1_val x.mag y
  dsimp only
  refine ⟨_, rfl, push_norm ?_, ?_⟩
  · intro hc0
    exact norm_of_ge hx lt (by rw [hc0] at ev; simp at ev; omega)
  · rw [push_val, lt]; exact ev

theorem subabs_val {x y : Mpz} {z : Dest} (hy : Norm y.mag) (hle : val y.mag ≤ val x.mag)
    (hr : Room z x.mag.length) :
    ∃ t, mpz_subabs z x y = .ok t ∧ Norm t ∧ val t = val x.mag - val y.mag := by
  unfold mpz_subabs
  rw [grow_ok hr, C.ok_bind]
  obtain ⟨t, c, e, lt, hc, ev⟩ := sub_val x.mag y.mag (norm_length_le hy hle)
  rw [e, C.ok_bind]
  refine ⟨_, rfl, strip_norm _, ?_⟩
  rw [strip_val]
  dsimp only
  have h1 := val_lt t
  rw [lt] at h1
  have h2 := val_lt x.mag
  rcases Nat.lt_or_ge c.toNat 1 with h | h
  · have : c.toNat = 0 := by omega
    rw [this, Nat.mul_zero] at ev
    omega
  · have : c.toNat = 1 := by omega
    rw [this, Nat.mul_one] at ev
    omega

theorem subabs_ui_val {x : Mpz} {y : Limb} {z : Dest} (hx : Norm x.mag) (hle : y.toNat ≤ val x.mag)
    (hr : Room z x.mag.length) :
    ∃ t, mpz_subabs_ui z x y = .ok t ∧ Norm t ∧ val t = val x.mag - y.toNat := by
  unfold mpz_subabs_ui
  rw [grow_ok hr, C.ok_bind]
  obtain ⟨ev, lt⟩ := sub_1_val x.mag y
  dsimp only
  have h1 := val_lt (mpn_sub_1 x.mag y).1
  rw [lt] at h1
  have h2 := val_lt x.mag
  have hv : val (mpn_sub_1 x.mag y).1 = val x.mag - y.toNat := by
    rcases Nat.eq_zero_or_pos (mpn_sub_1 x.mag y).2.toNat with h | h
    · rw [h, Nat.mul_zero] at ev
      omega
    · have := Nat.mul_le_mul_left (2 ^ (64 * x.mag.length)) h
      generalize 2 ^ (64 * x.mag.length) * (mpn_sub_1 x.mag y).2.toNat = k at ev this
      omega
  by_cases h0 : x.mag.length = 0
  · rw [if_pos h0]
    have : x.mag = [] := List.length_eq_zero_iff.1 h0
    rw [this, val_nil] at hle ⊢
    exact ⟨[], rfl, norm_nil, by rw [val_nil]; omega⟩
  · rw [if_neg h0]
    rw [← hv]
    apply trim_ok
    · intro e; rw [e, List.length_nil] at lt; omega
    · by_cases hl : x.mag.length ≤ 1
      · right; omega
      · left
        have h3 := norm_val_pos hx (by intro e; rw [e, List.length_nil] at h0; omega)
        rw [hv, lt]
        have h4 : 2 ^ (64 * (x.mag.length - 1)) = 2 ^ 64 * 2 ^ (64 * (x.mag.length - 2)) := by
          rw [← pow64']; congr 2; omega
        have h5 : 0 < 2 ^ (64 * (x.mag.length - 2)) := Nat.two_pow_pos _
        have h6 := y.isLt
        have h7 : 2 ^ 64 ≤ 2 ^ (64 * (x.mag.length - 2)) * 2 ^ 64 := Nat.le_mul_of_pos_left _ h5
        by_cases h8 : x.mag.length = 2
        · rw [h8] at h3 h4 ⊢
          norm_num at h3 h4 ⊢
          by_contra hc
          have : val x.mag = y.toNat := by omega
          have h6' : y.toNat < 2 ^ 64 := y.isLt
          norm_num at h6'
          omega
        · have : 2 ^ 64 ≤ 2 ^ (64 * (x.mag.length - 2)) := Nat.pow_le_pow_right (by omega) (by omega)
          omega

theorem cmpabs_rep {x y : Mpz} {i j : Int} (hx : Rep x i) (hy : Rep y j) :
    mpz_cmpabs x y = if i.natAbs < j.natAbs then -1 else if i.natAbs = j.natAbs then 0 else 1 := by
  unfold mpz_cmpabs
  rw [cmp2_val _ _ (rep_norm hx) (rep_norm hy), rep_abs hx, rep_abs hy]

theorem cmpabs_ui_rep {x : Mpz} {i : Int} (hx : Rep x i) (y : Limb) :
    mpz_cmpabs_ui x y = if i.natAbs < y.toNat then -1 else if i.natAbs = y.toNat then 0 else 1 := by
  unfold mpz_cmpabs_ui
  rw [cmp_1_val _ _ (rep_norm hx), rep_abs hx]

theorem make_rep' {s : Bool} {zp : List Limb} {i : Int} (h : Norm zp)
    (hi : i = if s = true then -(val zp : Int) else val zp) : Rep (mpz_make s zp) i := by
  rw [hi]; exact make_rep s h

theorem add_rep {x y : Mpz} {i j : Int} {z : Dest} (hx : Rep x i) (hy : Rep y j)
    (hr : Room z (max x.mag.length y.mag.length + 1)) :
    ∃ t, mpz_add z x y = .ok t ∧ Rep t (i + j) := by
  have ax := rep_abs hx; have ay := rep_abs hy
  have nx := rep_neg' hx; have ny := rep_neg' hy
  unfold mpz_add
  by_cases hs : x.neg = y.neg
  · rw [if_pos hs]
    obtain ⟨t, e, n, v⟩ := addabs_val (rep_norm hx) (rep_norm hy) hr
    rw [e, C.ok_bind]
    refine ⟨_, rfl, make_rep' n ?_⟩
    rw [v, ax, ay]
    rw [nx, ny] at hs
    simp only [decide_eq_decide] at hs
    rw [nx]; simp only [decide_eq_true_eq]
    split <;> omega
  · rw [if_neg hs]
    simp only [cmpabs_rep hx hy]
    rw [nx, ny] at hs
    simp only [decide_eq_decide] at hs
    by_cases h1 : i.natAbs < j.natAbs
    · simp only [if_pos h1]
      rw [if_neg (by decide), if_pos (by decide)]
      obtain ⟨t, e, n, v⟩ := subabs_val (x := y) (y := x) (z := z) (rep_norm hx) (by omega)
        (room_mono hr (by omega))
      rw [e, C.ok_bind]
      refine ⟨_, rfl, make_rep' n ?_⟩
      rw [v, ax, ay, nx]
      simp only [Bool.not_eq_true', decide_eq_false_iff_not]
      split <;> omega
    · by_cases h2 : i.natAbs = j.natAbs
      · simp only [if_neg h1, if_pos h2, if_true]
        refine ⟨_, rfl, ?_⟩
        have : i + j = 0 := by omega
        rw [this]; exact zero_rep
      · simp only [if_neg h1, if_neg h2]
        rw [if_neg (by decide), if_neg (by decide)]
        obtain ⟨t, e, n, v⟩ := subabs_val (x := x) (y := y) (z := z) (rep_norm hy) (by omega)
          (room_mono hr (by omega))
        rw [e, C.ok_bind]
        refine ⟨_, rfl, make_rep' n ?_⟩
        rw [v, ax, ay, nx]
        simp only [decide_eq_true_eq]
        split <;> omega

theorem sub_rep {x y : Mpz} {i j : Int} {z : Dest} (hx : Rep x i) (hy : Rep y j)
    (hr : Room z (max x.mag.length y.mag.length + 1)) :
    ∃ t, mpz_sub z x y = .ok t ∧ Rep t (i - j) := by
  have ax := rep_abs hx; have ay := rep_abs hy
  have nx := rep_neg' hx; have ny := rep_neg' hy
  unfold mpz_sub
  by_cases hs : x.neg ≠ y.neg
  · rw [if_pos hs]
    obtain ⟨t, e, n, v⟩ := addabs_val (rep_norm hx) (rep_norm hy) hr
    rw [e, C.ok_bind]
    refine ⟨_, rfl, make_rep' n ?_⟩
    rw [v, ax, ay]
    rw [nx, ny] at hs
    simp only [ne_eq, decide_eq_decide] at hs
    rw [nx]; simp only [decide_eq_true_eq]
    split <;> omega
  · rw [if_neg hs]
    simp only [cmpabs_rep hx hy]
    rw [nx, ny] at hs
    simp only [ne_eq, decide_eq_decide, not_not] at hs
    by_cases h1 : i.natAbs < j.natAbs
    · simp only [if_pos h1]
      rw [if_neg (by decide), if_pos (by decide)]
      obtain ⟨t, e, n, v⟩ := subabs_val (x := y) (y := x) (z := z) (rep_norm hx) (by omega)
        (room_mono hr (by omega))
      rw [e, C.ok_bind]
      refine ⟨_, rfl, make_rep' n ?_⟩
      rw [v, ax, ay, nx]
      simp only [Bool.not_eq_true', decide_eq_false_iff_not]
      split <;> omega
    · by_cases h2 : i.natAbs = j.natAbs
      · simp only [if_neg h1, if_pos h2, if_true]
        refine ⟨_, rfl, ?_⟩
        have : i - j = 0 := by omega
        rw [this]; exact zero_rep
      · simp only [if_neg h1, if_neg h2]
        rw [if_neg (by decide), if_neg (by decide)]
        obtain ⟨t, e, n, v⟩ := subabs_val (x := x) (y := y) (z := z) (rep_norm hy) (by omega)
          (room_mono hr (by omega))
        rw [e, C.ok_bind]
        refine ⟨_, rfl, make_rep' n ?_⟩
        rw [v, ax, ay, nx]
        simp only [decide_eq_true_eq]
        split <;> omega

/-- A small non-zero integer has one limb. -/
theorem rep_one_limb {x : Mpz} {i : Int} (hx : Rep x i) (h0 : i ≠ 0) (h : i.natAbs < 2 ^ 64) :
    ∃ a : Limb, x.mag = [a] ∧ a.toNat = i.natAbs := by
  have h1 := rep_len_le (n := 1) hx (by simpa using h)
  have h2 : x.mag.length ≠ 0 := fun e => h0 ((rep_len hx).1 e)
  obtain ⟨a, e⟩ := List.length_eq_one_iff.1 (show x.mag.length = 1 by omega)
  refine ⟨a, e, ?_⟩
  rw [← rep_abs hx, e, val_singleton]

theorem single_norm {a : Limb} (h : a.toNat ≠ 0) : Norm [a] :=
  norm_single.2 fun e => h (by rw [e]; rfl)

theorem add_ui_rep {x : Mpz} {i : Int} {z : Dest} (y : Limb) (hx : Rep x i)
    (hr : Room z (x.mag.length + 1)) :
    ∃ t, mpz_add_ui z x y = .ok t ∧ Rep t (i + y.toNat) := by
  have ax := rep_abs hx
  unfold mpz_add_ui
  have hz := rep_sizen hx
  by_cases hs : x.size ≥ 0
  · rw [if_pos hs]
    obtain ⟨t, e, n, v⟩ := addabs_ui_val (y := y) (rep_norm hx) hr
    rw [e, C.ok_bind]
    refine ⟨_, rfl, make_rep' n ?_⟩
    rw [v, ax]; simp only [Bool.false_eq_true, if_false]
    omega
  · rw [if_neg hs, cmpabs_ui_rep hx]
    have hi : i < 0 := by omega
    by_cases h1 : i.natAbs < y.toNat
    · rw [if_pos h1, if_pos (by decide)]
      obtain ⟨a, ea, va⟩ := rep_one_limb hx (by omega) (by have := y.isLt; omega)
      unfold limb0
      rw [ea, show C.rd [a] 0 = .ok a from rfl, C.ok_bind]
      have hv : (y - a).toNat = y.toNat - i.natAbs := by
        rw [BitVec.toNat_sub_of_le (by rw [BitVec.le_def]; omega), va]
      refine ⟨_, rfl, ?_⟩
      have := pos_rep (single_norm (a := y - a) (by omega))
      rw [val_singleton, hv] at this
      rw [show i + (y.toNat : Int) = ((y.toNat - i.natAbs : Nat) : Int) by omega]
      exact this
    · rw [if_neg (show ¬ (if i.natAbs < y.toNat then (-1 : Int) else if i.natAbs = y.toNat then 0 else 1) < 0 by
        rw [if_neg h1]; split <;> decide)]
      obtain ⟨t, e, n, v⟩ := subabs_ui_val (y := y) (z := z) (rep_norm hx) (by omega)
        (room_mono hr (by omega))
      rw [e, C.ok_bind]
      refine ⟨_, rfl, make_rep' n ?_⟩
      rw [v, ax]; simp only [if_true]
      omega

theorem sub_ui_rep {x : Mpz} {i : Int} {z : Dest} (y : Limb) (hx : Rep x i)
    (hr : Room z (x.mag.length + 1)) :
    ∃ t, mpz_sub_ui z x y = .ok t ∧ Rep t (i - y.toNat) := by
  have ax := rep_abs hx
  unfold mpz_sub_ui
  have hz := rep_sizen hx
  by_cases hs : x.size < 0
  · rw [if_pos hs]
    obtain ⟨t, e, n, v⟩ := addabs_ui_val (y := y) (rep_norm hx) hr
    rw [e, C.ok_bind]
    refine ⟨_, rfl, make_rep' n ?_⟩
    rw [v, ax]; simp only [if_true]
    omega
  · rw [if_neg hs]
    by_cases h0 : x.size = 0
    · rw [if_pos h0]
      refine ⟨_, rfl, ?_⟩
      have hi := (rep_size0 hx).1 h0
      by_cases hy : y = 0
      · subst hy
        rw [hi]
        exact zero_rep
      · rw [if_pos hy]
        have hne : y.toNat ≠ 0 := fun e => hy (BitVec.eq_of_toNat_eq e)
        apply make_rep' (single_norm hne)
        rw [val_singleton, hi]; simp
    rw [if_neg h0, cmpabs_ui_rep hx]
    have hi : 0 < i := by
      have := rep_size0 hx; omega
    by_cases h1 : i.natAbs < y.toNat
    · rw [if_pos h1, if_pos (by decide)]
      obtain ⟨a, ea, va⟩ := rep_one_limb hx (by omega) (by have := y.isLt; omega)
      unfold limb0
      rw [ea, show C.rd [a] 0 = .ok a from rfl, C.ok_bind]
      have hv : (y - a).toNat = y.toNat - i.natAbs := by
        rw [BitVec.toNat_sub_of_le (by rw [BitVec.le_def]; omega), va]
      refine ⟨_, rfl, ?_⟩
      have := make_rep true (single_norm (a := y - a) (by omega))
      rw [val_singleton, hv] at this
      simp only [if_true] at this
      rw [show i - (y.toNat : Int) = -((y.toNat - i.natAbs : Nat) : Int) by omega]
      exact this
    · rw [if_neg (show ¬ (if i.natAbs < y.toNat then (-1 : Int) else if i.natAbs = y.toNat then 0 else 1) < 0 by
        rw [if_neg h1]; split <;> decide)]
      obtain ⟨t, e, n, v⟩ := subabs_ui_val (y := y) (z := z) (rep_norm hx) (by omega)
        (room_mono hr (by omega))
      rw [e, C.ok_bind]
      refine ⟨_, rfl, make_rep' n ?_⟩
      rw [v, ax]; simp only [Bool.false_eq_true, if_false]
      omega

/-! ### Words -/

theorem set_rep {x : Mpz} {i : Int} {z : Dest} (hx : Rep x i) (hr : Room z x.mag.length) :
    ∃ t, mpz_set z x = .ok t ∧ Rep t i := by
  unfold mpz_set
  rw [grow_ok hr, C.ok_bind]
  exact ⟨_, rfl, hx⟩

theorem neg_rep {x : Mpz} {i : Int} {z : Dest} (hx : Rep x i) (hr : Room z x.mag.length) :
    ∃ t, mpz_neg z x = .ok t ∧ Rep t (-i) := by
  unfold mpz_neg mpz_set
  rw [grow_ok hr, C.ok_bind, C.ok_bind]
  refine ⟨_, rfl, make_rep' (rep_norm hx) ?_⟩
  rw [rep_abs hx, rep_neg' hx]
  simp only [Bool.not_eq_true', decide_eq_false_iff_not]
  split <;> omega

theorem abs_rep {x : Mpz} {i : Int} {z : Dest} (hx : Rep x i) (hr : Room z x.mag.length) :
    ∃ t, mpz_abs z x = .ok t ∧ Rep t i.natAbs := by
  unfold mpz_abs mpz_set
  rw [grow_ok hr, C.ok_bind, C.ok_bind]
  refine ⟨_, rfl, ?_⟩
  have := pos_rep (rep_norm hx)
  rw [rep_abs hx] at this
  exact this

theorem neg_len {x t : Mpz} {z : Dest} (h : mpz_neg z x = .ok t) : t.mag = x.mag := by
  unfold mpz_neg mpz_set at h
  cases hg : mpz_grow z x.mag.length with
  | ok u => rw [hg, C.ok_bind, C.ok_bind] at h; cases h; rfl
  | abort => rw [hg] at h; cases h
  | ub => rw [hg] at h; cases h

theorem set_ui_rep (x : Limb) : Rep (mpz_set_ui x) x.toNat := by
  unfold mpz_set_ui
  by_cases h : x = 0
  · subst h; exact zero_rep
  · rw [if_pos h]
    have := pos_rep (single_norm (a := x) (fun e => h (BitVec.eq_of_toNat_eq e)))
    rw [val_singleton] at this
    exact this

theorem slt_iff (y : BitVec 64) : y.slt 0 = true ↔ y.toInt < 0 := by
  rw [BitVec.slt_iff_toInt_lt]; rfl

/-- `mp_limb_cast` is the absolute value. -/
theorem limb_cast_val (y : BitVec 64) : (mp_limb_cast y).toNat = y.toInt.natAbs := by
  unfold mp_limb_cast
  by_cases h1 : y = 0x8000000000000000
  · subst h1; rfl
  · rw [if_neg h1]
    have hy := y.isLt
    have h1' : y.toNat ≠ 0x8000000000000000 := fun e => h1 (BitVec.eq_of_toNat_eq e)
    by_cases h2 : y.slt 0
    · rw [if_pos h2]
      rw [slt_iff] at h2
      rw [BitVec.toNat_neg]
      rw [BitVec.toInt_eq_toNat_cond] at h2 ⊢
      split at h2
      · omega
      · rw [if_neg (by assumption)]; omega
    · rw [if_neg h2]
      rw [slt_iff] at h2
      rw [BitVec.toInt_eq_toNat_cond] at h2 ⊢
      split at h2
      · rw [if_pos (by assumption)]; omega
      · omega

theorem toInt_nonneg {y : BitVec 64} (h : ¬ y.slt 0 = true) : (y.toNat : Int) = y.toInt := by
  rw [slt_iff] at h
  have hy := y.isLt
  rw [BitVec.toInt_eq_toNat_cond] at h ⊢
  split at h
  · rw [if_pos (by assumption)]
  · omega

theorem set_si_rep (x : BitVec 64) : Rep (mpz_set_si x) x.toInt := by
  unfold mpz_set_si
  by_cases h : x = 0
  · subst h; exact zero_rep
  · rw [if_pos h]
    have hx : x.toInt ≠ 0 := fun e => h (BitVec.eq_of_toInt_eq e)
    have hv := limb_cast_val x
    apply make_rep' (single_norm (by omega))
    rw [val_singleton, hv]
    have := slt_iff x
    by_cases hs : x.slt 0 = true
    · rw [if_pos hs]; have := this.1 hs; omega
    · rw [if_neg hs]; have := mt this.2 hs; omega

theorem add_si_rep {x : Mpz} {i : Int} {z : Dest} (y : BitVec 64) (hx : Rep x i)
    (hr : Room z (x.mag.length + 1)) :
    ∃ t, mpz_add_si z x y = .ok t ∧ Rep t (i + y.toInt) := by
  unfold mpz_add_si
  by_cases h : y.slt 0
  · rw [if_pos h]
    obtain ⟨t, e, r⟩ := sub_ui_rep (mp_limb_cast y) hx hr
    rw [limb_cast_val, show i - (y.toInt.natAbs : Int) = i + y.toInt by
      have := (slt_iff y).1 h; omega] at r
    exact ⟨t, e, r⟩
  · rw [if_neg h, ← toInt_nonneg h]
    exact add_ui_rep y hx hr

theorem sub_si_rep {x : Mpz} {i : Int} {z : Dest} (y : BitVec 64) (hx : Rep x i)
    (hr : Room z (x.mag.length + 1)) :
    ∃ t, mpz_sub_si z x y = .ok t ∧ Rep t (i - y.toInt) := by
  unfold mpz_sub_si
  by_cases h : y.slt 0
  · rw [if_pos h]
    obtain ⟨t, e, r⟩ := add_ui_rep (mp_limb_cast y) hx hr
    rw [limb_cast_val, show i + (y.toInt.natAbs : Int) = i - y.toInt by
      have := (slt_iff y).1 h; omega] at r
    exact ⟨t, e, r⟩
  · rw [if_neg h, ← toInt_nonneg h]
    exact sub_ui_rep y hx hr

/-- The length of a sum. -/
theorem sum_len {x t : Mpz} {i j : Int} (hx : Rep x i) (ht : Rep t j)
    (h : j.natAbs < i.natAbs + 2 ^ 64) : t.mag.length ≤ x.mag.length + 1 := by
  apply rep_len_le ht
  have h1 := rep_lt hx
  rw [pow64']
  have : 0 < 2 ^ (64 * x.mag.length) := Nat.two_pow_pos _
  generalize 2 ^ (64 * x.mag.length) = k at *
  omega

theorem ui_sub_rep {y : Mpz} {j : Int} {z : Dest} (x : Limb) (hy : Rep y j)
    (hr : Room z (y.mag.length + 1)) :
    ∃ t, mpz_ui_sub z x y = .ok t ∧ Rep t (x.toNat - j) := by
  unfold mpz_ui_sub
  obtain ⟨t, e, r⟩ := sub_ui_rep x hy hr
  rw [e, C.ok_bind]
  have hx := x.isLt
  obtain ⟨u, e2, r2⟩ := neg_rep (z := z) r (room_mono hr (sum_len hy r (by omega)))
  rw [show -(j - (x.toNat : Int)) = x.toNat - j by omega] at r2
  exact ⟨u, e2, r2⟩

theorem si_sub_rep {y : Mpz} {j : Int} {z : Dest} (x : BitVec 64) (hy : Rep y j)
    (hr : Room z (y.mag.length + 1)) :
    ∃ t, mpz_si_sub z x y = .ok t ∧ Rep t (x.toInt - j) := by
  unfold mpz_si_sub
  obtain ⟨t, e, r⟩ := sub_si_rep x hy hr
  rw [e, C.ok_bind]
  have hx : x.toInt.natAbs < 2 ^ 64 := by rw [← limb_cast_val]; exact (mp_limb_cast x).isLt
  obtain ⟨u, e2, r2⟩ := neg_rep (z := z) r (room_mono hr (sum_len hy r (by omega)))
  rw [show -(j - x.toInt) = x.toInt - j by omega] at r2
  exact ⟨u, e2, r2⟩

/-! ### Comparison -/

theorem sgn_rep {x : Mpz} {i : Int} (hx : Rep x i) : mpz_sgn x = i.sign := by
  unfold mpz_sgn
  have h1 := rep_size0 hx
  have h2 := rep_sizen hx
  by_cases h0 : i = 0
  · rw [if_pos (h1.2 h0), h0]; rfl
  · rw [if_neg (fun h => h0 (h1.1 h))]
    by_cases hn : i < 0
    · rw [if_pos (h2.2 hn), Int.sign_eq_neg_one_of_neg hn]
    · rw [if_neg (fun h => hn (h2.1 h)), Int.sign_eq_one_of_pos (by omega)]

theorem size_of_nonneg {x : Mpz} {i : Int} (hx : Rep x i) (h : 0 ≤ i) : x.size = x.mag.length := by
  unfold Mpz.size
  rw [if_neg (fun hn => by have := (rep_neg hx).1 hn; omega)]

theorem size_of_neg {x : Mpz} {i : Int} (hx : Rep x i) (h : i < 0) : x.size = -(x.mag.length : Int) := by
  unfold Mpz.size
  rw [if_pos ((rep_neg hx).2 h)]

theorem cmp_rep {x y : Mpz} {i j : Int} (hx : Rep x i) (hy : Rep y j) :
    mpz_cmp x y = if i < j then -1 else if i = j then 0 else 1 := by
  have ax := rep_abs hx; have ay := rep_abs hy
  have zx := rep_sizen hx; have zy := rep_sizen hy
  have lx := rep_len hx; have ly := rep_len hy
  have mxy : i.natAbs ≤ j.natAbs → x.mag.length ≤ y.mag.length := rep_len_mono hx hy
  have myx : j.natAbs ≤ i.natAbs → y.mag.length ≤ x.mag.length := rep_len_mono hy hx
  unfold mpz_cmp
  by_cases hs : x.size ≠ y.size
  · rw [if_pos hs]
    by_cases hi : i < 0 <;> by_cases hj : j < 0
    · rw [size_of_neg hx hi, size_of_neg hy hj] at *
      by_cases h : -(x.mag.length : Int) < -(y.mag.length : Int)
      · rw [if_pos h, if_pos (by omega)]
      · rw [if_neg h, if_neg (by omega), if_neg (by omega)]
    · rw [size_of_neg hx hi, size_of_nonneg hy (by omega)] at *
      rw [if_pos (by omega), if_pos (by omega)]
    · rw [size_of_nonneg hx (by omega), size_of_neg hy hj] at *
      rw [if_neg (by omega), if_neg (by omega), if_neg (by omega)]
    · rw [size_of_nonneg hx (by omega), size_of_nonneg hy (by omega)] at *
      by_cases h : (x.mag.length : Int) < (y.mag.length : Int)
      · rw [if_pos h, if_pos (by omega)]
      · rw [if_neg h, if_neg (by omega), if_neg (by omega)]
  · rw [if_neg hs]
    have hs : x.size = y.size := not_not.1 hs
    have hl : x.mag.length = y.mag.length := by
      have e : ∀ a : Mpz, a.mag.length = a.size.natAbs := by
        intro a; unfold Mpz.size; split <;> omega
      rw [e, e, hs]
    rw [cmp_val _ _ hl, ax, ay]
    by_cases hi : i < 0
    · rw [if_pos (zx.2 hi)]
      have hj : j < 0 := zy.1 (hs ▸ zx.2 hi)
      by_cases h1 : i.natAbs < j.natAbs
      · rw [if_pos h1, if_neg (by omega), if_neg (by omega)]; rfl
      · rw [if_neg h1]
        by_cases h2 : i.natAbs = j.natAbs
        · rw [if_pos h2, if_neg (by omega), if_pos (by omega)]; rfl
        · rw [if_neg h2, if_pos (by omega)]
    · rw [if_neg (fun h => hi (zx.1 h))]
      have hj : ¬ j < 0 := fun h => hi (zx.1 (hs ▸ zy.2 h))
      by_cases h1 : i.natAbs < j.natAbs
      · rw [if_pos h1, if_pos (by omega)]
      · rw [if_neg h1]
        by_cases h2 : i.natAbs = j.natAbs
        · rw [if_pos h2, if_neg (by omega), if_pos (by omega)]
        · rw [if_neg h2, if_neg (by omega), if_neg (by omega)]

theorem cmp_ui_rep {x : Mpz} {i : Int} (hx : Rep x i) (y : Limb) :
    mpz_cmp_ui x y = if i < y.toNat then -1 else if i = y.toNat then 0 else 1 := by
  unfold mpz_cmp_ui
  by_cases hi : i < 0
  · rw [if_pos ((rep_sizen hx).2 hi), if_pos (by omega)]
  · rw [if_neg (fun h => hi ((rep_sizen hx).1 h)), cmp_1_val _ _ (rep_norm hx), rep_abs hx]
    by_cases h1 : i.natAbs < y.toNat
    · rw [if_pos h1, if_pos (by omega)]
    · rw [if_neg h1]
      by_cases h2 : i.natAbs = y.toNat
      · rw [if_pos h2, if_neg (by omega), if_pos (by omega)]
      · rw [if_neg h2, if_neg (by omega), if_neg (by omega)]

theorem cmp_si_rep {x : Mpz} {i : Int} (hx : Rep x i) (y : BitVec 64) :
    mpz_cmp_si x y = if i < y.toInt then -1 else if i = y.toInt then 0 else 1 := by
  unfold mpz_cmp_si
  by_cases h : y.slt 0
  · rw [if_pos h]
    have hy := (slt_iff y).1 h
    by_cases hi : i < 0
    · rw [if_pos ((rep_sizen hx).2 hi)]
      unfold mpz_cmpabs_si
      rw [cmpabs_ui_rep hx, limb_cast_val]
      by_cases h1 : i.natAbs < y.toInt.natAbs
      · rw [if_pos h1, if_neg (by omega), if_neg (by omega)]; rfl
      · rw [if_neg h1]
        by_cases h2 : i.natAbs = y.toInt.natAbs
        · rw [if_pos h2, if_neg (by omega), if_pos (by omega)]; rfl
        · rw [if_neg h2, if_pos (by omega)]
    · rw [if_neg (fun h => hi ((rep_sizen hx).1 h)), if_neg (by omega), if_neg (by omega)]
  · rw [if_neg h, cmp_ui_rep hx, toInt_nonneg h]

/-! ### Conversion to words -/

theorem val_mod (a : List Limb) (hne : a ≠ []) : ∃ x : Limb, C.rd a 0 = .ok x ∧ x.toNat = val a % 2 ^ 64 := by
  cases a with
  | nil => exact absurd rfl hne
  | cons x xs =>
    refine ⟨x, rfl, ?_⟩
    rw [val_cons, Nat.add_mul_mod_self_left, Nat.mod_eq_of_lt x.isLt]

theorem get_ui_rep {x : Mpz} {i : Int} (hx : Rep x i) :
    ∃ r, mpz_get_ui x = .ok r ∧ r.toNat = i.natAbs % 2 ^ 64 := by
  unfold mpz_get_ui
  by_cases h : i = 0
  · rw [if_pos ((rep_size0 hx).2 h), h]; exact ⟨0, rfl, rfl⟩
  · rw [if_neg (fun e => h ((rep_size0 hx).1 e))]
    obtain ⟨r, e, v⟩ := val_mod x.mag (fun e => h ((rep_nil hx).1 e))
    exact ⟨r, e, by rw [v, rep_abs hx]⟩

/-! ### Multiplication -/

theorem norm_pos {a : List Limb} (h : Norm a) (hne : a ≠ []) : 0 < val a :=
  Nat.pos_of_ne_zero fun e => hne ((norm_zero h).1 e)

theorem trim_mul {a b zp : List Limb} (ha : Norm a) (hb : Norm b) (hna : a ≠ []) (hnb : b ≠ [])
    (hl : zp.length = a.length + b.length) (hv : val zp = val a * val b) :
    ∃ t, trimTop zp = .ok t ∧ Norm t ∧ val t = val a * val b := by
  have la : 0 < a.length := List.length_pos_iff.2 hna
  have lb : 0 < b.length := List.length_pos_iff.2 hnb
  rw [← hv]
  apply trim_ok
  · rintro rfl; rw [List.length_nil] at hl; omega
  · left
    rw [hv, hl]
    have h1 := norm_val_pos ha hna
    have h2 := norm_val_pos hb hnb
    have := Nat.mul_le_mul h1 h2
    rw [← Nat.pow_add] at this
    rw [show 64 * (a.length + b.length - 2) = 64 * (a.length - 1) + 64 * (b.length - 1) by omega]
    exact this

theorem mul_rep {x y : Mpz} {i j : Int} {z : Dest} (hx : Rep x i) (hy : Rep y j)
    (hr : Room z (x.mag.length + y.mag.length)) :
    ∃ t, mpz_mul z x y = .ok t ∧ Rep t (i * j) := by
  have ax := rep_abs hx; have ay := rep_abs hy
  unfold mpz_mul
  by_cases h0 : i = 0 ∨ j = 0
  · rw [if_pos (by rw [rep_size0 hx, rep_size0 hy]; exact h0)]
    refine ⟨_, rfl, ?_⟩
    rw [show i * j = 0 by rcases h0 with h | h <;> rw [h] <;> simp]
    exact zero_rep
  · rw [if_neg (by rw [rep_size0 hx, rep_size0 hy]; exact h0)]
    have hnx : x.mag ≠ [] := fun e => h0 (Or.inl ((rep_nil hx).1 e))
    have hny : y.mag ≠ [] := fun e => h0 (Or.inr ((rep_nil hy).1 e))
    have key : ∀ a b : Mpz, Norm a.mag → Norm b.mag → a.mag ≠ [] → b.mag ≠ [] →
        ∃ zp, (if b.mag.length = 1 then do
            let y0 ← limb0 b
            let t := mpn_mul_1 a.mag y0
            .ok (t.1 ++ [t.2])
          else .ok (mpn_mul a.mag b.mag) : C (List Limb)) = .ok zp ∧
          zp.length = a.mag.length + b.mag.length ∧ val zp = val a.mag * val b.mag := by
      intro a b ha hb hna hnb
      by_cases h1 : b.mag.length = 1
      · rw [if_pos h1]
        obtain ⟨y0, ey⟩ := List.length_eq_one_iff.1 h1
        unfold limb0
        rw [ey, show C.rd [y0] 0 = .ok y0 from rfl, C.ok_bind]
        obtain ⟨e, l⟩ := mul_1_val a.mag y0
        refine ⟨_, rfl, ?_, ?_⟩
        · rw [List.length_append, l]; rfl
        · rw [val_append, l, val_singleton, val_singleton]; exact e
      · rw [if_neg h1]
        obtain ⟨e, l⟩ := mul_val a.mag b.mag
        exact ⟨_, rfl, l, e⟩
    have hzp : ∃ zp, ((if (if x.mag.length < y.mag.length then (y, x) else (x, y)).2.mag.length = 1 then do
            let y0 ← limb0 (if x.mag.length < y.mag.length then (y, x) else (x, y)).2
            let t := mpn_mul_1 (if x.mag.length < y.mag.length then (y, x) else (x, y)).1.mag y0
            .ok (t.1 ++ [t.2])
          else .ok (mpn_mul (if x.mag.length < y.mag.length then (y, x) else (x, y)).1.mag
            (if x.mag.length < y.mag.length then (y, x) else (x, y)).2.mag) : C (List Limb)) = .ok zp) ∧
        zp.length = x.mag.length + y.mag.length ∧ val zp = val x.mag * val y.mag := by
      by_cases h : x.mag.length < y.mag.length
      · simp only [if_pos h]
        obtain ⟨zp, e, l, v⟩ := key y x (rep_norm hy) (rep_norm hx) hny hnx
        exact ⟨zp, e, by omega, by rw [v, Nat.mul_comm]⟩
      · simp only [if_neg h]
        exact key x y (rep_norm hx) (rep_norm hy) hnx hny
    obtain ⟨zp, e, l, v⟩ := hzp
    dsimp only
    rw [grow_ok hr, C.ok_bind, e, C.ok_bind]
    obtain ⟨t, e2, n2, v2⟩ := trim_mul (rep_norm hx) (rep_norm hy) hnx hny l v
    rw [e2, C.ok_bind]
    refine ⟨_, rfl, make_rep' n2 ?_⟩
    rw [v2, ax, ay, rep_neg' hx, rep_neg' hy]
    push_cast
    simp only [bne_iff_ne, ne_eq, decide_eq_decide]
    have hi : (i.natAbs : Int) = |i| := Int.natCast_natAbs i
    have hj : (j.natAbs : Int) = |j| := Int.natCast_natAbs j
    by_cases hin : i < 0 <;> by_cases hjn : j < 0
    · rw [if_neg (by simp [hin, hjn]), abs_of_neg hin, abs_of_neg hjn]; ring
    · rw [if_pos (by simp [hin, hjn]), abs_of_neg hin, abs_of_nonneg (by omega)]; ring
    · rw [if_pos (by simp [hin, hjn]), abs_of_nonneg (by omega), abs_of_neg hjn]; ring
    · rw [if_neg (by simp [hin, hjn]), abs_of_nonneg (by omega), abs_of_nonneg (by omega)]

theorem mul_ui_rep {x : Mpz} {i : Int} {z : Dest} (y : Limb) (hx : Rep x i)
    (hr : Room z (x.mag.length + 1)) :
    ∃ t, mpz_mul_ui z x y = .ok t ∧ Rep t (i * y.toNat) := by
  have ax := rep_abs hx
  unfold mpz_mul_ui
  by_cases h0 : i = 0 ∨ y = 0
  · rw [if_pos (by rw [rep_size0 hx]; exact h0)]
    refine ⟨_, rfl, ?_⟩
    rw [show i * (y.toNat : Int) = 0 by rcases h0 with h | h <;> rw [h] <;> simp]
    exact zero_rep
  · rw [if_neg (by rw [rep_size0 hx]; exact h0), grow_ok hr, C.ok_bind]
    have hnx : x.mag ≠ [] := fun e => h0 (Or.inl ((rep_nil hx).1 e))
    have hy0 : y ≠ 0 := fun e => h0 (Or.inr e)
    obtain ⟨e, l⟩ := mul_1_val x.mag y
    dsimp only
    obtain ⟨t, e2, n2, v2⟩ := trim_mul (b := [y]) (zp := (mpn_mul_1 x.mag y).1 ++ [(mpn_mul_1 x.mag y).2])
      (rep_norm hx) (norm_single.2 hy0) hnx (by simp)
      (by rw [List.length_append, l]; rfl)
      (by rw [val_append, l, val_singleton, val_singleton]; exact e)
    rw [e2, C.ok_bind]
    refine ⟨_, rfl, make_rep' n2 ?_⟩
    rw [v2, val_singleton, ax, rep_neg' hx]
    push_cast
    by_cases hin : i < 0
    · rw [if_pos (by simp [hin]), abs_of_neg hin]; ring
    · rw [if_neg (by simp [hin]), abs_of_nonneg (by omega)]

theorem mul_len {x t : Mpz} {i : Int} {y : Nat} (hx : Rep x i) (ht : Rep t (i * y)) (hy : y < 2 ^ 64) :
    t.mag.length ≤ x.mag.length + 1 := by
  apply rep_len_le ht
  have h1 := rep_lt hx
  rw [pow64', Int.natAbs_mul, Int.natAbs_natCast, Nat.mul_comm]
  exact Nat.mul_lt_mul_of_lt_of_lt hy h1

theorem mul_si_rep {x : Mpz} {i : Int} {z : Dest} (y : BitVec 64) (hx : Rep x i)
    (hr : Room z (x.mag.length + 1)) :
    ∃ t, mpz_mul_si z x y = .ok t ∧ Rep t (i * y.toInt) := by
  unfold mpz_mul_si
  obtain ⟨t, e, r⟩ := mul_ui_rep (mp_limb_cast y) hx hr
  rw [e, C.ok_bind]
  have hl := mul_len hx r (mp_limb_cast y).isLt
  rw [limb_cast_val] at r
  by_cases h : y.slt 0
  · rw [if_pos h]
    have hy := (slt_iff y).1 h
    obtain ⟨u, e2, r2⟩ := neg_rep (z := z) r (room_mono hr hl)
    rw [show -(i * (y.toInt.natAbs : Int)) = i * y.toInt by
      rw [Int.natCast_natAbs, abs_of_neg hy]; ring] at r2
    exact ⟨u, e2, r2⟩
  · rw [if_neg h]
    have hy := mt (slt_iff y).2 h
    rw [Int.natCast_natAbs, abs_of_nonneg (by omega)] at r
    exact ⟨t, rfl, r⟩

theorem sqr_rep {x : Mpz} {i : Int} {z : Dest} (al : Bool) (hx : Rep x i) (hr : Room z (x.mag.length * 2)) :
    ∃ t, mpz_sqr z x al = .ok t ∧ Rep t (i * i) := by
  have ax := rep_abs hx
  unfold mpz_sqr
  by_cases h0 : i = 0
  · rw [if_pos ((rep_size0 hx).2 h0)]
    refine ⟨_, rfl, ?_⟩
    rw [h0]; exact zero_rep
  · rw [if_neg (fun e => h0 ((rep_size0 hx).1 e))]
    have hnx : x.mag ≠ [] := fun e => h0 ((rep_nil hx).1 e)
    dsimp only
    rw [grow_ok hr, C.ok_bind]
    have hzp : ∃ zp, ((if x.mag.length = 1 then do
          let x0 ← limb0 x
          let t := mp_sqr x0
          .ok [t.2, t.1]
        else if al then .ok (mpn_sqr x.mag)
        else if x.mag.length * 2 ≤ mp_alloca_max then .ok (mpn_sqr x.mag)
        else .ok (mpn_mul x.mag x.mag) : C (List Limb)) = .ok zp) ∧
        zp.length = x.mag.length + x.mag.length ∧ val zp = val x.mag * val x.mag := by
      obtain ⟨se, sl⟩ := sqr_val x.mag
      by_cases h1 : x.mag.length = 1
      · rw [if_pos h1]
        obtain ⟨a, ea⟩ := List.length_eq_one_iff.1 h1
        unfold limb0
        rw [ea, show C.rd [a] 0 = .ok a from rfl, C.ok_bind]
        refine ⟨_, rfl, rfl, ?_⟩
        rw [val_singleton, val_cons, val_singleton, mp_sqr_eq]
        have := mp_mul_val a a
        omega
      · rw [if_neg h1]
        have hs : ∃ zp, (C.ok (mpn_sqr x.mag) : C (List Limb)) = .ok zp ∧
          zp.length = x.mag.length + x.mag.length ∧ val zp = val x.mag * val x.mag :=
          ⟨_, rfl, by omega, se⟩
        split
        · exact hs
        · split
          · exact hs
          · obtain ⟨me, ml⟩ := mul_val x.mag x.mag
            exact ⟨_, rfl, ml, me⟩
    obtain ⟨zp, e, l, v⟩ := hzp
    rw [e, C.ok_bind]
    obtain ⟨t, e2, n2, v2⟩ := trim_mul (rep_norm hx) (rep_norm hx) hnx hnx l v
    rw [e2, C.ok_bind]
    refine ⟨_, rfl, ?_⟩
    have := pos_rep n2
    rw [v2, ax, show ((i.natAbs * i.natAbs : Nat) : Int) = i * i from Int.natAbs_mul_self] at this
    exact this

theorem addmul_rep {w x y : Mpz} {k i j : Int} {z : Dest} (hw : Rep w k) (hx : Rep x i) (hy : Rep y j)
    (hr : Room z (max w.mag.length (x.mag.length + y.mag.length) + 1)) :
    ∃ t, mpz_addmul z w x y = .ok t ∧ Rep t (k + i * j) := by
  unfold mpz_addmul
  by_cases h0 : i = 0 ∨ j = 0
  · rw [if_pos (by rw [rep_size0 hx, rep_size0 hy]; exact h0)]
    refine ⟨_, rfl, ?_⟩
    rw [show k + i * j = k by rcases h0 with h | h <;> rw [h] <;> simp]
    exact hw
  · rw [if_neg (by rw [rep_size0 hx, rep_size0 hy]; exact h0)]
    obtain ⟨t, e, r⟩ := mul_rep (z := mpz_init_vla (x.mag.length + y.mag.length)) hx hy (room_vla _ _ le_rfl)
    rw [e, C.ok_bind]
    apply add_rep hw r
    apply room_mono hr
    have : t.mag.length ≤ x.mag.length + y.mag.length := by
      apply rep_len_le r
      rw [Int.natAbs_mul, Nat.mul_add, Nat.pow_add]
      exact Nat.mul_lt_mul_of_lt_of_lt (rep_lt hx) (rep_lt hy)
    omega

theorem submul_rep {w x y : Mpz} {k i j : Int} {z : Dest} (hw : Rep w k) (hx : Rep x i) (hy : Rep y j)
    (hr : Room z (max w.mag.length (x.mag.length + y.mag.length) + 1)) :
    ∃ t, mpz_submul z w x y = .ok t ∧ Rep t (k - i * j) := by
  unfold mpz_submul
  by_cases h0 : i = 0 ∨ j = 0
  · rw [if_pos (by rw [rep_size0 hx, rep_size0 hy]; exact h0)]
    refine ⟨_, rfl, ?_⟩
    rw [show k - i * j = k by rcases h0 with h | h <;> rw [h] <;> simp]
    exact hw
  · rw [if_neg (by rw [rep_size0 hx, rep_size0 hy]; exact h0)]
    obtain ⟨t, e, r⟩ := mul_rep (z := mpz_init_vla (x.mag.length + y.mag.length)) hx hy (room_vla _ _ le_rfl)
    rw [e, C.ok_bind]
    apply sub_rep hw r
    apply room_mono hr
    have : t.mag.length ≤ x.mag.length + y.mag.length := by
      apply rep_len_le r
      rw [Int.natAbs_mul, Nat.mul_add, Nat.pow_add]
      exact Nat.mul_lt_mul_of_lt_of_lt (rep_lt hx) (rep_lt hy)
    omega

theorem addmul_ui_rep {w x : Mpz} {k i : Int} {z : Dest} (y : Limb) (hw : Rep w k) (hx : Rep x i)
    (hr : Room z (max w.mag.length (x.mag.length + 1) + 1)) :
    ∃ t, mpz_addmul_ui z w x y = .ok t ∧ Rep t (k + i * y.toNat) := by
  unfold mpz_addmul_ui
  by_cases h0 : i = 0 ∨ y = 0
  · rw [if_pos (by rw [rep_size0 hx]; exact h0)]
    refine ⟨_, rfl, ?_⟩
    rw [show k + i * (y.toNat : Int) = k by rcases h0 with h | h <;> rw [h] <;> simp]
    exact hw
  · rw [if_neg (by rw [rep_size0 hx]; exact h0)]
    obtain ⟨t, e, r⟩ := mul_ui_rep (z := mpz_init_vla (x.mag.length + 1)) y hx (room_vla _ _ le_rfl)
    rw [e, C.ok_bind]
    apply add_rep hw r
    apply room_mono hr
    have := mul_len hx r y.isLt
    omega

theorem submul_ui_rep {w x : Mpz} {k i : Int} {z : Dest} (y : Limb) (hw : Rep w k) (hx : Rep x i)
    (hr : Room z (max w.mag.length (x.mag.length + 1) + 1)) :
    ∃ t, mpz_submul_ui z w x y = .ok t ∧ Rep t (k - i * y.toNat) := by
  unfold mpz_submul_ui
  by_cases h0 : i = 0 ∨ y = 0
  · rw [if_pos (by rw [rep_size0 hx]; exact h0)]
    refine ⟨_, rfl, ?_⟩
    rw [show k - i * (y.toNat : Int) = k by rcases h0 with h | h <;> rw [h] <;> simp]
    exact hw
  · rw [if_neg (by rw [rep_size0 hx]; exact h0)]
    obtain ⟨t, e, r⟩ := mul_ui_rep (z := mpz_init_vla (x.mag.length + 1)) y hx (room_vla _ _ le_rfl)
    rw [e, C.ok_bind]
    apply sub_rep hw r
    apply room_mono hr
    have := mul_len hx r y.isLt
    omega

theorem addmul_si_rep {w x : Mpz} {k i : Int} {z : Dest} (y : BitVec 64) (hw : Rep w k) (hx : Rep x i)
    (hr : Room z (max w.mag.length (x.mag.length + 1) + 1)) :
    ∃ t, mpz_addmul_si z w x y = .ok t ∧ Rep t (k + i * y.toInt) := by
  unfold mpz_addmul_si
  by_cases h : y.slt 0
  · rw [if_pos h]
    obtain ⟨t, e, r⟩ := submul_ui_rep (mp_limb_cast y) hw hx hr
    rw [limb_cast_val, Int.natCast_natAbs, abs_of_neg ((slt_iff y).1 h),
      show k - i * -y.toInt = k + i * y.toInt by ring] at r
    exact ⟨t, e, r⟩
  · rw [if_neg h, ← toInt_nonneg h]
    exact addmul_ui_rep y hw hx hr

theorem submul_si_rep {w x : Mpz} {k i : Int} {z : Dest} (y : BitVec 64) (hw : Rep w k) (hx : Rep x i)
    (hr : Room z (max w.mag.length (x.mag.length + 1) + 1)) :
    ∃ t, mpz_submul_si z w x y = .ok t ∧ Rep t (k - i * y.toInt) := by
  unfold mpz_submul_si
  by_cases h : y.slt 0
  · rw [if_pos h]
    obtain ⟨t, e, r⟩ := addmul_ui_rep (mp_limb_cast y) hw hx hr
    rw [limb_cast_val, Int.natCast_natAbs, abs_of_neg ((slt_iff y).1 h),
      show k + i * -y.toInt = k - i * y.toInt by ring] at r
    exact ⟨t, e, r⟩
  · rw [if_neg h, ← toInt_nonneg h]
    exact submul_ui_rep y hw hx hr

end Torsion.Mpi
