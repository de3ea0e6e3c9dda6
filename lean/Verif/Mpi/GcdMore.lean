import Verif.Mpi.GcdLemmas
import Verif.Mpi.MpzMore
import Verif.Mpi.MpzBitOps

/-!
# Greatest common divisors of signed integers: lemmas
-/
namespace Torsion.Mpi
open Torsion.Spec

theorem odd_part_val {v : Limb} (h : 0 < v.toNat) :
    ∃ z w, mp_odd_part v = .ok w ∧ v.toNat = 2 ^ z * w.toNat ∧ w.toNat % 2 = 1 := by
  have h0 : v ≠ 0 := by rintro rfl; exact absurd h (by decide)
  obtain ⟨k, hk⟩ : ∃ k, k = mp_ctz v := ⟨_, rfl⟩
  have e := mp_ctz_val v h0
  unfold mp_odd_part
  rw [if_neg h0]
  rw [← hk] at e ⊢
  refine ⟨k, _, rfl, ?_, ?_⟩
  · rw [shr_toNat]; exact e.1
  · rw [shr_toNat]; exact e.2

theorem sub_1_trim {a : List Limb} (ha : Norm a) (hne : a ≠ []) (y : Limb) (h : y.toNat ≤ val a) :
    ∃ t, trimTop (mpn_sub_1 a y).1 = .ok t ∧ Norm t ∧ val t = val a - y.toNat := by
  obtain ⟨t, e, n, v⟩ := subabs_ui_val (x := ⟨false, a⟩) (y := y) (z := .heap) ha h trivial
  refine ⟨t, ?_, n, v⟩
  unfold mpz_subabs_ui at e
  rw [grow_ok (z := .heap) trivial, C.ok_bind] at e
  dsimp only at e
  rwa [if_neg (by simpa using hne)] at e

theorem gcd_1_loop_val : ∀ (n : Nat) (a : List Limb) (b : Limb), Norm a → 0 < b.toNat →
    Nat.gcd (val a) b.toNat % 2 = 1 → Fuel n (val a) b.toNat →
    ∃ z, mpn_gcd_1_loop (n + 1) a b = .ok z ∧ z.toNat = Nat.gcd (val a) b.toNat
  | n, a, b, ha, hpos, hodd, hf => by
    unfold mpn_gcd_1_loop
    by_cases h0 : a.length = 0
    · rw [if_pos h0]
      have : a = [] := by simpa using h0
      subst this
      exact ⟨b, rfl, by rw [val_nil, Nat.gcd_zero_left]⟩
    · rw [if_neg h0]
      have hne : a ≠ [] := by simpa using h0
      obtain ⟨za, u, e1, nu, vu, ou⟩ := shift_zeroes_val ha hne
      obtain ⟨zb, v, e2, vv, ov⟩ := odd_part_val hpos
      rw [e1, C.ok_bind, e2, C.ok_bind]
      rw [vu, vv] at hf hodd
      have hg := gcd_odd_parts ou ov hodd
      have hp := fuel_shift hf ou ov
      obtain ⟨m, rfl⟩ : ∃ m, n = m + 1 := ⟨n - 1, by have := fuel_pos hp ou ov; omega⟩
      have hune := norm_ne (odd_pos ou)
      obtain ⟨u0, us, rfl⟩ : ∃ u0 us, u = u0 :: us := by
        cases u with
        | nil => exact absurd rfl hune
        | cons x xs => exact ⟨x, xs, rfl⟩
      dsimp only
      rw [show C.rd (u0 :: us) 0 = .ok u0 from rfl, C.ok_bind]
      have hiff : ((u0 :: us).length > 1 ∨ u0 ≥ v) ↔ v.toNat ≤ val (u0 :: us) := by
        have hv := v.isLt
        have h64 := norm_val_pos nu hune
        cases us with
        | nil =>
          rw [val_singleton]
          constructor
          · rintro (h | h)
            · simp at h
            · exact h
          · intro h; exact Or.inr h
        | cons w ws =>
          constructor
          · intro _
            refine le_trans hv.le (le_trans ?_ h64)
            exact Nat.pow_le_pow_right (by omega) (by simp only [List.length_cons]; omega)
          · intro _; left; simp
      by_cases hc : v.toNat ≤ val (u0 :: us)
      · rw [if_pos (hiff.2 hc)]
        obtain ⟨t, e, nt, vt⟩ := sub_1_trim nu hune v hc
        rw [e, C.ok_bind]
        obtain ⟨z, ez, vz⟩ := gcd_1_loop_val m t v nt (odd_pos ov)
          (gcd_odd ov) (by rw [vt]; exact fuel_sub_left hp ou ov)
        refine ⟨z, ez, ?_⟩
        rw [vz, vt, vu, vv, hg, Nat.gcd_sub_self_left hc]
      · rw [if_neg (fun h => hc (hiff.1 h))]
        have hone : us = [] := by
          by_contra hus
          exact hc (hiff.1 (Or.inl (by
            have := List.length_pos_iff.2 hus
            simp only [List.length_cons]; omega)))
        subst hone
        rw [val_singleton] at *
        have hsub : (v - u0).toNat = v.toNat - u0.toNat := by
          rw [BitVec.toNat_sub]; have := v.isLt; have := u0.isLt; omega
        obtain ⟨z, ez, vz⟩ := gcd_1_loop_val m [u0] (v - u0) nu (by rw [hsub]; omega)
          (by rw [val_singleton, Nat.gcd_comm]; exact gcd_odd ou)
          (by rw [val_singleton, hsub]; exact fuel_sub_right hp ou ov)
        refine ⟨z, ez, ?_⟩
        rw [vz, val_singleton, hsub, vu, vv, hg, Nat.gcd_sub_self_right (by omega)]

theorem gcd_1_val {a : List Limb} (ha : Norm a) (hne : a ≠ []) {y : Limb} (hy : y ≠ 0) :
    ∃ g, mpn_gcd_1 a y = .ok g ∧ g.toNat = Nat.gcd (val a) y.toNat := by
  have la : a.length ≠ 0 := by simpa using hne
  have hyp : 0 < y.toNat := Nat.pos_of_ne_zero (fun e => hy (toNat_eq_zero.1 e))
  unfold mpn_gcd_1
  rw [C.check, decide_eq_true (show a.length ≠ 0 ∧ a.getLast? ≠ some 0 ∧ y ≠ 0 from ⟨la, ha, hy⟩)]
  simp only [if_true, C.ok_bind]
  obtain ⟨x0, xs, rfl⟩ : ∃ x0 xs, a = x0 :: xs := by
    cases a with
    | nil => exact absurd rfl hne
    | cons x xs => exact ⟨x, xs, rfl⟩
  rw [show C.rd (x0 :: xs) 0 = .ok x0 from rfl, C.ok_bind]
  have h0 : x0 ||| y ≠ 0 := by
    intro h
    have : x0.toNat ||| y.toNat = 0 := by rw [← BitVec.toNat_or, h]; rfl
    have := (Nat.or_eq_zero_iff.1 this).2
    omega
  obtain ⟨r, er, hr, du, dv, ho⟩ := ctz_or (us := xs) (vs := []) h0
  rw [er]
  rw [val_singleton] at dv ho
  unfold mpn_gcd_1_shift
  obtain ⟨u, e1, nu, vu⟩ := rshift_trim_val ha hne r hr
  rw [e1, C.ok_bind]
  have hvp : 0 < (y >>> r).toNat := by
    rw [shr_toNat]
    rw [← dv] at hyp
    exact Nat.pos_of_mul_pos_left hyp
  have hf : Fuel (64 * (u.length + 1)) (val u) (y >>> r).toNat := by
    have := fuel_start (a := u) (b := [y >>> r]) (64 * (u.length + 1)) (by simp)
    rwa [val_singleton] at this
  obtain ⟨w, e2, vw⟩ := gcd_1_loop_val _ u (y >>> r) nu hvp (by rw [vu, shr_toNat]; exact ho) hf
  rw [e2, C.ok_bind]
  have hval : 2 ^ r * w.toNat = Nat.gcd (val (x0 :: xs)) y.toNat := by
    rw [vw, vu, shr_toNat, ← Nat.gcd_mul_left, du, dv]
  refine ⟨_, rfl, ?_⟩
  rw [shl_toNat, Nat.mul_comm, hval]
  exact Nat.mod_eq_of_lt (lt_of_le_of_lt (Nat.gcd_le_right _ (by omega)) y.isLt)

theorem gcd_sorted_rep {x y : Mpz} {i j : Int} {z : Dest} (hx : Rep x i) (hy : Rep y j) (hi : i ≠ 0) (hj : j ≠ 0)
    (hl : y.mag.length ≤ x.mag.length) (hr : Room z y.mag.length) :
    ∃ t, mpz_gcd_sorted z x y = .ok t ∧ Rep t (Int.gcd i j) := by
  obtain ⟨w, n, e, _, _, nw, _, _, vw⟩ := gcd_val (rep_norm hx) (rep_norm hy) (fun h => hi ((rep_nil hx).1 h))
    (fun h => hj ((rep_nil hy).1 h)) hl
  unfold mpz_gcd_sorted
  rw [grow_ok hr, C.ok_bind, e, C.ok_bind]
  refine ⟨_, rfl, ?_⟩
  have := pos_rep nw
  rwa [vw, rep_abs hx, rep_abs hy] at this

theorem gcd_rep {x y : Mpz} {i j : Int} {z : Dest} (hx : Rep x i) (hy : Rep y j)
    (hr : Room z (max x.mag.length y.mag.length)) :
    ∃ t, mpz_gcd z x y = .ok t ∧ Rep t (Int.gcd i j) := by
  unfold mpz_gcd
  by_cases h1 : i = 0
  · rw [if_pos ((rep_size0 hx).2 h1)]
    obtain ⟨t, e, ht⟩ := abs_rep hy (room_mono hr (by omega))
    refine ⟨t, e, ?_⟩
    rw [h1, Int.gcd_zero_left]; exact ht
  · rw [if_neg (fun h => h1 ((rep_size0 hx).1 h))]
    by_cases h2 : j = 0
    · rw [if_pos ((rep_size0 hy).2 h2)]
      obtain ⟨t, e, ht⟩ := abs_rep hx (room_mono hr (by omega))
      refine ⟨t, e, ?_⟩
      rw [h2, Int.gcd_zero_right]; exact ht
    · rw [if_neg (fun h => h2 ((rep_size0 hy).1 h))]
      by_cases h3 : x.mag.length < y.mag.length
      · rw [if_pos h3, Int.gcd_comm]
        exact gcd_sorted_rep hy hx h2 h1 h3.le (room_mono hr (by omega))
      · rw [if_neg h3]
        exact gcd_sorted_rep hx hy h1 h2 (by omega) (room_mono hr (by omega))

theorem gcd_ui_rep {x : Mpz} {i : Int} {z : Option Dest} (y : Limb) (hx : Rep x i) (hr : RoomO z x.mag.length) :
    ∃ t g, mpz_gcd_ui z x y = .ok (t, g) ∧ (z.isSome → Rep t (Int.gcd i y.toNat)) ∧
      (g.toNat = if Int.gcd i y.toNat < 2 ^ 64 then Int.gcd i y.toNat else 0) := by
  unfold mpz_gcd_ui
  by_cases h1 : i = 0
  · rw [if_pos ((rep_size0 hx).2 h1)]
    refine ⟨_, _, rfl, fun _ => ?_, ?_⟩
    · rw [h1, Int.gcd_zero_left, Int.natAbs_natCast]; exact set_ui_rep y
    · rw [h1, Int.gcd_zero_left, Int.natAbs_natCast, if_pos y.isLt]
  · rw [if_neg (fun h => h1 ((rep_size0 hx).1 h))]
    by_cases h2 : y = 0
    · rw [if_pos h2]
      subst h2
      have hg : Int.gcd i ((0 : Limb).toNat : Int) = i.natAbs := by
        rw [show (((0 : Limb).toNat : Nat) : Int) = 0 from rfl, Int.gcd_zero_right]
      rw [hg]
      obtain ⟨t, e, ht⟩ : ∃ t, (ifDest z x fun z => mpz_abs z x) = .ok t ∧ (z.isSome → Rep t i.natAbs) := by
        cases z with
        | none => exact ⟨x, rfl, by simp⟩
        | some d =>
          obtain ⟨t, e, ht⟩ := abs_rep hx (hr d rfl)
          exact ⟨t, e, fun _ => ht⟩
      rw [e, C.ok_bind]
      by_cases h3 : x.mag.length ≠ 1
      · rw [if_pos h3]
        refine ⟨t, 0, rfl, ht, ?_⟩
        rw [if_neg]; rfl
        intro hlt
        have h4 := rep_len_le (n := 1) hx (by simpa using hlt)
        have h5 : x.mag.length ≠ 0 := fun h => h1 ((rep_len hx).1 h)
        omega
      · rw [if_neg h3]
        have hlt := rep_lt hx
        rw [not_not] at h3
        rw [h3] at hlt
        obtain ⟨x0, ex, vx⟩ := rep_one_limb hx h1 (by simpa using hlt)
        unfold limb0
        rw [ex, show C.rd [x0] 0 = .ok x0 from rfl, C.ok_bind]
        refine ⟨t, x0, rfl, ht, ?_⟩
        rw [if_pos (by simpa using hlt), vx]
    · rw [if_neg h2]
      obtain ⟨g, e, v⟩ := gcd_1_val (rep_norm hx) (fun h => h1 ((rep_nil hx).1 h)) h2
      rw [e, C.ok_bind]
      have hv : g.toNat = Int.gcd i y.toNat := by rw [v, rep_abs hx]; rfl
      refine ⟨_, _, rfl, fun _ => ?_, ?_⟩
      · rw [← hv]; exact set_ui_rep g
      · rw [← hv, if_pos g.isLt]

theorem natAbs_lcm (i j : Int) : (j * i.tdiv (Int.gcd i j)).natAbs = Int.lcm i j := by
  rw [Int.natAbs_mul, Int.natAbs_tdiv, Int.natAbs_natCast, Int.lcm, Nat.lcm, Int.gcd,
    Nat.mul_comm i.natAbs, Nat.mul_div_assoc _ (Nat.gcd_dvd_left _ _)]
  rfl

theorem lcm_rep {x y : Mpz} {i j : Int} {z : Dest} (hx : Rep x i) (hy : Rep y j)
    (hr : Room z (x.mag.length + y.mag.length)) :
    ∃ t, mpz_lcm z x y = .ok t ∧ Rep t (Int.lcm i j) := by
  unfold mpz_lcm
  by_cases h0 : i = 0 ∨ j = 0
  · rw [if_pos (by rw [rep_size0 hx, rep_size0 hy]; exact h0)]
    refine ⟨_, rfl, ?_⟩
    have : Int.lcm i j = 0 := by
      rcases h0 with rfl | rfl
      · exact Int.lcm_zero_left _
      · exact Int.lcm_zero_right _
    rw [this]; exact zero_rep
  · rw [if_neg (by rw [rep_size0 hx, rep_size0 hy]; exact h0)]
    dsimp only
    obtain ⟨g, e1, hg⟩ := gcd_rep (z := mpz_init_vla (mpz_add_size x y)) hx hy
      (room_vla _ _ (by unfold mpz_add_size; omega))
    have hg0 : (Int.gcd i j : Int) ≠ 0 := by
      rw [Ne, Int.natCast_eq_zero, Int.gcd_eq_zero_iff]
      omega
    obtain ⟨q, e2, hq⟩ := quo_rep (q := mpz_init_vla (mpz_add_size x y)) hx hg hg0
      (room_vla _ _ (by unfold mpz_add_size; omega))
    have lq := tdiv_len hx hq
    obtain ⟨w, e3, hw⟩ := mul_rep (z := z) hy hq (room_mono hr (by omega))
    have lw : w.mag.length ≤ x.mag.length + y.mag.length := by
      refine rep_len_le hw ?_
      have h1 := rep_lt hy
      have h2 := rep_lt hq
      rw [Int.natAbs_mul]
      calc _ < 2 ^ (64 * y.mag.length) * 2 ^ (64 * q.mag.length) := Nat.mul_lt_mul'' h1 h2
        _ = 2 ^ (64 * (q.mag.length + y.mag.length)) := by rw [← pow_add]; ring_nf
        _ ≤ _ := Nat.pow_le_pow_right (by omega) (by omega)
    obtain ⟨t, e4, ht⟩ := abs_rep hw (room_mono hr lw)
    rw [e1, C.ok_bind, e2, C.ok_bind, e3, C.ok_bind]
    refine ⟨t, e4, ?_⟩
    rwa [natAbs_lcm] at ht

theorem lcm_ui_rep {x : Mpz} {i : Int} {z : Dest} (y : Limb) (hx : Rep x i)
    (hr : Room z (x.mag.length + 1)) :
    ∃ t, mpz_lcm_ui z x y = .ok t ∧ Rep t (Int.lcm i y.toNat) := by
  unfold mpz_lcm_ui
  by_cases h0 : i = 0 ∨ y = 0
  · rw [if_pos (by rw [rep_size0 hx]; exact h0)]
    refine ⟨_, rfl, ?_⟩
    have : Int.lcm i y.toNat = 0 := by
      rcases h0 with rfl | rfl
      · exact Int.lcm_zero_left _
      · rw [show (((0 : Limb).toNat : Nat) : Int) = 0 from rfl]; exact Int.lcm_zero_right _
    rw [this]; exact zero_rep
  · rw [if_neg (by rw [rep_size0 hx]; exact h0)]
    rw [not_or] at h0
    have hy0 : y.toNat ≠ 0 := fun e => h0.2 (toNat_eq_zero.1 e)
    obtain ⟨t0, g, e1, _, hg⟩ := gcd_ui_rep (z := none) y hx (roomO_none _)
    have hle : Int.gcd i y.toNat ≤ y.toNat := by
      have := Nat.gcd_le_right i.natAbs (show 0 < y.toNat by omega)
      exact this
    rw [if_pos (lt_of_le_of_lt hle y.isLt)] at hg
    have hgp : 0 < Int.gcd i y.toNat := Int.gcd_pos_of_ne_zero_left _ h0.1
    rw [e1, C.ok_bind]
    dsimp only
    rw [if_neg (show ¬ g = 0 by rintro rfl; rw [show (0 : Limb).toNat = 0 from rfl] at hg; omega)]
    obtain ⟨w, e2, hw⟩ := mul_ui_rep (z := z) (y / g) hx hr
    rw [e2, C.ok_bind]
    have lw := mul_len hx hw (y / g).isLt
    obtain ⟨t, e3, ht⟩ := abs_rep hw (room_mono hr lw)
    refine ⟨t, e3, ?_⟩
    rw [Int.natAbs_mul, Int.natAbs_natCast, BitVec.toNat_udiv, hg] at ht
    have e4 : Int.lcm i y.toNat = i.natAbs * (y.toNat / Int.gcd i y.toNat) := by
      rw [Int.lcm, Nat.lcm, Int.gcd, Int.natAbs_natCast, Nat.mul_div_assoc _ (Nat.gcd_dvd_right _ _)]
    rw [e4]; exact ht

/-! ### Bezout coefficients -/

/-- Halving a pair of coefficients of an even combination. -/
theorem half_pair {a b A B w : Int} (hab : ¬ (a % 2 = 0 ∧ b % 2 = 0)) (h : A * a + B * b = 2 * w) :
    (decide (A % 2 = 1) || decide (B % 2 = 1)) = false ∧ (2 : Int) ∣ A ∧ (2 : Int) ∣ B ∨
    (decide (A % 2 = 1) || decide (B % 2 = 1)) = true ∧ (2 : Int) ∣ A + b ∧ (2 : Int) ∣ B - a := by
  rcases Int.emod_two_eq_zero_or_one A with hA | hA <;> rcases Int.emod_two_eq_zero_or_one B with hB | hB
  · left; simp [hA, hB]; omega
  · right
    refine ⟨by simp [hB], ?_⟩
    have h2 : (A * a + B * b) % 2 = 0 := by omega
    rw [Int.add_emod, Int.mul_emod, Int.mul_emod B, hA, hB] at h2
    simp at h2
    omega
  · right
    refine ⟨by simp [hA], ?_⟩
    have h2 : (A * a + B * b) % 2 = 0 := by omega
    rw [Int.add_emod, Int.mul_emod, Int.mul_emod B, hA, hB] at h2
    simp at h2
    omega
  · right
    refine ⟨by simp [hA], ?_⟩
    have h2 : (A * a + B * b) % 2 = 0 := by omega
    rw [Int.add_emod, Int.mul_emod, Int.mul_emod B, hA, hB] at h2
    simp at h2
    omega

theorem quo_2_exact {x : Mpz} {i : Int} (hx : Rep x i) (h : (2 : Int) ∣ i) :
    ∃ t, mpz_quo_2exp .heap x 1 = .ok t ∧ ∃ k, i = 2 * k ∧ Rep t k := by
  obtain ⟨t, e, ht⟩ := quo_2exp_rep (z := .heap) 1 hx trivial
  obtain ⟨k, rfl⟩ := h
  refine ⟨t, e, k, rfl, ?_⟩
  rwa [pow_one, Int.mul_tdiv_cancel_left _ (by decide)] at ht

theorem gcdext_halves_rep {up vp : Mpz} {a b : Int} (hu : Rep up a) (hv : Rep vp b)
    (hab : ¬ (a % 2 = 0 ∧ b % 2 = 0)) : ∀ (n : Nat) (x y : Mpz) (A B w : Int), Rep x A → Rep y B →
      A * a + B * b = 2 ^ n * w →
      ∃ x' y' A' B', mpz_gcdext_halves up vp n x y = .ok (x', y') ∧ Rep x' A' ∧ Rep y' B' ∧ A' * a + B' * b = w
  | 0, x, y, A, B, w, hx, hy, h => ⟨x, y, A, B, rfl, hx, hy, by rw [h]; ring⟩
  | n + 1, x, y, A, B, w, hx, hy, h => by
    unfold mpz_gcdext_halves
    rw [odd_rep hx, C.ok_bind, odd_rep hy, C.ok_bind]
    rcases half_pair hab (w := 2 ^ n * w) (by rw [h]; ring) with ⟨hb, dA, dB⟩ | ⟨hb, dA, dB⟩
    · rw [hb]
      simp only [Bool.false_eq_true, if_false, C.ok_bind]
      obtain ⟨x', e1, A', rfl, hx'⟩ := quo_2_exact hx dA
      obtain ⟨y', e2, B', rfl, hy'⟩ := quo_2_exact hy dB
      rw [e1, C.ok_bind, e2, C.ok_bind]
      exact gcdext_halves_rep hu hv hab n x' y' A' B' w hx' hy' (by
        rw [pow_succ] at h
        linarith)
    · rw [hb]
      simp only [if_true]
      obtain ⟨x1, e0, hx1⟩ := add_rep (z := .heap) hx hv trivial
      obtain ⟨y1, e1, hy1⟩ := sub_rep (z := .heap) hy hu trivial
      rw [e0, C.ok_bind, e1, C.ok_bind]
      obtain ⟨x', e1, A', hA', hx'⟩ := quo_2_exact hx1 dA
      obtain ⟨y', e2, B', hB', hy'⟩ := quo_2_exact hy1 dB
      rw [e1, C.ok_bind, e2, C.ok_bind]
      exact gcdext_halves_rep hu hv hab n x' y' A' B' w hx' hy' (by
        rw [pow_succ] at h
        have h3 : (A + b) * a + (B - a) * b = 2 ^ n * 2 * w := by rw [← h]; ring
        rw [hA', hB'] at h3
        linarith)

/-- Dividing a positive integer by its power of two. -/
theorem shift_rep {x : Mpz} {k : Nat} (hx : Rep x k) (hk : 0 < k) :
    ∃ t z w, mpz_ctz x = z ∧ mpz_quo_2exp .heap x z = .ok t ∧ Rep t ((w : Nat) : Int) ∧ k = 2 ^ z * w ∧ w % 2 = 1 := by
  have hv := rep_abs hx
  rw [Int.natAbs_natCast] at hv
  have hc := (ctz_val x.mag).2 (by omega)
  obtain ⟨t, e, ht⟩ := quo_2exp_rep (z := .heap) (mpn_ctz x.mag) hx trivial
  refine ⟨t, mpn_ctz x.mag, k / 2 ^ mpn_ctz x.mag, rfl, e, ?_, ?_, ?_⟩
  · rw [tdiv_nonneg (by omega)] at ht
    have : ((k / 2 ^ mpn_ctz x.mag : Nat) : Int) = (k : Int) / 2 ^ mpn_ctz x.mag := by push_cast; rfl
    rw [this]; exact ht
  · rw [hv] at hc; exact hc.1
  · rw [hv] at hc; exact hc.2

theorem gcdext_loop_rep {up vp : Mpz} {a b : Int} (hup : Rep up a) (hvp : Rep vp b)
    (hab : ¬ (a % 2 = 0 ∧ b % 2 = 0)) : ∀ (n : Nat) (u v : Mpz) (ab cd : Mpz × Mpz) (i j : Nat) (A B E F : Int),
      Rep u i → Rep v j → Rep ab.1 A → Rep ab.2 B → Rep cd.1 E → Rep cd.2 F →
      A * a + B * b = i → E * a + F * b = j → 0 < j → Nat.gcd i j % 2 = 1 → Fuel n i j →
      ∃ g c d E' F', mpz_gcdext_loop up vp (n + 1) u v ab cd = .ok (g, c, d) ∧ Rep g (Nat.gcd i j) ∧
        Rep c E' ∧ Rep d F' ∧ E' * a + F' * b = Nat.gcd i j
  | n, u, v, ab, cd, i, j, A, B, E, F, hu, hv, hA, hB, hE, hF, h1, h2, hj, ho, hf => by
    unfold mpz_gcdext_loop
    by_cases h0 : i = 0
    · rw [if_pos ((rep_size0 hu).2 (by omega))]
      refine ⟨v, cd.1, cd.2, E, F, rfl, ?_, hE, hF, ?_⟩
      · rw [h0, Nat.gcd_zero_left]; exact hv
      · rw [h0, Nat.gcd_zero_left]; exact h2
    · rw [if_neg (fun h => h0 (by have := (rep_size0 hu).1 h; omega))]
      obtain ⟨u', zu, wu, ezu, eu, hu', ei, ou⟩ := shift_rep hu (by omega)
      obtain ⟨v', zv, wv, ezv, ev, hv', ej, ov⟩ := shift_rep hv hj
      dsimp only
      rw [ezu, ezv, eu, C.ok_bind, ev, C.ok_bind]
      obtain ⟨x1, y1, A1, B1, e1, hx1, hy1, k1⟩ := gcdext_halves_rep hup hvp hab zu ab.1 ab.2 A B wu hA hB
        (by rw [h1, ei]; push_cast; ring)
      obtain ⟨x2, y2, E1, F1, e2, hx2, hy2, k2⟩ := gcdext_halves_rep hup hvp hab zv cd.1 cd.2 E F wv hE hF
        (by rw [h2, ej]; push_cast; ring)
      rw [e1, C.ok_bind, e2, C.ok_bind]
      dsimp only
      rw [ei, ej] at hf ho
      have hg := gcd_odd_parts ou ov ho
      have hp := fuel_shift hf ou ov
      obtain ⟨m, rfl⟩ : ∃ m, n = m + 1 := ⟨n - 1, by have := fuel_pos hp ou ov; omega⟩
      have hcmp := cmpabs_rep hu' hv'
      rw [Int.natAbs_natCast, Int.natAbs_natCast] at hcmp
      by_cases hc : wv ≤ wu
      · rw [if_pos (by rw [hcmp, if_neg (by omega)]; split <;> omega)]
        obtain ⟨u2, e3, hu2⟩ := sub_rep (z := .heap) hu' hv' trivial
        obtain ⟨a2, e4, ha2⟩ := sub_rep (z := .heap) hx1 hx2 trivial
        obtain ⟨b2, e5, hb2⟩ := sub_rep (z := .heap) hy1 hy2 trivial
        rw [e3, C.ok_bind, e4, C.ok_bind, e5, C.ok_bind]
        rw [show (wu : Int) - wv = ((wu - wv : Nat) : Int) by omega] at hu2
        obtain ⟨g, c, d, E', F', e6, r1, r2, r3, r4⟩ := gcdext_loop_rep hup hvp hab m u2 v' (a2, b2) (x2, y2)
          (wu - wv) wv _ _ _ _ hu2 hv' ha2 hb2 hx2 hy2 (by
            rw [Nat.cast_sub hc, ← k1, ← k2]; ring) k2 (odd_pos ov) (gcd_odd ov) (fuel_sub_left hp ou ov)
        rw [Nat.gcd_sub_self_left hc] at r1 r4
        rw [ei, ej, hg]
        exact ⟨g, c, d, E', F', e6, r1, r2, r3, r4⟩
      · rw [if_neg (by rw [hcmp, if_pos (by omega)]; omega)]
        obtain ⟨u2, e3, hu2⟩ := sub_rep (z := .heap) hv' hu' trivial
        obtain ⟨a2, e4, ha2⟩ := sub_rep (z := .heap) hx2 hx1 trivial
        obtain ⟨b2, e5, hb2⟩ := sub_rep (z := .heap) hy2 hy1 trivial
        rw [e3, C.ok_bind, e4, C.ok_bind, e5, C.ok_bind]
        rw [show (wv : Int) - wu = ((wv - wu : Nat) : Int) by omega] at hu2
        obtain ⟨g, c, d, E', F', e6, r1, r2, r3, r4⟩ := gcdext_loop_rep hup hvp hab m u' u2 (x1, y1) (a2, b2)
          wu (wv - wu) _ _ _ _ hu' hu2 hx1 hy1 ha2 hb2 k1 (by
            rw [Nat.cast_sub (by omega), ← k1, ← k2]; ring) (by omega)
          (by rw [Nat.gcd_comm]; exact gcd_odd ou) (fuel_sub_right hp ou ov)
        rw [Nat.gcd_sub_self_right (by omega)] at r1 r4
        rw [ei, ej, hg]
        exact ⟨g, c, d, E', F', e6, r1, r2, r3, r4⟩

theorem sgn_si {x : Mpz} {i : Int} (hx : Rep x i) : Rep (mpz_set_si (BitVec.ofInt 64 (mpz_sgn x))) i.sign := by
  have h := set_si_rep (BitVec.ofInt 64 (mpz_sgn x))
  rw [sgn_rep hx] at h ⊢
  have e : (BitVec.ofInt 64 i.sign).toInt = i.sign := by
    rcases lt_trichotomy i 0 with h | h | h
    · rw [Int.sign_eq_neg_one_of_neg h]; decide
    · rw [h]; decide
    · rw [Int.sign_eq_one_of_pos h]; decide
  rwa [e] at h

theorem min_shift {a b : Nat} {za zb wa wb : Nat} (ea : a = 2 ^ za * wa)
    (eb : b = 2 ^ zb * wb) (oa : wa % 2 = 1) (ob : wb % 2 = 1) :
    ∃ p q, a = 2 ^ min za zb * p ∧ b = 2 ^ min za zb * q ∧ Nat.gcd p q % 2 = 1 ∧ 0 < p ∧ 0 < q := by
  refine ⟨2 ^ (za - min za zb) * wa, 2 ^ (zb - min za zb) * wb, ?_, ?_, ?_, ?_, ?_⟩
  · rw [ea, ← Nat.mul_assoc, ← pow_add]; congr 2; omega
  · rw [eb, ← Nat.mul_assoc, ← pow_add]; congr 2; omega
  · rcases Nat.le_total za zb with h | h
    · rw [show za - min za zb = 0 by omega, pow_zero, Nat.one_mul, Nat.gcd_comm]
      exact gcd_odd oa
    · rw [show zb - min za zb = 0 by omega, pow_zero, Nat.one_mul]
      exact gcd_odd ob
  · exact Nat.mul_pos (by positivity) (odd_pos oa)
  · exact Nat.mul_pos (by positivity) (odd_pos ob)

theorem neg_if_rep {x y : Mpz} {i c : Int} (hx : Rep x i) (hy : Rep y c) :
    ∃ t, (if x.size < 0 then mpz_neg .heap y else .ok y) = .ok t ∧ Rep t (if i < 0 then -c else c) := by
  by_cases h : i < 0
  · rw [if_pos ((rep_sizen hx).2 h), if_pos h]
    exact neg_rep hy trivial
  · rw [if_neg (fun h' => h ((rep_sizen hx).1 h')), if_neg h]
    exact ⟨y, rfl, hy⟩

theorem gcdext_rep {x y : Mpz} {i j : Int} (hx : Rep x i) (hy : Rep y j) :
    ∃ g s t c d, mpz_gcdext x y = .ok (g, s, t) ∧ Rep g (Int.gcd i j) ∧ Rep s c ∧ Rep t d ∧
      c * i + d * j = Int.gcd i j := by
  unfold mpz_gcdext
  by_cases h1 : i = 0
  · rw [if_pos ((rep_size0 hx).2 h1)]
    obtain ⟨g, e, hg⟩ := abs_rep (z := .heap) hy trivial
    rw [e, C.ok_bind]
    refine ⟨_, _, _, 0, j.sign, rfl, ?_, zero_rep, sgn_si hy, ?_⟩
    · rw [h1, Int.gcd_zero_left]; exact hg
    · rw [h1, Int.gcd_zero_left, zero_mul, zero_add, Int.sign_mul_self_eq_natAbs]
  · rw [if_neg (fun h => h1 ((rep_size0 hx).1 h))]
    by_cases h2 : j = 0
    · rw [if_pos ((rep_size0 hy).2 h2)]
      obtain ⟨g, e, hg⟩ := abs_rep (z := .heap) hx trivial
      rw [e, C.ok_bind]
      refine ⟨_, _, _, i.sign, 0, rfl, ?_, sgn_si hx, zero_rep, ?_⟩
      · rw [h2, Int.gcd_zero_right]; exact hg
      · rw [h2, Int.gcd_zero_right, zero_mul, add_zero, Int.sign_mul_self_eq_natAbs]
    · rw [if_neg (fun h => h2 ((rep_size0 hy).1 h))]
      obtain ⟨u, e1, hu⟩ := abs_rep (z := .heap) hx trivial
      obtain ⟨v, e2, hv⟩ := abs_rep (z := .heap) hy trivial
      rw [e1, C.ok_bind, e2, C.ok_bind]
      have hip : 0 < i.natAbs := Int.natAbs_pos.2 h1
      have hjp : 0 < j.natAbs := Int.natAbs_pos.2 h2
      obtain ⟨_, zu, wu, ezu, _, _, eu, ou⟩ := shift_rep hu hip
      obtain ⟨_, zv, wv, ezv, _, _, ev, ov⟩ := shift_rep hv hjp
      obtain ⟨p, q, ep, eq, hpq, hp, hq⟩ := min_shift eu ev ou ov
      dsimp only
      rw [ezu, ezv]
      obtain ⟨u1, e3, hu1⟩ := quo_2exp_rep (z := .heap) (min zu zv) hu trivial
      obtain ⟨v1, e4, hv1⟩ := quo_2exp_rep (z := .heap) (min zu zv) hv trivial
      have ex : ∀ (n m : Nat), ((2 ^ n * m : Nat) : Int).tdiv (2 ^ n) = m := by
        intro n m
        rw [Nat.cast_mul, Nat.cast_pow, Nat.cast_ofNat, Int.mul_tdiv_cancel_left _ (by positivity)]
      rw [ep, ex] at hu1
      rw [eq, ex] at hv1
      rw [e3, C.ok_bind, e4, C.ok_bind]
      have hpar : ¬ ((p : Int) % 2 = 0 ∧ (q : Int) % 2 = 0) := by
        rintro ⟨a1, a2⟩
        have : 2 ∣ Nat.gcd p q := Nat.dvd_gcd (by omega) (by omega)
        omega
      have hfuel : Fuel (64 * (u1.mag.length + v1.mag.length)) p q := by
        have := fuel_start (a := u1.mag) (b := v1.mag) _ le_rfl
        rwa [rep_abs hu1, rep_abs hv1, Int.natAbs_natCast, Int.natAbs_natCast] at this
      obtain ⟨g, c, d, E, F, e5, hg, hc, hd, hb⟩ := gcdext_loop_rep hu1 hv1 hpar _ u1 v1
        (mpz_set_ui 1, mpz_set_ui 0) (mpz_set_ui 0, mpz_set_ui 1) p q 1 0 0 1 hu1 hv1
        (set_ui_rep 1) (set_ui_rep 0) (set_ui_rep 0) (set_ui_rep 1) (by ring) (by ring) hq hpq hfuel
      rw [e5, C.ok_bind]
      dsimp only
      obtain ⟨c', e6, hc'⟩ := neg_if_rep hx hc
      obtain ⟨d', e7, hd'⟩ := neg_if_rep hy hd
      obtain ⟨g', e8, hg'⟩ := mul_2exp_rep (z := .heap) (min zu zv) hg trivial
      rw [e6, C.ok_bind, e7, C.ok_bind, e8, C.ok_bind]
      have hgg : ((Nat.gcd p q : Nat) : Int) * 2 ^ min zu zv = Int.gcd i j := by
        rw [Int.gcd, ep, eq, Nat.gcd_mul_left]; push_cast; ring
      refine ⟨g', c', d', _, _, rfl, ?_, hc', hd', ?_⟩
      · rw [← hgg]; exact hg'
      · have hi : (if i < 0 then -E else E) * i = E * i.natAbs := by
          split
          · rw [show (i.natAbs : Int) = -i by omega]; ring
          · rw [show (i.natAbs : Int) = i by omega]
        have hj : (if j < 0 then -F else F) * j = F * j.natAbs := by
          split
          · rw [show (j.natAbs : Int) = -j by omega]; ring
          · rw [show (j.natAbs : Int) = j by omega]
        rw [hi, hj, ← hgg, ← hb, ep, eq]; push_cast; ring

end Torsion.Mpi
