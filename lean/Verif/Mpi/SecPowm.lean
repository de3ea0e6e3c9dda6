import Verif.Mpi.PowmLemmas
import Verif.Mpi.MpzBitOps
import Mathlib.FieldTheory.Finite.Basic

/-!
# Constant-time exponentiation, inversion by exponentiation, signed integers: lemmas
-/
namespace Torsion.Mpi
open Torsion.Spec

/-- The Montgomery form of a power, below the modulus. -/
def SecPow (m : List Limb) (x : Nat) (r : List Limb) (e : Nat) : Prop := MontPow m x r e ∧ val r < val m

theorem lt_RR {m a b : Nat} {R : Nat} (ha : a < R) (hb : b < m) : a * b < R * m := by
  calc a * b ≤ R * b := Nat.mul_le_mul_right _ ha.le
    _ < R * m := Nat.mul_lt_mul_of_pos_left hb (by omega)

theorem sec_ops {m : List Limb} {k : Limb} (hk : MontK m k) (ho : val m % 2 = 1) (x : Nat) :
    PowOps (fun a b => mpn_sec_montmul a b m k) (fun a => mpn_sec_montmul a a m k) (SecPow m x) := by
  have hmul : ∀ {a b e f}, SecPow m x a e → SecPow m x b f →
      ∃ c, mpn_sec_montmul a b m k = .ok c ∧ SecPow m x c (e + f) := by
    rintro a b e f ⟨⟨la, ha⟩, ba⟩ ⟨⟨lb, hb⟩, bb⟩
    have hal := val_lt a
    rw [la] at hal
    obtain ⟨z, ez, lz, bz, hz⟩ := sec_montmul_val hk la lb (lt_RR hal bb)
    exact ⟨z, ez, ⟨lz, mont_mul_pow (coprime_pow64 ho _) ha hb hz⟩, bz⟩
  exact ⟨hmul, fun h => hmul h h⟩

variable {mul : List Limb → List Limb → C (List Limb)} {sqr : List Limb → C (List Limb)}
  {Ab : List Limb → Nat → Prop}

theorem fixed_table_eq (w1 : List Limb) : ∀ (n : Nat) (w : List Limb),
    mpn_fixed_table mul w1 n w = mpn_slide_table mul w1 n w
  | 0, _ => rfl
  | n + 1, w => by
    unfold mpn_fixed_table mpn_slide_table
    congr 1
    funext t
    rw [fixed_table_eq w1 n t]

theorem fixed_loop_val (h : PowOps mul (fun a => mul a a) Ab) {tab : List (List Limb)} {yp : List Limb} {n : Nat}
    (hl : tab.length = 16) (hn : ∀ t ∈ tab, t.length = n) (ht : ∀ j (hj : j < tab.length), Ab tab[j] j)
    {steps : Nat} (hs : val yp < 2 ^ (4 * steps)) :
    ∀ (i : Nat) (rp sp : List Limb), sp.length = n → i ≤ steps → Ab rp (val yp / 2 ^ (4 * i)) →
      ∃ r, mpn_fixed_loop mul tab yp steps i rp sp = .ok r ∧ Ab r (val yp)
  | 0, rp, sp, _, _, hr => ⟨rp, rfl, by simpa using hr⟩
  | i + 1, rp, sp, hsp, hi, hr => by
    have hv := getbits_eq yp (i * 4) 4 (by omega)
    rw [show (2 : Nat) ^ 4 = 16 from rfl, Nat.mul_comm i 4] at hv
    unfold mpn_fixed_loop
    dsimp only
    rw [Nat.mul_comm i 4]
    generalize mpn_getbits yp (4 * i) 4 = b at hv ⊢
    have hb : b.toNat < tab.length := by omega
    rw [tabselect_eq sp tab b.toNat (fun t h => by rw [hn t h, hsp]) hb]
    have hw := ht _ hb
    have hwl := hn _ (List.getElem_mem hb)
    generalize tab[b.toNat] = w at hw hwl ⊢
    have hsplit : val yp / 2 ^ (4 * i) = 2 ^ 4 * (val yp / 2 ^ (4 * (i + 1))) + b.toNat := by
      rw [show 4 * (i + 1) = 4 * i + 4 by ring, pow_add, ← Nat.div_div_eq_div_mul, hv]
      omega
    by_cases hf : i + 1 = steps
    · rw [if_pos hf, C.ok_bind]
      refine fixed_loop_val h hl hn ht hs i w w hwl (by omega) ?_
      rw [hsplit, hf, Nat.div_eq_of_lt hs, Nat.mul_zero, Nat.zero_add]
      exact hw
    · rw [if_neg hf]
      obtain ⟨t, et, h1⟩ := slide_sqrs_val h 4 rp _ hr
      rw [et, C.ok_bind]
      obtain ⟨u, eu, h2⟩ := h.mul h1 hw
      rw [eu, C.ok_bind]
      refine fixed_loop_val h hl hn ht hs i u w hwl (by omega) ?_
      rw [hsplit]
      exact h2

theorem sec_powm_val {x y m : List Limb} (hm : Norm m) (ho : val m % 2 = 1) (hx : x.length ≤ m.length) :
    ∃ r, mpn_sec_powm x y m = .ok r ∧ r.length = m.length ∧ val r = val x ^ val y % val m := by
  have hne := norm_ne (odd_pos ho)
  have hl := List.length_pos_iff.2 hne
  have hm0 := odd_pos ho
  have hc := coprime_pow64 ho m.length
  obtain ⟨m0, ms, rfl⟩ : ∃ m0 ms, m = m0 :: ms := by
    cases m with
    | nil => exact absurd rfl hne
    | cons x xs => exact ⟨x, xs, rfl⟩
  have ho0 : m0 &&& 1 ≠ 0 := (odd_test m0).2 (by rw [val_cons] at ho; omega)
  obtain ⟨k, r2, em, hk, lr2, vr2⟩ := mont_val hm ho
  obtain ⟨vx, lx⟩ := val_padz x (m0 :: ms).length hx
  obtain ⟨v1, l1⟩ := val_one (m0 :: ms).length hl
  have b2 : val r2 < val (m0 :: ms) := by rw [vr2]; exact Nat.mod_lt _ hm0
  have hml := val_lt (m0 :: ms)
  have hr2 : val r2 ≡ 2 ^ (128 * (m0 :: ms).length) [MOD val (m0 :: ms)] := by rw [vr2]; exact Nat.mod_modEq _ _
  have h128 : 2 ^ (128 * (m0 :: ms).length) = 2 ^ (64 * (m0 :: ms).length) * 2 ^ (64 * (m0 :: ms).length) := by
    rw [← pow_add]; congr 1; omega
  unfold mpn_sec_powm
  rw [C.check, decide_eq_true (show (m0 :: ms).length ≠ 0 ∧ (m0 :: ms).getLast? ≠ some 0 from ⟨by omega, hm⟩)]
  simp only [if_true, C.ok_bind]
  rw [show C.rd (m0 :: ms) 0 = .ok m0 from rfl, C.ok_bind]
  rw [C.check, decide_eq_true ho0]
  simp only [if_true, C.ok_bind]
  rw [C.check, decide_eq_true hx]
  simp only [if_true, C.ok_bind]
  rw [em, C.ok_bind]
  dsimp only
  generalize hM : m0 :: ms = m at *
  clear hM em
  have hops := sec_ops hk ho (val x)
  have b1 := val_lt (mpn_set_1 m.length 1)
  rw [l1] at b1
  obtain ⟨w0, e0, lw0, bw0, hw0⟩ := sec_montmul_val hk l1 lr2 (lt_RR b1 b2)
  rw [e0, C.ok_bind]
  have bx := val_lt (x ++ mpn_zero (m.length - x.length))
  rw [lx] at bx
  obtain ⟨w1, e1, lw1, bw1, hw1⟩ := sec_montmul_val hk lx lr2 (lt_RR bx b2)
  rw [e1, C.ok_bind]
  have a0 : SecPow m (val x) w0 0 := ⟨⟨lw0, by
    rw [pow_zero]
    exact mont_into hc h128 hr2 (by rw [← v1]; exact hw0)⟩, bw0⟩
  have a1 : SecPow m (val x) w1 1 := ⟨⟨lw1, by
    rw [pow_one]
    exact mont_into hc h128 hr2 (by rw [← vx]; exact hw1)⟩, bw1⟩
  rw [fixed_table_eq]
  obtain ⟨ts, et, lt, ht⟩ := slide_table_val hops a1 14 w1 1 a1
  rw [et, C.ok_bind]
  have htab : ∀ j (hj : j < (w0 :: ts).length), SecPow m (val x) (w0 :: ts)[j] j := by
    intro j hj
    cases j with
    | zero => exact a0
    | succ j =>
      have := ht j (by simpa using hj)
      rw [List.getElem_cons_succ]
      convert this using 1
      ring
  have hlen : ∀ t ∈ w0 :: ts, t.length = m.length := by
    intro t h
    obtain ⟨j, hj, rfl⟩ := List.getElem_of_mem h
    exact (htab j hj).1.1
  have hst : (y.length * 64 + 4 - 1) / 4 = 16 * y.length := by omega
  rw [hst]
  have hys : val y < 2 ^ (4 * (16 * y.length)) := by
    rw [show 4 * (16 * y.length) = 64 * y.length by ring]; exact val_lt y
  obtain ⟨r, er, hr⟩ := fixed_loop_val hops (yp := y) (by simp [lt]) hlen htab hys (16 * y.length) w0
    (mpn_zero m.length) (len_zeros _) (le_refl _) (by rw [Nat.div_eq_of_lt hys]; exact a0)
  rw [er, C.ok_bind]
  obtain ⟨⟨lr, hr⟩, br⟩ := hr
  obtain ⟨z, ez, lz, bz, hz⟩ := sec_montmul_val hk lr l1 (by
    rw [v1, Nat.mul_one]
    calc val r < val m := br
      _ = 1 * val m := by ring
      _ ≤ 2 ^ (64 * m.length) * val m := Nat.mul_le_mul_right _ Nat.one_le_two_pow)
  rw [ez]
  rw [v1] at hz
  refine ⟨z, rfl, lz, ?_⟩
  rw [← Nat.mod_eq_of_lt bz]
  exact mont_out hc hr hz

theorem sec_powm_abort {x y m : List Limb} (h : m = [] ∨ ¬ Norm m ∨ val m % 2 = 0 ∨ m.length < x.length) :
    mpn_sec_powm x y m = .abort := by
  unfold mpn_sec_powm
  by_cases h0 : m.length ≠ 0 ∧ m.getLast? ≠ some 0
  · rw [C.check, decide_eq_true h0]
    simp only [if_true, C.ok_bind]
    obtain ⟨m0, ms, rfl⟩ : ∃ m0 ms, m = m0 :: ms := by
      cases m with
      | nil => exact absurd rfl h0.1
      | cons x xs => exact ⟨x, xs, rfl⟩
    rw [show C.rd (m0 :: ms) 0 = .ok m0 from rfl, C.ok_bind]
    by_cases h1 : m0 &&& 1 ≠ 0
    · rw [C.check, decide_eq_true h1]
      simp only [if_true, C.ok_bind]
      have := (odd_test m0).1 h1
      have hx : ¬ x.length ≤ (m0 :: ms).length := by
        rcases h with h | h | h | h
        · simp at h
        · exact absurd h0.2 h
        · rw [val_cons] at h; omega
        · omega
      rw [C.check, decide_eq_false hx]
      rfl
    · rw [C.check, decide_eq_false h1]
      rfl
  · rw [C.check, decide_eq_false h0]
    rfl

theorem sec_invert_val {x m : List Limb} (hm : Norm m) (ho : val m % 2 = 1) (h1 : val m ≠ 1) (hx : x.length ≤ m.length) :
    ∃ r, mpn_sec_invert x m = .ok (r, flag (val r ≠ 0)) ∧ r.length = m.length ∧
      val r = val x ^ (val m - 2) % val m := by
  have hne := norm_ne (odd_pos ho)
  have hl := List.length_pos_iff.2 hne
  obtain ⟨v0, e0, hv0⟩ := norm_one hm (odd_pos ho)
  have hodd : v0 &&& 1 ≠ 0 := by
    rw [odd_test]
    obtain ⟨w, ew, vw⟩ := val_mod m hne
    rw [e0] at ew
    injection ew with ew
    subst ew
    omega
  unfold mpn_sec_invert
  rw [C.check, decide_eq_true (show m.length ≠ 0 ∧ m.getLast? ≠ some 0 from ⟨by omega, hm⟩)]
  simp only [if_true, C.ok_bind]
  rw [e0, C.ok_bind]
  rw [C.check, decide_eq_true hodd]
  simp only [if_true, C.ok_bind]
  rw [if_neg (by
    rintro ⟨a, b⟩
    rcases hv0.2 h1 with h | h
    · exact h a
    · exact h b)]
  obtain ⟨vs, ls⟩ := sub_1_val m 2
  have hgt : 2 ≤ val m := by omega
  have hy : val (mpn_sub_1 m 2).1 = val m - 2 := by
    have hb := val_lt (mpn_sub_1 m 2).1
    have hb2 := val_lt m
    rw [ls] at hb
    rw [show (2 : Limb).toNat = 2 from rfl] at vs
    rcases Nat.eq_zero_or_pos (mpn_sub_1 m 2).2.toNat with h | h
    · rw [h] at vs; omega
    · have : 2 ^ (64 * m.length) * 1 ≤ 2 ^ (64 * m.length) * (mpn_sub_1 m 2).2.toNat := Nat.mul_le_mul_left _ h
      omega
  generalize (mpn_sub_1 m 2).1 = yp at ls hy ⊢
  obtain ⟨lo, top, rfl⟩ : ∃ lo top, yp = lo ++ [top] := by
    have hne' : yp ≠ [] := by rintro rfl; simp at ls; omega
    exact ⟨yp.dropLast, yp.getLast hne', (List.dropLast_concat_getLast hne').symm⟩
  have lo_len : m.length - 1 = lo.length := by simp at ls; omega
  have hlen : m.length = lo.length + 1 := by omega
  rw [lo_len, show C.rd (lo ++ [top]) lo.length = .ok top by simp [C.rd], C.ok_bind]
  have htake : val ((lo ++ [top]).take (m.length - (flag (top = 0)).toNat)) = val m - 2 := by
    by_cases ht : top = 0
    · rw [flag_pos ht, show m.length - (1 : Limb).toNat = lo.length from lo_len]
      rw [List.take_append_of_le_length (le_refl _), List.take_length]
      rw [val_append, ht, val_singleton, show (0 : Limb).toNat = 0 from rfl] at hy
      omega
    · rw [flag_neg ht, show m.length - (0 : Limb).toNat = m.length from rfl, ← ls, List.take_length, hy]
  obtain ⟨r, er, lr, vr⟩ := sec_powm_val (x := x) (y := (lo ++ [top]).take (m.length - (flag (top = 0)).toNat)) hm ho hx
  rw [er, C.ok_bind]
  rw [htake] at vr
  refine ⟨r, ?_, lr, vr⟩
  congr 2
  rw [sec_zero_p_eq]
  by_cases hz : val r = 0
  · rw [flag_pos hz, flag_neg (by simpa using hz)]; rfl
  · rw [flag_neg hz, flag_pos hz]; rfl

theorem fermat_inv {p x : Nat} (hp : p.Prime) (h : ¬ p ∣ x) :
    (x ^ (p - 2) % p) * x ≡ 1 [MOD p] := by
  have hc : Nat.Coprime x p := (Nat.Prime.coprime_iff_not_dvd hp).2 h |>.symm
  have e := Nat.ModEq.pow_totient hc
  rw [Nat.totient_prime hp] at e
  refine (Nat.ModEq.mul_right x (Nat.mod_modEq _ _)).trans ?_
  rw [← pow_succ]
  have := hp.two_le
  rw [show p - 2 + 1 = p - 1 by omega]
  exact e

/-! ### Signed integers -/

theorem powm_inner_rep {x y m : Mpz} {k : Nat} {e j : Int} {z : Dest} (hx : Rep x k) (hy : Rep y e) (hm : Rep m j)
    (hj : j ≠ 0) (hk : k < j.natAbs) (hr : Room z m.mag.length) :
    ∃ t, mpz_powm_inner z x y m = .ok t ∧ Rep t ((k ^ e.natAbs % j.natAbs : Nat) : Int) := by
  have hxm : x.mag.length ≤ m.mag.length := rep_len_mono hx hm (by omega)
  obtain ⟨r, er, lr, vr⟩ := powm_val (x := x.mag) (y := y.mag) (rep_norm hm) (mt (rep_nil hm).1 hj) hxm
  unfold mpz_powm_inner
  rw [grow_ok hr, C.ok_bind, er, C.ok_bind]
  refine ⟨_, rfl, ?_⟩
  have := pos_rep (strip_norm r)
  rw [strip_val, vr, rep_abs hx, rep_abs hy, rep_abs hm, Int.natAbs_natCast] at this
  exact this

theorem powm_reduce {i j : Int} (n : Nat) (k : Nat) (hk : (k : Int) = i % j) :
    ((k ^ n % j.natAbs : Nat) : Int) = i ^ n % j := by
  rw [Int.natCast_mod, Nat.cast_pow, hk, ← Int.emod_abs (i ^ n), Int.natCast_natAbs, Int.emod_abs, Int.emod_abs]
  exact (Int.ModEq.pow n (Int.mod_modEq i j))

theorem powm_rep_nonneg {x y m : Mpz} {i e j : Int} {z : Dest} (hx : Rep x i) (hy : Rep y e) (hm : Rep m j)
    (hj : j ≠ 0) (he : 0 ≤ e) (hr : Room z m.mag.length) :
    ∃ t, mpz_powm z x y m = .ok t ∧ Rep t (i ^ e.toNat % j) := by
  have hen : e.natAbs = e.toNat := by omega
  unfold mpz_powm
  rw [if_neg (mt (rep_size0 hm).1 hj), if_neg (fun h => by have := (rep_sizen hy).1 h; omega)]
  by_cases hc : x.size < 0 ∨ mpz_cmpabs x m ≥ 0
  · rw [if_pos hc]
    obtain ⟨b, eb, rb⟩ := mod_rep hx hm hj (room_vla (m.mag.length + 1) _ (le_refl _))
    rw [eb, C.ok_bind]
    have h0 := Int.emod_nonneg i hj
    have h1 := Int.emod_lt_abs i hj
    rw [← Int.natCast_natAbs] at h1
    obtain ⟨k, hk⟩ := Int.eq_ofNat_of_zero_le h0
    rw [hk] at rb h1
    obtain ⟨t, et, rt⟩ := powm_inner_rep rb hy hm hj (by omega) hr
    rw [hen, powm_reduce _ k hk.symm] at rt
    exact ⟨t, et, rt⟩
  · rw [if_neg hc]
    push Not at hc
    have hi : 0 ≤ i := by
      by_contra h
      have := (rep_sizen hx).2 (by omega)
      omega
    have hlt : i.natAbs < j.natAbs := by
      by_contra h
      rw [cmpabs_rep hx hm, if_neg h] at hc
      have := hc.2
      split at this <;> omega
    obtain ⟨k, rfl⟩ := Int.eq_ofNat_of_zero_le hi
    obtain ⟨t, et, rt⟩ := powm_inner_rep hx hy hm hj (by omega) hr
    rw [hen, powm_reduce _ k (by
      rw [← Int.emod_abs, ← Int.natCast_natAbs, Int.emod_eq_of_lt (by omega) (by omega)])] at rt
    exact ⟨t, et, rt⟩

theorem powm_rep_neg {x y m : Mpz} {i e j : Int} {z : Dest} (hx : Rep x i) (hy : Rep y e) (hm : Rep m j)
    (hj : j ≠ 0) (he : e < 0) (hr : Room z m.mag.length) :
    (Int.gcd i j = 1 ∧ 1 < j.natAbs → ∃ t k, mpz_powm z x y m = .ok t ∧ Rep t k ∧ 0 ≤ k ∧ k < j.natAbs ∧
      j ∣ k * i ^ e.natAbs - 1) ∧
    (¬ (Int.gcd i j = 1 ∧ 1 < j.natAbs) → mpz_powm z x y m = .abort) := by
  obtain ⟨t, b, k, et, rt, hb, h0, h1⟩ := invert_rep hx hm
  unfold mpz_powm
  rw [if_neg (mt (rep_size0 hm).1 hj), if_pos ((rep_sizen hy).2 he), et, C.ok_bind]
  constructor
  · intro hc
    obtain ⟨k0, k1, k2⟩ := h1 (hb.2 hc)
    rw [C.check, hb.2 hc]
    simp only [if_true, C.ok_bind]
    obtain ⟨k, rfl⟩ := Int.eq_ofNat_of_zero_le k0
    obtain ⟨u, eu, ru⟩ := powm_inner_rep rt hy hm hj (by omega) hr
    refine ⟨u, _, eu, ru, by omega, ?_, ?_⟩
    · have := Nat.mod_lt (k ^ e.natAbs) (show 0 < j.natAbs by omega)
      omega
    · have hk : (k : Int) * i ≡ 1 [ZMOD j] := ((Int.modEq_iff_dvd).2 k2).symm
      have hp := hk.pow e.natAbs
      rw [one_pow, mul_pow] at hp
      have hm' : ((k ^ e.natAbs % j.natAbs : Nat) : Int) ≡ (k : Int) ^ e.natAbs [ZMOD j] := by
        rw [Int.natCast_mod, Int.natCast_natAbs, Int.emod_abs, Nat.cast_pow]
        exact Int.mod_modEq _ _
      exact (Int.modEq_iff_dvd).1 ((hm'.mul_right _).trans hp).symm
  · intro hc
    have : b = false := by
      cases b with
      | false => rfl
      | true => exact absurd (hb.1 rfl) hc
    rw [this]
    rfl

theorem powm_sec_inner_rep {x y m : Mpz} {k : Nat} {e j : Int} {z : Dest} (hx : Rep x k) (hy : Rep y e) (hm : Rep m j)
    (hj : j % 2 = 1) (hk : k < j.natAbs) (hr : Room z m.mag.length) :
    ∃ t, mpz_powm_sec_inner z x y m = .ok t ∧ Rep t ((k ^ e.natAbs % j.natAbs : Nat) : Int) := by
  have hxm : x.mag.length ≤ m.mag.length := rep_len_mono hx hm (by omega)
  obtain ⟨r, er, lr, vr⟩ := sec_powm_val (x := x.mag) (y := y.mag) (rep_norm hm) (by rw [rep_abs hm]; omega) hxm
  unfold mpz_powm_sec_inner
  rw [grow_ok hr, C.ok_bind, er, C.ok_bind]
  refine ⟨_, rfl, ?_⟩
  have := pos_rep (strip_norm r)
  rw [strip_val, vr, rep_abs hx, rep_abs hy, rep_abs hm, Int.natAbs_natCast] at this
  exact this

theorem powm_sec_rep {x y m : Mpz} {i e j : Int} {z : Dest} (hx : Rep x i) (hy : Rep y e) (hm : Rep m j)
    (hr : Room z m.mag.length) :
    (0 ≤ e ∧ j % 2 = 1 → ∃ t, mpz_powm_sec z x y m = .ok t ∧ Rep t (i ^ e.toNat % j)) ∧
    (¬ (0 ≤ e ∧ j % 2 = 1) → mpz_powm_sec z x y m = .abort) := by
  unfold mpz_powm_sec
  constructor
  · rintro ⟨he, ho⟩
    have hj : j ≠ 0 := by omega
    have hen : e.natAbs = e.toNat := by omega
    rw [if_neg (by rw [rep_sizen hy, rep_size0 hm]; omega)]
    obtain ⟨a, ea, va⟩ := limb0_rep hm hj
    rw [ea, C.ok_bind]
    rw [C.check, decide_eq_true ((odd_test a).2 (by omega))]
    simp only [if_true, C.ok_bind]
    by_cases hc : x.size < 0 ∨ mpz_cmpabs x m ≥ 0
    · rw [if_pos hc]
      obtain ⟨b, eb, rb⟩ := mod_rep hx hm hj (room_vla (m.mag.length + 1) _ (le_refl _))
      rw [eb, C.ok_bind]
      have h0 := Int.emod_nonneg i hj
      have h1 := Int.emod_lt_abs i hj
      rw [← Int.natCast_natAbs] at h1
      obtain ⟨k, hk⟩ := Int.eq_ofNat_of_zero_le h0
      rw [hk] at rb h1
      obtain ⟨t, et, rt⟩ := powm_sec_inner_rep rb hy hm ho (by omega) hr
      rw [hen, powm_reduce _ k hk.symm] at rt
      exact ⟨t, et, rt⟩
    · rw [if_neg hc]
      push Not at hc
      have hi : 0 ≤ i := by
        by_contra h
        have := (rep_sizen hx).2 (by omega)
        omega
      have hlt : i.natAbs < j.natAbs := by
        by_contra h
        rw [cmpabs_rep hx hm, if_neg h] at hc
        have := hc.2
        split at this <;> omega
      obtain ⟨k, rfl⟩ := Int.eq_ofNat_of_zero_le hi
      obtain ⟨t, et, rt⟩ := powm_sec_inner_rep hx hy hm ho (by omega) hr
      rw [hen, powm_reduce _ k (by
        rw [← Int.emod_abs, ← Int.natCast_natAbs, Int.emod_eq_of_lt (by omega) (by omega)])] at rt
      exact ⟨t, et, rt⟩
  · intro hc
    by_cases h : y.size < 0 ∨ m.size = 0
    · rw [if_pos h]
    · rw [if_neg h]
      rw [rep_sizen hy, rep_size0 hm] at h
      push Not at h
      obtain ⟨a, ea, va⟩ := limb0_rep hm h.2
      rw [ea, C.ok_bind]
      have : ¬ (a &&& 1 ≠ 0) := by
        rw [odd_test]
        intro hh
        exact hc ⟨h.1, by omega⟩
      rw [C.check, decide_eq_false this]
      rfl

theorem powm_abort {x y m : List Limb} (h : m = [] ∨ ¬ Norm m ∨ m.length < x.length) :
    mpn_powm x y m = .abort := by
  unfold mpn_powm
  by_cases h0 : m.length ≠ 0 ∧ m.getLast? ≠ some 0
  · rw [C.check, decide_eq_true h0]
    simp only [if_true, C.ok_bind]
    have hx : ¬ x.length ≤ m.length := by
      rcases h with h | h | h
      · exact absurd (by rw [h]; rfl) h0.1
      · exact absurd h0.2 h
      · omega
    rw [C.check, decide_eq_false hx]
    rfl
  · rw [C.check, decide_eq_false h0]
    rfl

end Torsion.Mpi
