import Verif.Mpi.GcdMore
import Verif.Mpi.ArithProps
import Mathlib.Data.Int.ModEq

/-!
# Modular inverse: lemmas
-/
namespace Torsion.Mpi
open Torsion.Spec

/-- A vector with one limb more than the modulus that holds a residue. -/
def Res (y a : List Limb) (k : Nat) : Prop := a.length = y.length + 1 ∧ val a = k ∧ k < val y

theorem res_split {y a : List Limb} {k : Nat} (h : Res y a k) :
    ∃ b, a = b ++ [0] ∧ b.length = y.length ∧ val b = k := by
  obtain ⟨hl, hv, hk⟩ := h
  have e := val_take_drop y.length a (by omega)
  have l1 : (a.take y.length).length = y.length := by rw [List.length_take]; omega
  obtain ⟨c, hc⟩ : ∃ c, a.drop y.length = [c] := by
    have : (a.drop y.length).length = 1 := by rw [List.length_drop]; omega
    exact List.length_eq_one_iff.1 this
  have hy := val_lt y
  have hc0 : c = 0 := by
    by_contra h0
    have : 1 ≤ c.toNat := Nat.pos_of_ne_zero (fun e => h0 (toNat_eq_zero.1 e))
    rw [hc, val_singleton] at e
    have : 2 ^ (64 * y.length) * 1 ≤ 2 ^ (64 * y.length) * c.toNat := Nat.mul_le_mul_left _ this
    omega
  subst hc0
  refine ⟨a.take y.length, ?_, l1, ?_⟩
  · rw [← hc, List.take_append_drop]
  · rw [hc, val_singleton, show (0 : Limb).toNat = 0 from rfl] at e
    omega

theorem invert_half_val {y a : List Limb} {k : Nat} (ho : val y % 2 = 1) (h : Res y a k) :
    ∃ a' k', mpn_invert_half y a = .ok a' ∧ Res y a' k' ∧ (2 * k' = k ∨ 2 * k' = k + val y) := by
  have hy := norm_ne (odd_pos ho)
  obtain ⟨b, rfl, lb, vb⟩ := res_split h
  have hk := h.2.2
  have hylt := val_lt y
  have hypos : y.length ≠ 0 := by simpa using hy
  obtain ⟨b0, bs, rfl⟩ : ∃ b0 bs, b = b0 :: bs := by
    cases b with
    | nil => rw [List.length_nil] at lb; omega
    | cons x xs => exact ⟨x, xs, rfl⟩
  unfold mpn_invert_half
  dsimp only
  rw [show C.rd ((b0 :: bs) ++ [0]) 0 = .ok b0 from rfl, C.ok_bind]
  have hpar : b0.toNat % 2 = k % 2 := by
    rw [← vb, val_cons]
    have : (2 : Nat) ^ 64 * val bs % 2 = 0 := by omega
    omega
  by_cases hb : b0 &&& 1 ≠ 0
  · rw [if_pos hb]
    have hodd : k % 2 = 1 := by rw [← hpar]; exact (odd_test _).1 hb
    rw [List.take_left' lb]
    obtain ⟨v1, l1, c1⟩ := add_n_val (b0 :: bs) y lb
    generalize mpn_add_n (b0 :: bs) y = t at v1 l1 c1 ⊢
    rw [vb] at v1
    rw [lb] at v1 l1
    have hrd : C.rd (t.1 ++ [t.2]) y.length = .ok t.2 := by
      unfold C.rd
      rw [List.getElem?_append_right (by omega), l1]; simp
    rw [hrd, C.ok_bind, if_neg (by simp only [List.length_append, List.length_singleton]; omega)]
    have hne : t.1 ≠ [] := by
      intro h; rw [h] at l1; exact hypos l1.symm
    have hne' : List.take (y.length + t.2.toNat) (t.1 ++ [t.2]) ≠ [] := by
      intro h
      have := congrArg List.length h
      rw [List.length_take, List.length_append, List.length_nil, List.length_singleton] at this
      omega
    have key : ∃ w, (mpn_rshift (List.take (y.length + t.2.toNat) (t.1 ++ [t.2])) 1).1 ++
          List.drop (y.length + t.2.toNat) (t.1 ++ [t.2]) = w ∧ w.length = y.length + 1 ∧
          val w = (k + val y) / 2 := by
      refine ⟨_, rfl, ?_, ?_⟩
      · rw [List.length_append, (rshift_val _ 1 (by omega) hne').2.2, ← List.length_append,
          List.take_append_drop, List.length_append, List.length_singleton]; omega
      · by_cases hc : t.2.toNat = 0
        · rw [hc, Nat.add_zero, List.take_left' l1, List.drop_left' l1, val_append,
            (rshift_val _ 1 (by omega) hne).1, val_singleton, hc, pow_one]
          rw [hc] at v1
          rw [← v1]; simp
        · have hc : t.2.toNat = 1 := by omega
          rw [hc, List.take_of_length_le (by simp [l1]), List.drop_of_length_le (by simp [l1]), List.append_nil,
            (rshift_val _ 1 (by omega) (by simp)).1, val_append, val_singleton, hc, l1, pow_one]
          rw [hc] at v1
          rw [← v1]
    obtain ⟨w, ew, lw, vw⟩ := key
    refine ⟨w, (k + val y) / 2, by rw [← ew], ⟨lw, vw, by omega⟩, Or.inr (by omega)⟩
  · rw [if_neg hb]
    have heven : k % 2 = 0 := by
      have := mt (odd_test b0).2 hb
      omega
    have hrd : C.rd ((b0 :: bs) ++ [0]) y.length = .ok 0 := by
      unfold C.rd
      rw [List.getElem?_append_right (by omega), lb]; simp
    rw [hrd, C.ok_bind, show (0 : Limb).toNat = 0 from rfl, Nat.add_zero, if_neg (by
      simp only [List.length_append, List.length_singleton]; omega), List.take_left' lb, List.drop_left' lb]
    have hs := rshift_val (b0 :: bs) 1 (by omega) (by simp)
    refine ⟨_, k / 2, rfl, ⟨?_, ?_, by omega⟩, Or.inl (by omega)⟩
    · rw [List.length_append, hs.2.2, lb]; rfl
    · rw [val_append, hs.1, vb, val_singleton, show (0 : Limb).toNat = 0 from rfl, pow_one]; rfl

theorem invert_halves_val {y : List Limb} {x : Nat} (ho : val y % 2 = 1) : ∀ (n : Nat) (a : List Limb) (k u : Nat),
    Res y a k → k * x ≡ 2 ^ n * u [MOD val y] →
    ∃ a' k', mpn_invert_halves y n a = .ok a' ∧ Res y a' k' ∧ k' * x ≡ u [MOD val y]
  | 0, a, k, u, h, hm => ⟨a, k, rfl, h, by simpa using hm⟩
  | n + 1, a, k, u, h, hm => by
    unfold mpn_invert_halves
    obtain ⟨a', k', e, h', hk⟩ := invert_half_val ho h
    rw [e, C.ok_bind]
    refine invert_halves_val ho n a' k' u h' ?_
    have h2 : 2 * (k' * x) ≡ 2 * (2 ^ n * u) [MOD val y] := by
      have e1 : 2 * (2 ^ n * u) = 2 ^ (n + 1) * u := by rw [pow_succ]; ring
      rw [e1]
      refine Nat.ModEq.trans ?_ hm
      rw [← Nat.mul_assoc]
      rcases hk with hk | hk
      · rw [hk]
      · rw [hk, Nat.add_mul]
        unfold Nat.ModEq
        rw [Nat.add_mul_mod_self_left]
    refine Nat.ModEq.cancel_left_of_coprime ?_ h2
    exact (Nat.coprime_two_right).2 (Nat.odd_iff.2 ho)

theorem invert_sub_val {y a b : List Limb} {k l : Nat} (ha : Res y a k) (hb : Res y b l) :
    Res y (mpn_invert_sub y a b) ((((k : Int) - l) % val y).toNat) := by
  obtain ⟨a', rfl, la, va⟩ := res_split ha
  obtain ⟨b', rfl, lb, vb⟩ := res_split hb
  have hk := ha.2.2
  have hl := hb.2.2
  unfold mpn_invert_sub
  rw [List.take_left' la, List.take_left' lb, List.drop_left' la]
  obtain ⟨v, lv⟩ := mpn_sub_mod_exact a' b' y la lb (by omega) (by omega)
  rw [va, vb] at v
  refine ⟨by rw [List.length_append, lv]; rfl, ?_, ?_⟩
  · rw [val_append, val_singleton, show (0 : Limb).toNat = 0 from rfl, Nat.mul_zero, Nat.add_zero]
    omega
  · have := Int.emod_lt_of_pos ((k : Int) - l) (show (0 : Int) < val y by omega)
    have := Int.emod_nonneg ((k : Int) - l) (show (val y : Int) ≠ 0 by omega)
    omega

theorem modEq_sub {k l x u v m : Nat} (hm : 0 < m) (h1 : k * x ≡ u [MOD m]) (h2 : l * x ≡ v [MOD m])
    (h : v ≤ u) : (((k : Int) - l) % m).toNat * x ≡ u - v [MOD m] := by
  rw [← Int.natCast_modEq_iff]
  have e := Int.emod_nonneg ((k : Int) - l) (show (m : Int) ≠ 0 by omega)
  push_cast [Nat.cast_sub h, Int.toNat_of_nonneg e]
  have h1' := (Int.natCast_modEq_iff).2 h1
  have h2' := (Int.natCast_modEq_iff).2 h2
  push_cast at h1' h2'
  calc ((k : Int) - l) % m * x ≡ ((k : Int) - l) * x [ZMOD m] := (Int.mod_modEq _ _).mul_right _
    _ = k * x - l * x := by ring
    _ ≡ u - v [ZMOD m] := h1'.sub h2'

theorem invert_loop_val {y : List Limb} {x : Nat} (ho : val y % 2 = 1) : ∀ (n : Nat) (u v a b : List Limb) (k l : Nat),
    Norm u → Norm v → 0 < val v → Nat.gcd (val u) (val v) % 2 = 1 → Fuel n (val u) (val v) →
    Res y a k → Res y b l → k * x ≡ val u [MOD val y] → l * x ≡ val v [MOD val y] →
    ∃ v' b' l', mpn_invert_loop y (n + 1) u v a b = .ok (v', b') ∧ Norm v' ∧ val v' = Nat.gcd (val u) (val v) ∧
      Res y b' l' ∧ l' * x ≡ val v' [MOD val y]
  | n, a, b, c, d, k, l, ha, hb, hpos, hodd, hf, hc, hd, hk, hl => by
    unfold mpn_invert_loop
    by_cases h0 : a.length = 0
    · rw [if_pos h0]
      have : a = [] := by simpa using h0
      subst this
      exact ⟨b, d, l, rfl, hb, by rw [val_nil, Nat.gcd_zero_left], hd, hl⟩
    · rw [if_neg h0]
      have hne : a ≠ [] := by simpa using h0
      obtain ⟨za, u, e1, nu, vu, ou⟩ := shift_zeroes_val ha hne
      obtain ⟨zb, v, e2, nv, vv, ov⟩ := shift_zeroes_val hb (norm_ne hpos)
      rw [e1, C.ok_bind, e2, C.ok_bind]
      rw [vu, vv] at hf hodd
      rw [vu] at hk
      rw [vv] at hl
      obtain ⟨c', k', e3, hc', hk'⟩ := invert_halves_val ho za c k _ hc hk
      obtain ⟨d', l', e4, hd', hl'⟩ := invert_halves_val ho zb d l _ hd hl
      dsimp only
      rw [e3, C.ok_bind, e4, C.ok_bind]
      have hg := gcd_odd_parts ou ov hodd
      have hp := fuel_shift hf ou ov
      obtain ⟨m, rfl⟩ : ∃ m, n = m + 1 := ⟨n - 1, by have := fuel_pos hp ou ov; omega⟩
      by_cases hcm : val v ≤ val u
      · rw [if_pos ((cmp2_ge nu nv).2 hcm)]
        obtain ⟨t, e, nt, vt, _⟩ := sub_strip nu nv hcm
        rw [e, C.ok_bind]
        obtain ⟨v', b', l'', e5, r1, r2, r3, r4⟩ := invert_loop_val ho m (mpn_strip t.1) v _ d' _ l' nt nv (odd_pos ov)
          (gcd_odd ov) (by rw [vt]; exact fuel_sub_left hp ou ov) (invert_sub_val hc' hd') hd'
          (by rw [vt]; exact modEq_sub (odd_pos ho) hk' hl' hcm) hl'
        refine ⟨v', b', l'', e5, r1, ?_, r3, r4⟩
        rw [r2, vt, vu, vv, hg, Nat.gcd_sub_self_left hcm]
      · rw [if_neg (fun h => hcm ((cmp2_ge nu nv).1 h))]
        obtain ⟨t, e, nt, vt, _⟩ := sub_strip nv nu (by omega)
        rw [e, C.ok_bind]
        obtain ⟨v', b', l'', e5, r1, r2, r3, r4⟩ := invert_loop_val ho m u (mpn_strip t.1) c' _ k' _ nu nt (by omega)
          (by rw [Nat.gcd_comm]; exact gcd_odd ou) (by rw [vt]; exact fuel_sub_right hp ou ov) hc'
          (invert_sub_val hd' hc') hk' (by rw [vt]; exact modEq_sub (odd_pos ho) hl' hk' (by omega))
        refine ⟨v', b', l'', e5, r1, ?_, r3, r4⟩
        rw [r2, vt, vu, vv, hg, Nat.gcd_sub_self_right (by omega)]

theorem norm_one {v : List Limb} (hv : Norm v) (hp : 0 < val v) :
    ∃ v0, C.rd v 0 = .ok v0 ∧ ((v.length ≠ 1 ∨ v0 ≠ 1) ↔ val v ≠ 1) := by
  have hne := norm_ne hp
  obtain ⟨v0, vs, rfl⟩ : ∃ v0 vs, v = v0 :: vs := by
    cases v with
    | nil => exact absurd rfl hne
    | cons x xs => exact ⟨x, xs, rfl⟩
  refine ⟨v0, rfl, ?_⟩
  cases vs with
  | nil =>
    rw [val_singleton]
    simp only [List.length_singleton, ne_eq, not_true_eq_false, false_or]
    exact not_congr ⟨fun h => by rw [h]; rfl, fun h => BitVec.eq_of_toNat_eq h⟩
  | cons w ws =>
    have := norm_val_pos hv hne
    constructor
    · intro _ h1
      rw [h1] at this
      have : (2 : Nat) ^ 64 ≤ 1 := le_trans (Nat.pow_le_pow_right (by omega) (by
        simp only [List.length_cons]; omega)) this
      omega
    · intro _; left; simp

theorem invert_val {x y : List Limb} (hx : Norm x) (hy : Norm y) (ho : val y % 2 = 1) (hl : x.length ≤ y.length) :
    ∃ z b, mpn_invert x y = .ok (z, b) ∧ z.length = y.length ∧ (b = true ↔ Nat.gcd (val x) (val y) = 1 ∧ val y ≠ 1) ∧
      (b = false → val z = 0) ∧ (b = true → val z < val y ∧ val z * val x ≡ 1 [MOD val y]) := by
  have hyp := odd_pos ho
  have hne := norm_ne hyp
  have ly : y.length ≠ 0 := by simpa using hne
  unfold mpn_invert
  have hx' : ¬ (x.length > 0 ∧ x.getLast? = some 0) := fun h => hx h.2
  rw [C.check, decide_eq_true hx']
  simp only [if_true, C.ok_bind]
  rw [C.check, decide_eq_true (show y.length ≠ 0 ∧ y.getLast? ≠ some 0 from ⟨ly, hy⟩)]
  simp only [if_true, C.ok_bind]
  obtain ⟨y0, ey, hone⟩ := norm_one hy hyp
  rw [ey, C.ok_bind]
  have hy0 : y0 &&& 1 ≠ 0 := by
    rw [odd_test]
    obtain ⟨a, e, v⟩ := val_mod y hne
    rw [e] at ey
    injection ey with ey
    rw [← ey, v]; omega
  rw [C.check, decide_eq_true hy0]
  simp only [if_true, C.ok_bind]
  rw [C.check, decide_eq_true hl]
  simp only [if_true, C.ok_bind]
  by_cases h1 : val y = 1
  · have : y.length = 1 ∧ y0 = 1 := by
      by_contra hc
      exact (hone.1 (by tauto)) h1
    rw [if_pos this]
    exact ⟨_, _, rfl, len_zeros _, by simp [h1], fun _ => val_zeros _, by simp⟩
  · have : ¬ (y.length = 1 ∧ y0 = 1) := by
      rintro ⟨a, b⟩
      have := hone.2 h1
      tauto
    rw [if_neg this]
    have hl1 := val_set_1 (y.length + 1) 1
    have hl0 := val_set_1 (y.length + 1) 0
    have len : ∀ z, (mpn_set_1 (y.length + 1) z).length = y.length + 1 := by
      intro z; unfold mpn_set_1; rw [List.length_cons, len_zeros]; rfl
    obtain ⟨v, b, l, e, nv, vv, rb, hb⟩ := invert_loop_val (y := y) (x := val x) ho (64 * (x.length + y.length)) x y
      (mpn_set_1 (y.length + 1) 1) (mpn_set_1 (y.length + 1) 0) 1 0 hx hy hyp (gcd_odd ho)
      (fuel_start _ le_rfl) ⟨len _, hl1, by omega⟩ ⟨len _, hl0, hyp⟩ (by rw [Nat.one_mul])
      (by rw [Nat.zero_mul]; unfold Nat.ModEq; rw [Nat.mod_self, Nat.zero_mod])
    rw [e, C.ok_bind]
    dsimp only
    obtain ⟨v0, ev, hv0⟩ := norm_one nv (by rw [vv]; exact Nat.gcd_pos_of_pos_right _ hyp)
    rw [ev, C.ok_bind]
    by_cases hg : val v = 1
    · rw [if_neg (fun h => (hv0.1 h) hg)]
      obtain ⟨b', rfl, lb, vb⟩ := res_split rb
      rw [List.take_left' lb]
      refine ⟨_, _, rfl, lb, by simp [← vv, hg, h1], by simp, fun _ => ⟨?_, ?_⟩⟩
      · rw [vb]; exact rb.2.2
      · rw [vb]; rwa [hg] at hb
    · rw [if_pos (hv0.2 hg)]
      exact ⟨_, _, rfl, len_zeros _, by simp [← vv, hg], fun _ => val_zeros _, by simp⟩

theorem invert_inner_rep {x y : Mpz} {k : Nat} {j : Int} {z : Dest} (hx : Rep x k) (hy : Rep y j)
    (ho : j % 2 = 1) (hk : k < j.natAbs) (hr : Room z y.mag.length) :
    ∃ t b, mpz_invert_inner z x y = .ok (t, b) ∧ (b = true ↔ Nat.gcd k j.natAbs = 1 ∧ j.natAbs ≠ 1) ∧
      (b = false → Rep t 0) ∧
      (b = true → ∃ w : Nat, Rep t w ∧ w < j.natAbs ∧ w * k ≡ 1 [MOD j.natAbs]) := by
  have vy := rep_abs hy
  have vx := rep_abs hx
  rw [Int.natAbs_natCast] at vx
  unfold mpz_invert_inner
  rw [grow_ok hr, C.ok_bind]
  obtain ⟨w, b, e, lw, hb, h0, h1⟩ := invert_val (rep_norm hx) (rep_norm hy) (by rw [vy]; omega)
    (norm_length_le (rep_norm hx) (by rw [vx, vy]; omega))
  rw [vx, vy] at hb
  rw [vx, vy] at h1
  rw [e, C.ok_bind]
  refine ⟨_, _, rfl, hb, fun hf => ?_, fun ht => ⟨val w, ?_, (h1 ht).1, (h1 ht).2⟩⟩
  · have := pos_rep (strip_norm w)
    rw [strip_val, h0 hf] at this
    exact this
  · have := pos_rep (strip_norm w)
    rwa [strip_val] at this

theorem invert_rep {x y : Mpz} {i j : Int} (hx : Rep x i) (hy : Rep y j) :
    ∃ t b k, mpz_invert .heap x y = .ok (t, b) ∧ Rep t k ∧ (b = true ↔ Int.gcd i j = 1 ∧ 1 < j.natAbs) ∧
      (b = false → k = 0) ∧ (b = true → 0 ≤ k ∧ k < j.natAbs ∧ j ∣ k * i - 1) := by
  unfold mpz_invert
  by_cases h0 : i = 0 ∨ j = 0
  · rw [if_pos (by rw [rep_size0 hx, rep_size0 hy]; exact h0)]
    refine ⟨_, _, 0, rfl, zero_rep, ?_, fun _ => rfl, by simp⟩
    simp only [Bool.false_eq_true, false_iff, not_and, not_lt]
    intro hg
    rcases h0 with rfl | rfl
    · rw [Int.gcd_zero_left] at hg; omega
    · decide
  · rw [if_neg (by rw [rep_size0 hx, rep_size0 hy]; exact h0)]
    rw [not_or] at h0
    have hc := cmpabs_ui_rep hy 1
    rw [show (1 : Limb).toNat = 1 from rfl] at hc
    by_cases h1 : j.natAbs = 1
    · rw [if_pos (by rw [hc, if_neg (by omega), if_pos h1])]
      exact ⟨_, _, 0, rfl, zero_rep, by simp [h1], fun _ => rfl, by simp⟩
    · rw [if_neg (by rw [hc, if_neg (by omega), if_neg h1]; decide), odd_rep hy, C.ok_bind]
      by_cases ho : j % 2 = 1
      · rw [if_pos (decide_eq_true ho)]
        -- a residue `k` of `x` is inverted
        have main : ∀ (x' : Mpz) (k : Nat), Rep x' k → k < j.natAbs → j ∣ i - k →
            ∃ t b k, mpz_invert_inner .heap x' y = .ok (t, b) ∧ Rep t k ∧
              (b = true ↔ Int.gcd i j = 1 ∧ 1 < j.natAbs) ∧
              (b = false → k = 0) ∧ (b = true → 0 ≤ k ∧ k < j.natAbs ∧ j ∣ k * i - 1) := by
          intro x' k hx' hk hd
          obtain ⟨t, b, e, hb, hf, ht⟩ := invert_inner_rep (z := .heap) hx' hy ho hk trivial
          have hg : Int.gcd i j = Nat.gcd k j.natAbs := by
            obtain ⟨q, hq⟩ := hd
            rw [show i = k + q * j by rw [Int.mul_comm]; omega, Int.gcd_add_mul_right_left]
            rfl
          have hb' : b = true ↔ Int.gcd i j = 1 ∧ 1 < j.natAbs := by rw [hb, hg]; omega
          cases b with
          | false => exact ⟨t, false, 0, e, hf rfl, hb', fun _ => rfl, by simp⟩
          | true =>
            obtain ⟨w, hw, hwl, hm⟩ := ht rfl
            refine ⟨t, true, w, e, hw, hb', by simp, fun _ => ⟨by omega, by omega, ?_⟩⟩
            have h3 : (j.natAbs : Int) ∣ (w * k : Nat) - (1 : Nat) := (Nat.modEq_iff_dvd.1 hm.symm)
            rw [Int.natAbs_dvd] at h3
            have h4 : (w : Int) * i - 1 = w * (i - k) + (((w * k : Nat) : Int) - (1 : Nat)) := by push_cast; ring
            rw [h4]
            exact Int.dvd_add (Dvd.dvd.mul_left hd _) h3
        have hcm := cmpabs_rep hx hy
        by_cases hs : x.size < 0 ∨ mpz_cmpabs x y ≥ 0
        · rw [if_pos hs]
          obtain ⟨t, e, ht⟩ := mod_rep (r := mpz_init_vla (y.mag.length + 1)) hx hy h0.2 (room_vla _ _ (by omega))
          rw [e, C.ok_bind]
          have e1 := Int.emod_nonneg i h0.2
          have e2 := Int.emod_lt_abs i h0.2
          rw [← Int.natCast_natAbs] at e2
          refine main t (i % j).toNat (by rwa [Int.toNat_of_nonneg e1]) (by omega) ?_
          rw [Int.toNat_of_nonneg e1]
          exact Int.dvd_self_sub_emod
        · rw [if_neg hs]
          rw [not_or] at hs
          have hi : 0 ≤ i := by
            by_contra h; exact hs.1 ((rep_sizen hx).2 (by omega))
          have hlt : i.natAbs < j.natAbs := by
            by_contra h
            apply hs.2
            rw [hcm, if_neg h]; split <;> decide
          exact main x i.toNat (by rwa [Int.toNat_of_nonneg hi]) (by omega) (by
            rw [Int.toNat_of_nonneg hi, sub_self]; exact dvd_zero _)
      · rw [if_neg (by simpa using ho)]
        obtain ⟨g, s, t, c, d, e, hg, hs, ht, hb⟩ := gcdext_rep hx hy
        rw [e, C.ok_bind]
        dsimp only
        have hcm := cmp_ui_rep hg 1
        rw [show (1 : Limb).toNat = 1 from rfl] at hcm
        have hgp : 0 < Int.gcd i j := Int.gcd_pos_of_ne_zero_left _ h0.1
        by_cases h2 : Int.gcd i j = 1
        · rw [if_pos (by rw [hcm, if_neg (by omega), if_pos (by omega)])]
          obtain ⟨w, ew, hw⟩ := mod_rep (r := .heap) hs hy h0.2 trivial
          rw [ew, C.ok_bind]
          have e1 := Int.emod_nonneg c h0.2
          have e2 := Int.emod_lt_abs c h0.2
          rw [← Int.natCast_natAbs] at e2
          refine ⟨w, true, c % j, rfl, hw, by simp only [true_iff]; omega, by simp, fun _ => ⟨e1, by omega, ?_⟩⟩
          rw [h2] at hb
          have h4 : c % j * i - 1 = -(c / j * i + d) * j := by
            have := Int.emod_add_mul_ediv c j
            linear_combination i * this + hb
          rw [h4]
          exact Dvd.intro_left _ rfl
        · rw [if_neg (by rw [hcm, if_neg (by omega), if_neg (by omega)]; decide)]
          exact ⟨_, _, 0, rfl, zero_rep, by simp [h2], fun _ => rfl, by simp⟩

end Torsion.Mpi
