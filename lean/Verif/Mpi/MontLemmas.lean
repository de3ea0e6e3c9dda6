import Verif.Mpi.Powm
import Verif.Mpi.InvertLemmas
import Verif.Mpi.SecLemmas
import Mathlib.Data.BitVec
import Mathlib.Tactic.Ring

/-!
# Barrett and Montgomery reduction: lemmas
-/
namespace Torsion.Mpi
open Torsion.Spec

/-! ### Barrett -/

theorem barrett_arith {N B x : Nat} (hN : 0 < N) (hx : x < B) :
    x * (B / N) / B * N ≤ x ∧ x < x * (B / N) / B * N + 2 * N := by
  have hB : 0 < B := by omega
  obtain ⟨μ, hμ⟩ : ∃ μ, μ = B / N := ⟨_, rfl⟩
  obtain ⟨h, hh⟩ : ∃ h, h = x * μ / B := ⟨_, rfl⟩
  have h1 : μ * N ≤ B := by rw [hμ]; exact Nat.div_mul_le_self B N
  have h2 : B < μ * N + N := by
    rw [hμ]
    have := Nat.lt_div_mul_add (a := B) hN
    omega
  have h3 : h * B ≤ x * μ := by rw [hh]; exact Nat.div_mul_le_self _ _
  have h4 : x * μ < h * B + B := by
    rw [hh]
    have := Nat.lt_div_mul_add (a := x * μ) hB
    omega
  rw [← hμ, ← hh]
  clear hμ hh
  constructor
  · -- h * N * B ≤ x * μ * N ≤ x * B
    have : h * N * B ≤ x * B := by
      calc h * N * B = h * B * N := by ring
        _ ≤ x * μ * N := Nat.mul_le_mul_right _ h3
        _ = x * (μ * N) := by ring
        _ ≤ x * B := Nat.mul_le_mul_left _ h1
    exact Nat.le_of_mul_le_mul_right this hB
  · -- x * B < x * (μ N + N) ... < (h + 1) B N + B N
    have : x * B < (h * N + 2 * N) * B := by
      have a1 : x * B ≤ x * (μ * N + N) := Nat.mul_le_mul_left _ h2.le
      have a2 : x * (μ * N + N) = x * μ * N + x * N := by ring
      have a3 : x * μ * N < (h * B + B) * N := Nat.mul_lt_mul_of_pos_right h4 hN
      have a4 : x * N ≤ B * N := Nat.mul_le_mul_right _ hx.le
      have a5 : (h * N + 2 * N) * B = (h * B + B) * N + B * N := by ring
      omega
    exact Nat.lt_of_mul_lt_mul_right this

theorem barrett_val {n : List Limb} {shift : Nat} (hn : Norm n) (hne : n ≠ []) (hs : n.length * 2 ≤ shift)
    (hp : val n ≠ 2 ^ (64 * (n.length - 1))) :
    ∃ m, mpn_barrett n shift = .ok m ∧ m.length = shift - n.length + 1 ∧ val m = 2 ^ (64 * shift) / val n := by
  have hl := List.length_pos_iff.2 hne
  have hpos := norm_val_pos hn hne
  have h0 : 0 < val n := lt_of_lt_of_le (by positivity) hpos
  have hlt := val_lt n
  have vz : val (mpn_zero shift ++ [1]) = 2 ^ (64 * shift) := by
    rw [val_append, val_zeros, val_singleton, len_zeros, show (1 : Limb).toNat = 1 from rfl]; omega
  have lz : (mpn_zero shift ++ [(1 : Limb)]).length = shift + 1 := by
    rw [List.length_append, len_zeros]; rfl
  obtain ⟨q, r, e, lq, lr, vq, vr⟩ := divmod_val (mpn_zero shift ++ [1]) n hn hne (by omega)
  unfold mpn_barrett
  rw [C.check, decide_eq_true (show n.length > 0 from hl)]
  simp only [if_true, C.ok_bind]
  rw [C.check, decide_eq_true (show shift ≥ n.length * 2 from hs)]
  simp only [if_true, C.ok_bind]
  unfold mpn_div
  rw [e]
  simp only [C.ok_bind]
  rw [vz] at vq
  rw [lz] at lq
  have ub : val q < 2 ^ (64 * (shift - n.length + 1)) := by
    rw [vq, Nat.div_lt_iff_lt_mul h0]
    have : 2 ^ (64 * shift) = 2 ^ (64 * (shift - n.length + 1)) * 2 ^ (64 * (n.length - 1)) := by
      rw [← pow_add]; congr 1; omega
    rw [this]
    exact Nat.mul_lt_mul_of_pos_left (lt_of_le_of_ne hpos (Ne.symm hp)) (by positivity)
  have lb : 2 ^ (64 * (shift - n.length)) ≤ val q := by
    rw [vq, Nat.le_div_iff_mul_le h0]
    have : 2 ^ (64 * shift) = 2 ^ (64 * (shift - n.length)) * 2 ^ (64 * n.length) := by
      rw [← pow_add]; congr 1; omega
    rw [this]
    exact Nat.mul_le_mul_left _ hlt.le
  have ls : (mpn_strip q).length = shift - n.length + 1 := by
    have h1 := norm_len_lt (strip_norm q) (n := shift - n.length + 1) (by rw [strip_val]; exact ub)
    have h2 := val_lt (mpn_strip q)
    rw [strip_val] at h2
    have h3 := (Nat.pow_lt_pow_iff_right (by omega)).1 (lt_of_le_of_lt lb h2)
    omega
  rw [C.check, decide_eq_true ls]
  simp only [if_true, C.ok_bind]
  refine ⟨_, rfl, ?_, ?_⟩
  · rw [List.length_take]; omega
  · have h4 := val_take_drop (shift - n.length + 1) q (by omega)
    have h5 : val (q.drop (shift - n.length + 1)) = 0 := by
      by_contra h0
      have : 2 ^ (64 * (shift - n.length + 1)) * 1 ≤
          2 ^ (64 * (shift - n.length + 1)) * val (q.drop (shift - n.length + 1)) :=
        Nat.mul_le_mul_left _ (by omega)
      omega
    rw [h5] at h4
    rw [← vq]; omega

theorem reduce_val {x m n : List Limb} (hne : n ≠ []) (hn0 : 0 < val n) (hs : n.length * 2 ≤ x.length)
    (hm : m.length = x.length - n.length + 1) (hv : val m = 2 ^ (64 * x.length) / val n) :
    ∃ z, mpn_reduce x m n = .ok z ∧ z.length = n.length ∧ val z = val x % val n := by
  have hl := List.length_pos_iff.2 hne
  have hlt := val_lt n
  obtain ⟨h1, h2⟩ := barrett_arith hn0 (val_lt x)
  rw [← hv] at h1 h2
  obtain ⟨v1, l1⟩ := mul_val x m
  have vh : val ((mpn_mul x m).drop x.length) = val x * val m / 2 ^ (64 * x.length) := by
    have h := val_take_drop x.length (mpn_mul x m) (by omega)
    have h' := val_lt ((mpn_mul x m).take x.length)
    rw [List.length_take, l1, Nat.min_eq_left (by omega)] at h'
    rw [v1] at h
    rw [h, Nat.add_mul_div_left _ _ (by positivity), Nat.div_eq_of_lt h', Nat.zero_add]
  have lh : ((mpn_mul x m).drop x.length).length = m.length := by rw [List.length_drop, l1]; omega
  unfold mpn_reduce
  dsimp only
  generalize (mpn_mul x m).drop x.length = hp at vh lh ⊢
  rw [← vh] at h1 h2
  obtain ⟨v2, l2⟩ := mul_val hp n
  have hq : val ((mpn_mul hp n).take x.length) = val hp * val n ∧ ((mpn_mul hp n).take x.length).length = x.length := by
    have h := val_take_drop x.length (mpn_mul hp n) (by omega)
    have hx := val_lt x
    rw [v2] at h
    have h0 : val ((mpn_mul hp n).drop x.length) = 0 := by
      by_contra h0
      have : 2 ^ (64 * x.length) * 1 ≤ 2 ^ (64 * x.length) * val ((mpn_mul hp n).drop x.length) :=
        Nat.mul_le_mul_left _ (by omega)
      omega
    rw [h0] at h
    refine ⟨by omega, ?_⟩
    rw [List.length_take]; omega
  obtain ⟨hq1, hq2⟩ := hq
  generalize (mpn_mul hp n).take x.length = qp at hq1 hq2 ⊢
  have v3 := sub_n_exact x qp hq2.symm (by omega)
  have l3 := (sub_n_val x qp hq2.symm).2.1
  generalize (mpn_sub_n x qp).1 = r at v3 l3 ⊢
  rw [hq1] at v3
  have hr : val r < 2 * val n := by omega
  obtain ⟨c, hc⟩ : ∃ c, C.rd r n.length = .ok c := ⟨r[n.length]'(by omega), by rw [C.rd, List.getElem?_eq_getElem (by omega)]⟩
  rw [hc, C.ok_bind]
  have hsp : val r = val (r.take n.length) + 2 ^ (64 * n.length) * c.toNat := by
    have e1 := val_take_drop n.length r (by omega)
    have e2 : r.drop n.length = c :: r.drop (n.length + 1) := by
      rw [List.drop_eq_getElem_cons (by omega)]
      congr 1
      rw [C.rd, List.getElem?_eq_getElem (by omega)] at hc
      injection hc
    rw [e2, val_cons] at e1
    have e3 : val (r.drop (n.length + 1)) = 0 := by
      by_contra h0
      have : 2 ^ (64 * n.length) * (2 ^ 64 * 1) ≤ 2 ^ (64 * n.length) * (c.toNat + 2 ^ 64 * val (r.drop (n.length + 1))) :=
        Nat.mul_le_mul_left _ (by omega)
      omega
    rw [e3] at e1
    rw [e1, Nat.mul_zero, Nat.add_zero]
  have lt : (r.take n.length).length = n.length := by rw [List.length_take]; omega
  obtain ⟨v4, l4⟩ := reduce_weak_val (r.take n.length) n c lt (by omega)
  refine ⟨_, rfl, l4, ?_⟩
  rw [v4, ← hsp, v3]
  have : val x = val x - val hp * val n + val n * val hp := by rw [Nat.mul_comm (val n)]; omega
  conv_rhs => rw [this, Nat.add_mul_mod_self_left]

/-! ### Montgomery -/

theorem inv_mod_val (d : Limb) (h : d.toNat % 2 = 1) : d * mp_inv_mod d = 1 := by
  have step : ∀ m : Limb, 1 - d * (m * (2 - d * m)) = (1 - d * m) * (1 - d * m) := by intro m; ring
  obtain ⟨e, he⟩ : ∃ e : Limb, d = 2 * e + 1 := by
    refine ⟨BitVec.ofNat 64 (d.toNat / 2), BitVec.eq_of_toNat_eq ?_⟩
    rw [BitVec.toNat_add, BitVec.toNat_mul, BitVec.toNat_ofNat, show (2 : Limb).toNat = 2 from rfl,
      show (1 : Limb).toNat = 1 from rfl]
    have := d.isLt
    omega
  have h0 : 1 - d * d = 4 * (-(e * (e + 1))) := by rw [he]; ring
  have hfin : 1 - d * mp_inv_mod d = (1 - d * d) ^ 32 := by
    unfold mp_inv_mod
    dsimp only
    rw [step, step, step, step, step]; ring
  rw [h0, mul_pow, show (4 : Limb) ^ 32 = 0 from by decide, zero_mul] at hfin
  exact (sub_eq_zero.1 hfin).symm

/-- The constant `k` of Montgomery multiplication: `m0 * k = -1` modulo a limb. -/
def MontK (mp : List Limb) (k : Limb) : Prop := ∃ m0 ms, mp = m0 :: ms ∧ m0 * k = -1

theorem mont_val {m : List Limb} (hm : Norm m) (ho : val m % 2 = 1) :
    ∃ k r, mpn_mont m = .ok (k, r) ∧ MontK m k ∧ r.length = m.length ∧ val r = 2 ^ (128 * m.length) % val m := by
  have hne := norm_ne (odd_pos ho)
  have hl := List.length_pos_iff.2 hne
  obtain ⟨m0, ms, rfl⟩ : ∃ m0 ms, m = m0 :: ms := by
    cases m with
    | nil => exact absurd rfl hne
    | cons x xs => exact ⟨x, xs, rfl⟩
  unfold mpn_mont
  rw [C.check, decide_eq_true (show (m0 :: ms).length > 0 from hl)]
  simp only [if_true, C.ok_bind]
  rw [show C.rd (m0 :: ms) 0 = .ok m0 from rfl, C.ok_bind]
  have vz : val (mpn_zero ((m0 :: ms).length * 2) ++ [1]) = 2 ^ (128 * (m0 :: ms).length) := by
    rw [val_append, val_zeros, val_singleton, len_zeros, show (1 : Limb).toNat = 1 from rfl, Nat.zero_add, Nat.mul_one]
    congr 1; omega
  have lz : (mpn_zero ((m0 :: ms).length * 2) ++ [(1 : Limb)]).length = (m0 :: ms).length * 2 + 1 := by
    rw [List.length_append, len_zeros]; rfl
  obtain ⟨q, r, e, lq, lr, vq, vr⟩ := divmod_val (mpn_zero ((m0 :: ms).length * 2) ++ [1]) _ hm hne (by omega)
  unfold mpn_mod
  rw [e]
  simp only [C.ok_bind]
  refine ⟨_, _, rfl, ⟨m0, ms, rfl, ?_⟩, lr, by rw [vr, vz]⟩
  have : m0.toNat % 2 = 1 := by rw [val_cons] at ho; omega
  rw [mul_neg, inv_mod_val m0 this]

theorem mont_fold_val {m w : List Limb} {k : Limb} (hk : MontK m k) (hl : w.length = m.length) :
    ∃ r c, mpn_mont_fold m w k = .ok (r, c) ∧ r.length + 1 = m.length ∧
      ∃ q, q < 2 ^ 64 ∧ 2 ^ 64 * val r + 2 ^ (64 * m.length) * c.toNat = val w + q * val m := by
  obtain ⟨m0, ms, rfl, hmk⟩ := hk
  obtain ⟨w0, ws, rfl⟩ : ∃ w0 ws, w = w0 :: ws := by
    cases w with
    | nil => simp at hl
    | cons x xs => exact ⟨x, xs, rfl⟩
  unfold mpn_mont_fold
  rw [show C.rd (w0 :: ws) 0 = .ok w0 from rfl, C.ok_bind]
  obtain ⟨v, l⟩ := addmul_1_val (w0 :: ws) (m0 :: ms) (w0 * k) hl
  dsimp only
  generalize mpn_addmul_1 (w0 :: ws) (m0 :: ms) (w0 * k) = b at v l ⊢
  refine ⟨_, _, rfl, by rw [List.length_drop, l, List.length_cons]; omega, (w0 * k).toNat, (w0 * k).isLt, ?_⟩
  obtain ⟨b1, bc⟩ := b
  dsimp only at v l ⊢
  obtain ⟨b0, bs, rfl⟩ : ∃ b0 bs, b1 = b0 :: bs := by
    cases b1 with
    | nil => simp at l
    | cons x xs => exact ⟨x, xs, rfl⟩
  rw [List.drop_one, List.tail_cons]
  have hb0 : b0.toNat = 0 := by
    have hz : w0 + m0 * (w0 * k) = 0 := by
      have : m0 * (w0 * k) = w0 * (m0 * k) := by ring
      rw [this, hmk]; ring
    have hz' := congrArg BitVec.toNat hz
    rw [BitVec.toNat_add, BitVec.toNat_mul, show (0 : Limb).toNat = 0 from rfl, Nat.add_mod_mod] at hz'
    rw [val_cons, val_cons, val_cons, List.length_cons, pow64] at v
    have hlt := b0.isLt
    obtain ⟨t, ht⟩ := Nat.dvd_of_mod_eq_zero hz'
    have e1 : (m0.toNat + 2 ^ 64 * val ms) * (w0 * k).toNat = m0.toNat * (w0 * k).toNat + 2 ^ 64 * (val ms * (w0 * k).toNat) := by ring
    rw [e1] at v
    omega
  rw [val_cons b0, hb0, Nat.zero_add] at v
  rw [v, Nat.mul_comm]

/-- One round: the window with its carry, times the base, is the old one plus `x y` plus a multiple of the
modulus; it stays below `R + m`. -/
theorem mont_round {x m w r : List Limb} {c1 c2 c3 : Limb} {y q : Nat} (hx : x.length = m.length)
    (hr : r.length + 1 = m.length)
    (hT : val w + 2 ^ (64 * m.length) * c1.toNat < 2 ^ (64 * m.length) + val m)
    {a : List Limb} (ha : val a + 2 ^ (64 * m.length) * c2.toNat = val w + val x * y) (hy : y < 2 ^ 64) (hq : q < 2 ^ 64)
    (hf : 2 ^ 64 * val r + 2 ^ (64 * m.length) * c3.toNat = val a + q * val m) :
    ∃ s : Limb, ∃ c : Limb, s = (mp_add (mp_add c1 c2).1 c3).1 ∧ c = (mp_add c1 c2).2 ||| (mp_add (mp_add c1 c2).1 c3).2 ∧
      c.toNat ≤ 1 ∧
      2 ^ 64 * (val (r ++ [s]) + 2 ^ (64 * m.length) * c.toNat) =
        val w + 2 ^ (64 * m.length) * c1.toNat + val x * y + q * val m ∧
      val (r ++ [s]) + 2 ^ (64 * m.length) * c.toNat < 2 ^ (64 * m.length) + val m := by
  refine ⟨_, _, rfl, rfl, ?_⟩
  have h1 := mp_add_val c1 c2
  have h2 := mp_add_val (mp_add c1 c2).1 c3
  generalize mp_add (mp_add c1 c2).1 c3 = t at h2 ⊢
  generalize mp_add c1 c2 = u at h1 h2 ⊢
  have hxl := val_lt x
  rw [hx] at hxl
  have hml := val_lt m
  obtain ⟨R, hR⟩ : ∃ R, R = 2 ^ (64 * r.length) := ⟨_, rfl⟩
  have hRR : 2 ^ (64 * m.length) = 2 ^ 64 * R := by rw [hR, ← hr, pow64']
  rw [hRR] at hT ha hf hxl hml ⊢
  have va : val (r ++ [t.1]) = val r + R * t.1.toNat := by rw [val_append, val_singleton, hR]
  rw [va]
  obtain ⟨T, hT'⟩ : ∃ T, T = val w + 2 ^ 64 * R * c1.toNat := ⟨_, rfl⟩
  rw [← hT'] at hT ⊢
  -- the exact new value
  have key : 2 ^ 64 * (val r + R * t.1.toNat + 2 ^ 64 * R * (u.2.toNat + t.2.toNat)) = T + val x * y + q * val m := by
    have e1 : R * (t.1.toNat + 2 ^ 64 * (u.2.toNat + t.2.toNat)) = R * (c1.toNat + c2.toNat + c3.toNat) := by
      congr 1; omega
    have e2 : 2 ^ 64 * (val r + R * t.1.toNat + 2 ^ 64 * R * (u.2.toNat + t.2.toNat)) =
        2 ^ 64 * val r + 2 ^ 64 * (R * (t.1.toNat + 2 ^ 64 * (u.2.toNat + t.2.toNat))) := by ring
    rw [e2, e1, hT']
    have e3 : 2 ^ 64 * (R * (c1.toNat + c2.toNat + c3.toNat)) =
        2 ^ 64 * R * c1.toNat + 2 ^ 64 * R * c2.toNat + 2 ^ 64 * R * c3.toNat := by ring
    omega
  have bound : T + val x * y + q * val m < 2 ^ 64 * (2 ^ 64 * R + val m) := by
    have b1 : val x * y ≤ 2 ^ 64 * R * (2 ^ 64 - 1) := Nat.mul_le_mul hxl.le (by omega)
    have b2 : q * val m ≤ (2 ^ 64 - 1) * val m := Nat.mul_le_mul_right _ (by omega)
    have b3 : 2 ^ 64 * R * (2 ^ 64 - 1) + 2 ^ 64 * R = 2 ^ 64 * (2 ^ 64 * R) := by ring_nf
    have b4 : (2 ^ 64 - 1) * val m + val m = 2 ^ 64 * val m := by omega
    have b5 : 2 ^ 64 * (2 ^ 64 * R + val m) = 2 ^ 64 * (2 ^ 64 * R) + 2 ^ 64 * val m := by ring
    omega
  have hlt : val r + R * t.1.toNat + 2 ^ 64 * R * (u.2.toNat + t.2.toNat) < 2 ^ 64 * R + val m := by
    rw [← key] at bound
    exact Nat.lt_of_mul_lt_mul_left bound
  have hRpos : 0 < R := by rw [hR]; positivity
  have hsum : u.2.toNat + t.2.toNat ≤ 1 := by
    by_contra hc
    have : 2 ^ 64 * R * 2 ≤ 2 ^ 64 * R * (u.2.toNat + t.2.toNat) := Nat.mul_le_mul_left _ (by omega)
    omega
  have hor : (u.2 ||| t.2).toNat = u.2.toNat + t.2.toNat := by
    rw [BitVec.toNat_or]
    rcases Nat.eq_zero_or_pos u.2.toNat with h | h
    · rw [h]; simp
    · rw [show t.2.toNat = 0 by omega]; simp
  rw [hor]
  exact ⟨hsum, key, hlt⟩

theorem mont_rows_val {x m : List Limb} {k : Limb} (hk : MontK m k) (hx : x.length = m.length) :
    ∀ (ys w : List Limb) (c1 : Limb), w.length = m.length → c1.toNat ≤ 1 →
      val w + 2 ^ (64 * m.length) * c1.toNat < 2 ^ (64 * m.length) + val m →
      ∃ w' c, mpn_mont_rows x m k w c1 ys = .ok (w', c) ∧ w'.length = m.length ∧ c.toNat ≤ 1 ∧
        val w' + 2 ^ (64 * m.length) * c.toNat < 2 ^ (64 * m.length) + val m ∧
        ∃ Q, Q < 2 ^ (64 * ys.length) ∧ 2 ^ (64 * ys.length) * (val w' + 2 ^ (64 * m.length) * c.toNat) =
          val w + 2 ^ (64 * m.length) * c1.toNat + val x * val ys + Q * val m
  | [], w, c1, hw, hc, hT => ⟨w, c1, rfl, hw, hc, hT, 0, by simp, by simp [val_nil]⟩
  | y :: ys, w, c1, hw, hc, hT => by
    unfold mpn_mont_rows
    obtain ⟨v, l⟩ := addmul_1_val w x y (by omega)
    dsimp only
    generalize mpn_addmul_1 w x y = a at v l ⊢
    obtain ⟨r, c3, ef, lr, q, hq, vf⟩ := mont_fold_val (w := a.1) hk (by omega)
    rw [ef, C.ok_bind]
    rw [hx] at v
    obtain ⟨s, c, hs, hc', hc1, hval, hlt⟩ := mont_round hx lr hT v y.isLt hq vf
    dsimp only
    rw [← hs, ← hc']
    obtain ⟨w', c', e, lw, cc, hT', Q, hQ, hfin⟩ := mont_rows_val hk hx ys (r ++ [s]) c
      (by rw [List.length_append]; exact lr) hc1 hlt
    refine ⟨w', c', e, lw, cc, hT', q + 2 ^ 64 * Q, ?_, ?_⟩
    · rw [List.length_cons, pow64']
      have : 2 ^ 64 * Q + 2 ^ 64 ≤ 2 ^ 64 * 2 ^ (64 * ys.length) := by
        rw [← Nat.mul_succ]; exact Nat.mul_le_mul_left _ hQ
      omega
    · rw [List.length_cons, pow64, val_cons, hfin]
      have e1 : 2 ^ 64 * (val (r ++ [s]) + 2 ^ (64 * m.length) * c.toNat + val x * val ys + Q * val m) =
          2 ^ 64 * (val (r ++ [s]) + 2 ^ (64 * m.length) * c.toNat) + 2 ^ 64 * (val x * val ys) + 2 ^ 64 * (Q * val m) := by
        ring
      rw [e1, hval]; ring

theorem addmul_zero (x : List Limb) (y : Limb) : mpn_addmul_1 (mpn_zero x.length) x y = mpn_mul_1 x y := by
  obtain ⟨v1, l1⟩ := addmul_1_val (mpn_zero x.length) x y (len_zeros _)
  obtain ⟨v2, l2⟩ := mul_1_val x y
  rw [val_zeros, Nat.zero_add, ← v2] at v1
  have b1 := val_lt (mpn_addmul_1 (mpn_zero x.length) x y).1
  have b2 := val_lt (mpn_mul_1 x y).1
  rw [l1] at b1
  rw [l2] at b2
  have ec : (mpn_addmul_1 (mpn_zero x.length) x y).2 = (mpn_mul_1 x y).2 := by
    apply BitVec.eq_of_toNat_eq
    have e := congrArg (· / 2 ^ (64 * x.length)) v1
    simp only [Nat.add_mul_div_left _ _ (show 0 < 2 ^ (64 * x.length) by positivity), Nat.div_eq_of_lt b1,
      Nat.div_eq_of_lt b2, Nat.zero_add] at e
    exact e
  rw [ec] at v1
  exact Prod.ext (val_inj (by omega) (by omega)) ec

theorem montmul_inner_val {x y m : List Limb} {k : Limb} (hk : MontK m k) (hx : x.length = m.length)
    (hy : y.length = m.length) :
    ∃ w c, mpn_montmul_inner x y m k = .ok (w, c) ∧ w.length = m.length ∧ c.toNat ≤ 1 ∧
      val w + 2 ^ (64 * m.length) * c.toNat < 2 ^ (64 * m.length) + val m ∧
      ∃ Q, Q < 2 ^ (64 * m.length) ∧ 2 ^ (64 * m.length) * (val w + 2 ^ (64 * m.length) * c.toNat) =
        val x * val y + Q * val m := by
  obtain ⟨y0, ys, rfl⟩ : ∃ y0 ys, y = y0 :: ys := by
    cases y with
    | nil =>
      obtain ⟨m0, ms, rfl, _⟩ := hk
      simp at hy
    | cons x xs => exact ⟨x, xs, rfl⟩
  -- the first round is a round on a zero window
  have h0 := mont_rows_val hk hx (y0 :: ys) (mpn_zero m.length) 0 (len_zeros _) (by decide)
    (by rw [val_zeros, show (0 : Limb).toNat = 0 from rfl]; positivity)
  rw [val_zeros, show (0 : Limb).toNat = 0 from rfl, Nat.mul_zero, Nat.add_zero, Nat.zero_add, hy] at h0
  have hz : mpn_mont_rows x m k (mpn_zero m.length) 0 (y0 :: ys) = mpn_montmul_inner x (y0 :: ys) m k := by
    unfold mpn_mont_rows mpn_montmul_inner
    have e1 : mpn_addmul_1 (mpn_zero m.length) x y0 = mpn_mul_1 x y0 := by
      rw [← hx]; exact addmul_zero x y0
    dsimp only
    rw [e1]
    congr 1
    funext b
    have e2 : ∀ c : Limb, mp_add 0 c = (c, 0) := by
      intro c
      unfold mp_add
      simp [flag]
    rw [e2]
    dsimp only
    rw [show ∀ c : Limb, 0 ||| c = c from fun c => BitVec.zero_or]
  rw [hz] at h0
  exact h0

theorem montmul_val {x y m : List Limb} {k : Limb} (hk : MontK m k) (hx : x.length = m.length)
    (hy : y.length = m.length) :
    ∃ z, mpn_montmul x y m k = .ok z ∧ z.length = m.length ∧
      2 ^ (64 * m.length) * val z ≡ val x * val y [MOD val m] := by
  obtain ⟨w, c, e, lw, hc, hT, Q, hQ, hv⟩ := montmul_inner_val hk hx hy
  have hml := val_lt m
  unfold mpn_montmul
  rw [e, C.ok_bind]
  refine ⟨_, rfl, ?_⟩
  dsimp only
  have hmod : 2 ^ (64 * m.length) * (val w + 2 ^ (64 * m.length) * c.toNat) ≡ val x * val y [MOD val m] := by
    rw [hv]
    unfold Nat.ModEq
    rw [Nat.add_mul_mod_self_right]
  by_cases h : c ≠ 0
  · rw [if_pos h]
    have hc1 : c.toNat = 1 := by
      have : c.toNat ≠ 0 := fun h0 => h (toNat_eq_zero.1 h0)
      omega
    obtain ⟨v, l, cb⟩ := sub_n_val w m lw
    rw [lw] at v l
    refine ⟨l, ?_⟩
    generalize mpn_sub_n w m = t at v l cb ⊢
    have hz := val_lt t.1
    rw [l] at hz
    rw [hc1] at hmod hT
    have : val t.1 + val m = val w + 2 ^ (64 * m.length) := by
      rcases Nat.eq_zero_or_pos t.2.toNat with h0 | h0
      · rw [h0] at v; omega
      · rw [show t.2.toNat = 1 by omega] at v; omega
    rw [Nat.mul_one, ← this, Nat.mul_add] at hmod
    refine Nat.ModEq.trans ?_ hmod
    unfold Nat.ModEq
    rw [Nat.add_mul_mod_self_right]
  · rw [if_neg h]
    rw [not_not] at h
    rw [h, show (0 : Limb).toNat = 0 from rfl, Nat.mul_zero, Nat.add_zero] at hmod
    exact ⟨lw, hmod⟩

theorem sec_montmul_val {x y m : List Limb} {k : Limb} (hk : MontK m k) (hx : x.length = m.length)
    (hy : y.length = m.length) (hlt : val x * val y < 2 ^ (64 * m.length) * val m) :
    ∃ z, mpn_sec_montmul x y m k = .ok z ∧ z.length = m.length ∧ val z < val m ∧
      2 ^ (64 * m.length) * val z ≡ val x * val y [MOD val m] := by
  obtain ⟨w, c, e, lw, hc, hT, Q, hQ, hv⟩ := montmul_inner_val hk hx hy
  have hm0 : 0 < val m := by
    rcases Nat.eq_zero_or_pos (val m) with h | h
    · rw [h] at hlt; omega
    · exact h
  have hT2 : val w + 2 ^ (64 * m.length) * c.toNat < 2 * val m := by
    have : 2 ^ (64 * m.length) * (val w + 2 ^ (64 * m.length) * c.toNat) < 2 ^ (64 * m.length) * (2 * val m) := by
      rw [hv]
      have := Nat.mul_lt_mul_of_pos_right hQ hm0
      have e2 : 2 ^ (64 * m.length) * (2 * val m) = 2 ^ (64 * m.length) * val m + 2 ^ (64 * m.length) * val m := by ring
      omega
    exact Nat.lt_of_mul_lt_mul_left this
  unfold mpn_sec_montmul
  rw [e, C.ok_bind]
  obtain ⟨v, l⟩ := reduce_weak_val w m c lw hT2
  refine ⟨_, rfl, l, by rw [v]; exact Nat.mod_lt _ hm0, ?_⟩
  dsimp only
  rw [v]
  have hmod : 2 ^ (64 * m.length) * (val w + 2 ^ (64 * m.length) * c.toNat) ≡ val x * val y [MOD val m] := by
    rw [hv]
    unfold Nat.ModEq
    rw [Nat.add_mul_mod_self_right]
  exact Nat.ModEq.trans (Nat.ModEq.mul_left _ (Nat.mod_modEq _ _)) hmod

end Torsion.Mpi
