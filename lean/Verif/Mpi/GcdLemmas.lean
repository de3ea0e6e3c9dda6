import Verif.Mpi.Gcd
import Verif.Mpi.MpzBitMore
import Verif.Mpi.MpzScan
import Mathlib.Data.Nat.Prime.Basic

/-!
# Greatest common divisors: lemmas
-/
namespace Torsion.Mpi
open Torsion.Spec

theorem rshift_trim {a : List Limb} (ha : Norm a) (hne : a ≠ []) (s : Nat) (hs : s < 64) :
    ∃ t, trimTop (mpn_rshift a s).1 = .ok t ∧ Norm t ∧ val t = val a / 2 ^ s := by
  obtain ⟨v, _, l⟩ := rshift_val a s (by omega) hne
  have hp := norm_val_pos ha hne
  have hlen : a.length ≠ 0 := by simpa using hne
  have hne' : (mpn_rshift a s).1 ≠ [] := by
    intro e; rw [e] at l; simp at l; omega
  obtain ⟨t, e, n, w⟩ := trim_ok (mpn_rshift a s).1 hne' (by
    by_cases h1 : a.length ≤ 1
    · right; omega
    · left
      rw [l, v, Nat.le_div_iff_mul_le (by positivity), ← pow_add]
      exact le_trans (Nat.pow_le_pow_right (by omega) (by omega)) hp)
  exact ⟨t, e, n, by rw [w, v]⟩

theorem rshift_trim_val {a : List Limb} (ha : Norm a) (hne : a ≠ []) (s : Nat) (hs : s < 64) :
    ∃ t, mpn_rshift_trim a s = .ok t ∧ Norm t ∧ val t = val a / 2 ^ s := by
  unfold mpn_rshift_trim
  by_cases h : s > 0
  · rw [if_pos h]; exact rshift_trim ha hne s hs
  · rw [if_neg h]
    refine ⟨a, rfl, ha, ?_⟩
    rw [show s = 0 by omega, pow_zero, Nat.div_one]

theorem shift_zeroes_val : ∀ {a : List Limb}, Norm a → a ≠ [] →
    ∃ z b, mpn_shift_zeroes a = .ok (z, b) ∧ Norm b ∧ val a = 2 ^ z * val b ∧ val b % 2 = 1
  | [], _, h => absurd rfl h
  | x :: xs, hn, _ => by
    unfold mpn_shift_zeroes
    by_cases hx : x = 0
    · rw [if_pos hx]
      have hxs : xs ≠ [] := by
        rintro rfl
        exact norm_single.1 hn hx
      have hn' : Norm xs := by
        cases xs with
        | nil => exact absurd rfl hxs
        | cons y ys => exact norm_cons.1 hn
      obtain ⟨z, b, e, nb, v, o⟩ := shift_zeroes_val hn' hxs
      rw [e, C.ok_bind]
      refine ⟨z + 64, b, rfl, nb, ?_, o⟩
      rw [val_cons, hx, v, show (0 : Limb).toNat = 0 from rfl, pow_add]; ring
    · rw [if_neg hx]
      obtain ⟨k, hk⟩ : ∃ k, k = mp_ctz x := ⟨_, rfl⟩
      have hlt : k < 64 := by rw [hk]; exact mp_ctz_lt x hx
      have hv : val (x :: xs) = 2 ^ k * (val (x :: xs) / 2 ^ k) ∧ val (x :: xs) / 2 ^ k % 2 = 1 := by
        have := (ctz_val (x :: xs)).2 (by
          rw [val_cons]
          have : x.toNat ≠ 0 := fun e => hx (toNat_eq_zero.1 e)
          omega)
        have e : mpn_ctz (x :: xs) = k := by
          unfold mpn_ctz; rw [if_pos hx, hk]
        rw [e] at this; exact this
      rw [← hk]
      by_cases h0 : k > 0
      · rw [if_pos h0]
        obtain ⟨t, e, nt, vt⟩ := rshift_trim hn (by simp) k hlt
        rw [e, C.ok_bind]
        exact ⟨k, t, rfl, nt, by rw [vt]; exact hv.1, by rw [vt]; exact hv.2⟩
      · rw [if_neg h0]
        rw [show k = 0 by omega, pow_zero, Nat.div_one] at hv
        exact ⟨0, x :: xs, rfl, hn, by rw [pow_zero, Nat.one_mul], hv.2⟩

theorem odd_pos {n : Nat} (h : n % 2 = 1) : 0 < n := by omega

/-- Removing factors of two that are not common does not change the greatest common divisor. -/
theorem gcd_odd_parts {a b u v : Nat} (hu : u % 2 = 1) (hv : v % 2 = 1)
    (h : Nat.gcd (2 ^ a * u) (2 ^ b * v) % 2 = 1) : Nat.gcd (2 ^ a * u) (2 ^ b * v) = Nat.gcd u v := by
  have cu : ∀ k, Nat.Coprime (2 ^ k) u := fun k =>
    Nat.Coprime.pow_left k ((Nat.coprime_two_left).2 (Nat.odd_iff.2 hu))
  have cv : ∀ k, Nat.Coprime (2 ^ k) v := fun k =>
    Nat.Coprime.pow_left k ((Nat.coprime_two_left).2 (Nat.odd_iff.2 hv))
  by_cases ha : a = 0
  · subst ha
    rw [pow_zero, Nat.one_mul]
    rw [Nat.gcd_comm, Nat.Coprime.gcd_mul_left_cancel _ (cu b), Nat.gcd_comm]
  · by_cases hb : b = 0
    · subst hb
      rw [pow_zero, Nat.one_mul, Nat.Coprime.gcd_mul_left_cancel _ (cv a)]
    · exfalso
      have h1 : 2 ∣ 2 ^ a * u := Dvd.dvd.mul_right (dvd_pow_self 2 ha) _
      have h2 : 2 ∣ 2 ^ b * v := Dvd.dvd.mul_right (dvd_pow_self 2 hb) _
      have := Nat.dvd_gcd h1 h2
      omega

theorem gcd_odd {u v : Nat} (hv : v % 2 = 1) : Nat.gcd u v % 2 = 1 := by
  by_contra h
  have h2 : 2 ∣ Nat.gcd u v := by omega
  have := h2.trans (Nat.gcd_dvd_right u v)
  omega

/-- The bound on the rounds of the binary algorithms that is left with operands `u` and `v`. -/
def Fuel (n u v : Nat) : Prop := u * v < 2 ^ n ∨ (u * v % 2 = 0 ∧ u * v < 2 ^ (n + 1))

theorem fuel_start {a b : List Limb} (n : Nat) (h : 64 * (a.length + b.length) ≤ n) : Fuel n (val a) (val b) := by
  left
  have h1 := val_lt a
  have h2 := val_lt b
  calc val a * val b ≤ 2 ^ (64 * a.length) * val b := Nat.mul_le_mul_right _ h1.le
    _ < 2 ^ (64 * a.length) * 2 ^ (64 * b.length) := Nat.mul_lt_mul_of_pos_left h2 (by positivity)
    _ = 2 ^ (64 * (a.length + b.length)) := by rw [← pow_add]; ring_nf
    _ ≤ 2 ^ n := Nat.pow_le_pow_right (by omega) h

theorem fuel_shift {n a b u v : Nat} (h : Fuel n (2 ^ a * u) (2 ^ b * v)) (hu : u % 2 = 1) (hv : v % 2 = 1) :
    u * v < 2 ^ n := by
  have e : 2 ^ a * u * (2 ^ b * v) = 2 ^ (a + b) * (u * v) := by rw [pow_add]; ring
  rcases h with h | ⟨h0, h⟩
  · rw [e] at h
    exact lt_of_le_of_lt (Nat.le_mul_of_pos_left _ (by positivity)) h
  · rw [e] at h h0
    obtain ⟨k, hk⟩ : ∃ k, a + b = k + 1 := by
      refine ⟨a + b - 1, ?_⟩
      by_contra hc
      rw [show a + b = 0 by omega, pow_zero, Nat.one_mul, Nat.mul_mod, hu, hv] at h0
      omega
    rw [hk, pow_succ, pow_succ] at h
    have h1 : 2 ^ k * (u * v) < 2 ^ n := by
      have : 2 ^ k * 2 * (u * v) = 2 * (2 ^ k * (u * v)) := by ring
      omega
    exact lt_of_le_of_lt (Nat.le_mul_of_pos_left _ (by positivity)) h1

theorem fuel_pos {n u v : Nat} (h : u * v < 2 ^ n) (hu : u % 2 = 1) (hv : v % 2 = 1) : n ≠ 0 := by
  rintro rfl
  have := Nat.mul_pos (odd_pos hu) (odd_pos hv)
  omega

theorem fuel_sub_left {n u v : Nat} (h : u * v < 2 ^ (n + 1)) (hu : u % 2 = 1) (hv : v % 2 = 1) :
    Fuel n (u - v) v := by
  right
  constructor
  · rw [Nat.mul_mod, show (u - v) % 2 = 0 by omega, Nat.zero_mul, Nat.zero_mod]
  · exact lt_of_le_of_lt (Nat.mul_le_mul_right _ (by omega)) h

theorem fuel_comm {n u v : Nat} (h : Fuel n u v) : Fuel n v u := by
  unfold Fuel at *; rwa [Nat.mul_comm v u]

theorem fuel_sub_right {n u v : Nat} (h : u * v < 2 ^ (n + 1)) (hu : u % 2 = 1) (hv : v % 2 = 1) :
    Fuel n u (v - u) := fuel_comm (fuel_sub_left (by rwa [Nat.mul_comm]) hv hu)

/-- Subtraction of normalised vectors. -/
theorem sub_strip {a b : List Limb} (_ha : Norm a) (hb : Norm b) (h : val b ≤ val a) :
    ∃ t, mpn_sub a b = .ok t ∧ Norm (mpn_strip t.1) ∧ val (mpn_strip t.1) = val a - val b ∧ t.1.length = a.length := by
  obtain ⟨z, c, e, l, hc, v⟩ := sub_val a b (norm_length_le hb h)
  refine ⟨(z, c), e, strip_norm _, ?_, l⟩
  rw [strip_val]
  dsimp only
  have hz := val_lt z
  rw [l] at hz
  have hc0 : c.toNat = 0 := by
    by_contra hc0
    have : c.toNat = 1 := by omega
    rw [this] at v
    omega
  rw [hc0] at v
  omega

theorem cmp2_ge {a b : List Limb} (ha : Norm a) (hb : Norm b) : mpn_cmp2 a b ≥ 0 ↔ val b ≤ val a := by
  rw [cmp2_val a b ha hb]
  split
  · constructor <;> intro <;> omega
  · split <;> constructor <;> intro <;> omega

theorem norm_ne {a : List Limb} (h : 0 < val a) : a ≠ [] := by
  rintro rfl; simp [val_nil] at h

theorem gcd_loop_val : ∀ (n : Nat) (a b : List Limb), Norm a → Norm b → 0 < val b → Nat.gcd (val a) (val b) % 2 = 1 →
    Fuel n (val a) (val b) →
    ∃ z, mpn_gcd_loop (n + 1) a b = .ok z ∧ Norm z ∧ val z = Nat.gcd (val a) (val b)
  | n, a, b, ha, hb, hpos, hodd, hf => by
    unfold mpn_gcd_loop
    by_cases h0 : a.length = 0
    · rw [if_pos h0]
      have : a = [] := by simpa using h0
      subst this
      exact ⟨b, rfl, hb, by rw [val_nil, Nat.gcd_zero_left]⟩
    · rw [if_neg h0]
      have hne : a ≠ [] := by simpa using h0
      obtain ⟨za, u, e1, nu, vu, ou⟩ := shift_zeroes_val ha hne
      obtain ⟨zb, v, e2, nv, vv, ov⟩ := shift_zeroes_val hb (norm_ne hpos)
      rw [e1, C.ok_bind, e2, C.ok_bind]
      rw [vu, vv] at hf hodd
      have hg := gcd_odd_parts ou ov hodd
      have hp := fuel_shift hf ou ov
      obtain ⟨m, rfl⟩ : ∃ m, n = m + 1 := ⟨n - 1, by have := fuel_pos hp ou ov; omega⟩
      by_cases hc : val v ≤ val u
      · rw [if_pos ((cmp2_ge nu nv).2 hc)]
        obtain ⟨t, e, nt, vt, _⟩ := sub_strip nu nv hc
        rw [e, C.ok_bind]
        obtain ⟨z, ez, nz, vz⟩ := gcd_loop_val m (mpn_strip t.1) v nt nv (odd_pos ov)
          (gcd_odd ov) (by rw [vt]; exact fuel_sub_left hp ou ov)
        refine ⟨z, ez, nz, ?_⟩
        rw [vz, vt, vu, vv, hg, Nat.gcd_sub_self_left hc]
      · rw [if_neg (fun h => hc ((cmp2_ge nu nv).1 h))]
        obtain ⟨t, e, nt, vt, _⟩ := sub_strip nv nu (by omega)
        rw [e, C.ok_bind]
        obtain ⟨z, ez, nz, vz⟩ := gcd_loop_val m u (mpn_strip t.1) nu nt (by omega)
          (by rw [Nat.gcd_comm]; exact gcd_odd ou) (by rw [vt]; exact fuel_sub_right hp ou ov)
        refine ⟨z, ez, nz, ?_⟩
        rw [vz, vt, vu, vv, hg, Nat.gcd_sub_self_right (by omega)]

theorem gcd_zeros_val : ∀ {a b : List Limb}, Norm a → Norm b → a ≠ [] → b ≠ [] →
    ∃ s u v u0 v0 us vs, mpn_gcd_zeros a b = .ok (s, u, v) ∧ u = u0 :: us ∧ v = v0 :: vs ∧ u0 ||| v0 ≠ 0 ∧
      Norm u ∧ Norm v ∧ val a = 2 ^ (64 * s) * val u ∧ val b = 2 ^ (64 * s) * val v ∧
      a.length = s + u.length ∧ b.length = s + v.length
  | [], _, _, _, h, _ => absurd rfl h
  | _ :: _, [], _, _, _, h => absurd rfl h
  | x :: a, y :: b, ha, hb, _, _ => by
    unfold mpn_gcd_zeros
    by_cases h : x ||| y = 0
    · rw [if_pos h]
      have hx : x = 0 := by
        have : x.toNat ||| y.toNat = 0 := by rw [← BitVec.toNat_or, h]; rfl
        exact toNat_eq_zero.1 (Nat.or_eq_zero_iff.1 this).1
      have hy : y = 0 := by
        have : x.toNat ||| y.toNat = 0 := by rw [← BitVec.toNat_or, h]; rfl
        exact toNat_eq_zero.1 (Nat.or_eq_zero_iff.1 this).2
      have tl : ∀ {w : Limb} {c : List Limb}, Norm (w :: c) → w = 0 → c ≠ [] ∧ Norm c := by
        intro w c hc hw
        cases c with
        | nil => exact absurd hw (norm_single.1 hc)
        | cons y ys => exact ⟨by simp, norm_cons.1 hc⟩
      obtain ⟨na, ha'⟩ := tl ha hx
      obtain ⟨nb, hb'⟩ := tl hb hy
      obtain ⟨s, u, v, u0, v0, us, vs, e, eu, ev, h0, nu, nv, vu, vv, la, lb⟩ := gcd_zeros_val ha' hb' na nb
      rw [e, C.ok_bind]
      refine ⟨s + 1, u, v, u0, v0, us, vs, rfl, eu, ev, h0, nu, nv, ?_, ?_, ?_, ?_⟩
      · rw [val_cons, hx, vu, show (0 : Limb).toNat = 0 from rfl, pow64]; ring
      · rw [val_cons, hy, vv, show (0 : Limb).toNat = 0 from rfl, pow64]; ring
      · rw [List.length_cons, la]; omega
      · rw [List.length_cons, lb]; omega
    · rw [if_neg h]
      exact ⟨0, x :: a, y :: b, x, y, a, b, rfl, rfl, rfl, h, ha, hb, by simp, by simp, by simp, by simp⟩

/-- The trailing zeros of `u0 | v0` are the common factors of two. -/
theorem ctz_or {u v : Limb} {us vs : List Limb} (h : u ||| v ≠ 0) :
    ∃ r, mp_ctz (u ||| v) = r ∧ r < 64 ∧ 2 ^ r * (val (u :: us) / 2 ^ r) = val (u :: us) ∧
      2 ^ r * (val (v :: vs) / 2 ^ r) = val (v :: vs) ∧
      Nat.gcd (val (u :: us) / 2 ^ r) (val (v :: vs) / 2 ^ r) % 2 = 1 := by
  obtain ⟨r, hr⟩ : ∃ r, r = mp_ctz (u ||| v) := ⟨_, rfl⟩
  have hlt : r < 64 := by rw [hr]; exact mp_ctz_lt _ h
  obtain ⟨h1, h2⟩ := mp_ctz_least _ h
  rw [← hr] at h1 h2
  have bits : ∀ (w : Limb) (ws : List Limb) j, j < 64 → (val (w :: ws)).testBit j = w.toNat.testBit j := by
    intro w ws j hj
    rw [val_testBit, Nat.div_eq_of_lt hj, Nat.mod_eq_of_lt hj]; rfl
  have hu : val (u :: us) % 2 ^ r = 0 := low_zero_mod (by
    intro j hj
    have := h2 j hj
    rw [BitVec.toNat_or, Nat.testBit_or, Bool.or_eq_false_iff] at this
    rw [bits _ _ _ (by omega)]; exact this.1)
  have hv : val (v :: vs) % 2 ^ r = 0 := low_zero_mod (by
    intro j hj
    have := h2 j hj
    rw [BitVec.toNat_or, Nat.testBit_or, Bool.or_eq_false_iff] at this
    rw [bits _ _ _ (by omega)]; exact this.2)
  refine ⟨r, hr.symm, hlt, Nat.mul_div_cancel' (Nat.dvd_of_mod_eq_zero hu),
    Nat.mul_div_cancel' (Nat.dvd_of_mod_eq_zero hv), ?_⟩
  have odd_of : ∀ (w : Nat), w.testBit r = true → w / 2 ^ r % 2 = 1 := by
    intro w hw
    rw [Nat.testBit_eq_decide_div_mod_eq] at hw
    simpa using hw
  rw [BitVec.toNat_or, Nat.testBit_or, Bool.or_eq_true] at h1
  rcases h1 with h1 | h1
  · rw [Nat.gcd_comm]
    exact gcd_odd (odd_of _ (by rw [bits _ _ _ hlt]; exact h1))
  · exact gcd_odd (odd_of _ (by rw [bits _ _ _ hlt]; exact h1))

theorem gcd_finish_val (s r yn : Nat) {v : List Limb} (hv : Norm v) (hp : 0 < val v) (hr : r < 64)
    (hb : 2 ^ (64 * s) * (2 ^ r * val v) < 2 ^ (64 * yn)) :
    ∃ z n, mpn_gcd_finish s r yn v = .ok (z, n) ∧ z.length = yn ∧ n ≤ yn ∧ Norm (z.take n) ∧
      (z.take n).length = n ∧ z = z.take n ++ mpn_zero (yn - n) ∧
      val (z.take n) = 2 ^ (64 * s) * (2 ^ r * val v) := by
  have hne := norm_ne hp
  obtain ⟨w, hw, nw, vw⟩ : ∃ w, w = (if r > 0 then
      let t := mpn_lshift v r
      if t.2 ≠ 0 then mpn_zero s ++ t.1 ++ [t.2] else mpn_zero s ++ t.1
    else mpn_zero s ++ v) ∧ Norm w ∧ val w = 2 ^ (64 * s) * (2 ^ r * val v) := by
    refine ⟨_, rfl, ?_⟩
    by_cases h : r > 0
    · rw [if_pos h]
      dsimp only
      obtain ⟨e, l⟩ := lshift_val v r (by omega) hne
      have hlne : (mpn_lshift v r).1 ≠ [] := by
        intro h; rw [h] at l; exact hne (by simpa using l.symm)
      by_cases hc : (mpn_lshift v r).2 ≠ 0
      · rw [if_pos hc, List.append_assoc]
        refine ⟨norm_append (norm_append (norm_single.2 hc) (by simp)) (by simp), ?_⟩
        rw [val_append, val_append, val_zeros, len_zeros, val_singleton, l, e]; ring
      · rw [if_neg hc]
        rw [not_not] at hc
        rw [hc, show (0 : Limb).toNat = 0 from rfl, Nat.mul_zero, Nat.add_zero] at e
        refine ⟨norm_append (norm_of_pow hlne ?_) hlne, ?_⟩
        · rw [e, l]
          exact le_trans (norm_val_pos hv hne) (Nat.le_mul_of_pos_right _ (by positivity))
        · rw [val_append, val_zeros, len_zeros, e]; ring
    · rw [if_neg h]
      refine ⟨norm_append hv hne, ?_⟩
      rw [val_append, val_zeros, len_zeros, show r = 0 by omega]; ring
  unfold mpn_gcd_finish
  rw [← hw]
  dsimp only
  have hl : w.length ≤ yn := norm_len_lt nw (by rw [vw]; exact hb)
  rw [if_neg (by omega)]
  refine ⟨_, _, rfl, ?_, hl, ?_, ?_, ?_, ?_⟩
  · rw [List.length_append, len_zeros]; omega
  · rw [List.take_left']; exact nw; rfl
  · rw [List.take_left']; rfl
  · rw [List.take_left']; rfl
  · rw [List.take_left']; exact vw; rfl

theorem gcd_val {a b : List Limb} (ha : Norm a) (hb : Norm b) (na : a ≠ []) (nb : b ≠ [])
    (hl : b.length ≤ a.length) :
    ∃ z n, mpn_gcd a b = .ok (z, n) ∧ z.length = b.length ∧ n ≤ b.length ∧ Norm (z.take n) ∧
      (z.take n).length = n ∧ z = z.take n ++ mpn_zero (b.length - n) ∧ val (z.take n) = Nat.gcd (val a) (val b) := by
  unfold mpn_gcd
  have la : a.length ≠ 0 := by simpa using na
  have lb : b.length ≠ 0 := by simpa using nb
  rw [C.check, decide_eq_true (show a.length ≠ 0 ∧ a.getLast? ≠ some 0 from ⟨la, ha⟩), C.check,
    decide_eq_true (show b.length ≠ 0 ∧ b.getLast? ≠ some 0 from ⟨lb, hb⟩), C.check, decide_eq_true hl]
  simp only [if_true, C.ok_bind]
  obtain ⟨s, u, v, u0, v0, us, vs, e, rfl, rfl, h0, nu, nv, vu, vv, ea, eb⟩ := gcd_zeros_val ha hb na nb
  rw [e, C.ok_bind]
  dsimp only
  rw [show C.rd (u0 :: us) 0 = .ok u0 from rfl, show C.rd (v0 :: vs) 0 = .ok v0 from rfl, C.ok_bind, C.ok_bind]
  obtain ⟨r, er, hr, du, dv, ho⟩ := ctz_or (us := us) (vs := vs) h0
  rw [er]
  unfold mpn_gcd_shift
  obtain ⟨u', e1, nu', vu'⟩ := rshift_trim_val nu (by simp) r hr
  obtain ⟨v', e2, nv', vv'⟩ := rshift_trim_val nv (by simp) r hr
  rw [e1, C.ok_bind, e2, C.ok_bind]
  have hvp : 0 < val v' := by
    rw [vv']
    have := norm_pos nv (by simp)
    rw [← dv] at this
    exact Nat.pos_of_mul_pos_left this
  obtain ⟨w, e3, nw, vw⟩ := gcd_loop_val (64 * (u'.length + v'.length)) u' v' nu' nv' hvp
    (by rw [vu', vv']; exact ho) (fuel_start _ le_rfl)
  rw [e3, C.ok_bind]
  have hval : 2 ^ (64 * s) * (2 ^ r * val w) = Nat.gcd (val a) (val b) := by
    rw [vw, vu, vv, Nat.gcd_mul_left, vu', vv', ← Nat.gcd_mul_left (2 ^ r), du, dv]
  have hgpos : 0 < Nat.gcd (val a) (val b) := Nat.gcd_pos_of_pos_right _ (norm_pos hb nb)
  obtain ⟨z, n, e4, lz, ln, nz, tl, ez, vz⟩ := gcd_finish_val s r b.length nw
    (by rw [vw]; exact Nat.gcd_pos_of_pos_right _ hvp) hr (by
      rw [hval]
      exact lt_of_le_of_lt (Nat.gcd_le_right _ (norm_pos hb nb)) (val_lt b))
  exact ⟨z, n, e4, lz, ln, nz, tl, ez, by rw [vz, hval]⟩

end Torsion.Mpi
