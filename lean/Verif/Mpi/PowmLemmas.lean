import Verif.Mpi.MontLemmas
import Verif.Mpi.MpnBits

/-!
# Modular exponentiation: lemmas
-/
namespace Torsion.Mpi
open Torsion.Spec

/-- `Ab r e`: the vector `r` stands for the `e`-th power. The operations `mul` and `sqr` add exponents. -/
structure PowOps (mul : List Limb → List Limb → C (List Limb)) (sqr : List Limb → C (List Limb))
    (Ab : List Limb → Nat → Prop) : Prop where
  mul : ∀ {a b e f}, Ab a e → Ab b f → ∃ c, mul a b = .ok c ∧ Ab c (e + f)
  sqr : ∀ {a e}, Ab a e → ∃ c, sqr a = .ok c ∧ Ab c (e + e)

variable {mul : List Limb → List Limb → C (List Limb)} {sqr : List Limb → C (List Limb)}
  {Ab : List Limb → Nat → Prop}

theorem slide_table_val (h : PowOps mul sqr Ab) {rp : List Limb} {f : Nat} (hr : Ab rp f) :
    ∀ (n : Nat) (w : List Limb) (e : Nat), Ab w e →
      ∃ ts, mpn_slide_table mul rp n w = .ok ts ∧ ts.length = n + 1 ∧
        ∀ j (hj : j < ts.length), Ab ts[j] (e + f * j)
  | 0, w, e, hw => ⟨[w], rfl, rfl, by
      intro j hj
      simp at hj
      subst hj
      simpa using hw⟩
  | n + 1, w, e, hw => by
    obtain ⟨t, et, ht⟩ := h.mul hw hr
    obtain ⟨ts, es, l, hs⟩ := slide_table_val h hr n t (e + f) ht
    unfold mpn_slide_table
    rw [et, C.ok_bind, es, C.ok_bind]
    refine ⟨_, rfl, by simp [l], ?_⟩
    intro j hj
    cases j with
    | zero => simpa using hw
    | succ j =>
      have := hs j (by simpa using hj)
      rw [List.getElem_cons_succ]
      convert this using 1
      ring

theorem slide_sqrs_val (h : PowOps mul sqr Ab) : ∀ (n : Nat) (rp : List Limb) (e : Nat), Ab rp e →
    ∃ r, mpn_slide_sqrs sqr n rp = .ok r ∧ Ab r (2 ^ n * e)
  | 0, rp, e, hr => ⟨rp, rfl, by simpa using hr⟩
  | n + 1, rp, e, hr => by
    obtain ⟨t, et, ht⟩ := h.sqr hr
    obtain ⟨r, er, h'⟩ := slide_sqrs_val h n t _ ht
    unfold mpn_slide_sqrs
    rw [et, C.ok_bind, er]
    refine ⟨r, rfl, ?_⟩
    convert h' using 1
    ring

theorem div_bit (Y i : Nat) : Y / 2 ^ i = Y / 2 ^ (i + 1) + Y / 2 ^ (i + 1) + (Y.testBit i).toNat := by
  rw [Nat.toNat_testBit, Nat.pow_succ, ← Nat.div_div_eq_div_mul]
  omega

theorem slide_bits_val (h : PowOps mul sqr Ab) {yp ap : List Limb} (ha : Ab ap 1) :
    ∀ (i : Nat) (rp : List Limb), i ≤ 64 * yp.length → Ab rp (val yp / 2 ^ i) →
      ∃ r, mpn_slide_bits mul sqr yp ap i rp = .ok r ∧ Ab r (val yp)
  | 0, rp, _, hr => ⟨rp, rfl, by simpa using hr⟩
  | i + 1, rp, hi, hr => by
    obtain ⟨t, et, ht⟩ := h.sqr hr
    unfold mpn_slide_bits
    rw [et, C.ok_bind, tstbit_eq yp i (by omega), C.ok_bind]
    have hd := div_bit (val yp) i
    by_cases hb : (val yp).testBit i = true
    · rw [hb] at hd
      rw [flag_pos hb, if_pos (by decide)]
      obtain ⟨u, eu, hu⟩ := h.mul ht ha
      rw [eu, C.ok_bind]
      exact slide_bits_val h ha i u (by omega) (by rw [hd]; exact hu)
    · rw [Bool.not_eq_true] at hb
      rw [hb] at hd
      rw [flag_neg (by rw [hb]; decide), if_neg (by decide), C.ok_bind]
      exact slide_bits_val h ha i t (by omega) (by rw [hd]; exact ht)

theorem window_split (Y i s : Nat) (hi : 4 ≤ i) (hs : s ≤ 4) (b : Nat) (hb : b = Y / 2 ^ (i - 4) % 16)
    (o : Nat) (ho : b = 2 ^ s * o) : Y / 2 ^ (i - (4 - s)) = 2 ^ (4 - s) * (Y / 2 ^ i) + o := by
  have e1 : Y / 2 ^ i = Y / 2 ^ (i - 4) / 16 := by
    rw [Nat.div_div_eq_div_mul, show (16 : Nat) = 2 ^ 4 from rfl, ← pow_add]; congr 2; omega
  have e2 : Y / 2 ^ (i - (4 - s)) = Y / 2 ^ (i - 4) / 2 ^ s := by
    rw [Nat.div_div_eq_div_mul, ← pow_add]; congr 2; omega
  rw [e1, e2]
  generalize Y / 2 ^ (i - 4) = Z at hb ⊢
  have hz : Z = 2 ^ s * (2 ^ (4 - s) * (Z / 16) + o) := by
    rw [Nat.mul_add, ← Nat.mul_assoc, ← pow_add, show s + (4 - s) = 4 by omega, ← ho, hb]
    omega
  conv_lhs => rw [hz]
  rw [Nat.mul_div_cancel_left _ (by positivity)]

theorem slide_window_val (h : PowOps mul sqr Ab) {tab : List (List Limb)} (hl : tab.length = 8)
    (ht : ∀ j (hj : j < tab.length), Ab tab[j] (1 + 2 * j)) {first : Bool} {bits : Limb} {width e : Nat}
    {rp : List Limb} (ho : bits.toNat % 2 = 1) (hb : bits.toNat < 16)
    (hr : if first then e = 0 else Ab rp e) :
    ∃ r, mpn_slide_window mul sqr tab first bits width rp = .ok r ∧ Ab r (2 ^ width * e + bits.toNat) := by
  have hsh : (bits >>> 1).toNat = bits.toNat / 2 := by
    rw [BitVec.toNat_ushiftRight, Nat.shiftRight_eq_div_pow]
  have hlt : (bits >>> 1).toNat < tab.length := by omega
  have hw := ht _ hlt
  rw [show 1 + 2 * (bits >>> 1).toNat = bits.toNat by omega] at hw
  unfold mpn_slide_window
  rw [C.rd, List.getElem?_eq_getElem hlt]
  dsimp only
  rw [C.ok_bind]
  cases first with
  | true =>
    rw [if_pos rfl] at hr ⊢
    exact ⟨_, rfl, by rw [hr, Nat.mul_zero, Nat.zero_add]; exact hw⟩
  | false =>
    rw [if_neg (by decide)] at hr ⊢
    obtain ⟨t, et, h1⟩ := slide_sqrs_val h width rp e hr
    rw [et, C.ok_bind]
    exact h.mul h1 hw

theorem slide_loop_val (h : PowOps mul sqr Ab) {tab : List (List Limb)} (hl : tab.length = 8)
    (ht : ∀ j (hj : j < tab.length), Ab tab[j] (1 + 2 * j)) {yp : List Limb} {len : Nat}
    (h1 : 2 ^ (len - 1) ≤ val yp) (h2 : val yp < 2 ^ len) :
    ∀ (n i : Nat) (rp : List Limb), i < n → i ≤ len → (i = len → 4 ≤ len) →
      (i < len → Ab rp (val yp / 2 ^ i)) →
      ∃ i' r, mpn_slide_loop mul sqr tab yp len n i rp = .ok (i', r) ∧ i' < len ∧ i' < 4 ∧ Ab r (val yp / 2 ^ i')
  | 0, i, rp, hn, _, _, _ => absurd hn (by omega)
  | n + 1, i, rp, hn, hil, h4, hr => by
    unfold mpn_slide_loop
    by_cases hi : i ≥ 4
    · rw [if_pos hi]
      dsimp only
      have hv := getbits_eq yp (i - 4) 4 (by omega)
      generalize mpn_getbits yp (i - 4) 4 = bits at hv ⊢
      have hdiv : val yp / 2 ^ i = val yp / 2 ^ (i - 4) / 16 := by
        rw [Nat.div_div_eq_div_mul, show (16 : Nat) = 2 ^ 4 from rfl, ← pow_add]; congr 2; omega
      by_cases hb : bits < 8
      · rw [if_pos hb]
        have hb' : bits.toNat < 8 := hb
        have hne : i ≠ len := by
          rintro rfl
          have e1 : 2 ^ (i - 1) = 8 * 2 ^ (i - 4) := by
            rw [show (8 : Nat) = 2 ^ 3 from rfl, ← pow_add]; congr 1; omega
          have e2 : 2 ^ i = 16 * 2 ^ (i - 4) := by
            rw [show (16 : Nat) = 2 ^ 4 from rfl, ← pow_add]; congr 1; omega
          have a1 : 8 ≤ val yp / 2 ^ (i - 4) := (Nat.le_div_iff_mul_le (by positivity)).2 (by omega)
          have a2 : val yp / 2 ^ (i - 4) < 16 := (Nat.div_lt_iff_lt_mul (by positivity)).2 (by omega)
          rw [show (2 : Nat) ^ 4 = 16 from rfl] at hv
          omega
        obtain ⟨t, et, h5⟩ := h.sqr (hr (by omega))
        rw [et, C.ok_bind]
        refine slide_loop_val h hl ht h1 h2 n (i - 1) t (by omega) (by omega) (by omega) ?_
        intro _
        have hd := div_bit (val yp) (i - 1)
        rw [show i - 1 + 1 = i by omega] at hd
        rw [hd]
        have hz : (val yp).testBit (i - 1) = false := by
          have e := Nat.testBit_mod_two_pow (val yp / 2 ^ (i - 4)) 4 3
          rw [← hv, Nat.testBit_div_two_pow] at e
          rw [show 3 + (i - 4) = i - 1 by omega] at e
          rw [Nat.testBit_lt_two_pow (show bits.toNat < 2 ^ 3 from hb')] at e
          simpa using e.symm
        rw [hz]
        exact h5
      · rw [if_neg hb]
        have hb' : 8 ≤ bits.toNat := by
          by_contra hc
          exact hb (show bits.toNat < 8 by omega)
        rw [show (2 : Nat) ^ 4 = 16 from rfl] at hv
        have hne : bits ≠ 0 := by rintro rfl; rw [show (0 : Limb).toNat = 0 from rfl] at hb'; omega
        obtain ⟨s, es, v1, v2⟩ : ∃ s, mp_ctz bits = s ∧ bits.toNat = 2 ^ s * (bits.toNat / 2 ^ s) ∧
            bits.toNat / 2 ^ s % 2 = 1 := ⟨_, rfl, mp_ctz_val bits hne⟩
        rw [es]
        clear es
        have hs : s ≤ 3 := by
          by_contra hc
          have : 2 ^ 4 ≤ 2 ^ s := Nat.pow_le_pow_right (by omega) (by omega)
          have h7 : bits.toNat / 2 ^ s = 0 := Nat.div_eq_of_lt (by omega)
          rw [h7] at v2
          omega
        have hsh : (bits >>> s).toNat = bits.toNat / 2 ^ s := by
          rw [BitVec.toNat_ushiftRight, Nat.shiftRight_eq_div_pow]
        have hle := Nat.div_le_self bits.toNat (2 ^ s)
        have hsplit := window_split (val yp) i s hi (by omega) _ hv _ v1
        obtain ⟨t, et, h5⟩ := slide_window_val h hl ht (first := decide (i = len)) (bits := bits >>> s) (width := 4 - s)
          (e := val yp / 2 ^ i) (rp := rp) (by omega) (by omega) (by
            by_cases hc : i = len
            · rw [if_pos (by simpa using hc), hc]
              exact Nat.div_eq_of_lt h2
            · rw [if_neg (by simpa using hc)]
              exact hr (by omega))
        rw [et, C.ok_bind]
        refine slide_loop_val h hl ht h1 h2 n (i - (4 - s)) t (by omega) (by omega) (by omega) ?_
        intro _
        rw [hsplit, ← hsh]
        exact h5
    · rw [if_neg hi]
      exact ⟨i, rp, rfl, by omega, by omega, hr (by omega)⟩

theorem slide_len_val (h : PowOps mul sqr Ab) {ap yp : List Limb} {len : Nat} (ha : Ab ap 1)
    (h1 : 2 ^ (len - 1) ≤ val yp) (h2 : val yp < 2 ^ len) (h3 : len ≤ 64 * yp.length)
    (h4 : 64 * (yp.length - 1) < len) :
    ∃ r, mpn_slide_len mul sqr ap yp len = .ok r ∧ Ab r (val yp) := by
  unfold mpn_slide_len
  by_cases hy : yp.length > 2
  · rw [if_pos hy]
    obtain ⟨rp, er, hr⟩ := h.sqr ha
    rw [er, C.ok_bind]
    obtain ⟨tab, et, lt, ht⟩ := slide_table_val h hr 7 ap 1 ha
    rw [et, C.ok_bind]
    obtain ⟨i', r, e, hi, _, h5⟩ := slide_loop_val h lt ht h1 h2 (len + 1) len rp (by omega) (le_refl _)
      (fun _ => by omega) (fun hc => absurd hc (by omega))
    rw [e, C.ok_bind]
    exact slide_bits_val h ha i' r (by omega) h5
  · rw [if_neg hy]
    refine slide_bits_val h ha (len - 1) ap (by omega) ?_
    have : val yp / 2 ^ (len - 1) = 1 := by
      have e : 2 ^ len = 2 * 2 ^ (len - 1) := by
        rw [← pow_succ']; congr 1; omega
      apply Nat.div_eq_of_lt_le <;> omega
    rw [this]
    exact ha

theorem slide_val (h : PowOps mul sqr Ab) {ap yp : List Limb} (ha : Ab ap 1) (hy : Norm yp) (hne : yp ≠ []) :
    ∃ r, mpn_slide mul sqr ap yp = .ok r ∧ Ab r (val yp) := by
  obtain ⟨lo, top, rfl⟩ : ∃ lo top, yp = lo ++ [top] :=
    ⟨yp.dropLast, yp.getLast hne, (List.dropLast_concat_getLast hne).symm⟩
  have ht : top ≠ 0 := by
    rintro rfl
    simp [Norm] at hy
  have hl : (lo ++ [top]).length = lo.length + 1 := by simp
  obtain ⟨s, es, c1, c2, c3⟩ : ∃ s, mp_clz top = s ∧ s < 64 ∧ 2 ^ 63 ≤ top.toNat * 2 ^ s ∧ top.toNat * 2 ^ s < 2 ^ 64 :=
    ⟨_, rfl, clz_norm top ht⟩
  unfold mpn_slide
  rw [hl, Nat.add_sub_cancel, show C.rd (lo ++ [top]) lo.length = .ok top by simp [C.rd], C.ok_bind, es]
  clear es
  have hv : val (lo ++ [top]) = val lo + 2 ^ (64 * lo.length) * top.toNat := by rw [val_append, val_singleton]
  have hlo := val_lt lo
  have e1 : (2 : Nat) ^ 63 = 2 ^ (63 - s) * 2 ^ s := by rw [← pow_add]; congr 1; omega
  have e2 : (2 : Nat) ^ 64 = 2 ^ (64 - s) * 2 ^ s := by rw [← pow_add]; congr 1; omega
  rw [e1] at c2
  rw [e2] at c3
  have t1 : 2 ^ (63 - s) ≤ top.toNat := Nat.le_of_mul_le_mul_right c2 (by positivity)
  have t2 : top.toNat < 2 ^ (64 - s) := Nat.lt_of_mul_lt_mul_right c3
  refine slide_len_val h ha ?_ ?_ (by omega) (by omega)
  · rw [hv, show (lo.length + 1) * 64 - s - 1 = 64 * lo.length + (63 - s) by omega, pow_add]
    have := Nat.mul_le_mul_left (2 ^ (64 * lo.length)) t1
    omega
  · rw [hv, show (lo.length + 1) * 64 - s = 64 * lo.length + (64 - s) by omega, pow_add]
    have : 2 ^ (64 * lo.length) * (top.toNat + 1) ≤ 2 ^ (64 * lo.length) * 2 ^ (64 - s) :=
      Nat.mul_le_mul_left _ t2
    rw [Nat.mul_succ] at this
    omega

/-! ### By division -/

theorem mod_inner_val {m : List Limb} {den : Divisor} (hm : Norm m) (hne : m ≠ []) (hd : mpn_divmod_precomp m = .ok den)
    {a : List Limb} (hl : m.length ≤ a.length) :
    ∃ r, mpn_mod_inner a den = .ok r ∧ r.length = m.length ∧ val r = val a % val m := by
  obtain ⟨q, r, e, _, lr, _, vr⟩ := divmod_val a m hm hne hl
  unfold mpn_divmod at e
  rw [C.check, decide_eq_true (show m.length ≠ 0 ∧ m.length ≤ a.length from
    ⟨by have := List.length_pos_iff.2 hne; omega, hl⟩)] at e
  simp only [if_true, C.ok_bind] at e
  rw [hd, C.ok_bind] at e
  unfold mpn_mod_inner
  rw [e, C.ok_bind]
  exact ⟨r, rfl, lr, vr⟩

theorem div_ops {m : List Limb} {den : Divisor} (hm : Norm m) (hne : m ≠ []) (hd : mpn_divmod_precomp m = .ok den) (x : Nat) :
    PowOps (fun a b => mpn_mod_inner (mpn_mul_n a b) den) (fun a => mpn_mod_inner (mpn_sqr a) den)
      (fun r e => r.length = m.length ∧ val r ≡ x ^ e [MOD val m]) where
  mul := by
    rintro a b e f ⟨la, ha⟩ ⟨lb, hb⟩
    obtain ⟨v, l⟩ := mul_val a b
    obtain ⟨r, er, lr, vr⟩ := mod_inner_val hm hne hd (a := mpn_mul_n a b) (by unfold mpn_mul_n; omega)
    refine ⟨r, er, lr, ?_⟩
    rw [vr, pow_add]
    refine (Nat.mod_modEq _ _).trans ?_
    unfold mpn_mul_n
    rw [v]
    exact Nat.ModEq.mul ha hb
  sqr := by
    rintro a e ⟨la, ha⟩
    obtain ⟨v, l⟩ := sqr_val a
    obtain ⟨r, er, lr, vr⟩ := mod_inner_val hm hne hd (a := mpn_sqr a) (by omega)
    refine ⟨r, er, lr, ?_⟩
    rw [vr, pow_add]
    refine (Nat.mod_modEq _ _).trans ?_
    rw [v]
    exact Nat.ModEq.mul ha ha

theorem val_padz (x : List Limb) (n : Nat) (h : x.length ≤ n) :
    val (x ++ mpn_zero (n - x.length)) = val x ∧ (x ++ mpn_zero (n - x.length)).length = n := by
  refine ⟨by rw [val_append, val_zeros]; omega, ?_⟩
  rw [List.length_append, len_zeros]; omega

theorem div_powm_val {x y m : List Limb} (hm : Norm m) (hne : m ≠ []) (hx : x.length ≤ m.length)
    (hy : Norm y) (hyn : y ≠ []) :
    ∃ r, mpn_div_powm x y m = .ok r ∧ r.length = m.length ∧ val r = val x ^ val y % val m := by
  obtain ⟨vp, v, vt, s, e, _⟩ := precomp_val m hm hne
  generalize (⟨vp, v, s, m.length⟩ : Divisor) = den at e
  obtain ⟨vx, lx⟩ := val_padz x m.length hx
  unfold mpn_div_powm
  rw [e, C.ok_bind]
  obtain ⟨r, er, lr, hr⟩ := slide_val (div_ops hm hne e (val x)) (ap := x ++ mpn_zero (m.length - x.length))
    ⟨lx, by rw [vx, pow_one]⟩ hy hyn
  rw [er, C.ok_bind, cmp_val r m lr]
  by_cases hc : val r < val m
  · rw [if_pos hc, if_neg (by decide)]
    refine ⟨r, rfl, lr, ?_⟩
    rw [← Nat.mod_eq_of_lt hc]
    exact hr
  · rw [if_neg hc]
    rw [if_pos (by split <;> decide)]
    obtain ⟨r', er', lr', vr'⟩ := mod_inner_val hm hne e (a := r) (by omega)
    exact ⟨r', er', lr', by rw [vr']; exact hr⟩

/-! ### By Montgomery multiplication -/

/-- The Montgomery form of a power. -/
def MontPow (m : List Limb) (x : Nat) (r : List Limb) (e : Nat) : Prop :=
  r.length = m.length ∧ val r ≡ x ^ e * 2 ^ (64 * m.length) [MOD val m]

theorem coprime_pow64 {m : Nat} (ho : m % 2 = 1) (n : Nat) : Nat.Coprime m (2 ^ (64 * n)) := by
  apply Nat.Coprime.pow_right
  rw [Nat.coprime_comm, Nat.coprime_two_left]
  exact Nat.odd_iff.2 ho

theorem mont_mul_pow {m x a b z e f : Nat} {R : Nat} (hc : Nat.Coprime m R) (ha : a ≡ x ^ e * R [MOD m])
    (hb : b ≡ x ^ f * R [MOD m]) (hz : R * z ≡ a * b [MOD m]) : z ≡ x ^ (e + f) * R [MOD m] := by
  apply Nat.ModEq.cancel_left_of_coprime (c := R) hc
  refine hz.trans ((Nat.ModEq.mul ha hb).trans ?_)
  rw [show x ^ e * R * (x ^ f * R) = R * (x ^ (e + f) * R) by rw [pow_add]; ring]

theorem mont_ops {m : List Limb} {k : Limb} (hk : MontK m k) (ho : val m % 2 = 1) (x : Nat) :
    PowOps (fun a b => mpn_montmul a b m k) (fun a => mpn_montmul a a m k) (MontPow m x) where
  mul := by
    rintro a b e f ⟨la, ha⟩ ⟨lb, hb⟩
    obtain ⟨z, ez, lz, hz⟩ := montmul_val hk la lb
    exact ⟨z, ez, lz, mont_mul_pow (coprime_pow64 ho _) ha hb hz⟩
  sqr := by
    rintro a e ⟨la, ha⟩
    obtain ⟨z, ez, lz, hz⟩ := montmul_val hk la la
    exact ⟨z, ez, lz, mont_mul_pow (coprime_pow64 ho _) ha ha hz⟩

/-- Into Montgomery form: a product with `R^2`. -/
theorem mont_into {m a z r R2 : Nat} {R : Nat} (hc : Nat.Coprime m R) (h2 : R2 = R * R) (hr : r ≡ R2 [MOD m])
    (hz : R * z ≡ a * r [MOD m]) : z ≡ a * R [MOD m] := by
  apply Nat.ModEq.cancel_left_of_coprime (c := R) hc
  refine hz.trans ((Nat.ModEq.mul_left a hr).trans ?_)
  rw [h2, show a * (R * R) = R * (a * R) by ring]

/-- Out of Montgomery form: a product with one. -/
theorem mont_out {m a z p : Nat} {R : Nat} (hc : Nat.Coprime m R) (ha : a ≡ p * R [MOD m])
    (hz : R * z ≡ a * 1 [MOD m]) : z ≡ p [MOD m] := by
  apply Nat.ModEq.cancel_left_of_coprime (c := R) hc
  rw [Nat.mul_one] at hz
  refine hz.trans (ha.trans ?_)
  rw [Nat.mul_comm]

theorem mont_final_val {r m : List Limb} (hm : Norm m) (hne : m ≠ []) (hl : r.length = m.length) :
    ∃ z, mpn_mont_final r m = .ok z ∧ z.length = m.length ∧ val z = val r % val m := by
  unfold mpn_mont_final
  rw [cmp_val r m hl]
  by_cases hc : val r < val m
  · rw [if_pos hc, if_neg (by decide)]
    exact ⟨r, rfl, hl, (Nat.mod_eq_of_lt hc).symm⟩
  · rw [if_neg hc, if_pos (by split <;> decide)]
    have v := sub_n_exact r m hl (by omega)
    have l := (sub_n_val r m hl).2.1
    dsimp only
    generalize (mpn_sub_n r m).1 = t at v l ⊢
    have hmod : val r % val m = val t % val m := by rw [Nat.mod_eq_sub_mod (by omega), ← v]
    rw [cmp_val t m (by omega), hmod]
    by_cases hc2 : val t < val m
    · rw [if_pos hc2, if_neg (by decide)]
      exact ⟨t, rfl, by omega, (Nat.mod_eq_of_lt hc2).symm⟩
    · rw [if_neg hc2, if_pos (by split <;> decide)]
      obtain ⟨q, z, e, _, lz, _, vz⟩ := divmod_val t m hm hne (by omega)
      unfold mpn_mod
      rw [e, C.ok_bind]
      exact ⟨z, rfl, lz, vz⟩

theorem val_one (n : Nat) (h : 0 < n) : val (mpn_set_1 n 1) = 1 ∧ (mpn_set_1 n 1).length = n := by
  refine ⟨val_set_1 n 1, ?_⟩
  unfold mpn_set_1
  rw [List.length_cons, len_zeros]
  omega

theorem mont_powm_val {x y m : List Limb} (hm : Norm m) (ho : val m % 2 = 1) (hx : x.length ≤ m.length)
    (hy : Norm y) (hyn : y ≠ []) :
    ∃ r, mpn_mont_powm x y m = .ok r ∧ r.length = m.length ∧ val r = val x ^ val y % val m := by
  have hne := norm_ne (odd_pos ho)
  have hc := coprime_pow64 ho m.length
  obtain ⟨k, r2, em, hk, lr2, vr2⟩ := mont_val hm ho
  obtain ⟨vx, lx⟩ := val_padz x m.length hx
  obtain ⟨v1, l1⟩ := val_one m.length (List.length_pos_iff.2 hne)
  unfold mpn_mont_powm
  rw [em, C.ok_bind]
  obtain ⟨a, ea, la, ha⟩ := montmul_val hk lx lr2
  rw [ea, C.ok_bind]
  have haR : MontPow m (val x) a 1 := by
    refine ⟨la, ?_⟩
    rw [pow_one]
    refine mont_into hc (R2 := 2 ^ (128 * m.length)) ?_ ?_ (by rw [← vx]; exact ha)
    · rw [← pow_add]; congr 1; omega
    · rw [vr2]; exact Nat.mod_modEq _ _
  obtain ⟨r, er, lr, hr⟩ := slide_val (mont_ops hk ho (val x)) haR hy hyn
  rw [er, C.ok_bind]
  obtain ⟨z, ez, lz, hz⟩ := montmul_val hk lr l1
  rw [ez, C.ok_bind]
  rw [v1] at hz
  obtain ⟨f, ef, lf, vf⟩ := mont_final_val hm hne lz
  exact ⟨f, ef, lf, by rw [vf]; exact mont_out hc hr hz⟩

/-! ### The choice between the two -/

theorem powm_val {x y m : List Limb} (hm : Norm m) (hne : m ≠ []) (hx : x.length ≤ m.length) :
    ∃ r, mpn_powm x y m = .ok r ∧ r.length = m.length ∧ val r = val x ^ val y % val m := by
  have hl := List.length_pos_iff.2 hne
  obtain ⟨m0, ms, rfl⟩ : ∃ m0 ms, m = m0 :: ms := by
    cases m with
    | nil => exact absurd rfl hne
    | cons x xs => exact ⟨x, xs, rfl⟩
  obtain ⟨v1, l1⟩ := val_one (m0 :: ms).length hl
  have hone := norm_one (v := m0 :: ms) hm (lt_of_lt_of_le (by positivity) (norm_val_pos hm hne))
  unfold mpn_powm
  rw [C.check, decide_eq_true (show (m0 :: ms).length ≠ 0 ∧ (m0 :: ms).getLast? ≠ some 0 from ⟨by omega, hm⟩)]
  simp only [if_true, C.ok_bind]
  rw [C.check, decide_eq_true hx]
  simp only [if_true, C.ok_bind]
  rw [show C.rd (m0 :: ms) 0 = .ok m0 from rfl, C.ok_bind]
  have hm1 : ((m0 :: ms).length = 1 ∧ m0 = 1) ↔ val (m0 :: ms) = 1 := by
    obtain ⟨v0, e0, h0⟩ := hone
    rw [show C.rd (m0 :: ms) 0 = .ok m0 from rfl] at e0
    injection e0 with e0
    subst e0
    constructor
    · intro h
      by_contra hc
      rcases h0.2 hc with h' | h'
      · exact h' h.1
      · exact h' h.2
    · intro h
      by_contra hc
      have := h0.1
      by_cases ha : (m0 :: ms).length = 1
      · exact this (Or.inr (fun hb => hc ⟨ha, hb⟩)) h
      · exact this (Or.inl ha) h
  by_cases h1 : (m0 :: ms).length = 1 ∧ m0 = 1
  · rw [if_pos h1]
    refine ⟨_, rfl, len_zeros _, ?_⟩
    rw [val_zeros, hm1.1 h1, Nat.mod_one]
  · rw [if_neg h1]
    have hgt : 1 < val (m0 :: ms) := by
      have hp := norm_val_pos hm hne
      have : 0 < 2 ^ (64 * ((m0 :: ms).length - 1)) := by positivity
      have := mt hm1.2 h1
      omega
    have hy := strip_norm y
    rw [show val y = val (mpn_strip y) from (strip_val y).symm]
    generalize mpn_strip y = y at hy ⊢
    by_cases h2 : y.length = 0
    · rw [if_pos h2, List.length_eq_zero_iff.1 h2, val_nil, pow_zero, Nat.mod_eq_of_lt hgt]
      exact ⟨_, rfl, l1, v1⟩
    · rw [if_neg h2]
      have hyn : y ≠ [] := fun h => h2 (by rw [h]; rfl)
      by_cases h3 : x.length = 0
      · rw [if_pos h3, List.length_eq_zero_iff.1 h3, val_nil]
        refine ⟨_, rfl, len_zeros _, ?_⟩
        have := norm_val_pos hy hyn
        rw [zero_pow (by have : 0 < 2 ^ (64 * (y.length - 1)) := by positivity
                         omega), val_zeros, Nat.zero_mod]
      · rw [if_neg h3]
        by_cases h4 : y.length > 1 ∧ m0 &&& 1 ≠ 0
        · rw [if_pos h4]
          have ho : val (m0 :: ms) % 2 = 1 := by
            have := (odd_test m0).1 h4.2
            rw [val_cons]; omega
          exact mont_powm_val hm ho hx hy hyn
        · rw [if_neg h4]
          exact div_powm_val hm hne hx hy hyn

end Torsion.Mpi
