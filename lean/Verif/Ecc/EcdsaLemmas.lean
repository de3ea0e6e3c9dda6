import Verif.Ecc.Ecdsa
import Verif.Ecc.EcdsaSpec
import Verif.Ecc.EncodeLemmas

/-! Lemmas on ECDSA. -/
namespace Torsion.Ecc

open Torsion.Spec
open WeierstrassCurve.Affine (Point)

/-! ### Numbers -/

theorem scSize_pow (n : Nat) : n < 256 ^ scSize n := by
  refine (Nat.lt_size_self _).trans_le ?_
  rw [show (256 : Nat) = 2 ^ 8 by norm_num, ← Nat.pow_mul]
  exact Nat.pow_le_pow_right (by norm_num) (by unfold scSize; omega)

theorem num_export_len (n a : Nat) : (num_export n a).length = scSize n := Hsh.bigBytes_len _ _

theorem num_import_ok {n : Nat} {xp : List Byte} (h : scSize n ≤ xp.length) : num_import n xp =
    .ok (if beVal (xp.take (scSize n)) < n then beVal (xp.take (scSize n)) else 0,
      decide (beVal (xp.take (scSize n)) < n)) := by
  rw [num_import, slice_take h]; rfl

theorem num_import_lt {n : Nat} {xp : List Byte} (hn : 0 < n) (h : scSize n ≤ xp.length) : ∃ a b, num_import n xp = .ok (a, b) ∧
    a < n ∧ (b = true ↔ beVal (xp.take (scSize n)) < n) ∧ (b = true → a = beVal (xp.take (scSize n))) ∧ (b = false → a = 0) := by
  refine ⟨_, _, num_import_ok h, ?_, by simp, ?_, ?_⟩
  · split <;> assumption
  · intro hb; rw [if_pos (of_decide_eq_true hb)]
  · intro hb; rw [if_neg (of_decide_eq_false hb)]

theorem num_import_export {n a : Nat} (h : a < n) (t : List Byte) : num_import n (num_export n a ++ t) = .ok (a, true) := by
  have hl := num_export_len n a
  rw [num_import_ok (by rw [List.length_append]; omega), List.take_left' hl, num_export, Drb.beVal_bigBytes,
    Nat.mod_eq_of_lt (h.trans (scSize_pow n)), if_pos h, decide_eq_true h]

theorem num_import_export' {n a : Nat} (h : a < n) : num_import n (num_export n a) = .ok (a, true) := by
  have := num_import_export h []
  rwa [List.append_nil] at this

theorem two_size {n : Nat} (hn : 0 < n) : 2 ^ n.size ≤ 2 * n := by
  have h1 : 0 < n.size := Nat.size_pos.2 hn
  have h2 : 2 ^ (n.size - 1) ≤ n := by
    by_contra h
    have := Nat.size_le.2 (not_le.1 h)
    omega
  calc 2 ^ n.size = 2 * 2 ^ (n.size - 1) := by rw [← Nat.pow_succ']; congr 1; omega
    _ ≤ 2 * n := Nat.mul_le_mul_left _ h2

section
variable {fe : FieldCode} [Fact fe.p.Prime] {ec : WeiT fe} {G : Pt ec.toCurve}

theorem reduce_bits (hn : 0 < ec.n) (msg : List Byte) :
    ecdsa_reduce ec msg = (leftBits ec.n msg % ec.n, decide (leftBits ec.n msg < ec.n)) := by
  have hlt := Dsa.leftBits_lt ec.n msg
  have h2 := two_size hn
  have key : (let len := if msg.length > scSize ec.n then scSize ec.n else msg.length
      if len * 8 > ec.n.size then beVal (msg.take len) >>> (len * 8 - ec.n.size) else beVal (msg.take len)) = leftBits ec.n msg := by
    dsimp only
    unfold leftBits
    split
    · rename_i h
      rw [Dsa.beVal_take _ _ h.le]
      split
      · rename_i h'
        rw [if_pos (by omega), Nat.shiftRight_eq_div_pow, Nat.div_div_eq_div_mul, ← Nat.pow_add]
        congr 2; omega
      · rename_i h'
        rw [if_pos (by unfold scSize at *; omega)]
        congr 2
        unfold scSize at *; omega
    · rw [List.take_length]
      split
      · rw [if_pos (by omega), Nat.shiftRight_eq_div_pow, Nat.mul_comm]
      · rw [if_neg (by omega)]
  unfold ecdsa_reduce
  dsimp only at key ⊢
  rw [key]
  split
  · rename_i h
    rw [Nat.mod_eq_of_lt h, decide_eq_true h]
  · rename_i h
    rw [decide_eq_false h, Nat.mod_eq_sub_mod (by omega), Nat.mod_eq_of_lt (by omega)]

/-! ### The group -/

theorem ord_all (ok : EcOk ec G) (P : Pt ec.toCurve) : ec.n • P = 0 := by
  obtain ⟨m, rfl⟩ := ok.all P
  rw [smul_comm, ok.wei.order, smul_zero]

theorem smul_cast (ok : EcOk ec G) {a b : Nat} (h : (a : ZMod ec.n) = b) (P : Pt ec.toCurve) : a • P = b • P := by
  have h := (ZMod.natCast_eq_natCast_iff' a b ec.n).1 h
  rw [← Nat.mod_add_div a ec.n, ← Nat.mod_add_div b ec.n, h, add_nsmul, add_nsmul, mul_comm, mul_nsmul', ord_all ok,
    smul_zero, mul_comm, mul_nsmul', ord_all ok, smul_zero]

theorem smul_zero_iff (ok : EcOk ec G) {a : Nat} {P : Pt ec.toCurve} (hP : P ≠ 0) : a • P = 0 ↔ a % ec.n = 0 := by
  have := Fact.mk ok.prime
  have ho : addOrderOf P = ec.n := addOrderOf_eq_prime (ord_all ok P) hP
  rw [← addOrderOf_dvd_iff_nsmul_eq_zero, ho, Nat.dvd_iff_mod_eq_zero]

theorem neg_cast (ok : EcOk ec G) (a : Nat) (ha : a < ec.n) : ((num_neg ec.n a : Nat) : ZMod ec.n) = -(a : ZMod ec.n) := by
  rw [num_neg, ZMod.natCast_mod, Nat.cast_sub ha.le, ZMod.natCast_self, zero_sub]

theorem inv_cast (ok : EcOk ec G) (a : Nat) : (((num_invert ec.n a).1 : Nat) : ZMod ec.n) = (a : ZMod ec.n)⁻¹ := by
  haveI : NeZero ec.n := ⟨ok.prime.ne_zero⟩
  exact ZMod.natCast_zmod_val _

theorem inv_lt (ok : EcOk ec G) (a : Nat) : (num_invert ec.n a).1 < ec.n := by
  haveI : NeZero ec.n := ⟨ok.prime.ne_zero⟩
  exact ZMod.val_lt _

theorem cast_ne {n a : Nat} (h0 : a ≠ 0) (h : a < n) : (a : ZMod n) ≠ 0 := by
  rw [ne_eq, ZMod.natCast_eq_zero_iff]
  exact fun hd => h0 (Nat.eq_zero_of_dvd_of_lt hd h)

/-! ### Scalars as elements of the field -/

theorem set_sc_ok {n x : Nat} (hx : x < n) : ∃ z, fe_set_sc fe n x = .ok (z, decide (x < fe.p)) ∧
    (x < fe.p → z = (x : ZMod fe.p)) := by
  have hl : (bigBytes (feSize fe) x).length = feSize fe := Hsh.bigBytes_len _ _
  unfold fe_set_sc
  dsimp only
  rw [fe_import_ok fe hl.ge, C.ok_bind, List.take_of_length_le hl.le, Drb.beVal_bigBytes]
  have hp := feSize_pow fe
  refine ⟨((x % 256 ^ feSize fe % 2 ^ fe.p.size : Nat) : ZMod fe.p), ?_, fun h => ?_⟩
  · rw [C.pure_eq]
    congr 2
    split
    · by_cases h : x < fe.p
      · rw [Nat.mod_eq_of_lt (h.trans hp), decide_eq_true h]; rfl
      · rw [decide_eq_false h]; rfl
    · rename_i h
      have : x < 256 ^ feSize fe := (hx.trans (scSize_pow n)).trans_le (Nat.pow_le_pow_right (by norm_num) (by omega))
      rw [Nat.mod_eq_of_lt this]; rfl
  · rw [Nat.mod_eq_of_lt (h.trans hp), Nat.mod_eq_of_lt (h.trans (Nat.lt_size_self _))]

theorem val_eq_iff {X : ZMod fe.p} {x : Nat} (hx : x < fe.p) : X = (x : ZMod fe.p) ↔ X.val = x := by
  constructor
  · rintro rfl
    rw [ZMod.val_natCast, Nat.mod_eq_of_lt hx]
  · intro h
    rw [← h, ZMod.natCast_val, ZMod.cast_id', id]

theorem equal_r_ok (ok : EcOk ec G) (hg : ec.smallGap = true) {P : Pt ec.toCurve} {j : Jge (ZMod fe.p)} (hj : Jac j P) {x : Nat}
    (hx : x < ec.n) : jge_equal_r_var ec j x = .ok (decide (P ≠ 0 ∧ absc P % ec.n = x)) := by
  have hgap := ok.gap
  have hn := ok.prime.pos
  unfold jge_equal_r_var
  rw [hg, show C.check true = .ok () from rfl, C.ok_bind]
  rcases P with _ | ⟨X, Y, h⟩
  · rw [show j = ⟨1, 1, 0, true, false⟩ from hj]
    simp [C.pure_eq, Point.zero_def]
  · obtain ⟨h1, h2, h3, -, -⟩ := hj
    have hne : (Point.some X Y h : Pt ec.toCurve) ≠ 0 := Point.some_ne_zero h
    rw [h1, if_neg (by simp)]
    have habs : absc (Point.some X Y h : Pt ec.toCurve) = X.val := rfl
    have hX := X.val_lt
    simp only [ne_eq, hne, not_false_eq_true, true_and, habs]
    obtain ⟨z, e1, e2⟩ := set_sc_ok (fe := fe) hx
    rw [e1, C.ok_bind]
    dsimp only
    by_cases hxp : x < fe.p
    swap
    · rw [decide_eq_false hxp]
      simp only [Bool.not_false, if_true, C.pure_eq]
      rw [decide_eq_false]
      rw [Nat.mod_eq_of_lt (by omega)]; omega
    rw [decide_eq_true hxp, e2 hxp]
    simp only [Bool.not_true, Bool.false_eq_true, if_false, C.pure_eq]
    have hzz : j.z * j.z ≠ 0 := mul_ne_zero h2 h2
    have q1 : fe_equal j.x (↑x * (j.z * j.z)) = decide (X.val = x) := by
      rw [fe_equal, h3, pow_two, decide_eq_decide, ← val_eq_iff hxp]
      exact mul_left_inj' hzz
    rw [q1]
    by_cases hv : X.val = x
    · rw [if_pos (decide_eq_true hv), decide_eq_true]
      rw [hv, Nat.mod_eq_of_lt hx]
    rw [if_neg (by simp [hv]), ok.highOrder]
    by_cases hp : fe.p ≤ ec.n
    · rw [if_pos (decide_eq_true hp), decide_eq_false]
      rw [Nat.mod_eq_of_lt (by omega)]; exact hv
    rw [if_neg (by simp [hp]), ok.sc_p, Nat.mod_eq_sub_mod (show ec.n ≤ fe.p by omega),
      Nat.mod_eq_of_lt (show fe.p - ec.n < ec.n by omega)]
    have hmod : X.val % ec.n = x ↔ X.val = x + ec.n := by
      by_cases hc : X.val < ec.n
      · rw [Nat.mod_eq_of_lt hc]; omega
      · rw [Nat.mod_eq_sub_mod (by omega), Nat.mod_eq_of_lt (by omega)]; omega
    split
    · rw [decide_eq_false]; rw [hmod]; omega
    · rename_i hs
      have hs' : x + ec.n < fe.p := by omega
      rw [fe_equal, h3, ok.fe_n]
      congr 1
      rw [decide_eq_decide, hmod, ← val_eq_iff hs', pow_two, Nat.cast_add, ← add_mul]
      exact mul_left_inj' hzz

/-! ### Verification -/

/-- The sum which the verifier and the recovery compute. -/
theorem lin_cast (ok : EcOk ec G) {a b a' b' : Nat} (ha : (a : ZMod ec.n) = a') (hb : (b : ZMod ec.n) = b') (Q : Pt ec.toCurve) :
    a • G + b • Q = a' • G + b' • Q := by
  rw [smul_cast ok ha, smul_cast ok hb]

theorem inv_of_mul (ok : EcOk ec G) {s w : Nat} (h : s * w % ec.n = 1) : (w : ZMod ec.n) = (s : ZMod ec.n)⁻¹ := by
  have := Fact.mk ok.prime
  have h1 : ((s * w : Nat) : ZMod ec.n) = (1 : Nat) := by
    rw [ZMod.natCast_eq_natCast_iff', h, Nat.mod_eq_of_lt ok.prime.one_lt]
  rw [Nat.cast_mul, Nat.cast_one] at h1
  exact (eq_inv_of_mul_eq_one_right h1)

theorem mul_of_inv (ok : EcOk ec G) {s : Nat} (h0 : s ≠ 0) (hs : s < ec.n) : s * (num_invert ec.n s).1 % ec.n = 1 := by
  have := Fact.mk ok.prime
  have h1 : ((s * (num_invert ec.n s).1 : Nat) : ZMod ec.n) = (1 : Nat) := by
    rw [Nat.cast_mul, inv_cast ok, Nat.cast_one, mul_inv_cancel₀ (cast_ne h0 hs)]
  rwa [ZMod.natCast_eq_natCast_iff', Nat.mod_eq_of_lt ok.prime.one_lt] at h1

theorem valid_iff (ok : EcOk ec G) {m m' r s : Nat} (hm : (m' : ZMod ec.n) = m) (h0 : 0 < s) (hs : s < ec.n) (Q : Pt ec.toCurve) :
    EcdsaValid G Q ec.n m r s ↔ 0 < r ∧ r < ec.n ∧
      (m' * (num_invert ec.n s).1 % ec.n) • G + (r * (num_invert ec.n s).1 % ec.n) • Q ≠ 0 ∧
      absc ((m' * (num_invert ec.n s).1 % ec.n) • G + (r * (num_invert ec.n s).1 % ec.n) • Q) % ec.n = r := by
  have key : ∀ w, s * w % ec.n = 1 → (m * w) • G + (r * w) • Q =
      (m' * (num_invert ec.n s).1 % ec.n) • G + (r * (num_invert ec.n s).1 % ec.n) • Q := by
    intro w hw
    apply lin_cast ok
    · rw [ZMod.natCast_mod, Nat.cast_mul, Nat.cast_mul, inv_cast ok, inv_of_mul ok hw, hm]
    · rw [ZMod.natCast_mod, Nat.cast_mul, Nat.cast_mul, inv_cast ok, inv_of_mul ok hw]
  constructor
  · rintro ⟨h1, h2, -, -, w, hw, h3, h4⟩
    rw [key w hw] at h3 h4
    exact ⟨h1, h2, h3, h4⟩
  · rintro ⟨h1, h2, h3, h4⟩
    refine ⟨h1, h2, h0, hs, _, mul_of_inv ok h0.ne' hs, ?_⟩
    rw [key _ (mul_of_inv ok h0.ne' hs)]
    exact ⟨h3, h4⟩

theorem check_inv {n a : Nat} (h : a ≠ 0) : C.check (num_invert n a).2 = .ok () := by
  rw [num_invert]
  simp [h, C.check]

theorem verify_ok (ok : EcOk ec G) (msg pub : List Byte) {sig : List Byte} (hl : 2 * scSize ec.n ≤ sig.length) :
    ∃ b, ecdsa_verify ec msg sig pub = .ok b ∧ (b = true ↔ ∃ Q : Pt ec.toCurve, Sec1 Q pub ∧
      beVal ((sig.drop (scSize ec.n)).take (scSize ec.n)) ≤ ec.n / 2 ∧
      EcdsaValid G Q ec.n (leftBits ec.n msg) (beVal (sig.take (scSize ec.n)))
        (beVal ((sig.drop (scSize ec.n)).take (scSize ec.n)))) := by
  have hn := ok.prime.pos
  obtain ⟨r, b1, e1, l1, i1, j1, -⟩ := num_import_lt (xp := sig) hn (by omega)
  obtain ⟨s, b2, e2, l2, i2, j2, -⟩ := num_import_lt (xp := sig.drop (scSize ec.n)) hn (by rw [List.length_drop]; omega)
  generalize beVal (sig.take (scSize ec.n)) = r' at *
  generalize beVal ((sig.drop (scSize ec.n)).take (scSize ec.n)) = s' at *
  unfold ecdsa_verify
  rw [e1, C.ok_bind]
  dsimp only
  cases b1 with
  | false =>
    refine ⟨false, rfl, ?_⟩
    simp only [Bool.false_eq_true, false_iff]
    rintro ⟨Q, -, -, -, hr, -⟩
    exact absurd (i1.2 hr) (by simp)
  | true =>
  rw [e2]
  simp only [Bool.not_true, Bool.false_eq_true, if_false, C.ok_bind]
  cases b2 with
  | false =>
    refine ⟨false, rfl, ?_⟩
    simp only [Bool.false_eq_true, false_iff]
    rintro ⟨Q, -, -, -, -, -, hs, -⟩
    exact absurd (i2.2 hs) (by simp)
  | true =>
  obtain rfl := j1 rfl
  obtain rfl := j2 rfl
  simp only [Bool.not_true, Bool.false_eq_true, if_false]
  by_cases hz : r = 0 ∨ s = 0
  · rw [if_pos hz]
    refine ⟨false, rfl, ?_⟩
    simp only [Bool.false_eq_true, false_iff]
    rintro ⟨Q, -, -, h1, -, h2, -⟩
    omega
  rw [if_neg hz]
  push Not at hz
  by_cases hh : s > ec.n / 2
  · rw [if_pos hh]
    refine ⟨false, rfl, ?_⟩
    simp only [Bool.false_eq_true, false_iff]
    rintro ⟨Q, -, h1, -⟩
    omega
  rw [if_neg hh]
  obtain ⟨Q, b3, f1, f2, f3⟩ := import_ok ok pub
  rw [f1, C.ok_bind]
  dsimp only
  have hQ : ∀ p : Pt ec.toCurve → Prop, (∃ Q', Sec1 Q' pub ∧ p Q') ↔ b3 = true ∧ p Q := by
    intro p
    constructor
    · rintro ⟨Q', h1, h2⟩
      obtain rfl := f3 Q' h1
      exact ⟨f2.2 h1, h2⟩
    · rintro ⟨h1, h2⟩
      exact ⟨Q, f2.1 h1, h2⟩
  rw [hQ]
  cases b3 with
  | false => exact ⟨false, rfl, by simp⟩
  | true =>
  simp only [Bool.not_true, Bool.false_eq_true, if_false, true_and]
  rw [check_inv hz.2, C.ok_bind, reduce_bits hn]
  have hm : ((leftBits ec.n msg % ec.n : Nat) : ZMod ec.n) = leftBits ec.n msg := ZMod.natCast_mod _ _
  rw [valid_iff ok hm (by omega) l2]
  dsimp only
  have u1 : leftBits ec.n msg % ec.n * (num_invert ec.n s).1 % ec.n < ec.n := Nat.mod_lt _ hn
  have u2 : r * (num_invert ec.n s).1 % ec.n < ec.n := Nat.mod_lt _ hn
  obtain ⟨⟨j, g1, g2⟩, g3⟩ := wei_mul_double_exact ok.wei Q (Or.inr (ok.all Q)) u1 u2
  generalize (leftBits ec.n msg % ec.n * (num_invert ec.n s).1 % ec.n) • G + (r * (num_invert ec.n s).1 % ec.n) • Q = P at *
  split
  · rename_i hgap
    rw [g1, C.ok_bind, equal_r_ok ok hgap g2 l1]
    refine ⟨_, rfl, ?_⟩
    rw [decide_eq_true_iff]
    exact ⟨fun h => ⟨by omega, by omega, l1, h⟩, fun h => h.2.2.2⟩
  · rw [g3, C.ok_bind]
    rcases P with _ | ⟨x, y, h⟩
    · rw [← Point.zero_def, aff_zero]
      exact ⟨false, rfl, by simp⟩
    · rw [aff_some]
      refine ⟨_, rfl, ?_⟩
      have hne : (Point.some x y h : Pt ec.toCurve) ≠ 0 := Point.some_ne_zero h
      have habs : absc (Point.some x y h : Pt ec.toCurve) = x.val := rfl
      rw [habs]
      simp only [num_set_fe, beq_iff_eq]
      exact ⟨fun h => ⟨by omega, by omega, l1, hne, h⟩, fun h => h.2.2.2.2⟩

/-! ### Signing -/

theorem ecNonce_succ {S : Type} (gen : S → Nat → List Byte × S) (n : Nat) (st : S) (i : Nat) :
    ecNonce gen n (gen st (dsaLen n)).2 i = ecNonce gen n st (i + 1) := by
  unfold ecNonce
  have : ∀ i, dsaNonceState gen n (gen st (dsaLen n)).2 i = dsaNonceState gen n st (i + 1) := by
    intro i
    induction i with
    | zero => rfl
    | succ i ih => rw [dsaNonceState, ih]; rfl
  rw [this]

theorem sign_loop_ok {S : Type} (rng : ByteGen S) (ok : EcOk ec G) : ∀ (fuel : Nat) (st : S),
    (ecdsa_sign_loop rng ec fuel st = .spin ∧ ∀ j < fuel, ¬ EcNonceOk G ec.n (ecNonce rng.gen ec.n st j)) ∨
    ∃ i < fuel, (∀ j < i, ¬ EcNonceOk G ec.n (ecNonce rng.gen ec.n st j)) ∧
      EcNonceOk G ec.n (ecNonce rng.gen ec.n st i) ∧
      ecdsa_sign_loop rng ec fuel st = .ok ⟨ecNonce rng.gen ec.n st i, absc (ecNonce rng.gen ec.n st i • G) % ec.n,
        decide (ordin (ecNonce rng.gen ec.n st i • G) % 2 = 1), !decide (absc (ecNonce rng.gen ec.n st i • G) < ec.n)⟩
  | 0, st => Or.inl ⟨rfl, fun j h => absurd h (by omega)⟩
  | fuel + 1, st => by
    have hn := ok.prime.pos
    have h0 : ecNonce rng.gen ec.n st 0 = leftBits ec.n (rng.gen st (scSize ec.n)).1 := rfl
    rw [ecdsa_sign_loop]
    dsimp only
    rw [reduce_bits hn, ← h0, R.liftM_eq, (wei_mul_g_exact ok.wei _).2, R.lift_ok, R.ok_bind]
    dsimp only
    by_cases hk : EcNonceOk G ec.n (ecNonce rng.gen ec.n st 0)
    · refine Or.inr ⟨0, by omega, fun j h => absurd h (by omega), hk, ?_⟩
      obtain ⟨h1, h2, h3, h4⟩ := hk
      generalize ecNonce rng.gen ec.n st 0 = k at *
      rw [Nat.mod_eq_of_lt h2, decide_eq_true h2]
      generalize hP : k • G = P at *
      rcases P with _ | ⟨x, y, h⟩
      · exact absurd rfl h3
      · have hx : x.val % ec.n ≠ 0 := h4
        rw [aff_some]
        refine (if_pos ?_).trans ?_
        · simp [num_set_fe, hx]; omega
        · rfl
    · rw [if_neg]
      · rcases sign_loop_ok rng ok fuel (rng.gen st (scSize ec.n)).2 with ⟨e1, e2⟩ | ⟨i, hi, e1, e2, e3⟩
        · refine Or.inl ⟨e1, ?_⟩
          rintro (_ | j) hj
          · exact hk
          · rw [← ecNonce_succ]; exact e2 j (by omega)
        · refine Or.inr ⟨i + 1, by omega, ?_, ?_, ?_⟩
          · rintro (_ | j) hj
            · exact hk
            · rw [← ecNonce_succ]; exact e1 j (by omega)
          · rw [← ecNonce_succ]; exact e2
          · rw [← ecNonce_succ]; exact e3
      · intro hc
        apply hk
        generalize ecNonce rng.gen ec.n st 0 = k at *
        simp only [Bool.and_eq_true, decide_eq_true_eq, bne_iff_ne, Bool.not_eq_true', num_set_fe] at hc
        obtain ⟨⟨⟨h1, h2⟩, h3⟩, h4⟩ := hc
        rw [Nat.mod_eq_of_lt h1] at h2 h3 h4
        refine ⟨by omega, h1, ?_, h4⟩
        intro hz
        rw [hz, aff_zero] at h3
        simp at h3

/-- The key of a string. -/
theorem key_ok (ok : EcOk ec G) {priv : List Byte} (hl : scSize ec.n ≤ priv.length) :
    ∃ a b, ecdsa_key ec priv = .ok (a, b) ∧ a < ec.n ∧
      (b = true ↔ 0 < beVal (priv.take (scSize ec.n)) ∧ beVal (priv.take (scSize ec.n)) < ec.n) ∧
      (beVal (priv.take (scSize ec.n)) < ec.n → a = beVal (priv.take (scSize ec.n))) ∧
      (¬ beVal (priv.take (scSize ec.n)) < ec.n → a = 0) := by
  unfold ecdsa_key
  rw [num_import_ok hl, C.ok_bind]
  have hn := ok.prime.pos
  generalize beVal (priv.take (scSize ec.n)) = v
  refine ⟨_, _, rfl, ?_, ?_, ?_, ?_⟩
  · split <;> assumption
  · by_cases h : v < ec.n
    · simp [h]
      try omega
    · simp [h]
  · intro h; rw [if_pos h]
  · intro h; rw [if_neg h]

theorem sign_ok {S : Type} (rng : Source S) (ok : EcOk ec G) (fuel : Nat) (msg : List Byte) {priv : List Byte}
    (hl : scSize ec.n ≤ priv.length) {a : Nat} {b : Bool} (hkey : ecdsa_key ec priv = .ok (a, b)) (ha : a < ec.n) :
    let nonce := ecNonce rng.gen ec.n (rng.init (bigBytes (dsaLen ec.n) a ++ bigBytes (dsaLen ec.n) (leftBits ec.n msg % ec.n)))
    (ecdsa_sign rng fuel ec msg priv = .spin ∧ ∀ j < fuel, ¬ EcNonceOk G ec.n (nonce j)) ∨
    ∃ i < fuel, ∃ r s, (∀ j < i, ¬ EcNonceOk G ec.n (nonce j)) ∧ EcNonceOk G ec.n (nonce i) ∧
      EcdsaSigned G ec.n a (leftBits ec.n msg) (nonce i) r s ∧
      ecdsa_sign rng fuel ec msg priv = .ok (bigBytes (dsaLen ec.n) r ++ bigBytes (dsaLen ec.n) (if ec.n / 2 < s then ec.n - s else s),
        2 * (decide (ec.n ≤ absc (nonce i • G))).toNat +
          (decide (ordin (nonce i • G) % 2 = 1) ^^ decide (ec.n / 2 < s)).toNat, b) := by
  dsimp only
  have hn := ok.prime.pos
  have := Fact.mk ok.prime
  unfold ecdsa_sign
  rw [R.liftM_eq, hkey, R.lift_ok, R.ok_bind, reduce_bits hn]
  dsimp only
  rw [show num_export ec.n a = bigBytes (dsaLen ec.n) a from rfl,
    show num_export ec.n (leftBits ec.n msg % ec.n) = bigBytes (dsaLen ec.n) (leftBits ec.n msg % ec.n) from rfl]
  generalize rng.init (bigBytes (dsaLen ec.n) a ++ bigBytes (dsaLen ec.n) (leftBits ec.n msg % ec.n)) = st
  rcases sign_loop_ok rng.toByteGen ok fuel st with ⟨e1, e2⟩ | ⟨i, hi, e1, e2, e3⟩
  · rw [e1]
    exact Or.inl ⟨rfl, e2⟩
  · rw [e3]
    generalize hk : ecNonce rng.gen ec.n st i = k at *
    obtain ⟨k0, kn, kP, kr⟩ := e2
    refine Or.inr ⟨i, hi, absc (k • G) % ec.n, ((absc (k • G) % ec.n) * a % ec.n + leftBits ec.n msg % ec.n) % ec.n *
      (num_invert ec.n k).1 % ec.n, e1, ?_, ⟨by rw [hk], Nat.mod_lt _ hn, ?_⟩, ?_⟩
    · rw [hk]; exact ⟨k0, kn, kP, kr⟩
    · rw [hk]
      have hc : (((((absc (k • G) % ec.n) * a % ec.n + leftBits ec.n msg % ec.n) % ec.n * (num_invert ec.n k).1 % ec.n * k : Nat)) : ZMod ec.n)
          = ((leftBits ec.n msg + a * (absc (k • G) % ec.n) : Nat) : ZMod ec.n) := by
        have hk0 : (k : ZMod ec.n) ≠ 0 := cast_ne (by omega) kn
        push_cast [ZMod.natCast_mod, inv_cast ok]
        field_simp
        ring
      exact (ZMod.natCast_eq_natCast_iff' _ _ _).1 hc
    · rw [R.ok_bind]
      dsimp only
      rw [R.liftM_eq, check_inv (by omega), R.lift_ok, R.ok_bind]
      generalize hs : ((absc (k • G) % ec.n) * a % ec.n + leftBits ec.n msg % ec.n) % ec.n * (num_invert ec.n k).1 % ec.n = s
      have hmin : sc_minimize_var ec.n s = ((if ec.n / 2 < s then ec.n - s else s), decide (ec.n / 2 < s)) := by
        unfold sc_minimize_var
        by_cases h : ec.n / 2 < s
        · rw [if_pos h, if_pos h, if_neg (show ¬ s = 0 by omega), decide_eq_true h]
        · rw [if_neg h, if_neg h, decide_eq_false h]
      rw [hmin]
      congr 3
      rw [show (!decide (absc (k • G) < ec.n)) = decide (ec.n ≤ absc (k • G)) by
        by_cases h : absc (k • G) < ec.n
        · simp [h]
        · simp [h]; omega]
      rw [hk]
      generalize decide (ec.n ≤ absc (k • G)) = u
      generalize (decide (ordin (k • G) % 2 = 1) ^^ decide (ec.n / 2 < s)) = v
      cases u <;> cases v <;> rfl

/-! ### Recovery -/

theorem smul_cancel (ok : EcOk ec G) {r : Nat} (h0 : 0 < r) (hr : r < ec.n) {A B : Pt ec.toCurve} (h : r • A = r • B) : A = B := by
  by_contra hne
  have h1 : r • (A - B) = 0 := by rw [nsmul_sub, h, sub_self]
  rw [smul_zero_iff ok (sub_ne_zero.2 hne), Nat.mod_eq_of_lt hr] at h1
  omega

/-- A signature is valid exactly if there is a nonce point. -/
theorem valid_point (ok : EcOk ec G) (Q : Pt ec.toCurve) (m r s : Nat) :
    EcdsaValid G Q ec.n m r s ↔ 0 < r ∧ r < ec.n ∧ 0 < s ∧ s < ec.n ∧
      ∃ R : Pt ec.toCurve, R ≠ 0 ∧ absc R % ec.n = r ∧ r • Q + m • G = s • R := by
  have := Fact.mk ok.prime
  constructor
  · rintro ⟨h1, h2, h3, h4, w, hw, h5, h6⟩
    refine ⟨h1, h2, h3, h4, _, h5, h6, ?_⟩
    have hs0 : (s : ZMod ec.n) ≠ 0 := cast_ne (by omega) h4
    have hc := inv_of_mul ok hw
    rw [nsmul_add, ← mul_nsmul', ← mul_nsmul', add_comm]
    congr 1
    · refine smul_cast ok ?_ _
      push_cast; rw [hc]; field_simp
    · refine smul_cast ok ?_ _
      push_cast; rw [hc]; field_simp
  · rintro ⟨h1, h2, h3, h4, R, h5, h6, h7⟩
    have hs0 : (s : ZMod ec.n) ≠ 0 := cast_ne (by omega) h4
    have hw := mul_of_inv ok h3.ne' h4
    have hR : (m * (num_invert ec.n s).1) • G + (r * (num_invert ec.n s).1) • Q = R := by
      apply smul_cancel ok h3 h4
      rw [nsmul_add, ← mul_nsmul', ← mul_nsmul', ← h7, add_comm]
      congr 1
      · refine smul_cast ok ?_ _
        push_cast; rw [inv_cast ok]; field_simp
      · refine smul_cast ok ?_ _
        push_cast; rw [inv_cast ok]; field_simp
    exact ⟨h1, h2, h3, h4, _, hw, by rw [hR]; exact h5, by rw [hR]; exact h6⟩

theorem recover_ok (ok : EcOk ec G) (msg : List Byte) {sig : List Byte} (param : Nat) (hp : param < 4)
    (hl : 2 * scSize ec.n ≤ sig.length) : ∃ A : Pt ec.toCurve, ecdsa_recover_point ec msg sig param = .ok (affine A) ∧
      ∀ B : Pt ec.toCurve, B ≠ 0 → (A = B ↔ beVal ((sig.drop (scSize ec.n)).take (scSize ec.n)) ≤ ec.n / 2 ∧
        EcdsaRecovered G ec.n (leftBits ec.n msg) (beVal (sig.take (scSize ec.n)))
          (beVal ((sig.drop (scSize ec.n)).take (scSize ec.n))) param B) := by
  have hn := ok.prime.pos
  have := Fact.mk ok.prime
  have hgap := ok.gap
  obtain ⟨r, b1, e1, l1, i1, j1, -⟩ := num_import_lt (xp := sig) hn (by omega)
  obtain ⟨s, b2, e2, l2, i2, j2, -⟩ := num_import_lt (xp := sig.drop (scSize ec.n)) hn (by rw [List.length_drop]; omega)
  generalize beVal (sig.take (scSize ec.n)) = r' at *
  generalize beVal ((sig.drop (scSize ec.n)).take (scSize ec.n)) = s' at *
  have fail : ∀ x : C (Wge (ZMod fe.p)), x = .ok wge_zero →
      (∀ B : Pt ec.toCurve, s' ≤ ec.n / 2 → EcdsaRecovered G ec.n (leftBits ec.n msg) r' s' param B → False) →
      ∃ A : Pt ec.toCurve, x = .ok (affine A) ∧ ∀ B : Pt ec.toCurve, B ≠ 0 →
        (A = B ↔ s' ≤ ec.n / 2 ∧ EcdsaRecovered G ec.n (leftBits ec.n msg) r' s' param B) := by
    intro x hx hf
    refine ⟨0, by rw [hx, aff_zero]; rfl, fun B hB => ⟨fun h => absurd h.symm hB, fun h => (hf B h.1 h.2).elim⟩⟩
  unfold ecdsa_recover_point
  rw [e1, C.ok_bind]
  dsimp only
  cases b1 with
  | false =>
    refine fail _ rfl ?_
    rintro B - ⟨-, hr, -⟩
    exact absurd (i1.2 hr) (by simp)
  | true =>
  rw [e2]
  simp only [Bool.not_true, Bool.false_eq_true, if_false, C.ok_bind]
  cases b2 with
  | false =>
    refine fail _ rfl ?_
    rintro B - ⟨-, -, -, hs, -⟩
    exact absurd (i2.2 hs) (by simp)
  | true =>
  obtain rfl := j1 rfl
  obtain rfl := j2 rfl
  simp only [Bool.not_true, Bool.false_eq_true, if_false]
  by_cases hz : r = 0 ∨ s = 0
  · rw [if_pos hz]
    refine fail _ rfl ?_
    rintro B - ⟨h1, -, h2, -⟩
    omega
  rw [if_neg hz]
  push Not at hz
  by_cases hh : s > ec.n / 2
  · rw [if_pos hh]
    refine fail _ rfl ?_
    rintro B h1 -
    omega
  rw [if_neg hh]
  obtain ⟨z, f1, f2⟩ := set_sc_ok (fe := fe) l1
  rw [f1, C.ok_bind]
  dsimp only
  have habs : ∀ R : Pt ec.toCurve, absc R < fe.p := fun R => ZMod.val_lt _
  by_cases hrp : r < fe.p
  swap
  · rw [decide_eq_false hrp]
    refine fail _ rfl ?_
    rintro B - ⟨-, -, -, -, R, -, h, -⟩
    have := habs R
    omega
  rw [decide_eq_true hrp, f2 hrp]
  simp only [Bool.not_true, Bool.false_eq_true, if_false]
  have hhigh : param >>> 1 ≠ 0 ↔ 2 ≤ param := by
    rw [Nat.shiftRight_eq_div_pow]; omega
  rw [ok.highOrder]
  by_cases h1 : param >>> 1 ≠ 0 ∧ decide (fe.p ≤ ec.n) = true
  · rw [if_pos h1]
    refine fail _ rfl ?_
    rintro B - ⟨-, -, -, -, R, -, h, -⟩
    have := habs R
    rw [if_pos (hhigh.1 h1.1)] at h
    have := of_decide_eq_true h1.2
    omega
  rw [if_neg h1, ok.sc_p]
  by_cases h2 : param >>> 1 ≠ 0 ∧ r ≥ fe.p % ec.n
  · rw [if_pos h2]
    refine fail _ rfl ?_
    rintro B - ⟨-, -, -, -, R, -, h, -⟩
    have := habs R
    rw [if_pos (hhigh.1 h2.1)] at h
    have h3 := h2.2
    rw [Nat.mod_eq_sub_mod (show ec.n ≤ fe.p by omega), Nat.mod_eq_of_lt (by omega)] at h3
    omega
  rw [if_neg h2]
  have hx : (if param >>> 1 ≠ 0 then (r : ZMod fe.p) + ec.fe_n else (r : ZMod fe.p)) =
      ((r + (if 2 ≤ param then ec.n else 0) : Nat) : ZMod fe.p) := by
    by_cases h : 2 ≤ param
    · rw [if_pos (hhigh.2 h), if_pos h, Nat.cast_add, ok.fe_n]
    · rw [if_neg (fun h' => h (hhigh.1 h')), if_neg h, Nat.add_zero]
  have hX : r + (if 2 ≤ param then ec.n else 0) < fe.p := by
    by_cases h : 2 ≤ param
    · rw [if_pos h]
      have h' := hhigh.2 h
      have q1 : ¬ fe.p ≤ ec.n := fun hc => h1 ⟨h', decide_eq_true hc⟩
      have q2 : ¬ r ≥ fe.p % ec.n := fun hc => h2 ⟨h', hc⟩
      rw [Nat.mod_eq_sub_mod (show ec.n ≤ fe.p by omega), Nat.mod_eq_of_lt (by omega)] at q2
      omega
    · rw [if_neg h]; exact hrp
  rw [hx]
  obtain ⟨R, b3, g1, g2, g3, g4⟩ := set_x_ok ok ((r + (if 2 ≤ param then ec.n else 0) : Nat) : ZMod fe.p) (some (param &&& 1 == 1))
  rw [g1, C.ok_bind]
  dsimp only
  have hpar : param &&& 1 = param % 2 := Nat.and_one_is_mod _
  have onc : ∀ (x y : ZMod fe.p) (h : (weier ec.a ec.b).Nonsingular x y), y ^ 2 = x ^ 3 + ec.a * x + ec.b := by
    intro x y h
    have := h.1
    rw [WeierstrassCurve.Affine.equation_iff] at this
    simpa [weier] using this
  cases b3 with
  | false =>
    refine fail _ rfl ?_
    rintro B - ⟨-, -, -, -, R', h0, h, -⟩
    rcases R' with _ | ⟨x, y, hxy⟩
    · exact h0 rfl
    · have hv : x.val = _ := h
      rw [← val_eq_iff hX] at hv
      have := g2.2 (by rw [← hv, ← onc x y hxy, pow_two]; exact ⟨y, rfl⟩)
      cases this
  | true =>
  obtain ⟨y, hy, rfl, hs⟩ := g3 rfl
  have hodd := hs _ rfl
  simp only [Bool.not_true, Bool.false_eq_true, if_false]
  rw [check_inv hz.1, C.ok_bind, reduce_bits hn]
  dsimp only
  have u0 : leftBits ec.n msg % ec.n * (num_invert ec.n r).1 % ec.n < ec.n := Nat.mod_lt _ hn
  have u1 : num_neg ec.n (leftBits ec.n msg % ec.n * (num_invert ec.n r).1 % ec.n) < ec.n := Nat.mod_lt _ hn
  have u2 : s * (num_invert ec.n r).1 % ec.n < ec.n := Nat.mod_lt _ hn
  refine ⟨_, (wei_mul_double_exact ok.wei _ (Or.inr (ok.all _)) u1 u2).2, ?_⟩
  have key : ∀ R : Pt ec.toCurve, r • (num_neg ec.n (leftBits ec.n msg % ec.n * (num_invert ec.n r).1 % ec.n) • G +
      (s * (num_invert ec.n r).1 % ec.n) • R) + leftBits ec.n msg • G = s • R := by
    intro R
    have hr0 : (r : ZMod ec.n) ≠ 0 := cast_ne hz.1 l1
    rw [nsmul_add, ← mul_nsmul', ← mul_nsmul', add_right_comm, ← add_nsmul, ← zero_add (s • R), ← zero_nsmul G]
    congr 1
    · refine smul_cast ok ?_ _
      push_cast
      rw [neg_cast ok _ u0]
      push_cast [ZMod.natCast_mod, inv_cast ok]
      field_simp
      ring
    · refine smul_cast ok ?_ _
      push_cast [ZMod.natCast_mod, inv_cast ok]
      field_simp
  intro B hB
  have hval : (((r + (if 2 ≤ param then ec.n else 0) : Nat) : ZMod fe.p)).val = r + (if 2 ≤ param then ec.n else 0) := by
    rw [ZMod.val_natCast, Nat.mod_eq_of_lt hX]
  have hparity : y.val % 2 = param % 2 := by
    rw [hpar, beq_iff_eq] at hodd
    omega
  constructor
  · rintro rfl
    refine ⟨by omega, by omega, l1, by omega, l2, _, Point.some_ne_zero hy, hval, hparity, key _⟩
  · rintro ⟨-, -, -, -, -, R', h0, h3, h4, h5⟩
    have hR : R' = .some _ y hy := by
      rcases R' with _ | ⟨x', y', hxy⟩
      · exact absurd rfl h0
      · have hv : x'.val = _ := h3
        rw [← val_eq_iff hX] at hv
        subst hv
        have hpp : y'.val % 2 = param % 2 := h4
        have : y' = y := parity_inj ok (onc _ _ hxy) (onc _ _ hy) (by rw [hparity, hpp])
        subst this
        rfl
    rw [hR, ← key] at h5
    exact (smul_cancel ok (by omega) l1 (add_right_cancel h5)).symm

/-! ### Keys -/

theorem import_cases (ok : EcOk ec G) (pub : List Byte) :
    (∃ Q : Pt ec.toCurve, Sec1 Q pub ∧ wge_import ec pub = .ok (affine Q, true) ∧ ∀ P : Pt ec.toCurve, Sec1 P pub → P = Q) ∨
    ∃ Q : Pt ec.toCurve, wge_import ec pub = .ok (affine Q, false) ∧ ∀ P : Pt ec.toCurve, ¬ Sec1 P pub := by
  obtain ⟨Q, b, h1, h2, h3⟩ := import_ok ok pub
  cases b with
  | true => exact Or.inl ⟨Q, h2.1 rfl, h1, h3⟩
  | false => exact Or.inr ⟨Q, h1, fun P hP => by have := h3 P hP; subst this; exact absurd (h2.2 hP) (by simp)⟩

theorem sec1_ne {c : Curve (ZMod fe.p)} {Q : Pt c} {pub : List Byte} (h : Sec1 Q pub) : Q ≠ 0 := by
  rintro rfl; exact sec1_zero h

theorem pad_skip_val (zn : Nat) : ∀ xp : List Byte, beVal (byte_pad_skip zn xp) = beVal xp ∧
    (zn < (byte_pad_skip zn xp).length → 256 ^ zn ≤ beVal (byte_pad_skip zn xp))
  | [] => ⟨rfl, fun h => absurd h (by simp [byte_pad_skip])⟩
  | x :: xs => by
    have hx : beVal (x :: xs) = x.toNat * 256 ^ xs.length + beVal xs := by
      rw [show x :: xs = [x] ++ xs from rfl, Asn1.beVal_append]
      simp [beVal_eq, leVal_cons, leVal_nil]
    rw [byte_pad_skip]
    split
    · rename_i h
      obtain ⟨i1, i2⟩ := pad_skip_val zn xs
      refine ⟨?_, i2⟩
      rw [i1, hx, h.2]; simp
    · rename_i h
      refine ⟨rfl, fun hlen => ?_⟩
      rw [List.length_cons] at hlen h
      have hx0 : x ≠ 0 := fun h0 => h ⟨hlen, h0⟩
      have : 1 ≤ x.toNat := by
        rcases Nat.eq_zero_or_pos x.toNat with h0 | h0
        · exact absurd (BitVec.eq_of_toNat_eq h0) hx0
        · exact h0
      rw [hx]
      calc 256 ^ zn ≤ 256 ^ xs.length := Nat.pow_le_pow_right (by norm_num) (by omega)
        _ ≤ x.toNat * 256 ^ xs.length := Nat.le_mul_of_pos_left _ this
        _ ≤ _ := Nat.le_add_right _ _

theorem replicate_val (n : Nat) : beVal (List.replicate n (0 : Byte)) = 0 := by
  induction n with
  | zero => rfl
  | succ n ih =>
    rw [List.replicate_succ, show ∀ l : List Byte, (0 : Byte) :: l = [0] ++ l from fun _ => rfl, Asn1.beVal_append, ih]
    simp [beVal_eq, leVal_cons, leVal_nil]

theorem byte_pad_ok (zn : Nat) (xp : List Byte) : (byte_pad_be zn xp).1.length = zn ∧
    ((byte_pad_be zn xp).2 = true ↔ beVal xp < 256 ^ zn) ∧
    (beVal xp < 256 ^ zn → beVal (byte_pad_be zn xp).1 = beVal xp) ∧
    (¬ beVal xp < 256 ^ zn → beVal (byte_pad_be zn xp).1 = 0) := by
  obtain ⟨h1, h2⟩ := pad_skip_val zn xp
  unfold byte_pad_be
  dsimp only
  split
  · rename_i h
    have := h2 h
    rw [h1] at this
    refine ⟨List.length_replicate, by simp; exact this, fun h => absurd h (by omega), fun _ => replicate_val _⟩
  · rename_i h
    have hlt : beVal xp < 256 ^ zn := by
      rw [← h1]
      exact (Asn1.beVal_lt _).trans_le (Nat.pow_le_pow_right (by norm_num) (by omega))
    refine ⟨by simp; omega, by simp [hlt], fun _ => ?_, fun h => absurd hlt h⟩
    rw [Asn1.beVal_append, replicate_val, h1]; simp

theorem import_pad_ok (xp : List Byte) : ∃ x b, fe_import_pad fe xp = .ok (x, b) ∧ (b = true ↔ beVal xp < fe.p) ∧
    (beVal xp < fe.p → x = (beVal xp : ZMod fe.p)) := by
  obtain ⟨h1, h2, h3, h4⟩ := byte_pad_ok (feSize fe) xp
  have hp := feSize_pow fe
  unfold fe_import_pad
  dsimp only
  rw [fe_import_ok fe h1.ge, C.ok_bind, List.take_of_length_le h1.le]
  refine ⟨_, _, rfl, ?_, ?_⟩
  · rw [Bool.and_eq_true, h2, decide_eq_true_iff]
    constructor
    · rintro ⟨q1, q2⟩
      rwa [h3 q1] at q2
    · intro q
      exact ⟨q.trans hp, by rw [h3 (q.trans hp)]; exact q⟩
  · intro q
    rw [h3 (q.trans hp), Nat.mod_eq_of_lt (q.trans (Nat.lt_size_self _))]

theorem combine_loop_ok (ok : EcOk ec G) : ∀ (pubs : List (List Byte)) (j : Jge (ZMod fe.p)) (P : Pt ec.toCurve) (ret : Bool), Jac j P →
    ∃ j' P' b, pubkey_combine_loop ec pubs j ret = .ok (j', b) ∧ Jac j' P' ∧
      (b = true ↔ ret = true ∧ ∃ Qs : List (Pt ec.toCurve), List.Forall₂ Sec1 Qs pubs) ∧
      ∀ Qs : List (Pt ec.toCurve), List.Forall₂ Sec1 Qs pubs → P' = P + Qs.sum
  | [], j, P, ret, h => by
    refine ⟨j, P, ret, rfl, h, ⟨fun h => ⟨h, [], .nil⟩, fun h => h.1⟩, ?_⟩
    rintro Qs (_ | _)
    simp
  | pub :: pubs, j, P, ret, h => by
    rw [pubkey_combine_loop]
    rcases import_cases ok pub with ⟨Q, q1, q2, q3⟩ | ⟨Q, q1, q2⟩
    · rw [q2, C.ok_bind]
      obtain ⟨j', P', b, h1, h2, h3, h4⟩ := combine_loop_ok ok pubs _ (P + Q) (ret && true) (jge_mixed_add_exact ok.wei.good Q h).2
      refine ⟨j', P', b, h1, h2, ?_, ?_⟩
      · rw [h3, Bool.and_true]
        constructor
        · rintro ⟨a1, Qs, a2⟩
          exact ⟨a1, Q :: Qs, .cons q1 a2⟩
        · rintro ⟨a1, Qs, a2⟩
          cases a2 with
          | cons a3 a4 => exact ⟨a1, _, a4⟩
      · intro Qs hQs
        cases hQs with
        | cons a3 a4 =>
          rw [h4 _ a4, q3 _ a3, List.sum_cons, add_assoc]
    · rw [q1, C.ok_bind]
      obtain ⟨j', P', b, h1, h2, h3, h4⟩ := combine_loop_ok ok pubs _ (P + Q) (ret && false) (jge_mixed_add_exact ok.wei.good Q h).2
      refine ⟨j', P', b, h1, h2, ?_, ?_⟩
      · rw [h3, Bool.and_false]
        simp only [Bool.false_eq_true, false_and, false_iff]
        rintro ⟨-, Qs, a2⟩
        cases a2 with
        | cons a3 a4 => exact q2 _ a3
      · intro Qs hQs
        cases hQs with
        | cons a3 a4 => exact absurd a3 (q2 _)

end

end Torsion.Ecc
