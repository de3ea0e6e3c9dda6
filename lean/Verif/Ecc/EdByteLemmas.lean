import Verif.Ecc.Eddsa
import Verif.Ecc.EddsaSpec
import Verif.Ecc.EdMulLemmas
import Verif.Ecc.EdCurveLemmas
import Verif.Ecc.MontKeyLemmas
import Verif.Ecc.FieldRootProps

/-! Lemmas on the bytes of Edwards curves. -/
namespace Torsion.Ecc

open Torsion.Spec (EPt EdGood Ext xaff EdConst EdOk EdCurve leVal leBytes beVal clamp edLen edBytes CoordSign)

theorem adj_eq (fe : FieldCode) : feAdj fe = edLen fe := by
  unfold feAdj edLen feSize feBits
  split <;> omega

theorem edLen_bits (fe : FieldCode) : fe.p.size ≤ 8 * edLen fe - 1 := by
  unfold edLen; omega

theorem edLen_pos (fe : FieldCode) : 0 < edLen fe := by
  unfold edLen; omega

section
variable {fe : FieldCode} [Fact fe.p.Prime]

/-! ### One coordinate -/

section
variable {a d : ZMod fe.p} [g : EdGood a d]

/-- A point is determined by its ordinate and the parity of its abscissa. -/
theorem ed_y_inj {P Q : EPt a d} (hy : P.y = Q.y) (hx : P.x.val % 2 = Q.x.val % 2) : P = Q := by
  have h : (a - d * P.y ^ 2) * (P.x ^ 2 - Q.x ^ 2) = 0 := by
    have h2 := Q.on
    rw [← hy] at h2
    linear_combination P.on - h2
  rcases mul_eq_zero.1 h with h | h
  · exact absurd h (ed_e _)
  · exact EPt.ext (root_unique g.two (sub_eq_zero.1 h) (by unfold fe_is_odd; rw [hx])) hy

theorem ed_x_inj {P Q : EPt a d} (hx : P.x = Q.x) (hy : P.y.val % 2 = Q.y.val % 2) : P = Q := by
  have h : (1 - d * P.x ^ 2) * (P.y ^ 2 - Q.y ^ 2) = 0 := by
    have h2 := Q.on
    rw [← hx] at h2
    linear_combination P.on - h2
  rcases mul_eq_zero.1 h with h | h
  · exfalso
    have h0 : P.x ≠ 0 := by rintro h0; rw [h0] at h; simp at h
    exact g.nsq ⟨1 / P.x, by rw [div_mul_div_comm, eq_div_iff (mul_ne_zero h0 h0)]; linear_combination -h⟩
  · exact EPt.ext hx (root_unique g.two (sub_eq_zero.1 h) (by unfold fe_is_odd; rw [hy]))

omit [Fact fe.p.Prime] in
theorem coord_some {v : ZMod fe.p} {s : Bool} [Fact fe.p.Prime] : CoordSign v (some s) ↔ fe_is_odd fe v = s := by
  unfold CoordSign fe_is_odd
  cases s <;> simp

end

variable {ec : Edwards (ZMod fe.p)} [g : EdGood ec.a ec.d]

/-- The choice of the root. -/
theorem root_sign (two : (2 : ZMod fe.p) ≠ 0) {r w : ZMod fe.p} {b : Bool} (hb : b = true → r * r = w) (hs : b = true ↔ IsSquare w) (sign : Option Bool) :
    ∀ q : ZMod fe.p × Bool, (match sign with
      | none => (r, b)
      | some sign => (fe_set_odd fe r sign, b && !(fe_is_zero (fe_set_odd fe r sign) && sign))) = q →
      (q.2 = true → q.1 ^ 2 = w ∧ CoordSign q.1 sign) ∧ (∀ u, u ^ 2 = w → CoordSign u sign → q.2 = true) := by
  cases sign with
  | none => rintro q rfl; exact ⟨fun h => ⟨by rw [pow_two, hb h], trivial⟩, fun u hu _ => hs.2 ⟨u, by rw [← hu, pow_two]⟩⟩
  | some s =>
    rintro q rfl
    dsimp only
    refine ⟨?_, ?_⟩
    · intro h
      rw [Bool.and_eq_true, Bool.not_eq_true', Bool.and_eq_false_iff] at h
      refine ⟨by rw [set_odd_sq, pow_two, hb h.1], coord_some.2 ?_⟩
      by_cases hr : r = 0
      · rw [hr, set_odd_zero] at h ⊢
        rcases h.2 with h | h
        · simp [fe_is_zero] at h
        · rw [h]; simp [fe_is_odd]
      · exact set_odd_parity two hr s
    · intro u hu hc
      have hb' := hs.2 ⟨u, by rw [← hu, pow_two]⟩
      rw [hb', Bool.true_and, Bool.not_eq_true', Bool.and_eq_false_iff]
      by_cases hr : fe_set_odd fe r s = 0
      · right
        have : u = 0 := by
          have h0 := set_odd_sq r s
          rw [hr] at h0
          have : u ^ 2 = 0 := by rw [hu, ← hb hb', ← pow_two, ← h0]; ring
          exact pow_eq_zero_iff (two_ne_zero) |>.1 this
        rw [coord_some, this] at hc
        rw [← hc]; simp [fe_is_odd]
      · left; simpa [fe_is_zero] using hr

theorem set_y_ok (hfe : fe ∈ fieldCodes) (c : EdConst ec) (y : ZMod fe.p) (sign : Option Bool) : ∃ (Q : EPt ec.a ec.d) (b : Bool),
    xge_set_y ec y sign = .ok (xaff Q, b) ∧ (b = true → Q.y = y ∧ CoordSign Q.x sign) ∧
    (∀ P : EPt ec.a ec.d, P.y = y → CoordSign P.x sign → b = true) ∧ (b = false → Q = 0) := by
  obtain ⟨r, b, h1, h2, h3⟩ := fe_isqrt_exact fe hfe (ZMod.card fe.p) 0 (by omega) (y * y - 1) (ec.d * (y * y) - ec.a)
  have hv : ec.d * (y * y) - ec.a ≠ 0 := by
    have := ed_e (a := ec.a) (d := ec.d) y
    intro h; apply this; linear_combination -h
  have key := root_sign (fe := fe) g.two (w := (y * y - 1) / (ec.d * (y * y) - ec.a)) h3
    (h2.trans ⟨fun h => h.2, fun h => ⟨hv, h⟩⟩) sign
  have fin : ∀ (v : ZMod fe.p) (b' : Bool), (b' = true → v ^ 2 = (y * y - 1) / (ec.d * (y * y) - ec.a) ∧ CoordSign v sign) →
      (∀ u, u ^ 2 = (y * y - 1) / (ec.d * (y * y) - ec.a) → CoordSign u sign → b' = true) → ∃ (Q : EPt ec.a ec.d) (b : Bool),
      (C.ok ((⟨fe_select v 0 (!b'), fe_select y 1 (!b'), 1, fe_select v 0 (!b') * fe_select y 1 (!b')⟩ : Xge (ZMod fe.p)), b') : C _) = .ok (xaff Q, b) ∧ (b = true → Q.y = y ∧ CoordSign Q.x sign) ∧
      (∀ P : EPt ec.a ec.d, P.y = y → CoordSign P.x sign → b = true) ∧ (b = false → Q = 0) := by
    intro v b' k2 k3
    cases b' with
    | false =>
      refine ⟨0, false, ?_, by simp, fun P hy hs => ?_, fun _ => rfl⟩
      · rw [xaff_zero]; simp [fe_select, xge_zero, C.pure_eq]
      · refine k3 P.x ?_ hs
        rw [eq_div_iff hv, ← hy]; linear_combination -P.on
    | true =>
      obtain ⟨q1, q2⟩ := k2 rfl
      rw [eq_div_iff hv] at q1
      exact ⟨⟨v, y, by linear_combination -q1⟩, true, by simp [fe_select, xaff, C.pure_eq], fun _ => ⟨rfl, q2⟩, fun _ _ _ => rfl, by simp⟩
  unfold xge_set_y
  dsimp only
  rw [mul_d_eq c, h1, C.ok_bind]
  dsimp only
  cases sign with
  | none => exact fin _ _ (key _ rfl).1 (key _ rfl).2
  | some s => exact fin _ _ (key _ rfl).1 (key _ rfl).2

theorem set_x_ed (hfe : fe ∈ fieldCodes) (c : EdConst ec) (x : ZMod fe.p) (sign : Option Bool) : ∃ (Q : EPt ec.a ec.d) (b : Bool),
    xge_set_x ec x sign = .ok (xaff Q, b) ∧ (b = true → Q.x = x ∧ CoordSign Q.y sign) ∧
    (∀ P : EPt ec.a ec.d, P.x = x → CoordSign P.y sign → b = true) ∧ (b = false → Q = 0) := by
  obtain ⟨r, b, h1, h2, h3⟩ := fe_isqrt_exact fe hfe (ZMod.card fe.p) 0 (by omega) (ec.a * (x * x) - 1) (ec.d * (x * x) - 1)
  have hv : ec.d * (x * x) - 1 ≠ 0 := by
    intro h
    have h0 : x ≠ 0 := by rintro rfl; simp at h
    exact g.nsq ⟨1 / x, by rw [div_mul_div_comm, eq_div_iff (mul_ne_zero h0 h0)]; linear_combination h⟩
  have key := root_sign (fe := fe) g.two (w := (ec.a * (x * x) - 1) / (ec.d * (x * x) - 1)) h3
    (h2.trans ⟨fun h => h.2, fun h => ⟨hv, h⟩⟩) sign
  have fin : ∀ (v : ZMod fe.p) (b' : Bool), (b' = true → v ^ 2 = (ec.a * (x * x) - 1) / (ec.d * (x * x) - 1) ∧ CoordSign v sign) →
      (∀ u, u ^ 2 = (ec.a * (x * x) - 1) / (ec.d * (x * x) - 1) → CoordSign u sign → b' = true) → ∃ (Q : EPt ec.a ec.d) (b : Bool),
      (C.ok ((⟨fe_select x 0 (!b'), fe_select v 1 (!b'), 1, fe_select x 0 (!b') * fe_select v 1 (!b')⟩ : Xge (ZMod fe.p)), b') : C _) = .ok (xaff Q, b) ∧ (b = true → Q.x = x ∧ CoordSign Q.y sign) ∧
      (∀ P : EPt ec.a ec.d, P.x = x → CoordSign P.y sign → b = true) ∧ (b = false → Q = 0) := by
    intro v b' k2 k3
    cases b' with
    | false =>
      refine ⟨0, false, ?_, by simp, fun P hx hs => ?_, fun _ => rfl⟩
      · rw [xaff_zero]; simp [fe_select, xge_zero, C.pure_eq]
      · refine k3 P.y ?_ hs
        rw [eq_div_iff hv, ← hx]; linear_combination -P.on
    | true =>
      obtain ⟨q1, q2⟩ := k2 rfl
      rw [eq_div_iff hv] at q1
      exact ⟨⟨x, v, by linear_combination -q1⟩, true, by simp [fe_select, xaff, C.pure_eq], fun _ => ⟨rfl, q2⟩, fun _ _ _ => rfl, by simp⟩
  unfold xge_set_x
  dsimp only
  rw [mul_d_eq c, mul_a_eq, h1, C.ok_bind]
  dsimp only
  cases sign with
  | none => exact fin _ _ (key _ rfl).1 (key _ rfl).2
  | some s => exact fin _ _ (key _ rfl).1 (key _ rfl).2

theorem set_xy_ed (c : EdConst ec) (x y : ZMod fe.p) : ∃ (Q : EPt ec.a ec.d) (b : Bool),
    xge_set_xy ec x y = (xaff Q, b) ∧ (b = true → Q.x = x ∧ Q.y = y) ∧
    (∀ P : EPt ec.a ec.d, P.x = x → P.y = y → b = true) ∧ (b = false → Q = 0) := by
  unfold xge_set_xy
  have hv := validate_xy_iff c x y
  cases hb : edwards_validate_xy ec x y with
  | false =>
    rw [hb] at hv
    refine ⟨0, false, ?_, by simp, ?_, fun _ => rfl⟩
    · rw [xaff_zero]; simp [fe_select, xge_zero, C.pure_eq]
    · rintro P rfl rfl
      exact hv.2 P.on
  | true => exact ⟨⟨x, y, hv.1 hb⟩, true, by simp [fe_select, xaff, C.pure_eq], fun _ => ⟨rfl, rfl⟩, fun _ _ _ => rfl, by simp⟩

/-! ### The bytes -/

theorem edBytes_len {a d : ZMod fe.p} (P : EPt a d) : (edBytes P).length = edLen fe := Strm.leBytes_len _ _

theorem val_lt_top (v : ZMod fe.p) : v.val < 2 ^ (8 * edLen fe - 1) :=
  (v.val_lt.trans (Nat.lt_size_self _)).trans_le (Nat.pow_le_pow_right (by decide) (edLen_bits fe))

theorem pow_edLen (fe : FieldCode) : 256 ^ edLen fe = 2 ^ (8 * edLen fe - 1) * 2 := by
  rw [show (256 : Nat) = 2 ^ 8 from rfl, ← pow_mul, ← pow_succ]
  have := edLen_pos fe
  rw [show 8 * edLen fe - 1 + 1 = 8 * edLen fe by omega]

theorem edBytes_val {a d : ZMod fe.p} (P : EPt a d) : leVal (edBytes P) = P.y.val + 2 ^ (8 * edLen fe - 1) * (P.x.val % 2) := by
  rw [edBytes, Strm.leVal_leBytes, Nat.mod_eq_of_lt]
  rw [pow_edLen]
  have := val_lt_top P.y
  have := Nat.mod_lt P.x.val (show 2 > 0 by decide)
  nlinarith

theorem edBytes_iff {a d : ZMod fe.p} {P : EPt a d} {raw : List Byte} (hl : raw.length = edLen fe) :
    raw = edBytes P ↔ leVal raw % 2 ^ (8 * edLen fe - 1) = P.y.val ∧ leVal raw / 2 ^ (8 * edLen fe - 1) = P.x.val % 2 := by
  have h1 := edBytes_val P
  have h2 := val_lt_top P.y
  constructor
  · rintro rfl
    rw [h1, Nat.add_mul_mod_self_left, Nat.mod_eq_of_lt h2, Nat.add_mul_div_left _ _ (Nat.two_pow_pos _), Nat.div_eq_of_lt h2, Nat.zero_add]
    exact ⟨rfl, rfl⟩
  · rintro ⟨e1, e2⟩
    apply leVal_inj (hl.trans (edBytes_len P).symm)
    rw [h1, ← e1, ← e2, Nat.mod_add_div]

theorem edBytes_inj {a d : ZMod fe.p} [EdGood a d] {P Q : EPt a d} (h : edBytes P = edBytes Q) : P = Q := by
  obtain ⟨e1, e2⟩ := (edBytes_iff (edBytes_len P)).1 h
  obtain ⟨e3, e4⟩ := (edBytes_iff (P := P) (edBytes_len P)).1 rfl
  exact ed_y_inj (ZMod.val_injective _ (e3.symm.trans e1)) (e4.symm.trans e2)

theorem import_y_ok {raw : List Byte} (hl : edLen fe ≤ raw.length) : ∃ y s b, xge_import_y fe raw = .ok (y, s, b) ∧
    (b = true ↔ leVal (raw.take (edLen fe)) % 2 ^ (8 * edLen fe - 1) < fe.p) ∧
    (b = true → y.val = leVal (raw.take (edLen fe)) % 2 ^ (8 * edLen fe - 1)) ∧
    (s = true ↔ leVal (raw.take (edLen fe)) / 2 ^ (8 * edLen fe - 1) = 1) := by
  have hpos := feSize_pos fe
  have hpl := feSize_pow fe
  have htop : ∀ x < 256, ((((BitVec.ofNat 8 x) >>> 7) != 0) = true ↔ x / 128 = 1) ∧ (((BitVec.ofNat 8 x) &&& 0x7f) == 0) = decide (x % 128 = 0) := by
    decide +kernel
  have hbyte : ∀ t : Byte, ((t >>> 7 != 0) = true ↔ t.toNat / 128 = 1) ∧ ((t &&& 0x7f) == 0) = decide (t.toNat % 128 = 0) := by
    intro t
    have := htop t.toNat t.isLt
    rwa [BitVec.ofNat_toNat, BitVec.setWidth_eq] at this
  -- the value with the top byte split off
  have hsplit : ∀ n (hn : n < raw.length), leVal (raw.take (n + 1)) = leVal (raw.take n) + 256 ^ n * (raw[n]'hn).toNat := by
    intro n hn
    rw [List.take_succ_eq_append_getElem hn, leVal_append, leVal_cons, leVal_nil, List.length_take, min_eq_left hn.le]; simp
  have hlow : ∀ n, n ≤ raw.length → leVal (raw.take n) < 256 ^ n := by
    intro n hn
    have := leVal_lt (raw.take n)
    rwa [List.length_take, min_eq_left hn] at this
  have hpw : ∀ n, (2 : Nat) ^ (8 * (n + 1) - 1) = 256 ^ n * 128 := by
    intro n
    rw [show (256 : Nat) = 2 ^ 8 from rfl, ← pow_mul, show (128 : Nat) = 2 ^ 7 from rfl, ← pow_add]
    congr 1
  have hdm : ∀ n l t : Nat, l < 256 ^ n → (l + 256 ^ n * t) / (256 ^ n * 128) = t / 128 ∧ (l + 256 ^ n * t) % (256 ^ n * 128) = l + 256 ^ n * (t % 128) := by
    intro n l t hl
    refine ⟨?_, ?_⟩
    · rw [← Nat.div_div_eq_div_mul, Nat.add_mul_div_left _ _ (by positivity), Nat.div_eq_of_lt hl, Nat.zero_add]
    · rw [Nat.mod_mul, Nat.add_mul_mod_self_left, Nat.mod_eq_of_lt hl, Nat.add_mul_div_left _ _ (by positivity), Nat.div_eq_of_lt hl, Nat.zero_add]
  unfold xge_import_y
  by_cases h8 : feBits fe % 8 = 0
  · have hL : edLen fe = feSize fe + 1 := by rw [← adj_eq, feAdj, if_pos h8]
    have hn : feSize fe < raw.length := by omega
    rw [if_pos h8, show C.rd raw (feSize fe) = .ok raw[feSize fe] by simp [C.rd, hn], C.ok_bind, fe_import_le_ok fe hn.le, C.ok_bind, hL,
      hsplit _ hn, hpw]
    have h1 := hlow _ hn.le
    obtain ⟨d1, d2⟩ := hdm (feSize fe) (leVal (raw.take (feSize fe))) raw[feSize fe].toNat h1
    obtain ⟨b1, b2⟩ := hbyte raw[feSize fe]
    refine ⟨_, _, _, rfl, ?_, ?_, ?_⟩
    · rw [b2, d2, Bool.and_eq_true, decide_eq_true_eq, decide_eq_true_eq]
      constructor
      · rintro ⟨e1, e2⟩; rw [e1]; simpa using e2
      · intro h
        have : raw[feSize fe].toNat % 128 = 0 := by
          by_contra hc
          have : 256 ^ feSize fe * 1 ≤ 256 ^ feSize fe * (raw[feSize fe].toNat % 128) := Nat.mul_le_mul_left _ (by omega)
          omega
        rw [this] at h
        exact ⟨this, by simpa using h⟩
    · rw [b2, d2, Bool.and_eq_true, decide_eq_true_eq, decide_eq_true_eq]
      rintro ⟨e1, e2⟩
      rw [e1, Nat.mod_eq_of_lt (e2.trans (Nat.lt_size_self _)), ZMod.val_natCast, Nat.mod_eq_of_lt e2, Nat.mul_zero, Nat.add_zero]
    · rw [b1, d1]
  · have hL : edLen fe = feSize fe := by rw [← adj_eq, feAdj, if_neg h8, Nat.add_zero]
    obtain ⟨n, hn⟩ : ∃ n, feSize fe = n + 1 := ⟨feSize fe - 1, by omega⟩
    have hnl : n < raw.length := by omega
    have htl : (raw.take (feSize fe)).length = n + 1 := by rw [List.length_take]; omega
    obtain ⟨t, m1, ys, m2, m3⟩ := mask_val (xs := raw.take (feSize fe)) (n := n) (bits := 8 * (n + 1) - 1) (m := 0x7f) htl (by omega)
      (by omega) (by rw [if_pos (by omega), show (8 * (n + 1) - 1) % 8 = 7 by omega]; rfl)
    have hyl : ys.length = feSize fe := by
      have hw : C.wr (raw.take (feSize fe)) n (t &&& 0x7f) = .ok ((raw.take (feSize fe)).set n (t &&& 0x7f)) := by
        simp [C.wr, htl]
      rw [hw] at m2
      rw [← C.ok.inj m2, List.length_set, htl, hn]
    have hbits : fe.p.size ≤ 8 * (n + 1) - 1 := by have := edLen_bits fe; rwa [hL, hn] at this
    rw [if_neg h8, slice_take (by omega), C.ok_bind, show feSize fe - 1 = n by omega, m1, C.ok_bind, m2, C.ok_bind, fe_import_le_ok fe hyl.ge,
      C.ok_bind, List.take_of_length_le hyl.le, m3, show C.rd raw n = .ok raw[n] by simp [C.rd, hnl], C.ok_bind, hL, hn]
    obtain ⟨b1, b2⟩ := hbyte raw[n]
    refine ⟨_, _, _, rfl, decide_eq_true_iff, ?_, ?_⟩
    · rw [decide_eq_true_eq]
      intro h
      rw [Nat.mod_eq_of_lt (h.trans (Nat.lt_size_self _)), ZMod.val_natCast, Nat.mod_eq_of_lt h]
    · rw [b1, hsplit _ hnl, hpw, (hdm n _ _ (hlow n hnl.le)).1]

theorem ximport (hfe : fe ∈ fieldCodes) (c : EdConst ec) {raw : List Byte} (hl : edLen fe ≤ raw.length) : ∃ (Q : EPt ec.a ec.d) (b : Bool),
    xge_import ec raw = .ok (xaff Q, b) ∧ (b = true ↔ raw.take (edLen fe) = edBytes Q) ∧
    ∀ P : EPt ec.a ec.d, raw.take (edLen fe) = edBytes P → P = Q := by
  obtain ⟨y, s, b, h1, h2, h3, h4⟩ := import_y_ok (fe := fe) hl
  obtain ⟨Q, b', k1, k2, k3, k4⟩ := set_y_ok hfe c y (some s)
  have htl : (raw.take (edLen fe)).length = edLen fe := by rw [List.length_take]; omega
  have hq : leVal (raw.take (edLen fe)) / 2 ^ (8 * edLen fe - 1) < 2 := by
    have := leVal_lt (raw.take (edLen fe))
    rw [htl, pow_edLen] at this
    exact Nat.div_lt_of_lt_mul this
  have hsg : ∀ x : ZMod fe.p, CoordSign x (some s) ↔ leVal (raw.take (edLen fe)) / 2 ^ (8 * edLen fe - 1) = x.val % 2 := by
    intro x
    have := Nat.mod_lt x.val (show 2 > 0 by decide)
    change (x.val % 2 = 1 ↔ s = true) ↔ _
    rw [h4]
    generalize leVal (raw.take (edLen fe)) / 2 ^ (8 * edLen fe - 1) = q at hq ⊢
    omega
  have key : ∀ P : EPt ec.a ec.d, raw.take (edLen fe) = edBytes P → b = true ∧ b' = true ∧ P = Q := by
    intro P hP
    obtain ⟨e1, e2⟩ := (edBytes_iff htl).1 hP
    have hb : b = true := h2.2 (by rw [e1]; exact P.y.val_lt)
    have hy : P.y = y := ZMod.val_injective _ (e1.symm.trans (h3 hb).symm)
    have hb' := k3 P hy ((hsg _).2 e2)
    obtain ⟨f1, f2⟩ := k2 hb'
    exact ⟨hb, hb', ed_y_inj (hy.trans f1.symm) (e2.symm.trans ((hsg _).1 f2))⟩
  unfold xge_import
  rw [h1, C.ok_bind]
  dsimp only
  rw [k1, C.ok_bind]
  refine ⟨Q, b && b', rfl, ?_, fun P hP => (key P hP).2.2⟩
  rw [Bool.and_eq_true]
  constructor
  · rintro ⟨hb, hb'⟩
    obtain ⟨f1, f2⟩ := k2 hb'
    exact (edBytes_iff htl).2 ⟨by rw [← h3 hb, f1], (hsg _).1 f2⟩
  · intro h
    exact ⟨(key Q h).1, (key Q h).2.1⟩

theorem ximport_bytes (hfe : fe ∈ fieldCodes) (c : EdConst ec) (P : EPt ec.a ec.d) (t : List Byte) :
    xge_import ec (edBytes P ++ t) = .ok (xaff P, true) := by
  have ht : (edBytes P ++ t).take (edLen fe) = edBytes P := by
    rw [List.take_append_of_le_length (edBytes_len P).ge, List.take_of_length_le (edBytes_len P).le]
  obtain ⟨Q, b, h1, h2, h3⟩ := ximport hfe c (raw := edBytes P ++ t) (by rw [List.length_append, edBytes_len]; omega)
  rw [ht] at h2 h3
  obtain rfl := h3 P rfl
  rw [h1, h2.2 rfl]

theorem xexport {a d : ZMod fe.p} {p : Xge (ZMod fe.p)} {P : EPt a d} (h : Ext p P) : xge_export p = .ok (edBytes P) := by
  have hz := h.z
  have hx : p.x * p.z⁻¹ = P.x := by rw [h.x]; field_simp
  have hy : p.y * p.z⁻¹ = P.y := by rw [h.y]; field_simp
  have hpos := feSize_pos fe
  unfold xge_export
  have hi : fe_invert p.z = (p.z⁻¹, true) := by rw [fe_invert]; simp [fe_is_zero, hz]
  rw [hi]
  dsimp only
  rw [hx, hy, show C.check true = .ok () from rfl, C.ok_bind]
  have hs : ((if fe_is_odd fe P.x = true then (1 : Byte) else 0) <<< 7).toNat = 128 * (P.x.val % 2) := by
    unfold fe_is_odd
    rcases Nat.mod_two_eq_zero_or_one P.x.val with h | h <;> simp [h]
  by_cases h8 : feBits fe % 8 = 0
  · have hL : edLen fe = feSize fe + 1 := by rw [← adj_eq, feAdj, if_pos h8]
    rw [if_pos h8]
    refine congrArg C.ok (leVal_inj ?_ ?_)
    · rw [edBytes_len, hL, List.length_append, le_len]; rfl
    · rw [edBytes_val, leVal_append, le_val, leVal_cons, leVal_nil, hs, le_len, hL, show 8 * (feSize fe + 1) - 1 = 8 * feSize fe + 7 by omega,
        pow_add, pow_mul, show (2 : Nat) ^ 8 = 256 from rfl]
      ring
  · have hL : edLen fe = feSize fe := by rw [← adj_eq, feAdj, if_neg h8, Nat.add_zero]
    obtain ⟨n, hn⟩ : ∃ n, feSize fe = n + 1 := ⟨feSize fe - 1, by omega⟩
    have hlen := le_len fe P.y
    rw [if_neg h8, show feSize fe - 1 = n by omega]
    have hnl : n < (fe_export_le fe P.y).length := by omega
    rw [show C.rd (fe_export_le fe P.y) n = .ok (fe_export_le fe P.y)[n] by simp [C.rd, hnl], C.ok_bind,
      show ∀ c, C.wr (fe_export_le fe P.y) n c = .ok ((fe_export_le fe P.y).set n c) from fun c => by simp [C.wr, hnl]]
    refine congrArg C.ok (leVal_inj (by rw [List.length_set, hlen, edBytes_len, hL]) ?_)
    have e1 : fe_export_le fe P.y = (fe_export_le fe P.y).take n ++ [(fe_export_le fe P.y)[n]] := by
      rw [← List.take_succ_eq_append_getElem hnl, List.take_of_length_le (by omega)]
    have hv := le_val fe P.y
    have htl : ((fe_export_le fe P.y).take n).length = n := by rw [List.length_take]; omega
    rw [e1, leVal_append, leVal_cons, leVal_nil, htl] at hv
    have hlt := val_lt_top P.y
    rw [hL, hn, show 8 * (n + 1) - 1 = 8 * n + 7 by omega, pow_add, pow_mul, show (2 : Nat) ^ 8 = 256 from rfl, ← hv] at hlt
    generalize (fe_export_le fe P.y)[n] = t at *
    have ht : t.toNat < 128 := by
      by_contra hc
      have : 256 ^ n * 128 ≤ 256 ^ n * t.toNat := Nat.mul_le_mul_left _ (by omega)
      simp only [Nat.mul_zero, Nat.add_zero] at hlt
      rw [show (2 : Nat) ^ 7 = 128 from rfl] at hlt
      omega
    rw [edBytes_val, List.set_eq_take_append_cons_drop, if_pos hnl, List.drop_of_length_le (by omega), leVal_append, leVal_cons, leVal_nil, htl,
      ← hv, hL, hn, show 8 * (n + 1) - 1 = 8 * n + 7 by omega, pow_add, pow_mul, show (2 : Nat) ^ 8 = 256 from rfl,
      show (2 : Nat) ^ 7 = 128 from rfl]
    have hor : ∀ x < 128, ∀ b < 2, ((BitVec.ofNat 8 x) ||| (BitVec.ofNat 8 (128 * b))).toNat = x + 128 * b := by decide +kernel
    have hor' := hor t.toNat ht (P.x.val % 2) (Nat.mod_lt _ (by decide))
    rw [← hs, BitVec.ofNat_toNat, BitVec.ofNat_toNat, BitVec.setWidth_eq, BitVec.setWidth_eq] at hor'
    rw [hor', hs]
    ring

end

end Torsion.Ecc
