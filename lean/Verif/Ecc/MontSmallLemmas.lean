import Verif.Ecc.MontEcdhLemmas

/-! Lemmas on the points of small order of the Montgomery curves and on products that are the point at infinity. -/
namespace Torsion.Ecc

open Torsion.Spec (montCurve MPt montAffine montX MontXZ MontGood MontOk beVal leVal leBytes clamp privKey pubX uBytes)
open WeierstrassCurve.Affine (Point)

section
variable {F : Type} [Field F] [DecidableEq F] {a b : F}

theorem xz_z {p : Pge F} {P : MPt a b} (h : MontXZ p P) : p.z = 0 ↔ P = 0 := by
  rw [← mx_none]
  unfold MontXZ at h
  cases hm : montX P with
  | none => rw [hm] at h; exact ⟨fun _ => rfl, fun _ => h.1⟩
  | some x => rw [hm] at h; exact ⟨fun e => absurd e h.1, fun e => by simp at e⟩

theorem quad_ne (h2 : (2 : F) ≠ 0) (hs : ¬ IsSquare (a ^ 2 - 4)) {X Z : F} (h : X ^ 2 + a * X * Z + Z ^ 2 = 0) : Z = 0 := by
  by_contra hz
  apply hs
  refine ⟨(2 * X + a * Z) / Z, ?_⟩
  field_simp
  linear_combination -4 * h

theorem xz_u {u : F} {P : MPt a b} (h : montX P = some u) : MontXZ ⟨u, 1⟩ P := by
  rw [MontXZ, h]; exact ⟨one_ne_zero, by simp⟩

/-- Twice a point is infinity only for the abscissa 0. -/
theorem two_iff (g : MontGood a b) (hs : ¬ IsSquare (a ^ 2 - 4)) {u : F} {P : MPt a b} (h : montX P = some u) :
    2 • P = 0 ↔ u = 0 := by
  have h4 : (4 : F) ≠ 0 := by rw [show (4 : F) = 2 * 2 by norm_num]; exact mul_ne_zero g.two g.two
  rw [two_nsmul, ← xz_z (mx_dbl g (xz_u h))]
  constructor
  · intro e
    by_contra hu
    rcases mul_eq_zero.1 e with e | e
    · simp [h4, hu] at e
    · exact one_ne_zero (quad_ne g.two hs e)
  · rintro rfl; ring

theorem four_iff (g : MontGood a b) (hs : ¬ IsSquare (a ^ 2 - 4)) {u : F} {P : MPt a b} (h : montX P = some u) :
    4 • P = 0 ↔ u = 0 ∨ u = 1 ∨ u = -1 := by
  have h4 : (4 : F) ≠ 0 := by rw [show (4 : F) = 2 * 2 by norm_num]; exact mul_ne_zero g.two g.two
  have hd := mx_dbl g (xz_u h)
  have hdd := xz_z (mx_dbl g hd)
  rw [show (4 : Nat) • P = P + P + (P + P) by rw [show (4 : Nat) = 2 + 2 from rfl, add_nsmul, two_nsmul], ← hdd]
  have hz := xz_z hd
  rw [← two_nsmul, two_iff g hs h] at hz
  constructor
  · intro e
    rcases mul_eq_zero.1 e with e | e
    · rcases mul_eq_zero.1 e with e | e
      · have : u ^ 2 = 1 ^ 2 := by
          have := pow_eq_zero_iff (n := 2) (by norm_num) |>.1 ((mul_eq_zero.1 e).resolve_left h4)
          linear_combination this
        rcases sq_eq_sq_iff_eq_or_eq_neg.1 this with h | h
        · exact Or.inr (Or.inl h)
        · exact Or.inr (Or.inr h)
      · exact Or.inl (hz.1 e)
    · exact Or.inl (hz.1 (quad_ne g.two hs e))
  · rintro (rfl | rfl | rfl) <;> ring

theorem eight_iff (g : MontGood a b) (hs : ¬ IsSquare (a ^ 2 - 4)) {u r1 r2 w : F} (hn : ¬ IsSquare (2 - a)) (hw : ¬ IsSquare (w ^ 2 - 4))
    (e1 : r1 * r2 = 1) (e2 : r1 + r2 + w = 4) (e3 : (r1 + r2) * w = -4 - 4 * a) {P : MPt a b} (h : montX P = some u) :
    8 • P = 0 ↔ u = 0 ∨ u = 1 ∨ u = -1 ∨ u = r1 ∨ u = r2 := by
  have h4 : (4 : F) ≠ 0 := by rw [show (4 : F) = 2 * 2 by norm_num]; exact mul_ne_zero g.two g.two
  have hf := four_iff g hs h
  have hd := mx_dbl g (xz_u h)
  have hdd := mx_dbl g hd
  have e4 : (4 : Nat) • P = P + P + (P + P) := by rw [show (4 : Nat) = 2 + 2 from rfl, add_nsmul, two_nsmul]
  rw [← e4] at hdd
  have hz := xz_z hdd
  rw [hf] at hz
  have hddd := xz_z (mx_dbl g hdd)
  rw [show (8 : Nat) • P = 4 • P + 4 • P by rw [← add_nsmul], ← hddd]
  -- the polynomial
  have hpoly : (u ^ 2 - 1) ^ 2 - 4 * u * (u ^ 2 + a * u + 1) = (u - r1) * (u - r2) * (u ^ 2 - w * u + 1) := by
    linear_combination (u ^ 3 + u) * e2 - u ^ 2 * e3 - (u ^ 2 - w * u + 1) * e1
  constructor
  · intro e
    rcases mul_eq_zero.1 e with e | e
    · rcases mul_eq_zero.1 e with e | e
      · have e := pow_eq_zero_iff (n := 2) (by norm_num) |>.1 ((mul_eq_zero.1 e).resolve_left h4)
        rcases sq_eq_sq_iff_eq_or_eq_neg.1 (sub_eq_zero.1 e) with e | e
        · have e5 : (u - r1) * (u - r2) * (u ^ 2 - w * u + 1) = 0 := by rw [← hpoly]; linear_combination e
          rcases mul_eq_zero.1 e5 with e5 | e5
          · rcases mul_eq_zero.1 e5 with e5 | e5
            · exact Or.inr (Or.inr (Or.inr (Or.inl (sub_eq_zero.1 e5))))
            · exact Or.inr (Or.inr (Or.inr (Or.inr (sub_eq_zero.1 e5))))
          · exfalso
            exact hw ⟨2 * u - w, by linear_combination -4 * e5⟩
        · exfalso
          apply hn
          have hu : u ≠ 0 := by
            rintro rfl
            have : (1 : F) = 0 := by linear_combination e
            exact one_ne_zero this
          refine ⟨((u + 1) ^ 2) / (2 * u), ?_⟩
          have h2 := g.two
          field_simp
          linear_combination -e
      · rcases hz.1 e with h | h | h
        · exact Or.inl h
        · exact Or.inr (Or.inl h)
        · exact Or.inr (Or.inr (Or.inl h))
    · rcases hz.1 (quad_ne g.two hs e) with h | h | h
      · exact Or.inl h
      · exact Or.inr (Or.inl h)
      · exact Or.inr (Or.inr (Or.inl h))
  · have fin : ((u ^ 2 - 1 ^ 2) ^ 2) = (4 * u * 1 * (u ^ 2 + a * u * 1 + 1 ^ 2)) → u = 0 ∨ u = 1 ∨ u = -1 ∨ u = r1 ∨ u = r2 →
      (((u ^ 2 - 1 ^ 2) ^ 2) ^ 2 - (4 * u * 1 * (u ^ 2 + a * u * 1 + 1 ^ 2)) ^ 2) = 0 := by
      intro e _; rw [e, sub_self]
    intro hu
    have h5 : u = 0 ∨ u = 1 ∨ u = -1 ∨ ((u ^ 2 - 1 ^ 2) ^ 2) = (4 * u * 1 * (u ^ 2 + a * u * 1 + 1 ^ 2)) := by
      rcases hu with h | h | h | h | h
      · exact Or.inl h
      · exact Or.inr (Or.inl h)
      · exact Or.inr (Or.inr (Or.inl h))
      · refine Or.inr (Or.inr (Or.inr ?_))
        rw [h, sub_self, zero_mul, zero_mul] at hpoly
        rw [h]; linear_combination hpoly
      · refine Or.inr (Or.inr (Or.inr ?_))
        rw [h, sub_self, mul_zero, zero_mul] at hpoly
        rw [h]; linear_combination hpoly
    dsimp only at hz ⊢
    rcases h5 with h | h | h | h
    · rw [hz.2 (Or.inl h)]; ring
    · rw [hz.2 (Or.inr (Or.inl h))]; ring
    · rw [hz.2 (Or.inr (Or.inr h))]; ring
    · rw [fin h hu]; ring

end

section
variable {d : MontDef} [Fact d.fe.p.Prime] {ec : Mont (ZMod d.fe.p)}

/-- Every element is the abscissa of a point of the curve or of its twist. -/
theorem m_exists (c : MontCtx d ec) (u : ZMod d.fe.p) : (∃ P : MPt ec.a ec.b, montX P = some u) ∨
    ∃ t : ZMod d.fe.p, ¬ IsSquare t ∧ ∃ P : MPt ec.a t, montX P = some u := by
  by_cases h : IsSquare (u ^ 3 + ec.a * u ^ 2 + u)
  · left
    obtain ⟨y, hy⟩ := h
    obtain ⟨P, hP⟩ := m_mk c.ok.good (x := u) (y := y) (by rw [hy, c.b]; ring)
    exact ⟨P, m_aff_x hP⟩
  · right
    exact ⟨_, h, m_twist_point c.ok.good.two c.ok.good.disc (by intro h0; rw [h0] at h; exact h IsSquare.zero)⟩

theorem order_curve (c : MontCtx d ec) (P : MPt ec.a ec.b) (m : Nat) : (ec.h * m) • P = 0 ↔ ec.h • P = 0 ∨ ec.n ∣ m := by
  have hc : Nat.card (MPt ec.a ec.b) = ec.h * ec.n := by rw [c.a, c.b, c.facts.card, c.h, c.n]
  have h1 : ec.n • (ec.h • P) = 0 := by rw [← mul_nsmul, ← hc]; exact card_nsmul_eq_zero'
  rw [mul_nsmul]
  haveI : Fact ec.n.Prime := ⟨by rw [c.n]; exact c.nprime⟩
  by_cases h0 : ec.h • P = 0
  · rw [h0]; simp
  · rw [← addOrderOf_dvd_iff_nsmul_eq_zero, addOrderOf_eq_prime h1 h0]
    simp [h0]

theorem order_twist (c : MontCtx d ec) {t : ZMod d.fe.p} (ht : ¬ IsSquare t) (P : MPt ec.a t) (m : Nat) :
    (4 * m) • P = 0 ↔ 4 • P = 0 ∨ montTwist d ∣ m := by
  have hc : Nat.card (MPt ec.a t) = 4 * montTwist d := by rw [c.a]; exact c.facts.twist t ht
  have h1 : montTwist d • (4 • P) = 0 := by rw [← mul_nsmul, ← hc]; exact card_nsmul_eq_zero'
  rw [mul_nsmul]
  haveI : Fact (montTwist d).Prime := ⟨c.tprime⟩
  by_cases h0 : 4 • P = 0
  · rw [h0]; simp
  · rw [← addOrderOf_dvd_iff_nsmul_eq_zero, addOrderOf_eq_prime h1 h0]
    simp [h0]

theorem nsq' (c : MontCtx d ec) : ¬ IsSquare (ec.a ^ 2 - 4) := by rw [c.a]; exact c.facts.nsq

end

/-! ### The numbers -/

def r1_25519 : Nat := 325606250916557431795983626356110631294008115727848805560023387167927233504
def r2_25519 : Nat := 39382357235489614581723060781553021112529911719440698176882885853963445705823
def w_25519 : Nat := 18188081132251925698266448096434822182811072497651735037285882762825191880626

set_option maxRecDepth 100000 in
theorem nums_x25519 : (r1_25519 * r2_25519 % curve_x25519.fe.p = 1 ∧ (r1_25519 + r2_25519 + w_25519) % curve_x25519.fe.p = 4 ∧
    ((r1_25519 + r2_25519) * w_25519 + 4 + 4 * beVal curve_x25519.a) % curve_x25519.fe.p = 0 ∧ 4 < curve_x25519.fe.p) ∧
    eulerCheck curve_x25519.fe.p (2 + (curve_x25519.fe.p - beVal curve_x25519.a)) = true ∧ 
    eulerCheck curve_x25519.fe.p (w_25519 * w_25519 - 4) = true := by decide +kernel

set_option maxRecDepth 100000 in
theorem range_x25519 : feBits curve_x25519.fe = 255 ∧ 2 ^ 252 < beVal curve_x25519.sc.n ∧ 2 ^ 252 < montTwist curve_x25519 ∧ montTwist curve_x25519 ≠ 2 := by
  decide +kernel

set_option maxRecDepth 100000 in
theorem range_x448 : feBits curve_x448.fe = 448 ∧ 2 ^ 445 < beVal curve_x448.sc.n ∧ beVal curve_x448.sc.n < 2 ^ 446 ∧ 2 ^ 446 < montTwist curve_x448 := by
  decide +kernel

theorem pow_up (n k : Nat) : 2 ^ (n + k) = 2 ^ k * 2 ^ n := by rw [Nat.pow_add, Nat.mul_comm]

theorem priv_x25519 (v : Nat) : ∃ m, clamp 255 8 v = 8 * m ∧ 2 ^ 251 ≤ m ∧ m < 2 ^ 252 := by
  refine ⟨v % 2 ^ 254 / 8 + 2 ^ 251, ?_, by omega, ?_⟩
  · unfold clamp; omega
  · omega

set_option exponentiation.threshold 1000 in
theorem priv_x448 (v : Nat) : ∃ m, clamp 448 4 v = 4 * m ∧ 2 ^ 445 ≤ m ∧ m < 2 ^ 446 := by
  refine ⟨v % 2 ^ 447 / 4 + 2 ^ 445, ?_, by omega, ?_⟩
  · unfold clamp
    rw [show (448 - 1 : Nat) = 447 from rfl, show (2 : Nat) ^ 447 = 4 * 2 ^ 445 from pow_up 445 2]
    omega
  · have h1 : v % 2 ^ 447 < 2 ^ 447 := Nat.mod_lt _ (Nat.two_pow_pos _)
    have e1 : (2 : Nat) ^ 447 = 4 * 2 ^ 445 := pow_up 445 2
    have e2 : (2 : Nat) ^ 446 = 2 * 2 ^ 445 := pow_up 445 1
    rw [e1] at h1 ⊢
    rw [e2]
    omega

section
variable [Fact curve_x25519.fe.p.Prime] {ec : Mont (ZMod curve_x25519.fe.p)}

theorem small_x25519 (c : MontCtx curve_x25519 ec) {t : ZMod curve_x25519.fe.p} (ht : t ≠ 0) {P : MPt ec.a t} {u : ZMod curve_x25519.fe.p}
    (h : montX P = some u) : ec.h • P = 0 ↔ u = 0 ∨ u = 1 ∨ u = -1 ∨ u = (r1_25519 : ZMod curve_x25519.fe.p) ∨ u = (r2_25519 : ZMod curve_x25519.fe.p) := by
  obtain ⟨⟨n1, n2, n3, n4⟩, n5, n6⟩ := nums_x25519
  rw [c.h]
  have cast : ∀ x y : Nat, x % curve_x25519.fe.p = y → (x : ZMod curve_x25519.fe.p) = (y : ZMod curve_x25519.fe.p) := by
    rintro x y rfl
    rw [cast_mod_dvd (dvd_refl _)]
  have hlt : beVal curve_x25519.a < curve_x25519.fe.p := c.facts.alt
  have q1 := eulerCheck_spec (by omega) n5
  have q2 := eulerCheck_spec (by omega) n6
  have n1 := cast _ _ n1
  have n2 := cast _ _ n2
  have n3 := cast _ _ n3
  have g := m_good c.ok ht
  rw [Nat.cast_add, Nat.cast_sub hlt.le, ZMod.natCast_self, zero_sub, ← sub_eq_add_neg, ← c.a] at q1
  rw [Nat.cast_sub (by decide), Nat.cast_mul, ← pow_two] at q2
  simp only [Nat.cast_mul, Nat.cast_add, Nat.cast_one, Nat.cast_zero, ← c.a] at n1 n2 n3
  refine eight_iff g (nsq' c) (w := (w_25519 : ZMod curve_x25519.fe.p)) ?_ ?_ n1 ?_ ?_ h
  · exact_mod_cast q1
  · exact_mod_cast q2
  · exact_mod_cast n2
  · push_cast at n3
    linear_combination n3

theorem inf_x25519 (c : MontCtx curve_x25519 ec) {t : ZMod curve_x25519.fe.p} (ht : t = ec.b ∨ ¬ IsSquare t) (P : MPt ec.a t)
    (priv : List Byte) : privKey curve_x25519 priv • P = 0 ↔ ec.h • P = 0 := by
  obtain ⟨e1, e2, e3, e4⟩ := range_x25519
  obtain ⟨m, h1, h2, h3⟩ := priv_x25519 (leVal (priv.take (feSize curve_x25519.fe)))
  have hk : privKey curve_x25519 priv = 8 * m := by
    rw [← h1, privKey, show curve_x25519.fe.p.size = 255 from e1]; rfl
  rw [hk]
  have hh : ec.h = 8 := c.h
  have hm : 0 < m := lt_of_lt_of_le (Nat.two_pow_pos _) h2
  rcases ht with rfl | ht
  · rw [show (8 : Nat) * m = ec.h * m by rw [hh], order_curve c, or_iff_left]
    rw [c.n]
    intro hdv
    exact absurd (Nat.le_of_dvd hm hdv) (not_le.2 (h3.trans e2))
  · have odd : ∀ j, montTwist curve_x25519 ∣ 2 * j → montTwist curve_x25519 ∣ j := by
      intro j hj
      refine (Nat.Coprime.dvd_of_dvd_mul_left ?_ hj)
      exact (Nat.coprime_primes c.tprime Nat.prime_two).2 e4
    rw [show (8 : Nat) * m = 4 * (2 * m) by omega, order_twist c ht, hh, show (8 : Nat) = 4 * (2 * 1) by omega, order_twist c ht]
    constructor
    · rintro (h | h)
      · exact Or.inl h
      · exact absurd (Nat.le_of_dvd hm (odd _ h)) (not_le.2 (h3.trans e3))
    · rintro (h | h)
      · exact Or.inl h
      · exact absurd (Nat.le_of_dvd (by omega) (odd _ h)) (not_le.2 (lt_trans (by norm_num) e3))

end

section
variable [Fact curve_x448.fe.p.Prime] {ec : Mont (ZMod curve_x448.fe.p)}

set_option exponentiation.threshold 1000 in
theorem small_x448 (c : MontCtx curve_x448 ec) {t : ZMod curve_x448.fe.p} (ht : t ≠ 0) {P : MPt ec.a t} {u : ZMod curve_x448.fe.p}
    (h : montX P = some u) : ec.h • P = 0 ↔ u = 0 ∨ u = 1 ∨ u = -1 := by
  rw [show ec.h = 4 from c.h]
  exact four_iff (m_good c.ok ht) (nsq' c) h

set_option exponentiation.threshold 1000 in
theorem key_x448 (c : MontCtx curve_x448 ec) (priv : List Byte) : ∃ m, privKey curve_x448 priv = 4 * m ∧ (ec.n ∣ m ↔ privKey curve_x448 priv = 4 * ec.n) ∧
    ¬ montTwist curve_x448 ∣ m := by
  obtain ⟨e1, e2, e3, e4⟩ := range_x448
  obtain ⟨m, h1, h2, h3⟩ := priv_x448 (leVal (priv.take (feSize curve_x448.fe)))
  have hk : privKey curve_x448 priv = 4 * m := by
    rw [← h1, privKey, show curve_x448.fe.p.size = 448 from e1]; rfl
  have hm : 0 < m := lt_of_lt_of_le (Nat.two_pow_pos _) h2
  refine ⟨m, hk, ?_, ?_⟩
  · rw [hk]
    constructor
    · rintro ⟨q, hq⟩
      rw [← c.n] at e2 e3
      have q0 : q ≠ 0 := by rintro rfl; omega
      have q1 : q < 2 := by
        by_contra hq2
        have : ec.n * 2 ≤ ec.n * q := Nat.mul_le_mul_left _ (by omega)
        have e5 : (2 : Nat) ^ 446 = 2 * 2 ^ 445 := pow_up 445 1
        rw [← hq] at this
        rw [e5] at h3
        omega
      have : q = 1 := by omega
      rw [hq, this, Nat.mul_one]
    · intro h
      have : m = ec.n := by omega
      rw [this]
  · intro hdv
    exact absurd (Nat.le_of_dvd hm hdv) (not_le.2 (h3.trans e4))

end

end Torsion.Ecc
