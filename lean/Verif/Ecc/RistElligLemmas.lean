import Verif.Ecc.RistrettoKeyLemmas
import Verif.Ecc.EdElligLemmas
import Verif.Ecc.RistElligSpec

/-! Lemmas on Elligator for Ristretto. -/
set_option linter.unusedSectionVars false

namespace Torsion.Ecc

open Torsion.Spec

/-! ### Roots of quotients which are not squares -/

/-- The value of the inverse square root in all cases: `q` is the element the quotient is multiplied by if it has no root. -/
def RootQ (fe : FieldCode) [Fact fe.p.Prime] (q : ZMod fe.p) : Prop := ∀ z < 3, ∀ u v : ZMod fe.p, ∃ r ok,
  fe_isqrt fe z u v = .ok (r, ok) ∧ (ok = true ↔ v ≠ 0 ∧ IsSquare (u / v)) ∧ (ok = true → r ^ 2 * v = u) ∧
    (ok = false → r ^ 2 * v = q * u ∨ v = 0) ∧ (v = 0 → r = 0)

theorem isqrt34_nonsquare {F : Type} [Field F] [DecidableEq F] [Fintype F] {f : Nat → Nat → Nat → Nat → List Ins × (Nat × Nat) × List Ins} {z p : Nat}
    (h : isqrtExp f z = (some ((p - 3) / 4 * 5 + 3, (p - 3) / 4 * 3 + 1),
      some (2 * ((p - 3) / 4 * 5 + 3), 2 * ((p - 3) / 4 * 3 + 1) + 1), some (1, 0)))
    (hp : Fintype.card F = p) (h4 : p % 4 = 3) (u v : F) {r : F} {ok : Bool} (e : runIsqrt f z u v = .ok (r, ok)) :
    (v = 0 → r = 0) ∧ (v ≠ 0 → ¬ IsSquare (u / v) → r ^ 2 * v = -u) := by
  rw [runIsqrt_pow h u v] at e
  obtain ⟨hr, -⟩ := Prod.mk.inj (C.ok.inj e)
  obtain ⟨m, he⟩ : ∃ m, p - 1 = 4 * m + 2 ∧ (p - 3) / 4 = m := ⟨(p - 3) / 4, by omega, rfl⟩
  rw [he.2] at hr
  constructor
  · rintro rfl
    rw [← hr, zero_pow (by omega), mul_zero]
  · intro hv hn
    have hu : u ≠ 0 := by rintro rfl; exact hn ⟨0, by simp⟩
    have h1 := FiniteField.pow_card_sub_one_eq_one v hv
    have h2 := FiniteField.pow_card_sub_one_eq_one u hu
    rw [hp, he.1] at h1 h2
    have hchar : ringChar F ≠ 2 := by
      intro hc
      have := FiniteField.even_card_of_char_two hc
      rw [hp] at this; omega
    have huv : u * v ≠ 0 := mul_ne_zero hu hv
    have hd := FiniteField.pow_dichotomy hchar huv
    have hns : ¬ (u * v) ^ (Fintype.card F / 2) = 1 := by
      rw [← FiniteField.isSquare_iff hchar huv]
      rintro ⟨w, hw⟩
      exact hn ⟨w / v, by field_simp; linear_combination hw⟩
    have h3 := hd.resolve_left hns
    rw [hp, show p / 2 = 2 * m + 1 by omega] at h3
    rw [← hr]
    have e1 : (u ^ (m * 5 + 3) * v ^ (m * 3 + 1)) ^ 2 * v = (u ^ (4 * m + 2)) ^ 2 * v ^ (4 * m + 2) * (u * v) ^ (2 * m + 1) * u := by
      simp only [mul_pow, ← pow_mul]
      ring
    rw [e1, h1, h2, h3]
    ring

theorem rootq_34 {fe : FieldCode} [Fact fe.p.Prime] (hfe : fe ∈ fieldCodes) {f : Nat → Nat → Nat → Nat → List Ins × (Nat × Nat) × List Ins}
    (h : ∀ z < 3, isqrtExp f z = (some ((fe.p - 3) / 4 * 5 + 3, (fe.p - 3) / 4 * 3 + 1),
      some (2 * ((fe.p - 3) / 4 * 5 + 3), 2 * ((fe.p - 3) / 4 * 3 + 1) + 1), some (1, 0)))
    (h4 : fe.p % 4 = 3) (hf : fe.isqrt (F := ZMod fe.p) = some (runIsqrt f)) : RootQ fe (-1) := by
  intro z hz u v
  obtain ⟨r, o, e1, -⟩ := isqrt34_ok (h z hz) (ZMod.card fe.p) h4 u v
  obtain ⟨f1, f2⟩ := isqrt34_nonsquare (h z hz) (ZMod.card fe.p) h4 u v e1
  obtain ⟨r', o', e2, g1, g2⟩ := fe_isqrt_exact fe hfe (ZMod.card fe.p) z hz u v
  have hr : r' = r := by
    rw [fe_isqrt, hf] at e2
    dsimp only at e2
    rw [e1] at e2
    exact (Prod.mk.inj (C.ok.inj e2)).1.symm
  refine ⟨r', o', e2, g1, fun ho => ?_, fun ho => ?_, fun hv => by rw [hr]; exact f1 hv⟩
  · rw [pow_two, g2 ho, div_mul_cancel₀ _ (g1.1 ho).1]
  · by_cases hv : v = 0
    · exact Or.inr hv
    · left
      rw [hr, f2 hv, neg_one_mul]
      intro hs
      rw [g1.2 ⟨hv, hs⟩] at ho
      cases ho

theorem rootq_25519 [Fact field_p25519.p.Prime] : RootQ field_p25519 (p25519_sqrtneg1 : ZMod field_p25519.p) := by
  intro z hz u v
  obtain ⟨r', o', e2, g1, g2⟩ := fe_isqrt_exact field_p25519 (by simp [fieldCodes]) (ZMod.card _) z hz u v
  refine ⟨r', o', e2, g1, fun ho => ?_, fun ho => ?_, fun hv => ?_⟩
  · rw [pow_two, g2 ho, div_mul_cancel₀ _ (g1.1 ho).1]
  · by_cases hv : v = 0
    · exact Or.inr hv
    · left
      obtain ⟨r, e3, e4, -⟩ := p25519_fe_isqrt_nonsquare (ZMod.card _) z u v hv fun hs => by
        rw [g1.2 ⟨hv, hs⟩] at ho; cases ho
      rw [e2] at e3
      rw [(Prod.mk.inj (C.ok.inj e3)).1, pow_two, e4]
      field_simp
  · subst hv
    have e : p25519_fe_isqrt u (0 : ZMod field_p25519.p) = .ok ((0 : ZMod field_p25519.p), decide ((0 : ZMod field_p25519.p) = u) || decide ((0 : ZMod field_p25519.p) = u)) := by
      rw [p25519_fe_isqrt]
      dsimp only
      rw [runChain_pow p25519_pm5d8, C.ok_bind]
      simp
    rw [fe_isqrt] at e2
    have hf : field_p25519.isqrt (F := ZMod field_p25519.p) = some (fun _ => p25519_fe_isqrt) := rfl
    rw [hf] at e2
    dsimp only at e2
    rw [e] at e2
    exact (Prod.mk.inj (C.ok.inj e2)).1.symm

/-! ### Identities -/

section
variable {F : Type} [Field F]

theorem sq_one {a : F} (ha : a ^ 2 = 1) : a = 1 ∨ a = -1 := sq_eq_sq_iff_eq_or_eq_neg.1 (ha.trans (one_pow 2).symm)

/-- The point of a number is on the quartic. -/
theorem ell_quartic {a d r s t D : F} (ha : a ^ 2 = 1) (hD : D = (d * r - a) * (a * r - d)) (hD0 : D ≠ 0)
    (h : (s ^ 2 * D = a * (r + 1) * (d + a) * (d - a) ∧ (t + 1) * D = -(r - 1) * (d + a) ^ 2) ∨
      (s ^ 2 * D = r * (a * (r + 1) * (d + a) * (d - a)) ∧ (t + 1) * D = r * (r - 1) * (d + a) ^ 2)) :
    (d - a) * t ^ 2 = (d - a) * s ^ 4 + 2 * a * (d + a) * s ^ 2 + (d - a) := by
  apply mul_right_cancel₀ (pow_ne_zero 2 hD0)
  have e1 : (d - a) * t ^ 2 * D ^ 2 = (d - a) * ((t + 1) * D - D) ^ 2 := by ring
  have e2 : ((d - a) * s ^ 4 + 2 * a * (d + a) * s ^ 2 + (d - a)) * D ^ 2 =
      (d - a) * (s ^ 2 * D) ^ 2 + 2 * a * (d + a) * (s ^ 2 * D) * D + (d - a) * D ^ 2 := by ring
  rw [e1, e2]
  rcases h with ⟨h1, h2⟩ | ⟨h1, h2⟩ <;> rw [h1, h2, hD] <;> rcases sq_one ha with h | h <;> rw [h] <;> ring

/-- The number from the point of the quartic: it is right, with the root negated if `a = 1`. -/
theorem ell_inverse {a d r s t A σ D : F} (ha : a ^ 2 = 1) (hσ : σ ^ 2 = 1)
    (hD : D = (d * r - a) * (a * r - d)) (hq : (d - a) * t ^ 2 = (d - a) * s ^ 4 + 2 * a * (d + a) * s ^ 2 + (d - a))
    (hA : A * (d + a) = (t + 1) * (d - a)) (hr : r * (σ * s ^ 2 - A) = σ * s ^ 2 + A) (h0 : σ * s ^ 2 - A ≠ 0) :
    (D * (σ * s ^ 2 - A) ^ 2 = 2 * (d - a) * (d + a) * (A + a * s ^ 2)) ∧
    (σ = -a → s ^ 2 * D = a * (r + 1) * (d + a) * (d - a)) ∧
    (σ = a → s ^ 2 * D = r * (a * (r + 1) * (d + a) * (d - a))) ∧
    (σ = -a → (d - a) * ((t + 1) * D) = (d - a) * (-(r - 1) * (d + a) ^ 2)) ∧
    (σ = a → (d - a) * ((t + 1) * D) = (d - a) * (r * (r - 1) * (d + a) ^ 2)) := by
  have e1 : D * (σ * s ^ 2 - A) ^ 2 = 2 * (d - a) * (d + a) * (A + a * s ^ 2) := by
    have : D * (σ * s ^ 2 - A) ^ 2 = (d * (r * (σ * s ^ 2 - A)) - a * (σ * s ^ 2 - A)) * (a * (r * (σ * s ^ 2 - A)) - d * (σ * s ^ 2 - A)) := by
      rw [hD]; ring
    rw [this, hr]
    have e3 : (d * (σ * s ^ 2 + A) - a * (σ * s ^ 2 - A)) * (a * (σ * s ^ 2 + A) - d * (σ * s ^ 2 - A)) =
        (A * (d + a)) ^ 2 - (d - a) ^ 2 * s ^ 4 * σ ^ 2 := by ring
    rw [e3, hσ]
    linear_combination (d - a) * hq + (A * (d + a) + (t + 1) * (d - a)) * hA - 2 * (d - a) * hA
  refine ⟨e1, ?_, ?_, ?_, ?_⟩ <;> intro h <;> apply mul_right_cancel₀ (pow_ne_zero 2 h0)
  · have e2 : a * (r + 1) * (d + a) * (d - a) * (σ * s ^ 2 - A) ^ 2 =
        a * (r * (σ * s ^ 2 - A) + (σ * s ^ 2 - A)) * (σ * s ^ 2 - A) * (d + a) * (d - a) := by ring
    rw [e2, hr, mul_assoc, e1, h]
    linear_combination (-2 * (d - a) * (d + a) * s ^ 2 * (A + a * s ^ 2)) * ha
  · have e2 : r * (a * (r + 1) * (d + a) * (d - a)) * (σ * s ^ 2 - A) ^ 2 =
        a * (r * (σ * s ^ 2 - A) + (σ * s ^ 2 - A)) * (r * (σ * s ^ 2 - A)) * (d + a) * (d - a) := by ring
    rw [e2, hr, mul_assoc, e1, h]
    linear_combination (-2 * (d - a) * (d + a) * s ^ 2 * (A + a * s ^ 2)) * ha
  · have e2 : (d - a) * (-(r - 1) * (d + a) ^ 2) * (σ * s ^ 2 - A) ^ 2 =
        (d - a) * (-(r * (σ * s ^ 2 - A) - (σ * s ^ 2 - A)) * (σ * s ^ 2 - A) * (d + a) ^ 2) := by ring
    rw [e2, hr, show (d - a) * ((t + 1) * D) * (σ * s ^ 2 - A) ^ 2 = (t + 1) * (d - a) * (D * (σ * s ^ 2 - A) ^ 2) by ring, e1, ← hA, h]
    ring
  · have e2 : (d - a) * (r * (r - 1) * (d + a) ^ 2) * (σ * s ^ 2 - A) ^ 2 =
        (d - a) * ((r * (σ * s ^ 2 - A)) * (r * (σ * s ^ 2 - A) - (σ * s ^ 2 - A)) * (d + a) ^ 2) := by ring
    rw [e2, hr, show (d - a) * ((t + 1) * D) * (σ * s ^ 2 - A) ^ 2 = (t + 1) * (d - a) * (D * (σ * s ^ 2 - A) ^ 2) by ring, e1, ← hA, h]
    ring

/-- The converse: the equation for the number. -/
theorem ell_forward {a d r s t A σ D : F} (ha : a ^ 2 = 1) (he : d + a ≠ 0) (hD0 : D ≠ 0)
    (hA : A * (d + a) = (t + 1) * (d - a))
    (h : (σ = -a ∧ s ^ 2 * D = a * (r + 1) * (d + a) * (d - a) ∧ (t + 1) * D = -(r - 1) * (d + a) ^ 2) ∨
      (σ = a ∧ s ^ 2 * D = r * (a * (r + 1) * (d + a) * (d - a)) ∧ (t + 1) * D = r * (r - 1) * (d + a) ^ 2)) :
    r * (σ * s ^ 2 - A) = σ * s ^ 2 + A ∧
      ((σ * s ^ 2 - A) * D = -2 * (d + a) * (d - a) ∨ (σ * s ^ 2 - A) * D = 2 * r * (d + a) * (d - a)) := by
  have hAD : A * D * (d + a) = (t + 1) * D * (d - a) := by linear_combination D * hA
  have h1 : (σ * s ^ 2 - A) * D = -2 * (d + a) * (d - a) ∧ (σ * s ^ 2 + A) * D = -2 * r * (d + a) * (d - a) ∨
      (σ * s ^ 2 - A) * D = 2 * r * (d + a) * (d - a) ∧ (σ * s ^ 2 + A) * D = 2 * r ^ 2 * (d + a) * (d - a) := by
    rcases h with ⟨h1, h2, h3⟩ | ⟨h1, h2, h3⟩
    · have hA' : A * D = -(r - 1) * (d + a) * (d - a) := by
        apply mul_right_cancel₀ he
        rw [hAD, h3]; ring
      left
      constructor
      · rw [show (σ * s ^ 2 - A) * D = σ * (s ^ 2 * D) - A * D by ring, h1, h2, hA']
        linear_combination (-(r + 1) * (d + a) * (d - a)) * ha
      · rw [show (σ * s ^ 2 + A) * D = σ * (s ^ 2 * D) + A * D by ring, h1, h2, hA']
        linear_combination (-(r + 1) * (d + a) * (d - a)) * ha
    · have hA' : A * D = r * (r - 1) * (d + a) * (d - a) := by
        apply mul_right_cancel₀ he
        rw [hAD, h3]; ring
      right
      constructor
      · rw [show (σ * s ^ 2 - A) * D = σ * (s ^ 2 * D) - A * D by ring, h1, h2, hA']
        linear_combination (r * (r + 1) * (d + a) * (d - a)) * ha
      · rw [show (σ * s ^ 2 + A) * D = σ * (s ^ 2 * D) + A * D by ring, h1, h2, hA']
        linear_combination (r * (r + 1) * (d + a) * (d - a)) * ha
  refine ⟨?_, h1.imp And.left And.left⟩
  apply mul_right_cancel₀ hD0
  rcases h1 with ⟨h1, h2⟩ | ⟨h1, h2⟩ <;> rw [mul_assoc, h1, h2] <;> ring

end

section
variable {fe : FieldCode} [Fact fe.p.Prime] {a d : ZMod fe.p} [g : EdGood a d]

theorem ad_nonsquare (ha : a ^ 2 = 1) (w : ZMod fe.p) : w ^ 2 ≠ 4 * (a * d) := by
  intro h
  obtain ⟨b, hb⟩ := g.sq
  apply g.nsq
  have h2 := g.two
  refine ⟨b * w / 2, ?_⟩
  field_simp
  linear_combination (-a) * h + (w ^ 2) * hb + (-4 * d) * ha

/-- A point of the quartic gives a point of the curve. -/
theorem quartic_ne {s t k : ZMod fe.p} (ha : a ^ 2 = 1) (hk : k ^ 2 = a * d - 1)
    (hq : (d - a) * t ^ 2 = (d - a) * s ^ 4 + 2 * a * (d + a) * s ^ 2 + (d - a)) : t ≠ 0 ∧ 1 - a * s ^ 2 ≠ 0 ∧ k ≠ 0 := by
  refine ⟨?_, ?_, ?_⟩
  · rintro rfl
    apply ad_nonsquare (d := d) ha ((d - a) * s ^ 2 + a * (d + a))
    linear_combination -(d - a) * hq + ((d + a) ^ 2) * ha
  · intro h
    have h1 : s ^ 2 = a := by linear_combination (-a) * h - s ^ 2 * ha
    apply ad_nonsquare (d := d) ha (t * k)
    rw [show s ^ 4 = (s ^ 2) ^ 2 by ring, h1] at hq
    linear_combination t ^ 2 * hk + a * hq + (t ^ 2 + a * (d - a) + 2 * a * (d + a)) * ha
  · rintro rfl
    exact ed_ad (a := a) (d := d) (by linear_combination a * hk + d * ha)

theorem quartic_pt {s t k : ZMod fe.p} (ha : a ^ 2 = 1) (hk : k ^ 2 = a * d - 1)
    (hq : (d - a) * t ^ 2 = (d - a) * s ^ 4 + 2 * a * (d + a) * s ^ 2 + (d - a)) :
    ∃ P : EPt a d, P.x = 2 * s / (t * k) ∧ P.y = (1 + a * s ^ 2) / (1 - a * s ^ 2) ∧ RistPoint k s t P ∧ Even P := by
  obtain ⟨h1, h2, h3⟩ := quartic_ne ha hk hq
  obtain ⟨x, hx⟩ : ∃ x, x = 2 * s / (t * k) := ⟨_, rfl⟩
  obtain ⟨y, hy⟩ : ∃ y, y = (1 + a * s ^ 2) / (1 - a * s ^ 2) := ⟨_, rfl⟩
  have hx' : x * (t * k) = 2 * s := by rw [hx, div_mul_cancel₀ _ (mul_ne_zero h1 h3)]
  have hy' : y * (1 - a * s ^ 2) = 1 + a * s ^ 2 := by rw [hy, div_mul_cancel₀ _ h2]
  have hon : a * x ^ 2 + y ^ 2 = 1 + d * x ^ 2 * y ^ 2 := by
    apply mul_right_cancel₀ (pow_ne_zero 2 (mul_ne_zero (mul_ne_zero h1 h3) h2))
    have hq' : (t * k) ^ 2 = a * ((d - a) * s ^ 4 + 2 * a * (d + a) * s ^ 2 + (d - a)) := by
      rw [mul_pow, hk]; linear_combination a * hq + t ^ 2 * ha
    have e1 : (a * x ^ 2 + y ^ 2) * (t * k * (1 - a * s ^ 2)) ^ 2 = a * (x * (t * k)) ^ 2 * (1 - a * s ^ 2) ^ 2 + (y * (1 - a * s ^ 2)) ^ 2 * (t * k) ^ 2 := by ring
    have e2 : (1 + d * x ^ 2 * y ^ 2) * (t * k * (1 - a * s ^ 2)) ^ 2 =
        (t * k) ^ 2 * (1 - a * s ^ 2) ^ 2 + d * (x * (t * k)) ^ 2 * (y * (1 - a * s ^ 2)) ^ 2 := by ring
    rw [e1, e2, hx', hy', hq']
    rcases sq_one ha with h | h <;> rw [h] <;> ring
  refine ⟨⟨x, y, hon⟩, hx, hy, ⟨hx', hy'⟩, ?_⟩
  by_cases hs : s = 0
  · refine ⟨0, ?_⟩
    rw [add_zero]
    apply EPt.ext
    · rw [ed_zero_x]
      show x = 0
      rw [hx, hs]; simp
    · rw [ed_zero_y]
      show y = 1
      rw [hy, hs]; simp
  · apply even_of ha hk (s := s)
    · show x ≠ 0
      rw [hx]
      exact div_ne_zero (mul_ne_zero g.two hs) (mul_ne_zero h1 h3)
    · show s ^ 2 * (1 + y) = -a * (1 - y)
      apply mul_right_cancel₀ h2
      linear_combination (s ^ 2 - a) * hy' + (-2 * s ^ 2) * ha

end

/-! ### The map -/

section
variable {fe : FieldCode} [Fact fe.p.Prime] {ec : Edwards (ZMod fe.p)} [g : EdGood ec.a ec.d] {rs : Ristretto (ZMod fe.p)}

/-- What the constants have to be for the map. -/
structure RistC (ec : Edwards (ZMod fe.p)) (rs : Ristretto (ZMod fe.p)) : Prop where
  adm : rs.adm1s ^ 2 = ec.a * ec.d - 1
  admi : rs.adm1s * rs.adm1si = -ec.a
  dm : rs.dmaddpa * (ec.d + ec.a) = ec.d - ec.a
  qd : rs.qnrds ^ 2 = rs.qnr * ec.d
  qn : ¬ IsSquare rs.qnr
  q2 : rs.qnr ^ 2 = ec.a
  root : RootQ fe rs.qnr
  c : (ec.h = 4 ∧ ec.a = 1 ∧ rs.qnr = -1) ∨ (ec.h = 8 ∧ ec.a = -1 ∧ rs.dmasi ^ 2 * (ec.d - ec.a) = 1)

theorem RistC.a2 (c : RistC ec rs) : ec.a ^ 2 = 1 := by
  rcases c.c with ⟨-, h, -⟩ | ⟨-, h, -⟩ <;> rw [h] <;> ring

theorem RistC.f (_c : RistC ec rs) : ec.d - ec.a ≠ 0 := fun h => ed_ad (a := ec.a) (d := ec.d) (by linear_combination -h)

theorem RistC.e (c : RistC ec rs) : ec.d + ec.a ≠ 0 := by
  intro h
  apply c.f
  rw [← c.dm, h, mul_zero]

theorem rsqrt_q {q : ZMod fe.p} (h2 : (2 : ZMod fe.p) ≠ 0) (h : RootQ fe q) (z : Nat) (hz : z < 3) (u v : ZMod fe.p) : ∃ r ok,
    fe_rsqrt fe z u v = .ok (r, ok) ∧ (ok = true ↔ v ≠ 0 ∧ IsSquare (u / v)) ∧ (ok = true → r ^ 2 * v = u) ∧
    (ok = false → r ^ 2 * v = q * u ∨ v = 0) ∧ (v = 0 → r = 0) ∧ r.val % 2 = 0 := by
  obtain ⟨r, o, h1, h3, h4, h5, h6⟩ := h z hz u v
  refine ⟨fe_set_odd fe r false, o, by rw [fe_rsqrt, h1]; rfl, h3, ?_, ?_, ?_, even_set_odd h2 r⟩
  · rw [set_odd_sq]; exact h4
  · rw [set_odd_sq]; exact h5
  · intro hv; rw [h6 hv, set_odd_zero]

theorem odd_set_odd (h2 : (2 : ZMod fe.p) ≠ 0) (y : ZMod fe.p) : fe_set_odd fe y true = 0 ∨ (fe_set_odd fe y true).val % 2 = 1 := by
  by_cases hy : y = 0
  · left; rw [hy, set_odd_zero]
  · right
    have := set_odd_parity h2 hy true
    rwa [fe_is_odd, beq_iff_eq] at this

/-- The output of the map for a point of the quartic. -/
theorem ell_out (c : RistC ec rs) {s t D nt : ZMod fe.p} (hD : D ≠ 0) (hn : nt = t * D)
    (hq : (ec.d - ec.a) * t ^ 2 = (ec.d - ec.a) * s ^ 4 + 2 * ec.a * (ec.d + ec.a) * s ^ 2 + (ec.d - ec.a)) :
    ∃ P : EPt ec.a ec.d, Ext (⟨(s + s) * D * (1 - ec.a * (s * s)), (1 + ec.a * (s * s)) * (nt * rs.adm1s), nt * rs.adm1s * (1 - ec.a * (s * s)),
      (s + s) * D * (1 + ec.a * (s * s))⟩ : Xge (ZMod fe.p)) P ∧ Even P ∧ RistPoint rs.adm1s s t P := by
  obtain ⟨P, -, -, h3, h4⟩ := quartic_pt c.a2 c.adm hq
  obtain ⟨n1, n2, n3⟩ := quartic_ne c.a2 c.adm hq
  obtain ⟨k1, k2⟩ := id h3
  have e : s * s = s ^ 2 := (pow_two s).symm
  refine ⟨P, ⟨?_, ?_, ?_, ?_⟩, h4, h3⟩
  · show nt * rs.adm1s * (1 - ec.a * (s * s)) ≠ 0
    rw [hn, e]
    exact mul_ne_zero (mul_ne_zero (mul_ne_zero n1 hD) n3) n2
  · show (s + s) * D * (1 - ec.a * (s * s)) = P.x * (nt * rs.adm1s * (1 - ec.a * (s * s)))
    rw [hn, e]
    linear_combination -(D * (1 - ec.a * s ^ 2)) * k1
  · show (1 + ec.a * (s * s)) * (nt * rs.adm1s) = P.y * (nt * rs.adm1s * (1 - ec.a * (s * s)))
    rw [hn, e]
    linear_combination -(t * D * rs.adm1s) * k2
  · show (s + s) * D * (1 + ec.a * (s * s)) = P.x * P.y * (nt * rs.adm1s * (1 - ec.a * (s * s)))
    rw [hn, e]
    linear_combination -(P.y * (1 - ec.a * s ^ 2) * D) * k1 - (2 * s * D) * k2

theorem ell_ok (cc : EdConst ec) (c : RistC ec rs) (u : ZMod fe.p) : ∃ p P, ristretto_elligator ec rs u = .ok p ∧ Ext p P ∧ Even P ∧
    RistElligator rs.qnr rs.adm1s u (P : EPt ec.a ec.d) := by
  obtain ⟨r, hr⟩ : ∃ r, r = rs.qnr * u ^ 2 := ⟨_, rfl⟩
  have hr' : u * u * rs.qnr = r := by rw [hr]; ring
  obtain ⟨N, hN⟩ : ∃ N, N = ec.a * (r + 1) * (ec.d + ec.a) * (ec.d - ec.a) := ⟨_, rfl⟩
  have hN' : ec.a * ((r + 1) * (ec.d + ec.a) * (ec.d - ec.a)) = N := by rw [hN]; ring
  obtain ⟨D, hD⟩ : ∃ D, D = (ec.d * r - ec.a) * (ec.a * r - ec.d) := ⟨_, rfl⟩
  obtain ⟨s, o, h1, h2, h3, h4, h5, h6⟩ := rsqrt_q g.two c.root 0 (by omega) N D
  unfold ristretto_elligator
  simp only [mul_a_eq, mul_d_eq cc]
  rw [hr', hN', ← hD, h1, C.ok_bind]
  dsimp only
  rw [C.pure_eq]
  have hf := c.f
  have he := c.e
  by_cases hD0 : D = 0
  · -- the neutral element
    have hs : s = 0 := h5 hD0
    have ho : o = false := by
      rcases o with _ | _
      · rfl
      · exact absurd hD0 (h2.1 rfl).1
    refine ⟨_, 0, rfl, ?_, ⟨0, (add_zero 0).symm⟩, 0, 1, ?_, ?_⟩
    · rw [ho, hs]
      simp only [Bool.not_false, fe_select, if_true, zero_mul, set_odd_zero, mul_zero, add_zero, sub_zero, mul_one, one_mul, hD0]
      have hr0 : r ≠ 0 := by
        rintro rfl
        rw [hD0] at hD
        have : ec.a * ec.d = 0 := by linear_combination -hD
        exact mul_ne_zero g.a0 (ed_d0 (a := ec.a) (d := ec.d)) this
      have hr1 : r - 1 ≠ 0 := by
        intro h
        rw [hD0, show r = 1 by linear_combination h] at hD
        have : (ec.d - ec.a) ^ 2 = 0 := by linear_combination hD
        exact pow_ne_zero 2 hf this
      refine ⟨?_, ?_, ?_, ?_⟩
      · show (r - 1) * r * ((ec.d + ec.a) * (ec.d + ec.a)) * rs.adm1s ≠ 0
        have hk : rs.adm1s ≠ 0 := by
          intro h
          have := c.admi
          rw [h, zero_mul] at this
          exact g.a0 (by linear_combination this)
        exact mul_ne_zero (mul_ne_zero (mul_ne_zero hr1 hr0) (mul_ne_zero he he)) hk
      · rw [ed_zero_x, zero_mul]
      · rw [ed_zero_y, one_mul]
      · rw [ed_zero_x, zero_mul, zero_mul]
    · show if _ then _ else _
      rw [← hr, ← hD, if_pos hD0]
      exact ⟨rfl, rfl⟩
    · constructor
      · rw [ed_zero_x]; ring
      · rw [ed_zero_y]; ring
  · have hsq : o = true ↔ IsSquare (N / D) := by rw [h2]; simp [hD0]
    rcases o with _ | _
    · have hns : ¬ IsSquare (N / D) := fun h => by simpa using hsq.2 h
      have h4 := (h4 rfl).resolve_right hD0
      obtain ⟨w, hw⟩ : ∃ w, w = fe_set_odd fe (s * u) true := ⟨_, rfl⟩
      have hw2 : w ^ 2 * D = r * N := by
        rw [hw, set_odd_sq, hr]; linear_combination u ^ 2 * h4
      obtain ⟨t, ht⟩ : ∃ t, t = r * (r - 1) * (ec.d + ec.a) ^ 2 / D - 1 := ⟨_, rfl⟩
      have ht' : (t + 1) * D = r * (r - 1) * (ec.d + ec.a) ^ 2 := by
        rw [ht, sub_add_cancel, div_mul_cancel₀ _ hD0]
      obtain ⟨P, p1, p2, p3⟩ := ell_out c (s := w) (t := t) (nt := (r - 1) * r * ((ec.d + ec.a) * (ec.d + ec.a)) - D) hD0
        (by linear_combination -ht') (ell_quartic c.a2 hD hD0 (Or.inr ⟨by rw [hw2, hN], ht'⟩))
      refine ⟨_, P, rfl, ?_, p2, w, t, ?_, p3⟩
      · simp only [Bool.not_false, fe_select, if_true, ← hw]
        exact p1
      · show if _ then _ else _
        rw [← hr, ← hN, ← hD, if_neg hD0, if_neg hns]
        refine ⟨by rw [eq_div_iff hD0, hw2], ?_, ht⟩
        rw [hw]; exact odd_set_odd g.two _
    · have hs2 : IsSquare (N / D) := hsq.1 rfl
      have h3 := h3 rfl
      obtain ⟨t, ht⟩ : ∃ t, t = -(r - 1) * (ec.d + ec.a) ^ 2 / D - 1 := ⟨_, rfl⟩
      have ht' : (t + 1) * D = -(r - 1) * (ec.d + ec.a) ^ 2 := by
        rw [ht, sub_add_cancel, div_mul_cancel₀ _ hD0]
      obtain ⟨P, p1, p2, p3⟩ := ell_out c (s := s) (t := t) (nt := (r - 1) * -1 * ((ec.d + ec.a) * (ec.d + ec.a)) - D) hD0
        (by linear_combination -ht') (ell_quartic c.a2 hD hD0 (Or.inl ⟨by rw [h3, hN], ht'⟩))
      refine ⟨_, P, rfl, ?_, p2, s, t, ?_, p3⟩
      · simp only [Bool.not_true, fe_select, Bool.false_eq_true, if_false]
        exact p1
      · show if _ then _ else _
        rw [← hr, ← hN, ← hD, if_neg hD0, if_pos hs2]
        exact ⟨by rw [eq_div_iff hD0, h3], h6, ht⟩

/-- The point on the quartic is determined, and is on the quartic. -/
theorem ell_quartic_on (c : RistC ec rs) {u s t : ZMod fe.p} (h : RistQuartic ec.a ec.d rs.qnr u s t) :
    (ec.d - ec.a) * t ^ 2 = (ec.d - ec.a) * s ^ 4 + 2 * ec.a * (ec.d + ec.a) * s ^ 2 + (ec.d - ec.a) := by
  unfold RistQuartic at h
  dsimp only at h
  split at h
  · rw [h.1, h.2]; ring
  · rename_i hD0
    split at h
    · obtain ⟨h1, -, h3⟩ := h
      exact ell_quartic c.a2 rfl hD0 (Or.inl ⟨by rw [h1, div_mul_cancel₀ _ hD0], by rw [h3, sub_add_cancel, div_mul_cancel₀ _ hD0]⟩)
    · obtain ⟨h1, -, h3⟩ := h
      exact ell_quartic c.a2 rfl hD0 (Or.inr ⟨by rw [h1, div_mul_cancel₀ _ hD0], by rw [h3, sub_add_cancel, div_mul_cancel₀ _ hD0]⟩)

theorem ell_quartic_fun {u s t s' t' : ZMod fe.p} (h : RistQuartic ec.a ec.d rs.qnr u s t)
    (h' : RistQuartic ec.a ec.d rs.qnr u s' t') : s = s' ∧ t = t' := by
  unfold RistQuartic at h h'
  dsimp only at h h'
  split at h
  · rename_i hD0
    rw [if_pos hD0] at h'
    exact ⟨h.1.trans h'.1.symm, h.2.trans h'.2.symm⟩
  · rename_i hD0
    rw [if_neg hD0] at h'
    split at h
    · rename_i hs
      rw [if_pos hs] at h'
      exact ⟨rist_root g.two h.2.1 h'.2.1 (h.1.trans h'.1.symm), h.2.2.trans h'.2.2.symm⟩
    · rename_i hs
      rw [if_neg hs] at h'
      refine ⟨?_, h.2.2.trans h'.2.2.symm⟩
      have e := h.1.trans h'.1.symm
      rcases h.2.1 with z | z
      · rw [z] at e ⊢
        have : s' ^ 2 = 0 := by rw [← e]; ring
        exact (pow_eq_zero_iff (by norm_num)).1 this |>.symm
      · rcases h'.2.1 with z' | z'
        · rw [z'] at e ⊢
          have : s ^ 2 = 0 := by rw [e]; ring
          exact (pow_eq_zero_iff (by norm_num)).1 this
        · exact root_unique g.two e (by rw [fe_is_odd, fe_is_odd, z, z'])

theorem rist_point_fun (c : RistC ec rs) {s t : ZMod fe.p}
    (hq : (ec.d - ec.a) * t ^ 2 = (ec.d - ec.a) * s ^ 4 + 2 * ec.a * (ec.d + ec.a) * s ^ 2 + (ec.d - ec.a))
    {P Q : EPt ec.a ec.d} (h : RistPoint rs.adm1s s t P) (h' : RistPoint rs.adm1s s t Q) : P = Q := by
  obtain ⟨n1, n2, n3⟩ := quartic_ne c.a2 c.adm hq
  apply EPt.ext
  · exact mul_right_cancel₀ (mul_ne_zero n1 n3) (h.1.trans h'.1.symm)
  · exact mul_right_cancel₀ n2 (h.2.trans h'.2.symm)

theorem rist_elligator_fun (c : RistC ec rs) {u : ZMod fe.p} {P Q : EPt ec.a ec.d} (h : RistElligator rs.qnr rs.adm1s u P)
    (h' : RistElligator rs.qnr rs.adm1s u Q) : P = Q := by
  obtain ⟨s, t, h1, h2⟩ := h
  obtain ⟨s', t', h1', h2'⟩ := h'
  obtain ⟨rfl, rfl⟩ := ell_quartic_fun h1 h1'
  exact rist_point_fun c (ell_quartic_on c h1) h2 h2'

/-! ### The inverse -/

theorem quartic_gen {F : Type} [Field F] {a d s t x : F} (ha : a ^ 2 = 1)
    (h : x ^ 2 * (t ^ 2 * (a * d - 1)) = x ^ 2 * (a * d * (1 + a * s ^ 2) ^ 2 - (1 - a * s ^ 2) ^ 2)) :
    a * (x ^ 2 * ((d - a) * t ^ 2)) = a * (x ^ 2 * ((d - a) * s ^ 4 + 2 * a * (d + a) * s ^ 2 + (d - a))) := by
  rcases sq_one ha with e | e <;> rw [e] at h ⊢ <;> linear_combination h

theorem quartic_of_pt (c : RistC ec rs) {s t : ZMod fe.p} {Q : EPt ec.a ec.d} (h : RistPoint rs.adm1s s t Q) (hs : s ≠ 0) :
    (ec.d - ec.a) * t ^ 2 = (ec.d - ec.a) * s ^ 4 + 2 * ec.a * (ec.d + ec.a) * s ^ 2 + (ec.d - ec.a) := by
  obtain ⟨h1, h2⟩ := h
  have a2 := c.a2
  have hx : Q.x ≠ 0 := by
    intro h; rw [h, zero_mul] at h1
    exact mul_ne_zero g.two hs h1.symm
  have hw : 1 + Q.y ≠ 0 := by
    intro h
    apply g.two
    linear_combination -h2 + (1 - ec.a * s ^ 2) * h
  have hs2 : s ^ 2 * (1 + Q.y) = -ec.a * (1 - Q.y) := by
    linear_combination (-ec.a) * h2 - (s ^ 2 * (1 + Q.y)) * a2
  have hv := (rist_v a2 hw Q.on hs2).1
  apply mul_left_cancel₀ (pow_ne_zero 2 hx)
  apply mul_left_cancel₀ g.a0
  have e : Q.x ^ 2 * (t ^ 2 * rs.adm1s ^ 2) = 4 * s ^ 2 := by linear_combination (Q.x * (t * rs.adm1s) + 2 * s) * h1
  rw [c.adm] at e
  have e2 : Q.x ^ 2 * (t ^ 2 * (ec.a * ec.d - 1)) = Q.x ^ 2 * (ec.a * ec.d * (1 + ec.a * s ^ 2) ^ 2 - (1 - ec.a * s ^ 2) ^ 2) := e.trans hv.symm
  exact quartic_gen a2 e2

/-- One of the points of the quartic which the import makes, for a member `Q` of the class. -/
def QPt (ec : Edwards (ZMod fe.p)) [EdGood ec.a ec.d] (rs : Ristretto (ZMod fe.p)) (P : EPt ec.a ec.d) (q : Qge (ZMod fe.p)) : Prop :=
  (ec.d - ec.a) * q.t ^ 2 = (ec.d - ec.a) * q.s ^ 4 + 2 * ec.a * (ec.d + ec.a) * q.s ^ 2 + (ec.d - ec.a) ∧
  ∃ Q : EPt ec.a ec.d, RistEq ec.h Q P ∧ RistPoint rs.adm1s (-ec.a * q.s) q.t Q

theorem qpt_neg {P : EPt ec.a ec.d} {q : Qge (ZMod fe.p)} (h : QPt ec rs P q) : QPt ec rs P ⟨-q.s, -q.t⟩ := by
  obtain ⟨h1, Q, h2, h3, h4⟩ := h
  refine ⟨by show _ * (-q.t) ^ 2 = _ * (-q.s) ^ 4 + _ * (-q.s) ^ 2 + _; linear_combination h1, Q, h2, ?_, ?_⟩
  · show Q.x * (-q.t * rs.adm1s) = 2 * (-ec.a * -q.s)
    linear_combination -h3
  · show Q.y * (1 - ec.a * (-ec.a * -q.s) ^ 2) = 1 + ec.a * (-ec.a * -q.s) ^ 2
    linear_combination h4

theorem qpt_mk (c : RistC ec rs) {P Q : EPt ec.a ec.d} (hQ : RistEq ec.h Q P) {s t τ : ZMod fe.p} (ht : t = 2 * rs.adm1si * τ) (hs : s = Q.x * τ)
    (hy : s ^ 2 * (1 + Q.y) = -ec.a * (1 - Q.y)) (h1 : 1 - Q.y ≠ 0) :
    QPt ec rs P ⟨s, t⟩ ∧ RistPoint rs.adm1s (-ec.a * s) t Q := by
  have a2 := c.a2
  have hp : RistPoint rs.adm1s (-ec.a * s) t Q := by
    constructor
    · rw [ht, hs]; linear_combination (2 * Q.x * τ) * c.admi
    · linear_combination (-ec.a) * hy - (s ^ 2 * ec.a * (1 + Q.y) - (1 - Q.y)) * a2
  have hs0 : s ≠ 0 := by
    rintro rfl
    have : ec.a * (1 - Q.y) = 0 := by linear_combination hy
    exact mul_ne_zero g.a0 h1 this
  have hq := quartic_of_pt c hp (mul_ne_zero (neg_ne_zero.2 g.a0) hs0)
  refine ⟨⟨?_, Q, hQ, hp⟩, hp⟩
  show _ * t ^ 2 = _ * s ^ 4 + _ * s ^ 2 + _
  rw [hq]
  linear_combination ((ec.d - ec.a) * s ^ 4 * (ec.a ^ 2 + 1) + 2 * ec.a * (ec.d + ec.a) * s ^ 2) * a2

theorem RistC.h (c : RistC ec rs) : RistH ec.h ec.a ec.d := by
  refine ⟨⟨_, c.adm⟩, c.c.imp (fun h => ⟨h.1, h.2.1, ?_⟩) fun h => ⟨h.1, h.2.1⟩⟩
  rw [← h.2.2]; exact c.qn

/-- Neither coordinate is zero but in the class of the neutral element. -/
theorem even_y0 (c : RistC ec rs) {P : EPt ec.a ec.d} (hP : Even P) : (P.x = 0 ∨ P.y = 0) ↔ RistEq ec.h P 0 := by
  rw [rist_zero_iff c.h.hh]
  refine or_congr_right ⟨fun hy => ⟨?_, hy⟩, fun h => h.2⟩
  rcases c.c with ⟨-, h2, h3⟩ | h
  · exfalso
    obtain ⟨Q, hQ⟩ := hP
    obtain ⟨s, hs⟩ := even_sq c.a2 c.adm Q (by rw [← hQ, hy, add_zero]; exact one_ne_zero)
    rw [← hQ, hy, h2] at hs
    exact c.qn ⟨s, by rw [h3]; linear_combination -hs⟩
  · exact h.1

theorem qge_import_ok (c : RistC ec rs) {p : Xge (ZMod fe.p)} {P : EPt ec.a ec.d} (hp : Ext p P) (hP : Even P) :
    ∃ qs, qge_import_rge ec rs p = .ok qs ∧ qs.length = ec.h / 2 ∧ (∀ q ∈ qs, QPt ec rs P q) ∧
      (¬ RistEq ec.h P 0 → ∀ Q : EPt ec.a ec.d, RistEq ec.h Q P → ∃ q ∈ qs, RistPoint rs.adm1s (-ec.a * q.s) q.t Q) := by
  obtain ⟨hz, hx, hy, -⟩ := hp
  have a2 := c.a2
  have hr := c.h
  obtain ⟨G, o, e1, e2, e3, e4, -⟩ := rsqrt_q g.two c.root 2 (by omega) 1 (p.y * p.y * (p.y * p.y) * (p.x * p.x) * (p.z * p.z - p.y * p.y))
  unfold qge_import_rge
  dsimp only
  rw [e1, C.ok_bind]
  dsimp only
  by_cases hzero : RistEq ec.h P 0
  · -- the class of the neutral element
    have hxyz : (fe_is_zero p.x || fe_is_zero p.y) = true := by
      rw [Bool.or_eq_true, fe_is_zero, fe_is_zero, decide_eq_true_iff, decide_eq_true_iff, hx, hy, mul_eq_zero, mul_eq_zero]
      rcases (even_y0 c hP).2 hzero with h | h
      · exact Or.inl (Or.inl h)
      · exact Or.inr (Or.inl h)
    rw [hxyz]
    simp only [fe_select, if_true]
    have q0 : QPt ec rs P ⟨0, 1⟩ := by
      refine ⟨by ring, 0, rist_symm hzero, ?_, ?_⟩
      · rw [ed_zero_x]; ring
      · rw [ed_zero_y]; ring
    rcases c.c with ⟨h1, -⟩ | ⟨h1, h2, h3⟩
    · rw [if_neg (by omega)]
      refine ⟨_, rfl, by rw [h1]; rfl, ?_, fun h => absurd hzero h⟩
      simp only [List.mem_cons, List.not_mem_nil, or_false, or_self, forall_eq]
      exact q0
    · have q2 := c.q2
      have hi : rs.qnr ≠ 0 := by
        rintro h; rw [h, h2] at q2; simp at q2
      have key : ∀ s i : ZMod fe.p, s ^ 2 = 1 → i = -rs.qnr * s → QPt ec rs P ⟨s, (rs.qnr + rs.qnr) * rs.adm1si⟩ := by
        intro s i hs hi'
        have hon : ec.a * i ^ 2 + 0 ^ 2 = 1 + ec.d * i ^ 2 * 0 ^ 2 := by
          rw [hi', mul_pow, neg_sq, hs, q2]; linear_combination a2
        refine (qpt_mk c (Q := ⟨i, 0, hon⟩) (τ := rs.qnr) ?_ (by ring) ?_ ?_ ?_).1
        · refine rist_trans ?_ (rist_symm hzero)
          rw [rist_zero_iff hr.hh]
          exact Or.inr ⟨h1, rfl⟩
        · show s = i * rs.qnr
          rw [hi']; linear_combination s * q2 + s * h2
        · show s ^ 2 * (1 + 0) = -ec.a * (1 - 0)
          rw [hs, h2]; ring
        · show (1 : ZMod fe.p) - 0 ≠ 0
          rw [sub_zero]; exact one_ne_zero
      rw [if_pos h1]
      refine ⟨_, rfl, by rw [h1]; rfl, ?_, fun h => absurd hzero h⟩
      simp only [List.mem_cons, List.not_mem_nil, or_false, forall_eq_or_imp, forall_eq]
      exact ⟨q0, q0, key 1 _ (by ring) rfl, key (-1) _ (by ring) rfl⟩
  · have hne := (even_y0 c hP).not.2 hzero
    rw [not_or] at hne
    obtain ⟨hx0, hy0⟩ := hne
    have hxyz : (fe_is_zero p.x || fe_is_zero p.y) = false := by
      rw [Bool.or_eq_false_iff, fe_is_zero, fe_is_zero, decide_eq_false_iff_not, decide_eq_false_iff_not, hx, hy]
      exact ⟨mul_ne_zero hx0 hz, mul_ne_zero hy0 hz⟩
    rw [hxyz]
    simp only [fe_select, Bool.false_eq_true, if_false]
    have hxn : ¬ (P.y = 1 ∨ P.y = -1) := fun h => hx0 ((ed_x0 P.on).2 h)
    have h1 : 1 + P.y ≠ 0 := fun h => hxn (Or.inr (by linear_combination h))
    have h1' : 1 - P.y ≠ 0 := fun h => hxn (Or.inl (by linear_combination -h))
    have hv : p.y * p.y * (p.y * p.y) * (p.x * p.x) * (p.z * p.z - p.y * p.y) = (p.z ^ 4 * P.y ^ 2 * P.x) ^ 2 * ((1 - P.y) * (1 + P.y)) := by
      rw [hx, hy]; ring
    rw [hv] at e2 e3 e4
    have hv0 : (p.z ^ 4 * P.y ^ 2 * P.x) ^ 2 * ((1 - P.y) * (1 + P.y)) ≠ 0 :=
      mul_ne_zero (pow_ne_zero 2 (mul_ne_zero (mul_ne_zero (pow_ne_zero 4 hz) (pow_ne_zero 2 hy0)) hx0)) (mul_ne_zero h1' h1)
    -- the root
    have hG : G ^ 2 * ((p.z ^ 4 * P.y ^ 2 * P.x) ^ 2 * ((1 - P.y) * (1 + P.y))) = -ec.a := by
      obtain ⟨Q, hQ⟩ := hP
      obtain ⟨s, hs⟩ := even_sq c.a2 c.adm Q (by rw [← hQ]; exact h1)
      rw [← hQ] at hs
      have hs0 : s ≠ 0 := by
        rintro rfl
        have : ec.a * (1 - P.y) = 0 := by linear_combination hs
        exact mul_ne_zero g.a0 h1' this
      rcases c.c with ⟨-, h2, h3⟩ | ⟨-, h2, -⟩
      · have hn : o = false := by
          rcases o with _ | _
          · rfl
          · exfalso
            have := e3 rfl
            replace hs : s ^ 2 * (1 + P.y) = -(1 - P.y) := by linear_combination hs - (1 - P.y) * h2
            refine c.qn ⟨s * (1 + P.y) * (G * (p.z ^ 4 * P.y ^ 2 * P.x)), ?_⟩
            rw [h3]
            linear_combination -(G ^ 2 * (p.z ^ 4 * P.y ^ 2 * P.x) ^ 2 * (1 + P.y)) * hs + this
        rw [(e4 hn).resolve_right hv0, h3, h2]; ring
      · have ho : o = true := by
          rw [e2]
          refine ⟨hv0, ⟨1 / (p.z ^ 4 * P.y ^ 2 * P.x * (s * (1 + P.y))), ?_⟩⟩
          replace hs : s ^ 2 * (1 + P.y) = 1 - P.y := by linear_combination hs - (1 - P.y) * h2
          have h9 : (1 - P.y) * (1 + P.y) = (s * (1 + P.y)) ^ 2 := by linear_combination -(1 + P.y) * hs
          rw [h9]
          field_simp
        rw [e3 ho, h2]; ring
    obtain ⟨γ, hγ⟩ : ∃ γ, γ = G * p.z ^ 4 := ⟨_, rfl⟩
    have hγ2 : γ ^ 2 * (P.y ^ 4 * P.x ^ 2 * (1 - P.y) * (1 + P.y)) = -ec.a := by rw [hγ]; linear_combination hG
    obtain ⟨Q1, c1, x1, y1⟩ := rist_flip hr.hh P
    obtain ⟨q0, r0⟩ := qpt_mk c (rist_refl P) (s := G * (p.y * p.y) * (p.z - p.y) * p.x) (t := (p.z + p.z) * rs.adm1si * (G * (p.y * p.y) * (p.z - p.y)))
      (τ := γ * P.y ^ 2 * (1 - P.y)) (by rw [hγ, hy]; ring) (by rw [hγ, hx, hy]; ring) (by
        rw [hx, hy]
        rw [hγ] at hγ2
        linear_combination (1 - P.y) * hγ2) h1'
    obtain ⟨q1, r1⟩ := qpt_mk c c1 (s := -(G * (p.y * p.y) * (p.z + p.y)) * p.x) (t := (p.z + p.z) * rs.adm1si * (G * (p.y * p.y) * (p.z + p.y)))
      (τ := γ * P.y ^ 2 * (1 + P.y)) (by rw [hγ, hy]; ring) (by rw [x1, hγ, hx, hy]; ring) (by
        rw [y1, hx, hy]
        rw [hγ] at hγ2
        linear_combination (1 + P.y) * hγ2) (by rw [y1, sub_neg_eq_add]; exact h1)
    have hQ1 : ∀ Q : EPt ec.a ec.d, Q.x = -P.x → Q.y = -P.y → Q = Q1 := fun Q hx hy => EPt.ext (hx.trans x1.symm) (hy.trans y1.symm)
    rcases c.c with ⟨g1, g2, -⟩ | ⟨g1, g2, g3⟩
    · rw [if_neg (by omega)]
      refine ⟨_, rfl, by rw [g1]; rfl, ?_, fun _ Q hQ => ?_⟩
      · simp only [List.mem_cons, List.not_mem_nil, or_false, forall_eq_or_imp, forall_eq]
        exact ⟨q0, q1⟩
      · rcases rist_members hr hQ with ⟨k1, k2⟩ | ⟨k1, k2⟩ | ⟨k1, -⟩
        · rw [EPt.ext k1 k2]
          exact ⟨_, List.mem_cons_self, r0⟩
        · rw [hQ1 Q k1 k2]
          exact ⟨_, List.mem_cons_of_mem _ List.mem_cons_self, r1⟩
        · omega
    · rw [if_pos g1]
      have q2 := c.q2
      rw [g2] at q2
      have hr8 : RistH 8 ec.a ec.d := g1 ▸ hr
      obtain ⟨Q2, c2, x2, y2⟩ := rist_rot hr8 (i := -rs.qnr) (by rw [neg_sq, q2]) P
      obtain ⟨Q3, c3, x3, y3⟩ := rist_rot hr8 q2 P
      rw [← g1] at c2 c3
      have hon := P.on
      obtain ⟨m, hm⟩ : ∃ m, m = rs.dmasi := ⟨_, rfl⟩
      rw [← hm] at g3 ⊢
      obtain ⟨i, hi⟩ : ∃ i, i = rs.qnr := ⟨_, rfl⟩
      rw [← hi] at q2 x2 y2 x3 y3 ⊢
      have hc : (1 - P.y ^ 2) * (1 + P.x ^ 2) = -(ec.d + 1) * P.x ^ 2 * P.y ^ 2 := by linear_combination -hon + P.x ^ 2 * g2
      have hM : γ ^ 2 * (1 - P.y ^ 2) ^ 2 * m ^ 2 * P.y ^ 2 * (-(1 + P.x ^ 2)) = 1 := by
        have hyy : P.y ^ 4 * P.x ^ 2 ≠ 0 := mul_ne_zero (pow_ne_zero 4 hy0) (pow_ne_zero 2 hx0)
        apply mul_left_cancel₀ hyy
        have g3' : m ^ 2 * (ec.d + 1) = 1 := by linear_combination g3 + m ^ 2 * g2
        have hγ3 : γ ^ 2 * (P.y ^ 4 * P.x ^ 2 * (1 - P.y) * (1 + P.y)) = 1 := by rw [hγ2, g2]; ring
        linear_combination (-(1 - P.y ^ 2) * m ^ 2 * P.y ^ 2 * (1 + P.x ^ 2)) * hγ3 - (m ^ 2 * P.y ^ 2) * hc + (P.x ^ 2 * P.y ^ 4) * g3'
      have hxi : ∀ j : ZMod fe.p, j ^ 2 = -1 → 1 - j * P.x ≠ 0 := by
        intro j hj h
        have : 1 + P.x ^ 2 = 0 := by linear_combination (1 + j * P.x) * h + P.x ^ 2 * hj
        rw [this] at hM
        simp at hM
      have hy2 : ∀ j w : ZMod fe.p, j ^ 2 = -1 → w ^ 2 = γ ^ 2 * (1 - P.y ^ 2) ^ 2 * m ^ 2 * P.y ^ 2 →
          (w * (j - P.x)) ^ 2 * (1 + -j * P.x) = -ec.a * (1 - -j * P.x) := by
        intro j w hj hw
        rw [mul_pow, hw]
        linear_combination (1 + j * P.x) * hM + (1 + j * P.x) * g2 + γ ^ 2 * (1 - P.y ^ 2) ^ 2 * m ^ 2 * P.y ^ 2 * (1 - j * P.x + 2 * P.x ^ 2) * hj
      obtain ⟨q2', r2⟩ := qpt_mk c c2 (s := -(p.z * p.z - p.y * p.y) * G * m * (i * p.z - p.x) * p.y)
        (t := (i * p.z + i * p.z) * rs.adm1si * (-(p.z * p.z - p.y * p.y) * G * m * (i * p.z - p.x)))
        (τ := -i * γ * (1 - P.y ^ 2) * m * (i - P.x)) (by rw [hγ, hx, hy]; ring) (by rw [x2, hγ, hx, hy]; linear_combination -(G * p.z ^ 4 * (1 - P.y ^ 2) * m * (i - P.x) * P.y) * q2) (by
          rw [y2, hx, hy]
          rw [← hy2 i (-(γ * (1 - P.y ^ 2) * m * P.y)) q2 (by ring), hγ]
          ring) (by rw [y2]; have := hxi (-i) (by rw [neg_sq, q2]); exact this)
      obtain ⟨q3', r3⟩ := qpt_mk c c3 (s := -(-(p.z * p.z - p.y * p.y) * G * m * (i * p.z + p.x)) * p.y)
        (t := (i * p.z + i * p.z) * rs.adm1si * (-(p.z * p.z - p.y * p.y) * G * m * (i * p.z + p.x)))
        (τ := -i * γ * (1 - P.y ^ 2) * m * (i + P.x)) (by rw [hγ, hx, hy]; ring) (by rw [x3, hγ, hx, hy]; linear_combination (G * p.z ^ 4 * (1 - P.y ^ 2) * m * (i + P.x) * P.y) * q2) (by
          rw [y3, hx, hy]
          have := hy2 (-i) (-(γ * (1 - P.y ^ 2) * m * P.y)) (by rw [neg_sq, q2]) (by ring)
          rw [neg_neg] at this
          rw [← this, hγ]
          ring) (by rw [y3]; exact hxi i q2)
      refine ⟨_, rfl, by rw [g1]; rfl, ?_, fun _ Q hQ => ?_⟩
      · simp only [List.mem_cons, List.not_mem_nil, or_false, forall_eq_or_imp, forall_eq]
        exact ⟨q0, q1, q2', q3'⟩
      · rcases rist_members hr hQ with ⟨k1, k2⟩ | ⟨k1, k2⟩ | ⟨-, j, hj, k1, k2⟩
        · rw [EPt.ext k1 k2]
          exact ⟨_, List.mem_cons_self, r0⟩
        · rw [hQ1 Q k1 k2]
          exact ⟨_, List.mem_cons_of_mem _ List.mem_cons_self, r1⟩
        · rcases sq_eq_sq_iff_eq_or_eq_neg.1 (hj.trans q2.symm) with h | h
          · have : Q = Q3 := EPt.ext (by rw [k1, x3, h]) (by rw [k2, y3, h])
            rw [this]
            exact ⟨_, List.mem_cons_of_mem _ (List.mem_cons_of_mem _ (List.mem_cons_of_mem _ List.mem_cons_self)), r3⟩
          · have : Q = Q2 := EPt.ext (by rw [k1, x2, h]) (by rw [k2, y2, h])
            rw [this]
            exact ⟨_, List.mem_cons_of_mem _ (List.mem_cons_of_mem _ List.mem_cons_self), r2⟩

end

end Torsion.Ecc
