import Verif.Ecc.FieldRootLemmas
import Mathlib.Tactic.FinCases

/-!
# Properties of inverses and square roots in the prime fields (C66)

`F` is any field with `p` elements, `p` being the modulus in the table. The output may be the same object as an input.
-/
namespace Torsion

open Ecc

variable {F : Type} [Field F] [DecidableEq F] [Fintype F]

/-- `fe_invert` computes the inverse (zero for zero) and says whether the element has one. -/
theorem fe_invert_exact (fe : FieldCode) (hfe : fe ∈ fieldCodes) (hp : Fintype.card F = fe.p) (z x : Nat) (hz : z < 2)
    (hx : x < 2) (a : F) : fe_invert_code fe z x a = .ok (a⁻¹, decide (a ≠ 0)) := by
  have h : ∀ fe ∈ fieldCodes, 2 < fe.p ∧ ∀ z < 2, ∀ x < 2, expAt (fe.invert z x 2) (expIn x) z = some (fe.p - 2) := by
    decide +kernel
  obtain ⟨h2, h⟩ := h fe hfe
  rw [fe_invert_code, invert_ok (h z hz x hx) hp h2, C.ok_bind]
  by_cases ha : a = 0
  · subst ha; simp
  · simp [ha, C.pure_eq]

/-- `fe_sqrt` says whether the element is a square, and gives a root if it is. -/
theorem fe_sqrt_exact (fe : FieldCode) (hfe : fe ∈ fieldCodes) (hp : Fintype.card F = fe.p) (z x : Nat) (hz : z < 2)
    (hx : x < 2) (a : F) : ∃ r ok, fe_sqrt fe z x a = .ok (r, ok) ∧ (ok = true ↔ IsSquare a) ∧
      (IsSquare a → r * r = a) := by
  have h : ∀ q ∈ [(field_p192.p, p192_fe_sqrt), (field_p256.p, p256_fe_sqrt), (field_p384.p, p384_fe_sqrt),
      (field_p521.p, p521_fe_sqrt), (field_secp256k1.p, secp256k1_fe_sqrt), (field_p448.p, p448_fe_sqrt),
      (field_p251.p, p251_fe_sqrt)], q.1 % 4 = 3 ∧ ∀ z < 2, ∀ x < 2,
      sqrtExp q.2 z x = (some ((q.1 + 1) / 4), some ((q.1 + 1) / 4 * 2), some 1) := by
    decide +kernel
  have k : ∀ q ∈ [(field_p192.p, p192_fe_sqrt), (field_p256.p, p256_fe_sqrt), (field_p384.p, p384_fe_sqrt),
      (field_p521.p, p521_fe_sqrt), (field_secp256k1.p, secp256k1_fe_sqrt), (field_p448.p, p448_fe_sqrt),
      (field_p251.p, p251_fe_sqrt)], Fintype.card F = q.1 → ∃ r ok, runSqrt q.2 z x a = .ok (r, ok) ∧
      (ok = true ↔ IsSquare a) ∧ (IsSquare a → r * r = a) := by
    intro q hq hp
    obtain ⟨h4, h⟩ := h q hq
    exact sqrt34_ok (h z hz x hx) hp h4 a
  simp only [fieldCodes, List.mem_cons, List.not_mem_nil, or_false] at hfe
  rcases hfe with rfl | rfl | rfl | rfl | rfl | rfl | rfl | rfl | rfl
  · exact k _ (List.mem_cons_self ..) hp
  · exact p224_sqrt_ok hp a
  · exact k (_, p256_fe_sqrt) (by simp) hp
  · exact k (_, p384_fe_sqrt) (by simp) hp
  · exact k (_, p521_fe_sqrt) (by simp) hp
  · exact k (_, secp256k1_fe_sqrt) (by simp) hp
  · exact p25519_sqrt_ok hp a
  · exact k (_, p448_fe_sqrt) (by simp) hp
  · exact k (_, p251_fe_sqrt) (by simp) hp

/-- `p224_fe_sqrt_var` also says whether the element is a square, gives a root if it is, and zero if not. -/
theorem p224_fe_sqrt_var_exact (hp : Fintype.card F = field_p224.p) (a : F) :
    ∃ r ok, p224_fe_sqrt_var a = .ok (r, ok) ∧ (ok = true ↔ IsSquare a) ∧ (IsSquare a → r * r = a) ∧
      (¬ IsSquare a → r = 0) :=
  p224_sqrt_var_ok hp a

/-- `fe_is_square` decides whether the element is a square. -/
theorem fe_is_square_exact (fe : FieldCode) (hfe : fe ∈ fieldCodes) (hp : Fintype.card F = fe.p) (a : F) :
    ∃ ok, fe_is_square fe a = .ok ok ∧ (ok = true ↔ IsSquare a) := by
  have hd : fe = field_p224 ∨ fe.legendre = none := by
    simp only [fieldCodes, List.mem_cons, List.not_mem_nil, or_false] at hfe
    rcases hfe with rfl | rfl | rfl | rfl | rfl | rfl | rfl | rfl | rfl <;>
      first
      | exact Or.inr rfl
      | exact Or.inl rfl
  rcases hd with rfl | hd
  · have h2 : (2 : F) ≠ 0 := card_neg_one hp (by decide +kernel)
    have hchar : ringChar F ≠ 2 := by
      intro h
      apply h2
      have := ringChar.Nat.cast_ringChar (R := F)
      rw [h] at this
      exact_mod_cast this
    have e : fe_is_square field_p224 a = .ok (decide (a ^ (field_p224.p / 2) = -1) ^^ true) := by
      rw [fe_is_square]
      dsimp only [field_p224]
      rw [runChain_pow p224_leg, C.ok_bind]
      rfl
    refine ⟨_, e, ?_⟩
    rw [← hp]
    by_cases h0 : a = 0
    · subst h0
      have : Fintype.card F / 2 ≠ 0 := by rw [hp]; decide +kernel
      simp [this]
    · have hne : (1 : F) ≠ -1 := by
        intro h; apply h2; linear_combination h
      rw [FiniteField.isSquare_iff hchar h0]
      rcases FiniteField.pow_dichotomy hchar h0 with h | h
      · simp [h, hne]
      · simp [h, Ne.symm hne]
  · obtain ⟨r, ok, h1, h2, _⟩ := fe_sqrt_exact fe hfe hp 0 1 (by omega) (by omega) a
    rw [fe_sqrt] at h1
    refine ⟨ok, ?_, h2⟩
    rw [fe_is_square]
    rw [hd]
    dsimp only
    rw [h1]
    rfl

/-- `fe_isqrt` says whether the quotient exists and is a square, and gives a root of it if it is. -/
theorem fe_isqrt_exact (fe : FieldCode) (hfe : fe ∈ fieldCodes) (hp : Fintype.card F = fe.p) (z : Nat) (hz : z < 3)
    (u v : F) : ∃ r ok, fe_isqrt fe z u v = .ok (r, ok) ∧ (ok = true ↔ v ≠ 0 ∧ IsSquare (u / v)) ∧
      (ok = true → r * r = u / v) := by
  have h : ∀ q ∈ [(field_p192.p, p192_fe_isqrt), (field_p256.p, p256_fe_isqrt), (field_p384.p, p384_fe_isqrt),
      (field_p521.p, p521_fe_isqrt), (field_secp256k1.p, secp256k1_fe_isqrt), (field_p448.p, p448_fe_isqrt),
      (field_p251.p, p251_fe_isqrt)], q.1 % 4 = 3 ∧ ∀ z < 3,
      isqrtExp q.2 z = (some ((q.1 - 3) / 4 * 5 + 3, (q.1 - 3) / 4 * 3 + 1),
      some (2 * ((q.1 - 3) / 4 * 5 + 3), 2 * ((q.1 - 3) / 4 * 3 + 1) + 1), some (1, 0)) := by
    decide +kernel
  -- all fields with a chain for the inverse square root
  have chain : ∀ f : Nat → F → F → C (F × Bool), fe.isqrt (F := F) = some f →
      (∃ r ok, f z u v = .ok (r, ok) ∧ (ok = true ↔ QuotSq u v) ∧ (QuotSq u v → r * r * v = u)) →
      ∃ r ok, fe_isqrt fe z u v = .ok (r, ok) ∧ (ok = true ↔ v ≠ 0 ∧ IsSquare (u / v)) ∧ (ok = true → r * r = u / v) := by
    rintro f hf ⟨r, ok, h1, h2, h3⟩
    have e : fe_isqrt fe z u v = .ok (r, (decide (v = 0) ^^ true) && ok) := by
      rw [fe_isqrt, hf]
      dsimp only
      rw [h1]
      rfl
    refine ⟨_, _, e, ?_, ?_⟩
    · by_cases hv : v = 0
      · simp [hv]
      · simp only [hv, decide_false, Bool.false_xor, Bool.true_and, ne_eq, not_false_iff, true_and]
        rw [h2, quotSq_iff hv]
    · by_cases hv : v = 0
      · simp [hv]
      · simp only [hv, decide_false, Bool.false_xor, Bool.true_and]
        intro hk
        rw [eq_div_iff hv]
        exact h3 (h2.1 hk)
  have k : ∀ q ∈ [(field_p192.p, p192_fe_isqrt), (field_p256.p, p256_fe_isqrt), (field_p384.p, p384_fe_isqrt),
      (field_p521.p, p521_fe_isqrt), (field_secp256k1.p, secp256k1_fe_isqrt), (field_p448.p, p448_fe_isqrt),
      (field_p251.p, p251_fe_isqrt)], Fintype.card F = q.1 → fe.isqrt (F := F) = some (runIsqrt q.2) →
      ∃ r ok, fe_isqrt fe z u v = .ok (r, ok) ∧ (ok = true ↔ v ≠ 0 ∧ IsSquare (u / v)) ∧ (ok = true → r * r = u / v) := by
    intro q hq hp hf
    obtain ⟨h4, h⟩ := h q hq
    exact chain _ hf (isqrt34_ok (h z hz) hp h4 u v)
  have hfe' := hfe
  simp only [fieldCodes, List.mem_cons, List.not_mem_nil, or_false] at hfe
  rcases hfe with rfl | rfl | rfl | rfl | rfl | rfl | rfl | rfl | rfl
  · exact k (_, p192_fe_isqrt) (by simp) hp rfl
  · -- the field without a chain
    have e1 := fe_invert_exact field_p224 hfe' hp 0 1 (by omega) (by omega) v
    obtain ⟨r, ok, e2, h1, h2⟩ := fe_sqrt_exact field_p224 hfe' hp 0 1 (by omega) (by omega) (v⁻¹ * u)
    have e : fe_isqrt field_p224 z u v = .ok (r, decide (v ≠ 0) && ok) := by
      rw [fe_isqrt]
      show (do let (t, ok) ← fe_invert_code field_p224 0 1 v; _) = _
      rw [e1, C.ok_bind]
      dsimp only
      rw [e2]
      rfl
    have hq : v⁻¹ * u = u / v := by rw [div_eq_mul_inv, mul_comm]
    rw [hq] at h1 h2
    refine ⟨_, _, e, ?_, ?_⟩
    · rw [Bool.and_eq_true, decide_eq_true_iff, h1]
    · rw [Bool.and_eq_true, h1]
      exact fun h => h2 h.2
  · exact k (_, p256_fe_isqrt) (by simp) hp rfl
  · exact k (_, p384_fe_isqrt) (by simp) hp rfl
  · exact k (_, p521_fe_isqrt) (by simp) hp rfl
  · exact k (_, secp256k1_fe_isqrt) (by simp) hp rfl
  · obtain ⟨r, ok, h1, h2, h3, _⟩ := p25519_isqrt_ok hp u v
    exact chain _ rfl ⟨r, ok, h1, h2, h3⟩
  · exact k (_, p448_fe_isqrt) (by simp) hp rfl
  · exact k (_, p251_fe_isqrt) (by simp) hp rfl

/-- In the field of 2^255 - 19 elements `fe_isqrt` gives a root of `sqrt(-1) * u / v` when `u / v` has no root, as the
decoding of Ristretto requires. -/
theorem p25519_fe_isqrt_nonsquare (hp : Fintype.card F = field_p25519.p) (z : Nat) (u v : F) (hv : v ≠ 0)
    (hn : ¬ IsSquare (u / v)) : ∃ r, fe_isqrt field_p25519 z u v = .ok (r, false) ∧
      r * r = (p25519_sqrtneg1 : F) * (u / v) ∧ (p25519_sqrtneg1 : F) * (p25519_sqrtneg1 : F) = -1 := by
  obtain ⟨r, ok, h1, h2, _, h3⟩ := p25519_isqrt_ok hp u v
  have hq : ¬ QuotSq u v := fun h => hn ((quotSq_iff hv).1 h)
  have hok : ok = false := by
    cases ok with
    | false => rfl
    | true => exact absurd (h2.1 rfl) hq
  refine ⟨r, ?_, ?_, sqrtneg1_sq hp⟩
  · rw [fe_isqrt]
    show (do let (r, ok) ← p25519_fe_isqrt u v; _) = _
    rw [h1, hok, C.ok_bind, Bool.and_false]
    rfl
  · have := h3 hq
    rw [if_neg hv] at this
    rw [← mul_div_assoc, eq_div_iff hv, this, mul_comm]

end Torsion
