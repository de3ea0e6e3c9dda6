import Verif.Ecc.FieldRoot
import Verif.Dsa.Example
import Mathlib.FieldTheory.Finite.Basic

/-! Lemmas for inverses and square roots: exponents of the chains. -/
namespace Torsion.Ecc

variable {A M : Type}

/-- The exponent of a product. -/
def expMul [Add M] (i j : M) : C M := .ok (i + j)

/-- Corresponding registers. -/
def Regs (R : A → M → Prop) (s : Nat → Option A) (e : Nat → Option M) : Prop :=
  ∀ r i, e r = some i → ∃ a, s r = some a ∧ R a i

theorem Regs.set {R : A → M → Prop} {s e} (h : Regs R s e) (d : Nat) {a : A} {i : M} (hr : R a i) :
    Regs R (regSet s d a) (regSet e d i) := by
  intro r j hj
  unfold regSet at hj ⊢
  by_cases hd : r = d
  · simp only [hd, if_true, Option.some.injEq] at hj ⊢
    exact ⟨a, rfl, hj ▸ hr⟩
  · simp only [hd, if_false] at hj ⊢
    exact h r j hj

theorem Regs.get {R : A → M → Prop} {s e} (h : Regs R s e) {r : Nat} {i : M} (hi : regGet e r = .ok i) :
    ∃ a, regGet s r = .ok a ∧ R a i := by
  unfold regGet at *
  cases he : e r with
  | none => rw [he] at hi; cases hi
  | some j =>
    rw [he] at hi
    cases hi
    obtain ⟨a, ha, hr⟩ := h r _ he
    exact ⟨a, by rw [ha], hr⟩

theorem C.bind_ok {α β : Type} {x : C α} {f : α → C β} {b : β} (h : (x >>= f) = .ok b) : ∃ a, x = .ok a ∧ f a = .ok b := by
  cases x with
  | ok a => exact ⟨a, rfl, h⟩
  | abort => cases h
  | ub => cases h

variable [Add M] {mul : A → A → C A} {R : A → M → Prop}

theorem sqr_loop_rel (hm : ∀ a b i j, R a i → R b j → ∃ c, mul a b = .ok c ∧ R c (i + j)) :
    ∀ n a i, R a i → ∃ b j, sqr_loop mul n a = .ok b ∧ sqr_loop expMul n i = .ok j ∧ R b j := by
  intro n
  induction n with
  | zero => intro a i h; exact ⟨a, i, rfl, rfl, h⟩
  | succ n ih =>
    intro a i h
    obtain ⟨c, hc, hr⟩ := hm a a i i h h
    obtain ⟨b, j, hb, hj, hr'⟩ := ih c (i + i) hr
    refine ⟨b, j, ?_, ?_, hr'⟩
    · rw [sqr_loop, hc, C.ok_bind, hb]
    · rw [sqr_loop, expMul, C.ok_bind]; exact hj

theorem stepIns_rel (hm : ∀ a b i j, R a i → R b j → ∃ c, mul a b = .ok c ∧ R c (i + j)) {s e e'} (h : Regs R s e)
    (ins : Ins) (he : stepIns expMul e ins = .ok e') : ∃ s', stepIns mul s ins = .ok s' ∧ Regs R s' e' := by
  cases ins with
  | set d a =>
    obtain ⟨i, hi, he⟩ := C.bind_ok he
    cases he
    obtain ⟨x, hx, hr⟩ := h.get hi
    exact ⟨_, by rw [stepIns, hx, C.ok_bind]; rfl, h.set d hr⟩
  | sqr d a =>
    obtain ⟨i, hi, he⟩ := C.bind_ok he
    obtain ⟨j, hj, he⟩ := C.bind_ok he
    cases he
    cases hj
    obtain ⟨x, hx, hr⟩ := h.get hi
    obtain ⟨y, hy, hr'⟩ := hm x x i i hr hr
    exact ⟨_, by rw [stepIns, hx, C.ok_bind, hy, C.ok_bind]; rfl, h.set d hr'⟩
  | sqrn d a n =>
    obtain ⟨i, hi, he⟩ := C.bind_ok he
    obtain ⟨j, hj, he⟩ := C.bind_ok he
    cases hj
    obtain ⟨k, hk, he⟩ := C.bind_ok he
    cases he
    obtain ⟨x, hx, hr⟩ := h.get hi
    obtain ⟨y, hy, hr'⟩ := hm x x i i hr hr
    obtain ⟨z, l, hz, hl, hr''⟩ := sqr_loop_rel hm (n - 1) y _ hr'
    rw [hk] at hl
    cases hl
    exact ⟨_, by rw [stepIns, hx, C.ok_bind, hy, C.ok_bind, hz, C.ok_bind]; rfl, h.set d hr''⟩
  | mul d a b =>
    obtain ⟨i, hi, he⟩ := C.bind_ok he
    obtain ⟨j, hj, he⟩ := C.bind_ok he
    obtain ⟨k, hk, he⟩ := C.bind_ok he
    cases hk
    cases he
    obtain ⟨x, hx, hr⟩ := h.get hi
    obtain ⟨y, hy, hr'⟩ := h.get hj
    obtain ⟨z, hz, hr''⟩ := hm x y i j hr hr'
    exact ⟨_, by rw [stepIns, hx, C.ok_bind, hy, C.ok_bind, hz, C.ok_bind]; rfl, h.set d hr''⟩

/-- A program on the exponents predicts the program on the elements. -/
theorem runIns_rel (hm : ∀ a b i j, R a i → R b j → ∃ c, mul a b = .ok c ∧ R c (i + j)) :
    ∀ (prog : List Ins) {s e e'}, Regs R s e → runIns expMul prog e = .ok e' →
      ∃ s', runIns mul prog s = .ok s' ∧ Regs R s' e' := by
  intro prog
  induction prog with
  | nil => intro s e e' h he; cases he; exact ⟨s, rfl, h⟩
  | cons i is ih =>
    intro s e e' h he
    obtain ⟨e1, h1, he⟩ := C.bind_ok he
    obtain ⟨s1, hs1, hr⟩ := stepIns_rel hm h i h1
    obtain ⟨s2, hs2, hr2⟩ := ih hr he
    exact ⟨s2, by rw [runIns, hs1, C.ok_bind, hs2], hr2⟩

/-- The exponent in a register after a program. -/
def expAt {M : Type} [Add M] (prog : List Ins) (e : Nat → Option M) (r : Nat) : Option M :=
  match runIns expMul prog e with
  | .ok s => s r
  | _ => none

theorem expAt_some {M : Type} [Add M] {prog : List Ins} {e : Nat → Option M} {r : Nat} {i : M}
    (h : expAt prog e r = some i) : ∃ e', runIns expMul prog e = .ok e' ∧ e' r = some i := by
  unfold expAt at h
  cases hr : runIns expMul prog e with
  | ok s => rw [hr] at h; exact ⟨s, rfl, h⟩
  | abort => rw [hr] at h; cases h
  | ub => rw [hr] at h; cases h

variable {F : Type} [Field F] [DecidableEq F]

theorem feMul_rel (x : F) : ∀ a b (i j : Nat), a = x ^ i → b = x ^ j → ∃ c, feMul a b = .ok c ∧ c = x ^ (i + j) :=
  fun a b i j ha hb => ⟨a * b, rfl, by rw [ha, hb, pow_add]⟩

theorem feMul_rel2 (x y : F) : ∀ a b (i j : Nat × Nat), a = x ^ i.1 * y ^ i.2 → b = x ^ j.1 * y ^ j.2 →
    ∃ c, feMul a b = .ok c ∧ c = x ^ (i + j).1 * y ^ (i + j).2 :=
  fun a b i j ha hb => ⟨a * b, rfl, by rw [ha, hb, Prod.fst_add, Prod.snd_add, pow_add, pow_add]; ring⟩

/-- The registers before a call with one input. -/
def expIn (x : Nat) : Nat → Option Nat := regSet (fun _ => none) x 1

/-- The registers before a call with two inputs. -/
def expIn2 : Nat → Option (Nat × Nat) := regSet (regSet (fun _ => none) 1 (1, 0)) 2 (0, 1)

theorem regs_in (x : Nat) (a : F) : Regs (fun b i => b = a ^ i) (regSet (fun _ => none) x a) (expIn x) :=
  Regs.set (fun _ _ h => by cases h) x (pow_one a).symm

theorem regs_in2 (a b : F) : Regs (fun c (i : Nat × Nat) => c = a ^ i.1 * b ^ i.2)
    (regSet (regSet (fun _ => none) 1 a) 2 b) expIn2 :=
  Regs.set (Regs.set (fun _ _ h => by cases h) 1 (by simp)) 2 (by simp)

theorem runChain_pow {f : Nat → Nat → Nat → List Ins} {z x e : Nat} (h : expAt (f z x 2) (expIn x) z = some e) (a : F) :
    runChain f z x a = .ok (a ^ e) := by
  obtain ⟨e', he, hz⟩ := expAt_some h
  obtain ⟨s', hs, hr⟩ := runIns_rel (feMul_rel a) _ (regs_in x a) he
  obtain ⟨b, hb, hbe⟩ := hr z e hz
  rw [runChain, hs, C.ok_bind, regGet, hb, hbe]

/-- The exponents of a square root: the output and the two elements which are compared. -/
def sqrtExp (f : Nat → Nat → Nat → List Ins × (Nat × Nat) × List Ins) (z x : Nat) : Option Nat × Option Nat × Option Nat :=
  (expAt ((f z x 2).1 ++ (f z x 2).2.2) (expIn x) z, expAt (f z x 2).1 (expIn x) (f z x 2).2.1.1,
    expAt (f z x 2).1 (expIn x) (f z x 2).2.1.2)

theorem runIns_append {A : Type} (mul : A → A → C A) : ∀ p q s,
    runIns mul (p ++ q) s = (runIns mul p s >>= fun s => runIns mul q s) := by
  intro p
  induction p with
  | nil => intro q s; rfl
  | cons i is ih =>
    intro q s
    rw [List.cons_append, runIns, runIns, C.bind_assoc]
    congr 1
    funext s
    exact ih q s

theorem runSqrt_pow {f : Nat → Nat → Nat → List Ins × (Nat × Nat) × List Ins} {z x e c d : Nat}
    (h : sqrtExp f z x = (some e, some c, some d)) (a : F) :
    runSqrt f z x a = .ok (a ^ e, decide (a ^ c = a ^ d)) := by
  simp only [sqrtExp, Prod.mk.injEq] at h
  obtain ⟨h1, h2, h3⟩ := h
  obtain ⟨e1, he1, hz1⟩ := expAt_some h1
  obtain ⟨e2, he2, hz2⟩ := expAt_some h2
  obtain ⟨e3, he3, hz3⟩ := expAt_some h3
  rw [he2] at he3
  cases he3
  obtain ⟨s2, hs2, hr2⟩ := runIns_rel (feMul_rel a) _ (regs_in x a) he2
  rw [runIns_append, he2, C.ok_bind] at he1
  obtain ⟨s1, hs1, hr1⟩ := runIns_rel (feMul_rel a) _ hr2 he1
  obtain ⟨b, hb, hbe⟩ := hr1 z e hz1
  obtain ⟨b2, hb2, hbe2⟩ := hr2 _ c hz2
  obtain ⟨b3, hb3, hbe3⟩ := hr2 _ d hz3
  rw [runSqrt, hs2, C.ok_bind, regGet, hb2, C.ok_bind, regGet, hb3, C.ok_bind, hs1, C.ok_bind, regGet, hb, C.ok_bind,
    hbe, hbe2, hbe3]
  rfl

/-- The exponents of an inverse square root. -/
def isqrtExp (f : Nat → Nat → Nat → Nat → List Ins × (Nat × Nat) × List Ins) (z : Nat) :
    Option (Nat × Nat) × Option (Nat × Nat) × Option (Nat × Nat) :=
  (expAt ((f z 1 2 3).1 ++ (f z 1 2 3).2.2) expIn2 z, expAt (f z 1 2 3).1 expIn2 (f z 1 2 3).2.1.1,
    expAt (f z 1 2 3).1 expIn2 (f z 1 2 3).2.1.2)

theorem runIsqrt_pow {f : Nat → Nat → Nat → Nat → List Ins × (Nat × Nat) × List Ins} {z : Nat} {e c d : Nat × Nat}
    (h : isqrtExp f z = (some e, some c, some d)) (a b : F) :
    runIsqrt f z a b = .ok (a ^ e.1 * b ^ e.2, decide (a ^ c.1 * b ^ c.2 = a ^ d.1 * b ^ d.2)) := by
  simp only [isqrtExp, Prod.mk.injEq] at h
  obtain ⟨h1, h2, h3⟩ := h
  obtain ⟨e1, he1, hz1⟩ := expAt_some h1
  obtain ⟨e2, he2, hz2⟩ := expAt_some h2
  obtain ⟨e3, he3, hz3⟩ := expAt_some h3
  rw [he2] at he3
  cases he3
  obtain ⟨s2, hs2, hr2⟩ := runIns_rel (feMul_rel2 a b) _ (regs_in2 a b) he2
  rw [runIns_append, he2, C.ok_bind] at he1
  obtain ⟨s1, hs1, hr1⟩ := runIns_rel (feMul_rel2 a b) _ hr2 he1
  obtain ⟨b, hb, hbe⟩ := hr1 z e hz1
  obtain ⟨b2, hb2, hbe2⟩ := hr2 _ c hz2
  obtain ⟨b3, hb3, hbe3⟩ := hr2 _ d hz3
  rw [runIsqrt, hs2, C.ok_bind, regGet, hb2, C.ok_bind, regGet, hb3, C.ok_bind, hs1, C.ok_bind, regGet, hb, C.ok_bind,
    hbe, hbe2, hbe3]
  rfl

/-! Inverses and roots in a finite field. -/
variable [Fintype F]

theorem pow_card_sub_two (a : F) (h2 : 2 < Fintype.card F) : a ^ (Fintype.card F - 2) = a⁻¹ := by
  by_cases h : a = 0
  · subst h
    rw [zero_pow (by omega), inv_zero]
  · refine eq_inv_of_mul_eq_one_left ?_
    rw [← pow_succ, show Fintype.card F - 2 + 1 = Fintype.card F - 1 by omega]
    exact FiniteField.pow_card_sub_one_eq_one a h

theorem invert_ok {f : Nat → Nat → Nat → List Ins} {z x p : Nat} (h : expAt (f z x 2) (expIn x) z = some (p - 2))
    (hp : Fintype.card F = p) (h2 : 2 < p) (a : F) : runChain f z x a = .ok a⁻¹ := by
  rw [runChain_pow h, ← hp, pow_card_sub_two a (by omega)]

theorem sqrt34 {p : Nat} (hp : Fintype.card F = p) (h4 : p % 4 = 3) (a : F) :
    (a ^ ((p + 1) / 4)) ^ 2 = a ↔ IsSquare a := by
  constructor
  · intro h; exact ⟨a ^ ((p + 1) / 4), by rw [← pow_two, h]⟩
  · rintro ⟨w, rfl⟩
    by_cases hw : w = 0
    · subst hw; rw [mul_zero, zero_pow (by omega), zero_pow (by omega)]
    · rw [← pow_mul, ← pow_two, ← pow_mul, show 2 * ((p + 1) / 4 * 2) = (p - 1) + 2 by omega, pow_add, ← hp,
        FiniteField.pow_card_sub_one_eq_one w hw, one_mul]

theorem sqrt34_ok {f : Nat → Nat → Nat → List Ins × (Nat × Nat) × List Ins} {z x p : Nat}
    (h : sqrtExp f z x = (some ((p + 1) / 4), some ((p + 1) / 4 * 2), some 1)) (hp : Fintype.card F = p) (h4 : p % 4 = 3)
    (a : F) : ∃ r ok, runSqrt f z x a = .ok (r, ok) ∧ (ok = true ↔ IsSquare a) ∧ (IsSquare a → r * r = a) := by
  refine ⟨_, _, runSqrt_pow h a, ?_, ?_⟩
  · rw [decide_eq_true_iff, pow_mul, pow_one]
    exact sqrt34 hp h4 a
  · intro hs
    rw [← pow_two]
    exact (sqrt34 hp h4 a).2 hs

/-- Roots of a quotient, with 0/0 taken as a square. -/
def QuotSq (u v : F) : Prop := ∃ w, w * w * v = u

theorem quotSq_iff {u v : F} (hv : v ≠ 0) : QuotSq u v ↔ IsSquare (u / v) := by
  constructor
  · rintro ⟨w, rfl⟩; exact ⟨w, by rw [mul_div_assoc, div_self hv, mul_one]⟩
  · rintro ⟨w, hw⟩; exact ⟨w, by rw [← hw, div_mul_cancel₀ _ hv]⟩

theorem isqrt34_ok {f : Nat → Nat → Nat → Nat → List Ins × (Nat × Nat) × List Ins} {z p : Nat}
    (h : isqrtExp f z = (some ((p - 3) / 4 * 5 + 3, (p - 3) / 4 * 3 + 1),
      some (2 * ((p - 3) / 4 * 5 + 3), 2 * ((p - 3) / 4 * 3 + 1) + 1), some (1, 0)))
    (hp : Fintype.card F = p) (h4 : p % 4 = 3) (u v : F) :
    ∃ r ok, runIsqrt f z u v = .ok (r, ok) ∧ (ok = true ↔ QuotSq u v) ∧ (QuotSq u v → r * r * v = u) := by
  have key : ∀ r, r = u ^ ((p - 3) / 4 * 5 + 3) * v ^ ((p - 3) / 4 * 3 + 1) → (r * r * v = u ↔ QuotSq u v) := by
    intro r hr
    constructor
    · intro h; exact ⟨r, h⟩
    · rintro ⟨w, rfl⟩
      by_cases hv : v = 0
      · rw [hv]; ring
      by_cases hw : w = 0
      · rw [hr, hw]; simp
      have h1 := FiniteField.pow_card_sub_one_eq_one v hv
      have h2 := FiniteField.pow_card_sub_one_eq_one w hw
      rw [hp] at h1 h2
      obtain ⟨e, he⟩ : ∃ e, p - 1 = 4 * e + 2 ∧ (p - 3) / 4 = e := ⟨(p - 3) / 4, by omega, rfl⟩
      rw [he.1] at h1 h2
      rw [hr, he.2]
      have e1 : (w * w * v) ^ (e * 5 + 3) * v ^ (e * 3 + 1) * ((w * w * v) ^ (e * 5 + 3) * v ^ (e * 3 + 1)) * v
          = (w ^ (4 * e + 2)) ^ 5 * (v ^ (4 * e + 2)) ^ 4 * (w * w * v) := by
        simp only [mul_pow, ← pow_mul, ← pow_add, ← pow_succ, ← pow_two]
        ring
      rw [e1, h1, h2]
      ring
  refine ⟨_, _, runIsqrt_pow h u v, ?_, ?_⟩
  · rw [decide_eq_true_iff, ← key _ rfl]
    have e1 : ∀ a b : Nat, u ^ (2 * a) * v ^ (2 * b + 1) = u ^ a * v ^ b * (u ^ a * v ^ b) * v := by
      intro a b
      rw [pow_succ, two_mul, two_mul, pow_add, pow_add]
      ring
    dsimp only
    rw [e1, pow_one, pow_zero, mul_one]
  · intro hs
    exact (key _ rfl).2 hs

/-! The field of characteristic 2^255 - 19. -/

theorem card_cast {p : Nat} (hp : Fintype.card F = p) (m n : Nat) (h : m % p = n % p) : (m : F) = (n : F) := by
  have hc : (p : F) = 0 := by rw [← hp]; exact Nat.cast_card_eq_zero F
  rw [← Nat.mod_add_div m p, ← Nat.mod_add_div n p, h]
  push_cast
  rw [hc]
  ring

theorem sqrtneg1_sq (hp : Fintype.card F = field_p25519.p) : (p25519_sqrtneg1 : F) * (p25519_sqrtneg1 : F) = -1 := by
  have h := card_cast (F := F) hp (p25519_sqrtneg1 * p25519_sqrtneg1 + 1) 0 (by decide +kernel)
  push_cast at h
  linear_combination h

/-- The exponents after the core of the square root in the field of 2^255 - 19 elements. -/
theorem p25519_core : expAt (p25519_fe_pow_core 0 1 2 3) (regSet (expIn 1) 2 3) 0 = some (2 ^ 250 - 1) := by
  decide +kernel

theorem p25519_core_run (x : F) : ∃ s, runIns feMul (p25519_fe_pow_core 0 1 2 3)
    (regSet (regSet (fun _ => none) 1 x) 2 (x * x * x)) = .ok s ∧ regGet s 0 = .ok (x ^ (2 ^ 250 - 1)) := by
  obtain ⟨e', he, hz⟩ := expAt_some p25519_core
  obtain ⟨s', hs, hr⟩ := runIns_rel (feMul_rel x) _ ((regs_in 1 x).set 2 (a := x * x * x) (i := 3) (by ring)) he
  obtain ⟨b, hb, hbe⟩ := hr 0 _ hz
  exact ⟨s', hs, by rw [regGet, hb, hbe]⟩

theorem card_neg_one {p : Nat} (hp : Fintype.card F = p) (h : p % 2 = 1) : (2 : F) ≠ 0 := by
  intro h2
  have hc : (p : F) = 0 := by rw [← hp]; exact Nat.cast_card_eq_zero F
  rw [← Nat.mod_add_div p 2, h] at hc
  push_cast at hc
  rw [h2] at hc
  simp at hc

theorem p25519_sqrt_ok (hp : Fintype.card F = field_p25519.p) (a : F) :
    ∃ r ok, p25519_fe_sqrt a = .ok (r, ok) ∧ (ok = true ↔ IsSquare a) ∧ (IsSquare a → r * r = a) := by
  obtain ⟨s, hs, hg⟩ := p25519_core_run a
  have hi := sqrtneg1_sq hp
  obtain ⟨z, hz⟩ : ∃ z : F, z = (a ^ (2 ^ 250 - 1) * a ^ (2 ^ 250 - 1) * a) *
      (a ^ (2 ^ 250 - 1) * a ^ (2 ^ 250 - 1) * a) := ⟨_, rfl⟩
  have hz2 : z = a ^ (2 ^ 252 - 2) := by
    rw [hz, ← pow_add, ← pow_succ, ← pow_add]
    congr 1
  have e : p25519_fe_sqrt a = .ok (if z * z = a then z else z * (p25519_sqrtneg1 : F),
      decide ((if z * z = a then z else z * (p25519_sqrtneg1 : F)) * (if z * z = a then z else z * (p25519_sqrtneg1 : F))
        = a)) := by
    rw [p25519_fe_sqrt]
    dsimp only
    rw [hs, C.ok_bind, hg, C.ok_bind, ← hz]
    rfl
  have key : IsSquare a → (if z * z = a then z else z * (p25519_sqrtneg1 : F)) *
      (if z * z = a then z else z * (p25519_sqrtneg1 : F)) = a := by
    intro hsq
    by_cases h1 : z * z = a
    · rw [if_pos h1, h1]
    rw [if_neg h1]
    have h2 : (z * z - a) * (z * z + a) = 0 := by
      have h3 : z * z * (z * z) = a * a := by
        obtain ⟨w, rfl⟩ := hsq
        by_cases hw : w = 0
        · subst hw
          rw [hz]
          simp
        have h4 := FiniteField.pow_card_sub_one_eq_one w hw
        rw [hp] at h4
        rw [hz2, ← pow_two w, ← pow_mul, ← pow_add, ← pow_add, ← pow_add,
          show 2 * (2 ^ 252 - 2) + 2 * (2 ^ 252 - 2) + (2 * (2 ^ 252 - 2) + 2 * (2 ^ 252 - 2))
            = (field_p25519.p - 1) + (2 + 2) by decide +kernel, pow_add, h4, one_mul]
      linear_combination h3
    rcases mul_eq_zero.1 h2 with h3 | h3
    · exact absurd (sub_eq_zero.1 h3) h1
    · linear_combination (z * z) * hi - h3
  refine ⟨_, _, e, ?_, key⟩
  rw [decide_eq_true_iff]
  exact ⟨fun h => ⟨_, h.symm⟩, key⟩

theorem p25519_pm5d8 : expAt (p25519_fe_pow_pm5d8 0 0 2) (expIn 0) 0 = some ((field_p25519.p - 5) / 8) := by
  decide +kernel

/-- The value of the inverse square root in the field of 2^255 - 19 elements also for quotients without a root. -/
theorem p25519_isqrt_ok (hp : Fintype.card F = field_p25519.p) (u v : F) :
    ∃ r ok, p25519_fe_isqrt u v = .ok (r, ok) ∧ (ok = true ↔ QuotSq u v) ∧ (QuotSq u v → r * r * v = u) ∧
      (¬ QuotSq u v → r * r * v = u * (if v = 0 then 0 else (p25519_sqrtneg1 : F))) := by
  have hi := sqrtneg1_sq hp
  obtain ⟨x, hx⟩ : ∃ x : F, x = (v * v * v * (v * v * v) * v * u) ^ ((field_p25519.p - 5) / 8) * (v * v * v) * u :=
    ⟨_, rfl⟩
  have e : p25519_fe_isqrt u v = .ok (if decide (-(x * x * v) = u) || decide (-(x * x * v) = u * (p25519_sqrtneg1 : F))
      then x * (p25519_sqrtneg1 : F) else x, decide (x * x * v = u) || decide (-(x * x * v) = u)) := by
    rw [p25519_fe_isqrt]
    dsimp only
    rw [runChain_pow p25519_pm5d8, C.ok_bind, ← hx]
    rfl
  -- c^4 = u^4 unless v = 0
  have key : v ≠ 0 → (x * x * v) = u ∨ (x * x * v) = -u ∨ (x * x * v) = u * (p25519_sqrtneg1 : F) ∨
      (x * x * v) = -(u * (p25519_sqrtneg1 : F)) := by
    intro hv
    by_cases hu : u = 0
    · left; rw [hx, hu]; ring
    have h1 := FiniteField.pow_card_sub_one_eq_one (v * v * v * (v * v * v) * v * u) (by simp [hu, hv])
    rw [hp] at h1
    obtain ⟨n, hn⟩ : ∃ n, (field_p25519.p - 5) / 8 = n := ⟨_, rfl⟩
    rw [show field_p25519.p - 1 = (field_p25519.p - 5) / 8 * 8 + 4 by decide +kernel, hn, pow_add, pow_mul] at h1
    rw [hn] at hx
    have h4 : (x * x * v) ^ 4 = u ^ 4 := by
      rw [hx]
      generalize hy : (v * v * v * (v * v * v) * v * u) ^ n = y at h1 ⊢
      have : (v ^ 7 * u) ^ 4 ≠ 0 := pow_ne_zero _ (mul_ne_zero (pow_ne_zero _ hv) hu)
      linear_combination (u ^ 4) * h1
    have h5 : ((x * x * v) - u) * ((x * x * v) + u) * (((x * x * v) - u * (p25519_sqrtneg1 : F)) *
        ((x * x * v) + u * (p25519_sqrtneg1 : F))) = 0 := by
      linear_combination h4 - (u ^ 2) * ((x * x * v) ^ 2 - u ^ 2) * hi
    rcases mul_eq_zero.1 h5 with h6 | h6 <;> rcases mul_eq_zero.1 h6 with h7 | h7
    · left; exact sub_eq_zero.1 h7
    · right; left; exact eq_neg_of_add_eq_zero_left h7
    · right; right; left; exact sub_eq_zero.1 h7
    · right; right; right; exact eq_neg_of_add_eq_zero_left h7
  generalize hI : (p25519_sqrtneg1 : F) = I at *
  have h2 : (2 : F) ≠ 0 := card_neg_one hp (by decide +kernel)
  -- the square root of -1 is not a square
  have hI' : ∀ w : F, w * w ≠ I ∧ w * w ≠ -I := by
    intro w
    have h8 : ∀ J : F, J * J = -1 → w * w ≠ J := by
      intro J hJ hw
      have hw0 : w ≠ 0 := by
        intro h; rw [h] at hw; rw [← hw] at hJ; simp at hJ
      have h9 := FiniteField.pow_card_sub_one_eq_one w hw0
      rw [hp, show field_p25519.p - 1 = 4 * (2 * ((field_p25519.p - 5) / 8) + 1) by decide +kernel, pow_mul,
        show w ^ 4 = (w * w) * (w * w) by ring, hw, hJ, pow_add, pow_mul] at h9
      apply h2
      linear_combination (norm := skip) (-1 : F) * h9
      simp
      ring
    exact ⟨h8 I hi, h8 (-I) (by rw [← hi]; ring)⟩
  have hQ : ∀ r, r * r * v = u → QuotSq u v := fun r h => ⟨r, h⟩
  have hnQ : u ≠ 0 → ∀ r, (r * r * v = u * I ∨ r * r * v = -(u * I)) → ¬ QuotSq u v := by
    rintro hu r hr ⟨w, hw⟩
    have hv : v ≠ 0 := by intro h; rw [h] at hw; simp at hw; exact hu hw.symm
    have hw0 : w ≠ 0 := by intro h; rw [h] at hw; simp at hw; exact hu hw.symm
    rcases hr with hr | hr
    · refine (hI' (r * w⁻¹)).1 ?_
      have : r * r = w * w * I := by
        apply mul_right_cancel₀ hv; rw [hr, ← hw]; ring
      calc r * w⁻¹ * (r * w⁻¹) = (r * r) * (w⁻¹ * w⁻¹) := by ring
        _ = I := by rw [this]; field_simp
    · refine (hI' (r * w⁻¹)).2 ?_
      have : r * r = -(w * w * I) := by
        apply mul_right_cancel₀ hv; rw [hr, ← hw]; ring
      calc r * w⁻¹ * (r * w⁻¹) = (r * r) * (w⁻¹ * w⁻¹) := by ring
        _ = -I := by rw [this]; field_simp
  refine ⟨_, _, e, ?_⟩
  by_cases hu : u = 0
  · have hx0 : x = 0 := by rw [hx, hu, mul_zero]
    have hq : QuotSq u v := ⟨0, by rw [hu]; ring⟩
    rw [hx0, hu]
    simp [hu ▸ hq]
  by_cases hv : v = 0
  · have hx0 : x = 0 := by rw [hx, hv]; simp
    have hq : ¬ QuotSq u v := by
      rintro ⟨w, hw⟩; rw [hv, mul_zero] at hw; exact hu hw.symm
    have hI0 : I ≠ 0 := by intro h; rw [h] at hi; simp at hi
    simp [hx0, hv, (hv ▸ hq : ¬ QuotSq u 0), Ne.symm hu]
  have hI0 : I ≠ 0 := by intro h; rw [h] at hi; simp at hi
  rw [if_neg hv]
  rcases key hv with h | h | h | h
  · have hq := hQ _ h
    have n1 : ¬ -u = u := by
      intro hh; apply hu
      have : (2 : F) * u = 0 := by linear_combination -hh
      exact (mul_eq_zero.1 this).resolve_left h2
    have n2 : ¬ -u = u * I := by
      intro hh
      have : u * (I + 1) = 0 := by linear_combination -hh
      have h3 := (mul_eq_zero.1 this).resolve_left hu
      apply h2; linear_combination hi - (I - 1) * h3
    simp [h, n1, n2, hq]
  · have hq := hQ (x * I) (by linear_combination (-1 : F) * h + (x * x * v) * hi)
    simp only [h, neg_neg, decide_true, Bool.or_true, Bool.true_or, if_true, hq, not_true, false_implies, and_true,
      true_implies, true_and]
    linear_combination (-1 : F) * h + (x * x * v) * hi
  · have hq := hnQ hu x (Or.inl h)
    have n1 : ¬ u * I = u := by
      intro hh
      have : u * (I - 1) = 0 := by linear_combination hh
      have h3 := (mul_eq_zero.1 this).resolve_left hu
      apply h2; linear_combination hi - (I + 1) * h3
    have n2 : ¬ -(u * I) = u := by
      intro hh
      have : u * (I + 1) = 0 := by linear_combination -hh
      have h3 := (mul_eq_zero.1 this).resolve_left hu
      apply h2; linear_combination hi - (I - 1) * h3
    have n3 : ¬ -(u * I) = u * I := by
      intro hh
      have : (2 : F) * (u * I) = 0 := by linear_combination -hh
      rcases mul_eq_zero.1 this with h | h
      · exact h2 h
      · exact (mul_ne_zero hu hI0) h
    simp [h, n1, n2, n3, hq]
  · have hq := hnQ hu x (Or.inr h)
    have n1 : ¬ u * I = u := by
      intro hh
      have : u * (I - 1) = 0 := by linear_combination hh
      have h3 := (mul_eq_zero.1 this).resolve_left hu
      apply h2; linear_combination hi - (I + 1) * h3
    have n2 : ¬ -(u * I) = u := by
      intro hh
      have : u * (I + 1) = 0 := by linear_combination -hh
      have h3 := (mul_eq_zero.1 this).resolve_left hu
      apply h2; linear_combination hi - (I - 1) * h3
    simp only [h, neg_neg, n1, n2, decide_false, decide_true, Bool.or_true, if_true, Bool.or_self, hq, Bool.false_eq_true,
      false_implies, not_false_iff, true_implies, true_and, iff_self]
    linear_combination (-1 : F) * h + (x * x * v) * hi

/-! The field of 2^224 - 2^96 + 1 elements. -/

theorem sqr_loop_pow (n : Nat) : ∀ x : F, sqr_loop feMul n x = .ok (x ^ 2 ^ n) := by
  induction n with
  | zero => intro x; rw [sqr_loop, pow_zero, pow_one]
  | succ n ih =>
    intro x
    rw [sqr_loop, feMul, C.ok_bind]
    have := ih (x * x)
    rw [this, ← pow_two, ← pow_mul, ← Nat.pow_succ']

theorem p224_g_pow (hp : Fintype.card F = field_p224.p) : (p224_g : F) ^ 2 ^ 95 = -1 := by
  have h := card_cast (F := F) hp (p224_g ^ 2 ^ 95) (field_p224.p - 1)
    (by rw [← Dsa.powMod_eq 96 _ _ _ (by decide +kernel)]; decide +kernel)
  rw [Nat.cast_pow] at h
  rw [h, Nat.cast_sub (by decide +kernel), ← hp, Nat.cast_card_eq_zero]
  simp

theorem pow_half {x : F} {n : Nat} (h : x ^ 2 ^ (n + 1) = 1) : x ^ 2 ^ n = 1 ∨ x ^ 2 ^ n = -1 := by
  rw [Nat.pow_succ, pow_mul] at h
  have : (x ^ 2 ^ n - 1) * (x ^ 2 ^ n + 1) = 0 := by linear_combination h
  rcases mul_eq_zero.1 this with h | h
  · left; exact sub_eq_zero.1 h
  · right; exact eq_neg_of_add_eq_zero_left h

theorem p224_loop_ok (x : F) : ∀ (n : Nat) (z t c : F), z * z = x * t → t ^ 2 ^ n = 1 → c ^ 2 ^ n = -1 →
    ∃ r, p224_sqrt_loop n z t c = .ok r ∧ r * r = x := by
  intro n
  induction n with
  | zero =>
    intro z t c h1 h2 _
    rw [pow_zero, pow_one] at h2
    exact ⟨z, rfl, by rw [h1, h2, mul_one]⟩
  | succ n ih =>
    intro z t c h1 h2 h3
    rw [p224_sqrt_loop, p224_fe_sqrn, sqr_loop_pow, C.ok_bind]
    dsimp only
    have h3' : (c * c) ^ 2 ^ n = -1 := by rw [← pow_two, ← pow_mul, ← Nat.pow_succ', h3]
    rcases pow_half h2 with h | h
    · rw [h]
      simp only [decide_true, if_true]
      exact ih z t (c * c) h1 h h3'
    · by_cases hb : t ^ 2 ^ n = 1
      · rw [hb]
        simp only [decide_true, if_true]
        exact ih z t (c * c) h1 hb h3'
      · simp only [hb, decide_false, Bool.false_eq_true, if_false]
        refine ih (z * c) (t * (c * c)) (c * c) (by linear_combination (c * c) * h1) ?_ h3'
        rw [mul_pow, h, h3']
        ring

theorem p224_loop_total : ∀ (n : Nat) (z t c : F), ∃ r, p224_sqrt_loop n z t c = .ok r := by
  intro n
  induction n with
  | zero => intro z t c; exact ⟨z, rfl⟩
  | succ n ih =>
    intro z t c
    rw [p224_sqrt_loop, p224_fe_sqrn, sqr_loop_pow, C.ok_bind]
    exact ih _ _ _

theorem p224_loop_zero : ∀ (n : Nat) (t c : F), p224_sqrt_loop n 0 t c = .ok 0 := by
  intro n
  induction n with
  | zero => intro t c; rfl
  | succ n ih =>
    intro t c
    rw [p224_sqrt_loop, p224_fe_sqrn, sqr_loop_pow, C.ok_bind]
    simp only [zero_mul, ite_self]
    exact ih _ _

theorem p224_em1 : expAt (p224_fe_pow_em1 0 1 2) (expIn 1) 0 = some (2 ^ 127 - 1) := by decide +kernel

theorem p224_sqrt_ok (hp : Fintype.card F = field_p224.p) (a : F) :
    ∃ r ok, p224_fe_sqrt a = .ok (r, ok) ∧ (ok = true ↔ IsSquare a) ∧ (IsSquare a → r * r = a) := by
  rw [p224_fe_sqrt, runChain_pow p224_em1, C.ok_bind]
  dsimp only
  have key : ∃ r, p224_sqrt_loop 95 (a ^ (2 ^ 127 - 1) * a) (a ^ (2 ^ 127 - 1) * a ^ (2 ^ 127 - 1) * a) (p224_g : F)
      = .ok r ∧ (IsSquare a → r * r = a) := by
    by_cases h0 : a = 0
    · subst h0
      rw [mul_zero, p224_loop_zero]
      exact ⟨0, rfl, fun _ => mul_zero _⟩
    by_cases hs : IsSquare a
    · obtain ⟨r, hr, hr2⟩ := p224_loop_ok a 95 (a ^ (2 ^ 127 - 1) * a) (a ^ (2 ^ 127 - 1) * a ^ (2 ^ 127 - 1) * a)
        (p224_g : F) (by ring) (by
          obtain ⟨w, rfl⟩ := hs
          have hw : w ≠ 0 := by intro h; rw [h] at h0; simp at h0
          have h4 := FiniteField.pow_card_sub_one_eq_one w hw
          rw [hp] at h4
          rw [← pow_add, ← pow_succ, ← pow_mul, ← pow_two, ← pow_mul, ← h4]
          congr 1) (p224_g_pow hp)
      exact ⟨r, hr, fun _ => hr2⟩
    · obtain ⟨r, hr⟩ := p224_loop_total 95 (a ^ (2 ^ 127 - 1) * a) (a ^ (2 ^ 127 - 1) * a ^ (2 ^ 127 - 1) * a)
        (p224_g : F)
      exact ⟨r, hr, fun h => absurd h hs⟩
  obtain ⟨r, hr, hs⟩ := key
  rw [hr, C.ok_bind]
  refine ⟨r, _, rfl, ?_, hs⟩
  rw [decide_eq_true_iff]
  exact ⟨fun h => ⟨r, h.symm⟩, hs⟩

theorem order_loop_spec : ∀ (n : Nat) (t : F) (m : Nat), t ^ 2 ^ n = 1 →
    ∃ j ≤ n, p224_order_loop n t m = m + j ∧ t ^ 2 ^ j = 1 ∧ ∀ i < j, t ^ 2 ^ i ≠ 1 := by
  intro n
  induction n with
  | zero =>
    intro t m h
    exact ⟨0, le_refl _, rfl, h, fun i hi => absurd hi (Nat.not_lt_zero _)⟩
  | succ n ih =>
    intro t m h
    rw [p224_order_loop]
    by_cases ht : t = 1
    · rw [if_pos ht]
      exact ⟨0, Nat.zero_le _, rfl, by rw [ht, one_pow], fun i hi => absurd hi (Nat.not_lt_zero _)⟩
    · rw [if_neg ht]
      have hsq : ∀ i, (t * t) ^ 2 ^ i = t ^ 2 ^ (i + 1) := by
        intro i; rw [← pow_two, ← pow_mul, ← Nat.pow_succ']
      obtain ⟨j, hj, he, h1, h2⟩ := ih (t * t) (m + 1) (by rw [hsq, h])
      refine ⟨j + 1, by omega, by rw [he]; omega, by rw [← hsq, h1], ?_⟩
      intro i hi
      cases i with
      | zero => rw [pow_zero, pow_one]; exact ht
      | succ i => rw [← hsq]; exact h2 i (by omega)

theorem p224_var_loop_ok (x : F) : ∀ (fuel : Nat) (y b g : F) (k : Nat), k ≤ fuel → 0 < k → y * y = x * b →
    b ^ 2 ^ (k - 1) = 1 → g ^ 2 ^ (k - 1) = -1 →
    ∃ r, p224_sqrt_var_loop fuel y b g k = .ok (some r) ∧ r * r = x := by
  intro fuel
  induction fuel with
  | zero => intro y b g k h1 h2; omega
  | succ fuel ih =>
    intro y b g k hk h0 h1 h2 h3
    have hb : b ^ 2 ^ k = 1 := by
      rw [show k = (k - 1) + 1 by omega, Nat.pow_succ, pow_mul, h2, one_pow]
    obtain ⟨j, hj, he, hj1, hj2⟩ := order_loop_spec k b 0 hb
    have hjk : j < k := by
      by_contra hc
      exact hj2 (k - 1) (by omega) h2
    rw [p224_sqrt_var_loop]
    dsimp only
    rw [he, Nat.zero_add]
    by_cases hz : j = 0
    · rw [if_pos hz]
      refine ⟨y, rfl, ?_⟩
      rw [hz, pow_zero, pow_one] at hj1
      rw [h1, hj1, mul_one]
    · rw [if_neg hz, if_neg (by omega), p224_fe_sqrn, sqr_loop_pow, C.ok_bind]
      have hg : (g ^ 2 ^ (k - j - 1) * g ^ 2 ^ (k - j - 1)) ^ 2 ^ (j - 1) = -1 := by
        rw [← pow_two, ← pow_mul, ← pow_mul, ← h3, ← Nat.pow_succ', ← Nat.pow_add]
        congr 2
        omega
      refine ih _ _ _ j (by omega) (by omega) (by linear_combination (g ^ 2 ^ (k - j - 1) * g ^ 2 ^ (k - j - 1)) * h1) ?_ hg
      rw [mul_pow, hg]
      rcases pow_half (n := j - 1) (x := b) (by rw [show j - 1 + 1 = j by omega, hj1]) with h | h
      · exact absurd h (hj2 _ (by omega))
      · rw [h]; ring

theorem p224_e : expAt (p224_fe_pow_e 0 1 2) (expIn 1) 0 = some (2 ^ 127) := by decide +kernel

theorem p224_s : expAt (p224_fe_pow_s 0 1 2) (expIn 1) 0 = some (2 ^ 128 - 1) := by decide +kernel

theorem p224_sqrt_var_ok (hp : Fintype.card F = field_p224.p) (a : F) :
    ∃ r ok, p224_fe_sqrt_var a = .ok (r, ok) ∧ (ok = true ↔ IsSquare a) ∧ (IsSquare a → r * r = a) ∧
      (¬ IsSquare a → r = 0) := by
  have he : (a ^ (2 ^ 128 - 1)) ^ 2 ^ 95 = a ^ (Fintype.card F / 2) := by
    rw [hp, ← pow_mul]
    congr 1
  have h2 : (2 : F) ≠ 0 := card_neg_one hp (by decide +kernel)
  rw [p224_fe_sqrt_var, runChain_pow p224_e, C.ok_bind, runChain_pow p224_s, C.ok_bind, p224_fe_sqrn, sqr_loop_pow,
    C.ok_bind]
  by_cases h0 : a = 0
  · subst h0
    refine ⟨0, true, ?_, by simp, by simp, by simp⟩
    rw [zero_pow (by decide), zero_pow (by decide), if_pos rfl]
    rfl
  have hchar : ringChar F ≠ 2 := by
    intro h
    apply h2
    have := ringChar.Nat.cast_ringChar (R := F)
    rw [h] at this
    exact_mod_cast this
  rw [if_neg (pow_ne_zero _ (pow_ne_zero _ h0))]
  by_cases hs : IsSquare a
  · have h1 : (a ^ (2 ^ 128 - 1)) ^ 2 ^ 95 = 1 := by
      rw [he]
      exact (FiniteField.isSquare_iff hchar h0).1 hs
    obtain ⟨r, hr, hrr⟩ := p224_var_loop_ok a 97 (a ^ 2 ^ 127) (a ^ (2 ^ 128 - 1)) (p224_g : F) 96 (by omega) (by omega)
      (by
        rw [← pow_add, ← pow_succ']
        congr 1) h1 (p224_g_pow hp)
    rw [h1, if_neg (fun h => h rfl), hr, C.ok_bind]
    exact ⟨r, true, rfl, by simp [hs], fun _ => hrr, fun h => absurd hs h⟩
  · have h1 : (a ^ (2 ^ 128 - 1)) ^ 2 ^ 95 ≠ 1 := by
      rw [he]
      exact fun h => hs ((FiniteField.isSquare_iff hchar h0).2 h)
    rw [if_pos h1]
    exact ⟨0, false, rfl, by simp [hs], fun h => absurd h hs, fun _ => rfl⟩

theorem p224_leg : expAt (p224_fe_legendre 0 1 2) (expIn 1) 0 = some (field_p224.p / 2) := by decide +kernel

/-- The constants of src/fields/p224.h: both Montgomery forms are those of 11^(2^128 - 1). -/
theorem p224_g_forms : p224_g = 11 ^ (2 ^ 128 - 1) % field_p224.p ∧ p224_g_mont % field_p224.p = p224_g * 2 ^ 256 % field_p224.p ∧
    p224_g_mont32 % field_p224.p = p224_g * 2 ^ 224 % field_p224.p := by
  refine ⟨?_, by decide +kernel, by decide +kernel⟩
  rw [← Dsa.powMod_eq 128 _ _ _ (by decide +kernel)]
  decide +kernel

end Torsion.Ecc
