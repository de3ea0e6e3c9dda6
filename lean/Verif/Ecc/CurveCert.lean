import Verif.Ecc.PointLemmas
import Verif.Ecc.MulSpec
import Mathlib.Algebra.Field.ZMod
import Mathlib.FieldTheory.Finite.Basic
import Mathlib.GroupTheory.OrderOfElement
import Mathlib.GroupTheory.Perm.Cycle.Type
import Mathlib.SetTheory.Cardinal.Finite

/-!
Certificates for concrete curves, written so that the kernel can evaluate them: multiples of a point in Jacobian
coordinates over the natural numbers, the absence of points of order two, and the number of points.
-/
namespace Torsion.Ecc

open Torsion.Spec (affine weier Pt)
open WeierstrassCurve.Affine (Point)

/-- Evaluates the number before it is used. -/
def force {α : Type} (n : Nat) (f : Nat → α) : α :=
  match n with
  | 0 => f 0
  | n + 1 => f (n + 1)

theorem force_eq {α : Type} (n : Nat) (f : Nat → α) : force n f = f n := by cases n <;> rfl

/-! ### Multiples of a point -/

/-- `x - y` modulo `p`. -/
def nsub (p x y : Nat) : Nat := x + (p - y % p)

/-- Double and add from bit `i - 1` of `n` downwards. -/
def jacMul (p a gx gy n : Nat) : Nat → Nat → Nat → Nat → Nat × Nat × Nat
  | 0, X, Y, Z => (X, Y, Z)
  | i + 1, X, Y, Z =>
    force (Y * Y % p) fun B =>
    force (4 * X * B % p) fun C =>
    force (Z * Z % p) fun ZZ =>
    force ((3 * (X * X) + a * (ZZ * ZZ)) % p) fun D =>
    force (nsub p (D * D) (2 * C) % p) fun X' =>
    force (nsub p (D * nsub p C X') (8 * (B * B)) % p) fun Y' =>
    force (2 * Y * Z % p) fun Z' =>
    if n / 2 ^ i % 2 = 1 then
      force (Z' * Z' % p) fun ZZ' =>
      force (nsub p (gx * ZZ') X' % p) fun H =>
      force (nsub p (gy * (ZZ' * Z')) Y' % p) fun R =>
      force (H * H % p) fun HH =>
      force (X' * HH % p) fun V =>
      force (HH * H % p) fun HHH =>
      force (nsub p (R * R) (HHH + 2 * V) % p) fun X3 =>
      force (nsub p (R * nsub p V X3) (Y' * HHH) % p) fun Y3 =>
      force (Z' * H % p) fun Z3 =>
      jacMul p a gx gy n i X3 Y3 Z3
    else jacMul p a gx gy n i X' Y' Z'

section
variable {p : Nat} [Fact p.Prime]

theorem cast_mod_dvd {N : Nat} (hN : p ∣ N) (x : Nat) : ((x % N : Nat) : ZMod p) = x := by
  rw [ZMod.natCast_eq_natCast_iff', Nat.mod_mod_of_dvd _ hN]

theorem cast_nsub_dvd {N : Nat} (hN : p ∣ N) (h0 : 0 < N) (x y : Nat) : ((nsub N x y : Nat) : ZMod p) = x - y := by
  rw [nsub, Nat.cast_add, Nat.cast_sub (Nat.mod_lt _ h0).le, (ZMod.natCast_eq_zero_iff N p).2 hN, cast_mod_dvd hN]
  ring

theorem cast_nsub (x y : Nat) : ((nsub p x y : Nat) : ZMod p) = x - y :=
  cast_nsub_dvd dvd_rfl (Fact.out : p.Prime).pos x y

variable {ec : Curve (ZMod p)}

/-- The Jacobian coordinates stand for the point, if `Z` is not zero. -/
def JR (X Y Z : ZMod p) (P : Pt ec) : Prop := affine P = ⟨X / Z ^ 2, Y / Z ^ 3, false⟩

theorem jr_dbl (h2 : (2 : ZMod p) ≠ 0) {X Y Z : ZMod p} {P : Pt ec} (h : JR X Y Z P) (hz : 2 * Y * Z ≠ 0) :
    JR ((3 * X ^ 2 + ec.a * Z ^ 4) ^ 2 - 8 * X * Y ^ 2)
      ((3 * X ^ 2 + ec.a * Z ^ 4) * (4 * X * Y ^ 2 - ((3 * X ^ 2 + ec.a * Z ^ 4) ^ 2 - 8 * X * Y ^ 2)) - 8 * Y ^ 4)
      (2 * Y * Z) (P + P) := by
  have hZ : Z ≠ 0 := right_ne_zero_of_mul hz
  have hY : Y ≠ 0 := right_ne_zero_of_mul (left_ne_zero_of_mul hz)
  unfold JR at *
  rcases P with _ | ⟨x, y, hp⟩
  · rw [← Point.zero_def, aff_zero] at h; simp at h
  · rw [aff_some] at h
    simp only [Wge.mk.injEq, and_true] at h
    obtain ⟨hx, hy⟩ := h
    have hy0 : y ≠ 0 := by rw [hy]; exact div_ne_zero hY (pow_ne_zero _ hZ)
    rw [aff_tangent h2 hp hy0 (l := (3 * X ^ 2 + ec.a * Z ^ 4) / (2 * Y * Z)) (by
      rw [hx, hy]; field_simp)]
    rw [hx, hy]
    simp only [Wge.mk.injEq, and_true]
    constructor
    · field_simp; ring
    · field_simp; ring

theorem jr_add {X Y Z gx gy : ZMod p} {P G : Pt ec} (h : JR X Y Z P) (hg : affine G = ⟨gx, gy, false⟩)
    (hz : Z * (gx * Z ^ 2 - X) ≠ 0) :
    JR ((gy * Z ^ 3 - Y) ^ 2 - ((gx * Z ^ 2 - X) ^ 3 + 2 * (X * (gx * Z ^ 2 - X) ^ 2)))
      ((gy * Z ^ 3 - Y) * (X * (gx * Z ^ 2 - X) ^ 2
        - ((gy * Z ^ 3 - Y) ^ 2 - ((gx * Z ^ 2 - X) ^ 3 + 2 * (X * (gx * Z ^ 2 - X) ^ 2)))) - Y * (gx * Z ^ 2 - X) ^ 3)
      (Z * (gx * Z ^ 2 - X)) (P + G) := by
  have hZ : Z ≠ 0 := left_ne_zero_of_mul hz
  have hH : gx * Z ^ 2 - X ≠ 0 := right_ne_zero_of_mul hz
  unfold JR at *
  rcases P with _ | ⟨x, y, hp⟩
  · rw [← Point.zero_def, aff_zero] at h; simp at h
  rcases G with _ | ⟨u, v, hq⟩
  · rw [← Point.zero_def, aff_zero] at hg; simp at hg
  rw [aff_some] at h hg
  simp only [Wge.mk.injEq, and_true] at h hg
  obtain ⟨hx, hy⟩ := h
  obtain ⟨rfl, rfl⟩ := hg
  have hne : x ≠ u := by
    rw [hx]
    intro h
    apply hH
    rw [← h]
    field_simp
    ring
  obtain ⟨H, hH'⟩ : ∃ H, H = u * Z ^ 2 - X := ⟨_, rfl⟩
  have hu : u = (H + X) / Z ^ 2 := by rw [hH']; field_simp; ring
  rw [← hH'] at hH ⊢
  rw [aff_chord hp hq hne (l := (v * Z ^ 3 - Y) / (Z * H)) (by
    rw [hx, hy, hu]; field_simp; ring)]
  rw [hx, hy, hu]
  simp only [Wge.mk.injEq, and_true]
  constructor
  · field_simp; ring
  · field_simp; ring

theorem jacMul_spec {N : Nat} (hN : p ∣ N) (hN0 : 0 < N) (h2 : (2 : ZMod p) ≠ 0) {a gx gy : Nat} (ha : ec.a = a) {G : Pt ec} (hg : affine G = ⟨gx, gy, false⟩)
    (n : Nat) : ∀ i X Y Z, ((jacMul N a gx gy n i X Y Z).2.2 : ZMod p) ≠ 0 → (Z : ZMod p) ≠ 0 ∧
      ∀ m : Nat, JR (X : ZMod p) Y Z (m • G) →
        JR ((jacMul N a gx gy n i X Y Z).1 : ZMod p) (jacMul N a gx gy n i X Y Z).2.1 (jacMul N a gx gy n i X Y Z).2.2
          ((m * 2 ^ i + n % 2 ^ i) • G)
  | 0, X, Y, Z, h => ⟨h, fun m hm => by simpa [jacMul, Nat.mod_one] using hm⟩
  | i + 1, X, Y, Z, h => by
    rw [jacMul] at h ⊢
    simp only [force_eq] at h ⊢
    by_cases hb : n / 2 ^ i % 2 = 1
    · rw [if_pos hb] at h ⊢
      obtain ⟨h3, h4⟩ := jacMul_spec hN hN0 h2 ha hg n i _ _ _ h
      simp only [cast_mod_dvd hN, Nat.cast_mul, Nat.cast_add, Nat.cast_ofNat, cast_nsub_dvd hN hN0] at h3 h4
      have hz : (2 * (Y : ZMod p) * Z) ≠ 0 := left_ne_zero_of_mul h3
      refine ⟨right_ne_zero_of_mul hz, fun m hm => ?_⟩
      have d := jr_dbl h2 hm hz
      have s := jr_add d hg (by
        convert h3 using 1
        rw [ha]; ring)
      have := h4 (m + m + 1) (by
        rw [add_nsmul, add_nsmul, one_nsmul]
        convert s using 1 <;> (rw [ha]; ring))
      rw [show m * 2 ^ (i + 1) + n % 2 ^ (i + 1) = (m + m + 1) * 2 ^ i + n % 2 ^ i by
        rw [Nat.pow_succ, Nat.mod_mul, hb]; ring]
      exact this
    · rw [if_neg hb] at h ⊢
      obtain ⟨h3, h4⟩ := jacMul_spec hN hN0 h2 ha hg n i _ _ _ h
      simp only [cast_mod_dvd hN, Nat.cast_mul, Nat.cast_add, Nat.cast_ofNat, cast_nsub_dvd hN hN0] at h3 h4
      refine ⟨right_ne_zero_of_mul h3, fun m hm => ?_⟩
      have d := jr_dbl h2 hm h3
      have := h4 (m + m) (by
        rw [add_nsmul]
        convert d using 1 <;> (rw [ha]; ring))
      rw [show m * 2 ^ (i + 1) + n % 2 ^ (i + 1) = (m + m) * 2 ^ i + n % 2 ^ i by
        rw [Nat.pow_succ, Nat.mod_mul, show n / 2 ^ i % 2 = 0 by omega]; ring]
      exact this

/-- The check that `n • (gx, gy) = (rx, ry)`, for `2 ^ i ≤ n < 2 ^ (i + 1)`. -/
def mulCheck (N a gx gy n i rx ry : Nat) : Bool :=
  let r := jacMul N a gx gy n i gx gy 1
  decide (n / 2 ^ i = 1) && Nat.gcd r.2.2 N == 1 && r.1 % N == rx * (r.2.2 * r.2.2) % N &&
    r.2.1 % N == ry * (r.2.2 * r.2.2 * r.2.2) % N

theorem mulCheck_spec {N : Nat} (hN : p ∣ N) (hN0 : 0 < N) (h2 : (2 : ZMod p) ≠ 0) {a gx gy : Nat} (ha : ec.a = a) {G : Pt ec} (hg : affine G = ⟨gx, gy, false⟩)
    {n i rx ry : Nat} (h : mulCheck N a gx gy n i rx ry = true) : affine (n • G) = ⟨rx, ry, false⟩ := by
  unfold mulCheck at h
  simp only [Bool.and_eq_true, decide_eq_true_eq, beq_iff_eq] at h
  obtain ⟨⟨⟨h1, h3⟩, h4⟩, h5⟩ := h
  have hz : ((jacMul N a gx gy n i gx gy 1).2.2 : ZMod p) ≠ 0 := by
    intro h0
    rw [ZMod.natCast_eq_zero_iff] at h0
    exact (Fact.out : p.Prime).one_lt.ne' (Nat.dvd_one.1 (h3 ▸ Nat.dvd_gcd h0 hN))
  have := (jacMul_spec hN hN0 h2 ha hg n i gx gy 1 hz).2 1 (by
    rw [JR, one_nsmul, hg]; simp)
  rw [show 1 * 2 ^ i + n % 2 ^ i = n by
    conv_rhs => rw [← Nat.div_add_mod n (2 ^ i), h1]
    ring] at this
  rw [JR] at this
  rw [this]
  have h4 := congrArg (Nat.cast (R := ZMod p)) h4
  have h5 := congrArg (Nat.cast (R := ZMod p)) h5
  simp only [cast_mod_dvd hN] at h4 h5
  push_cast at h4 h5
  rw [h4, h5]
  simp only [Wge.mk.injEq, and_true]
  constructor <;> (field_simp)

/-- `n - 1` times the generator is its negative. -/
theorem order_spec {N : Nat} (hN : p ∣ N) (hN0 : 0 < N) (h2 : (2 : ZMod p) ≠ 0) {a gx gy : Nat} (ha : ec.a = a) {G : Pt ec} (hg : affine G = ⟨gx, gy, false⟩)
    {n i : Nat} (h : mulCheck N a gx gy n i gx (N - gy) = true) (hy : gy ≤ N) : (n + 1) • G = 0 := by
  have := mulCheck_spec hN hN0 h2 ha hg h
  rw [Nat.cast_sub hy, (ZMod.natCast_eq_zero_iff N p).2 hN, zero_sub] at this
  have hn : n • G = -G := by
    apply aff_inj
    rw [this, ← neg_aff, hg]
    rfl
  rw [add_nsmul, one_nsmul, hn, neg_add_cancel]

/-! ### Points of order two -/

/-- The product modulo `x^3 - na x - nb`. -/
def polyMul (p na nb : Nat) (u v : Nat × Nat × Nat) : Nat × Nat × Nat :=
  ((u.1 * v.1 + (u.2.1 * v.2.2 + u.2.2 * v.2.1) * nb) % p,
   (u.1 * v.2.1 + u.2.1 * v.1 + (u.2.1 * v.2.2 + u.2.2 * v.2.1) * na + u.2.2 * v.2.2 * nb) % p,
   (u.1 * v.2.2 + u.2.1 * v.2.1 + u.2.2 * v.1 + u.2.2 * v.2.2 * na) % p)

def forceT {α : Type} (u : Nat × Nat × Nat) (f : Nat × Nat × Nat → α) : α :=
  force u.1 fun a => force u.2.1 fun b => force u.2.2 fun c => f (a, b, c)

/-- The power of `x` with exponent the bits of `e` from `i - 1` downwards. -/
def polyPow (p na nb e : Nat) : Nat → Nat × Nat × Nat → Nat × Nat × Nat
  | 0, u => u
  | i + 1, u => forceT (polyMul p na nb u u) fun u =>
    if e / 2 ^ i % 2 = 1 then forceT (polyMul p na nb u (0, 1, 0)) fun u => polyPow p na nb e i u
    else polyPow p na nb e i u

def ev (r : ZMod p) (u : Nat × Nat × Nat) : ZMod p := u.1 + u.2.1 * r + u.2.2 * r ^ 2

theorem forceT_eq {α : Type} (u : Nat × Nat × Nat) (f : Nat × Nat × Nat → α) : forceT u f = f u := by
  simp only [forceT, force_eq]

theorem ev_mul {na nb : Nat} {r : ZMod p} (hr : r ^ 3 = na * r + nb) (u v : Nat × Nat × Nat) :
    ev r (polyMul p na nb u v) = ev r u * ev r v := by
  simp only [ev, polyMul, ZMod.natCast_mod, Nat.cast_mul, Nat.cast_add]
  have h4 : r ^ 4 = na * r ^ 2 + nb * r := by rw [show r ^ 4 = r ^ 3 * r by ring, hr]; ring
  linear_combination (-((u.2.1 : ZMod p) * v.2.2 + u.2.2 * v.2.1)) * hr - (u.2.2 * v.2.2 : ZMod p) * h4

theorem ev_pow {na nb e : Nat} {r : ZMod p} (hr : r ^ 3 = na * r + nb) : ∀ i u m, ev r u = r ^ m →
    ev r (polyPow p na nb e i u) = r ^ (m * 2 ^ i + e % 2 ^ i)
  | 0, u, m, h => by simpa [polyPow, Nat.mod_one] using h
  | i + 1, u, m, h => by
    rw [polyPow, forceT_eq]
    have h1 : ev r (polyMul p na nb u u) = r ^ (m + m) := by rw [ev_mul hr, h, pow_add]
    by_cases hb : e / 2 ^ i % 2 = 1
    · rw [if_pos hb, forceT_eq, ev_pow hr i _ (m + m + 1) (by
        rw [ev_mul hr, h1, pow_succ]; congr 1; simp [ev])]
      rw [show m * 2 ^ (i + 1) + e % 2 ^ (i + 1) = (m + m + 1) * 2 ^ i + e % 2 ^ i by
        rw [Nat.pow_succ, Nat.mod_mul, hb]; ring]
    · rw [if_neg hb, ev_pow hr i _ (m + m) h1]
      rw [show m * 2 ^ (i + 1) + e % 2 ^ (i + 1) = (m + m) * 2 ^ i + e % 2 ^ i by
        rw [Nat.pow_succ, Nat.mod_mul, show e / 2 ^ i % 2 = 0 by omega]; ring]

/-- `v` is the inverse of `x^p - x` modulo `x^3 + a x + b`. -/
def oddCheck (p a b i : Nat) (v : Nat × Nat × Nat) : Bool :=
  decide (p / 2 ^ i = 0) && decide (a ≤ p) && decide (b ≤ p) &&
  (forceT (polyPow p (p - a) (p - b) p i (1, 0, 0)) fun u =>
    polyMul p (p - a) (p - b) v (u.1, nsub p u.2.1 1, u.2.2) == (1, 0, 0))

theorem oddCheck_spec {a b i : Nat} {v : Nat × Nat × Nat} (h : oddCheck p a b i v = true) (r : ZMod p) :
    r ^ 3 + a * r + b ≠ 0 := by
  unfold oddCheck at h
  simp only [Bool.and_eq_true, decide_eq_true_eq, beq_iff_eq, forceT_eq] at h
  obtain ⟨⟨⟨h1, h2⟩, h3⟩, h4⟩ := h
  intro h0
  have hr : r ^ 3 = ((p - a : Nat) : ZMod p) * r + ((p - b : Nat) : ZMod p) := by
    rw [Nat.cast_sub h2, Nat.cast_sub h3, ZMod.natCast_self]
    linear_combination h0
  have h5 := ev_pow (e := p) hr i (1, 0, 0) 0 (by simp [ev])
  have hp : p % 2 ^ i = p := by
    apply Nat.mod_eq_of_lt
    by_contra hge
    have := Nat.div_pos (not_lt.1 hge) (Nat.two_pow_pos i)
    omega
  rw [hp, Nat.zero_mul, Nat.zero_add, ZMod.pow_card] at h5
  have h6 := ev_mul hr v ((polyPow p (p - a) (p - b) p i (1, 0, 0)).1, nsub p (polyPow p (p - a) (p - b) p i (1, 0, 0)).2.1 1,
    (polyPow p (p - a) (p - b) p i (1, 0, 0)).2.2)
  rw [h4] at h6
  have h7 : ev r ((polyPow p (p - a) (p - b) p i (1, 0, 0)).1, nsub p (polyPow p (p - a) (p - b) p i (1, 0, 0)).2.1 1,
      (polyPow p (p - a) (p - b) p i (1, 0, 0)).2.2) = 0 := by
    simp only [ev, cast_nsub, Nat.cast_one] at h5 ⊢
    linear_combination h5
  rw [h7, mul_zero] at h6
  simp [ev] at h6

/-! ### The number of points -/

/-- A choice of a root for every coordinate on the curve. -/
noncomputable def rootOf (ec : Curve (ZMod p)) (x : ZMod p) : ZMod p :=
  Classical.epsilon fun y => y ^ 2 = x ^ 3 + ec.a * x + ec.b

noncomputable def ptCode (P : Pt ec) : Option (ZMod p × Bool) :=
  match P with
  | .zero => none
  | .some x y _ => some (x, decide (y = rootOf ec x))

theorem ptCode_inj : Function.Injective (ptCode (ec := ec)) := by
  intro P Q h
  rcases P with _ | ⟨x1, y1, h1⟩ <;> rcases Q with _ | ⟨x2, y2, h2⟩
  · rfl
  · simp [ptCode] at h
  · simp [ptCode] at h
  · simp only [ptCode, Option.some.injEq, Prod.mk.injEq, decide_eq_decide] at h
    obtain ⟨rfl, h⟩ := h
    have e1 := eqn h1
    have e2 := eqn h2
    have er : rootOf ec x1 ^ 2 = x1 ^ 3 + ec.a * x1 + ec.b :=
      Classical.epsilon_spec (p := fun y => y ^ 2 = x1 ^ 3 + ec.a * x1 + ec.b) ⟨y1, e1⟩
    have : y1 = y2 := by
      by_cases hy : y1 = rootOf ec x1
      · rw [hy, h.1 hy]
      · have hy2 := mt h.2 hy
        have a1 := (sq_eq_sq_iff_eq_or_eq_neg.1 (e1.trans er.symm)).resolve_left hy
        have a2 := (sq_eq_sq_iff_eq_or_eq_neg.1 (e2.trans er.symm)).resolve_left hy2
        rw [a1, a2]
    subst this
    rfl

theorem finite_pt (ec : Curve (ZMod p)) : Finite (Pt ec) := Finite.of_injective _ ptCode_inj

instance : Finite (Pt ec) := finite_pt ec

theorem card_le : Nat.card (Pt ec) ≤ 2 * p + 1 := by
  have h := Nat.card_le_card_of_injective _ (ptCode_inj (ec := ec))
  rw [Nat.card_eq_fintype_card (α := Option (ZMod p × Bool)), Fintype.card_option, Fintype.card_prod, ZMod.card, Fintype.card_bool] at h
  omega

/-- If the order of the generator is a prime of about the size of the field, and no point has order two, then every
point is a multiple of the generator. -/
theorem cyclic (htwo : (2 : ZMod p) ≠ 0) {n : Nat} (hn : n.Prime) {G : Pt ec} (h0 : G ≠ 0) (ho : n • G = 0)
    (hodd : ∀ x : ZMod p, x ^ 3 + ec.a * x + ec.b ≠ 0) (hlt : 2 * p + 1 < 3 * n) :
    Nat.card (Pt ec) = n ∧ ∀ P : Pt ec, ∃ m : Nat, P = m • G := by
  have := Fact.mk hn
  have hord : addOrderOf G = n := addOrderOf_eq_prime ho h0
  have hd : n ∣ Nat.card (Pt ec) := by rw [← hord]; exact addOrderOf_dvd_natCard G
  have hpos : 0 < Nat.card (Pt ec) := Nat.card_pos
  have hle := card_le (ec := ec)
  have hne : ¬ 2 ∣ Nat.card (Pt ec) := by
    intro h
    obtain ⟨P, hP⟩ := exists_prime_addOrderOf_dvd_card' 2 h
    have h2 : (2 : Nat) • P = 0 := by rw [← hP]; exact addOrderOf_nsmul_eq_zero P
    have hP0 : P ≠ 0 := by
      rintro rfl
      rw [addOrderOf_zero] at hP
      omega
    rcases P with _ | ⟨x, y, hp⟩
    · exact hP0 rfl
    · rw [two_nsmul, ← eq_neg_iff_add_eq_zero, Point.neg_some, Point.some.injEq, negY_eq] at h2
      have hy := eqn hp
      have h3 : y = -y := h2.2
      have : y = 0 := by
        have : 2 * y = 0 := by linear_combination h3
        exact (mul_eq_zero.1 this).resolve_left htwo
      rw [this] at hy
      exact hodd x (by rw [← hy]; ring)
  have hcard : Nat.card (Pt ec) = n := by
    obtain ⟨k, hk⟩ := hd
    have hk3 : k < 3 := by
      by_contra h3
      have : n * 3 ≤ n * k := Nat.mul_le_mul_left _ (not_lt.1 h3)
      omega
    interval_cases k
    · omega
    · omega
    · exact absurd ⟨n, by omega⟩ hne
  refine ⟨hcard, fun P => ?_⟩
  have htop : AddSubgroup.zmultiples G = ⊤ := by
    apply AddSubgroup.eq_top_of_card_eq
    rw [Nat.card_zmultiples, hord, hcard]
  have hm : P ∈ AddSubgroup.zmultiples G := by rw [htop]; trivial
  have hm' : P ∈ AddSubmonoid.multiples G := by
    rw [(isOfFinAddOrder_of_finite G).mem_multiples_iff_mem_zmultiples]; exact hm
  obtain ⟨m, rfl⟩ := hm'
  exact ⟨m, rfl⟩

end

/-! ### Primality from a curve -/

/-- The point `(x, y)` lies on `y² = x³ + a x + b` modulo `n`, and `s - 1` times it is its negative. -/
def ecppCheck (n a b x y s i : Nat) : Bool :=
  decide (y ≤ n) && decide (0 < s) && Nat.gcd (2 * y) n == 1 && y * y % n == (x * x * x + a * x + b) % n &&
    decide (n < ((s - 1) / 2) ^ 2) && mulCheck n a x y (s - 1) i x (n - y)

/-- A number with a curve and a point of a large prime order is prime (Goldwasser and Kilian). -/
theorem ecpp {n a b x y s i : Nat} (hn : 1 < n) (hs : s.Prime) (h : ecppCheck n a b x y s i = true) : n.Prime := by
  unfold ecppCheck at h
  simp only [Bool.and_eq_true, decide_eq_true_eq, beq_iff_eq] at h
  obtain ⟨⟨⟨⟨⟨h1, h0⟩, h2⟩, h3⟩, h4⟩, h5⟩ := h
  by_contra hc
  set q := n.minFac with hq
  have hqp : q.Prime := Nat.minFac_prime (by omega)
  have hqd : q ∣ n := Nat.minFac_dvd n
  have hsq : q ^ 2 ≤ n := Nat.minFac_sq_le_self (by omega) hc
  have := Fact.mk hqp
  have hcop : ∀ z, Nat.gcd z n = 1 → (z : ZMod q) ≠ 0 := by
    intro z hz h
    rw [ZMod.natCast_eq_zero_iff] at h
    exact hqp.one_lt.ne' (Nat.dvd_one.1 (hz ▸ Nat.dvd_gcd h hqd))
  have h2y := hcop _ h2
  push_cast at h2y
  have two := left_ne_zero_of_mul h2y
  have yne := right_ne_zero_of_mul h2y
  let ec : Curve (ZMod q) := ⟨a, b, 1⟩
  have he : (y : ZMod q) ^ 2 = x ^ 3 + a * x + b := by
    have := congrArg (Nat.cast (R := ZMod q)) h3
    simp only [cast_mod_dvd hqd] at this
    push_cast at this
    linear_combination this
  have hns : (weier ec.a ec.b).Nonsingular (x : ZMod q) y := by
    rw [WeierstrassCurve.Affine.nonsingular_iff]
    refine ⟨?_, Or.inr ?_⟩
    · rw [WeierstrassCurve.Affine.equation_iff]
      simp only [weier, ec]
      linear_combination he
    · simp only [weier]
      intro h
      apply h2y
      linear_combination h
  let G : Pt ec := .some (x : ZMod q) y hns
  have hg : affine G = ⟨(x : ZMod q), y, false⟩ := aff_some _
  have hord := order_spec (ec := ec) hqd (by omega) two (a := a) rfl hg h5 h1
  rw [Nat.sub_add_cancel h0] at hord
  have hG0 : G ≠ 0 := by
    intro h
    rw [h, aff_zero] at hg
    simp at hg
  have := Fact.mk hs
  have ho : addOrderOf G = s := addOrderOf_eq_prime hord hG0
  have := finite_pt ec
  have hle : s ≤ Nat.card (Pt ec) := by
    rw [← ho]
    exact Nat.le_of_dvd Nat.card_pos (addOrderOf_dvd_natCard G)
  have hle2 := card_le (ec := ec)
  have : (s - 1) / 2 ≤ q := by omega
  have := Nat.pow_le_pow_left this 2
  omega

end Torsion.Ecc
