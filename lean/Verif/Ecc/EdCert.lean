import Verif.Ecc.EdLemmas
import Verif.Ecc.MontCert
import Mathlib.GroupTheory.Sylow

/-!
Certificates for concrete Edwards curves, written so that the kernel can evaluate them: multiples of a point in extended
coordinates over the natural numbers, and the number of points.
-/
set_option linter.unusedSectionVars false
namespace Torsion.Ecc

open Torsion.Spec (EPt EdGood Ext xaff)

/-! ### Multiples of a point -/

/-- The sum of two points, then `f`. -/
def edAddN {α : Type} (p a d X1 Y1 Z1 T1 X2 Y2 Z2 T2 : Nat) (f : Nat → Nat → Nat → Nat → α) : α :=
  force (X1 * X2 % p) fun A =>
  force (Y1 * Y2 % p) fun B =>
  force (d * (T1 * T2 % p) % p) fun C =>
  force (Z1 * Z2 % p) fun D =>
  force ((X1 * Y2 + X2 * Y1) % p) fun E =>
  force (nsub p D C % p) fun F =>
  force ((D + C) % p) fun G =>
  force (nsub p B (a * A) % p) fun H =>
  force (E * F % p) fun X =>
  force (G * H % p) fun Y =>
  force (F * G % p) fun Z =>
  force (E * H % p) fun T => f X Y Z T

/-- Double and add from bit `i - 1` of `n` downwards. -/
def edMulN (p a d x y t n : Nat) : Nat → Nat → Nat → Nat → Nat → Bool
  | 0, X, Y, Z, _ => X % p == 0 && Y % p == Z % p
  | i + 1, X, Y, Z, T =>
    edAddN p a d X Y Z T X Y Z T fun X Y Z T =>
    if n / 2 ^ i % 2 = 1 then edAddN p a d X Y Z T x y 1 t fun X Y Z T => edMulN p a d x y t n i X Y Z T
    else edMulN p a d x y t n i X Y Z T

/-- Is `n` times the point neutral? -/
def edKills (p a d x y n : Nat) : Bool := force (x * y % p) fun t => edMulN p a d x y t n n.size 0 1 1 0

section
variable {p : Nat} [Fact p.Prime] {a d : Nat} [g : EdGood (a : ZMod p) (d : ZMod p)]

theorem edAddN_spec {X1 Y1 Z1 T1 X2 Y2 Z2 T2 : Nat} {P Q : EPt (a : ZMod p) (d : ZMod p)}
    (hp : Ext ⟨(X1 : ZMod p), (Y1 : ZMod p), (Z1 : ZMod p), (T1 : ZMod p)⟩ P)
    (hq : Ext ⟨(X2 : ZMod p), (Y2 : ZMod p), (Z2 : ZMod p), (T2 : ZMod p)⟩ Q)
    {f : Nat → Nat → Nat → Nat → Bool} {A : Prop}
    (h : ∀ X Y Z T : Nat, Ext ⟨(X : ZMod p), (Y : ZMod p), (Z : ZMod p), (T : ZMod p)⟩ (P + Q) → (f X Y Z T = true ↔ A)) :
    edAddN p a d X1 Y1 Z1 T1 X2 Y2 Z2 T2 f = true ↔ A := by
  unfold edAddN
  simp only [force_eq]
  apply h
  have hp0 : 0 < p := (Fact.out : p.Prime).pos
  simp only [cast_mod_dvd (dvd_refl p), Nat.cast_mul, Nat.cast_add, cast_nsub_dvd (dvd_refl p) hp0]
  obtain ⟨n1, n2⟩ := ed_ne P.on Q.on
  obtain ⟨pz, px, py, pt⟩ := hp
  obtain ⟨qz, qx, qy, qt⟩ := hq
  have k := ext_frac (P + Q) ((Z1 : ZMod p) ^ 2 * (Z2 : ZMod p) ^ 2) n2 n1 (mul_ne_zero (pow_ne_zero _ pz) (pow_ne_zero _ qz))
    (ed_add_x P Q) (ed_add_y P Q)
  simp only at px py pt qx qy qt
  rw [px, py, pt, qx, qy, qt]
  convert k using 2 <;> ring

theorem edMulN_spec {x y t : Nat} {P : EPt (a : ZMod p) (d : ZMod p)}
    (hp : Ext ⟨(x : ZMod p), (y : ZMod p), ((1 : Nat) : ZMod p), (t : ZMod p)⟩ P) (n : Nat) : ∀ (i m X Y Z T : Nat),
    Ext ⟨(X : ZMod p), (Y : ZMod p), (Z : ZMod p), (T : ZMod p)⟩ (m • P) →
    (edMulN p a d x y t n i X Y Z T = true ↔ (m * 2 ^ i + n % 2 ^ i) • P = 0)
  | 0, m, X, Y, Z, T, h => by
    rw [edMulN, pow_zero, mul_one, Nat.mod_one, add_zero, ← is_zero_iff h, xge_is_zero, fe_is_zero, fe_equal, Bool.and_eq_true,
      Bool.and_eq_true, decide_eq_true_eq, decide_eq_true_eq, beq_iff_eq, beq_iff_eq, ZMod.natCast_eq_natCast_iff',
      ZMod.natCast_eq_zero_iff, Nat.dvd_iff_mod_eq_zero]
  | i + 1, m, X, Y, Z, T, h => by
    rw [edMulN]
    refine edAddN_spec h h fun X Y Z T h' => ?_
    rw [← add_nsmul] at h'
    split
    · rename_i hb
      refine edAddN_spec h' hp fun X Y Z T h' => ?_
      rw [← succ_nsmul] at h'
      rw [edMulN_spec hp n i _ X Y Z T h']
      rw [show m * 2 ^ (i + 1) + n % 2 ^ (i + 1) = (m + m + 1) * 2 ^ i + n % 2 ^ i by
        rw [Nat.pow_succ, Nat.mod_mul, hb]; ring]
    · rename_i hb
      have hb : n / 2 ^ i % 2 = 0 := by omega
      rw [edMulN_spec hp n i _ X Y Z T h']
      rw [show m * 2 ^ (i + 1) + n % 2 ^ (i + 1) = (m + m) * 2 ^ i + n % 2 ^ i by
        rw [Nat.pow_succ, Nat.mod_mul, hb]; ring]

theorem edKills_spec {x y : Nat} {P : EPt (a : ZMod p) (d : ZMod p)} (hx : P.x = x) (hy : P.y = y) (n : Nat) :
    edKills p a d x y n = true ↔ n • P = 0 := by
  rw [edKills, force_eq]
  have h := edMulN_spec (p := p) (a := a) (d := d) (x := x) (y := y) (t := x * y % p) (P := P)
    (by rw [cast_mod_dvd (dvd_refl p), Nat.cast_mul, ← hx, ← hy, Nat.cast_one]; exact ext_aff P) n n.size 0 0 1 1 0
    (by rw [zero_nsmul]; simpa [xge_zero] using (ext_zero (a := (a : ZMod p)) (d := (d : ZMod p))))
  rw [h, Nat.zero_mul, Nat.zero_add, Nat.mod_eq_of_lt (Nat.lt_size_self n)]

end

/-! ### The number of points -/

section
variable {p : Nat} [Fact p.Prime] {a d : ZMod p} [g : EdGood a d]

theorem ed_finite : Finite (EPt a d) :=
  Finite.of_injective (fun P => (P.x, P.y)) fun P Q h => by
    injection h with h1 h2
    exact EPt.ext h1 h2

theorem ed_card_le : Nat.card (EPt a d) ≤ 2 * p := by
  classical
  have hr : ∃ r : ZMod p → ZMod p, ∀ x, x = r (x ^ 2) ∨ x = -r (x ^ 2) := by
    refine ⟨fun w => if h : IsSquare w then h.choose else 0, fun x => ?_⟩
    have hs : IsSquare (x ^ 2) := ⟨x, by ring⟩
    have hc := hs.choose_spec
    beta_reduce
    rw [dif_pos hs]
    generalize hs.choose = c at hc ⊢
    have : (x - c) * (x + c) = 0 := by linear_combination hc
    rcases mul_eq_zero.1 this with h | h
    · exact Or.inl (sub_eq_zero.1 h)
    · exact Or.inr (eq_neg_of_add_eq_zero_left h)
  obtain ⟨r, hr⟩ := hr
  have hinj : Function.Injective (fun P : EPt a d => (P.y, decide (P.x = r (P.x ^ 2)))) := by
    intro P Q h
    injection h with h1 h2
    have e := ed_e (a := a) (d := d) P.y
    have hx : P.x ^ 2 = Q.x ^ 2 := by
      have hP := P.on
      have hQ := Q.on
      rw [← h1] at hQ
      have : (P.x ^ 2 - Q.x ^ 2) * (a - d * P.y ^ 2) = 0 := by linear_combination hP - hQ
      exact sub_eq_zero.1 ((mul_eq_zero.1 this).resolve_right e)
    rw [decide_eq_decide, hx] at h2
    have hP := hr P.x
    have hQ := hr Q.x
    rw [hx] at hP
    refine EPt.ext ?_ h1
    by_cases hh : P.x = r (Q.x ^ 2)
    · rw [hh]; exact (h2.1 hh).symm
    · rw [hP.resolve_left hh]; exact (hQ.resolve_left (fun h => hh (h2.2 h))).symm
  have h := Nat.card_le_card_of_injective _ hinj
  rw [Nat.card_eq_fintype_card (α := ZMod p × Bool), Fintype.card_prod, ZMod.card, Fintype.card_bool] at h
  omega

/-! The points of order two, four and eight -/

theorem ed_two (P : EPt a d) : 2 • P = 0 ↔ P.x = 0 := by
  rw [two_nsmul]
  constructor
  · intro h
    have h' := congrArg EPt.x (eq_neg_of_add_eq_zero_left h)
    rw [ed_neg_x] at h'
    have : 2 * P.x = 0 := by linear_combination h'
    exact (mul_eq_zero.1 this).resolve_left g.two
  · intro h
    have : P = -P := by
      ext
      · rw [ed_neg_x, h, neg_zero]
      · rw [ed_neg_y]
    calc P + P = P + -P := by rw [← this]
      _ = 0 := add_neg_cancel P

theorem ed_dbl_x (P : EPt a d) : (2 • P).x = 0 ↔ P.x = 0 ∨ P.y = 0 := by
  rw [two_nsmul, ed_add_x, div_eq_zero_iff, or_iff_left (ed_ne P.on P.on).1, show P.x * P.y + P.x * P.y = 2 * (P.x * P.y) by ring,
    mul_eq_zero, or_iff_right g.two, mul_eq_zero]

theorem ed_dbl_y (P : EPt a d) : (2 • P).y = 0 ↔ P.y ^ 2 = a * P.x ^ 2 := by
  rw [two_nsmul, ed_add_y, div_eq_zero_iff, or_iff_left (ed_ne P.on P.on).2, sub_eq_zero]
  constructor <;> intro h <;> linear_combination h

theorem ed_four_tor (P : EPt a d) : 4 • P = 0 ↔ P.x = 0 ∨ P.y = 0 := by
  rw [show 4 = 2 * 2 from rfl, mul_nsmul, ed_two, ed_dbl_x]

/-- With `a = 1` and `1 - d` no square there are no points of order eight. -/
theorem ed_eight_tor (ha : a = 1) (hd : ¬ IsSquare (1 - d)) (P : EPt a d) (h : 8 • P = 0) : P.x = 0 ∨ P.y = 0 := by
  rw [show 8 = 2 * 4 from rfl, mul_nsmul, ed_four_tor, ed_dbl_x, ed_dbl_y] at h
  refine h.resolve_right fun e => hd ⟨d * P.x ^ 2 - 1, ?_⟩
  have := P.on
  linear_combination d * this - d * (1 - d * P.x ^ 2) * e - (2 * d * P.x ^ 2 - d ^ 2 * P.x ^ 4) * ha

theorem sq_eq_one_iff_of_side {x : ZMod p} (h : x ^ 2 = 1) : x = 1 ∨ x = -1 := by
  have : (x - 1) * (x + 1) = 0 := by linear_combination h
  rcases mul_eq_zero.1 this with h | h
  · exact Or.inl (sub_eq_zero.1 h)
  · exact Or.inr (eq_neg_of_add_eq_zero_left h)

theorem ed_no_eight (ha : a = 1) (hd : ¬ IsSquare (1 - d)) : ¬ 8 ∣ Nat.card (EPt a d) := by
  classical
  intro h8
  have := ed_finite (a := a) (d := d)
  have : Fact (Nat.Prime 2) := ⟨Nat.prime_two⟩
  have h8' : 2 ^ 3 ∣ Nat.card (Multiplicative (EPt a d)) := by
    rw [Nat.card_congr Multiplicative.toAdd]; exact h8
  obtain ⟨K, hK⟩ := Sylow.exists_subgroup_card_pow_prime 2 h8'
  have hin : ∀ k : K, ∃ i : Fin 4, ((Multiplicative.toAdd k.1).x, (Multiplicative.toAdd k.1).y)
      = ![((0 : ZMod p), (1 : ZMod p)), (0, -1), (1, 0), (-1, 0)] i := by
    intro k
    have h1 : k ^ 8 = 1 := by rw [show 8 = Nat.card K by rw [hK]; rfl]; exact pow_card_eq_one'
    have h2 : 8 • Multiplicative.toAdd k.1 = 0 := by
      have := congrArg (fun z : K => Multiplicative.toAdd z.1) h1
      simpa using this
    have h3 := ed_eight_tor ha hd _ h2
    have hon := (Multiplicative.toAdd k.1).on
    generalize (Multiplicative.toAdd k.1).x = x at h3 hon ⊢
    generalize (Multiplicative.toAdd k.1).y = y at h3 hon ⊢
    rcases h3 with rfl | rfl
    · rcases sq_eq_one_iff_of_side (x := y) (by linear_combination hon) with rfl | rfl
      · exact ⟨0, rfl⟩
      · exact ⟨1, rfl⟩
    · rcases sq_eq_one_iff_of_side (x := x) (by linear_combination hon - x ^ 2 * ha) with rfl | rfl
      · exact ⟨2, rfl⟩
      · exact ⟨3, rfl⟩
  choose f hf using hin
  have hinj : Function.Injective f := by
    intro k1 k2 e
    have := (hf k1).trans ((congrArg _ e).trans (hf k2).symm)
    injection this with e1 e2
    exact Subtype.ext (EPt.ext e1 e2)
  have hle := Nat.card_le_card_of_injective f hinj
  rw [hK, Nat.card_eq_fintype_card, Fintype.card_fin] at hle
  omega

/-- The points which `2 ^ i` kills: no more than the largest power of two which divides the number of points. -/
theorem ed_tor_card {n i : Nat} (hodd : n % 2 = 1) (hc : Nat.card (EPt a d) = 2 ^ i * n) :
    Nat.card {P : EPt a d // 2 ^ i • P = 0} ≤ 2 ^ i := by
  have := ed_finite (a := a) (d := d)
  have : Fact (Nat.Prime 2) := ⟨Nat.prime_two⟩
  let T : AddSubgroup (EPt a d) := (nsmulAddMonoidHom (α := EPt a d) (2 ^ i)).ker
  have e : Nat.card {P : EPt a d // 2 ^ i • P = 0} = Nat.card T := rfl
  have hp : IsPGroup 2 (Multiplicative T) := by
    intro k
    refine ⟨i, ?_⟩
    have : 2 ^ i • (Multiplicative.toAdd k).1 = 0 := (Multiplicative.toAdd k).2
    exact Multiplicative.toAdd.injective (Subtype.ext this)
  obtain ⟨k, hk⟩ := (IsPGroup.iff_card).1 hp
  have hk : Nat.card T = 2 ^ k := by rw [← hk]; exact (Nat.card_congr Multiplicative.toAdd).symm
  have hd : 2 ^ k ∣ 2 ^ i * n := by rw [← hk, ← hc]; exact T.card_addSubgroup_dvd_card
  rw [e, hk]
  have hcop : Nat.Coprime (2 ^ k) n := Nat.Coprime.pow_left _ ((Nat.coprime_two_left).2 (Nat.odd_iff.2 hodd))
  exact Nat.le_of_dvd (by positivity) (hcop.dvd_of_dvd_mul_right hd)

/-- When the order of the generator is a prime which divides the number of points once, the points it kills are the multiples of the
generator. -/
theorem ed_sub_gen {n h : Nat} (hc : Nat.card (EPt a d) = h * n) {G : EPt a d} (ho : addOrderOf G = n) (hn : n.Prime)
    (hcop : Nat.Coprime h n) {P : EPt a d} (hP : n • P = 0) : ∃ k : Nat, P = k • G := by
  have := ed_finite (a := a) (d := d)
  have := Fact.mk hn
  let K : AddSubgroup (EPt a d) := (nsmulAddMonoidHom (α := EPt a d) n).ker
  have hp : IsPGroup n (Multiplicative K) := by
    intro k
    refine ⟨1, ?_⟩
    have : n ^ 1 • (Multiplicative.toAdd k).1 = 0 := by rw [pow_one]; exact (Multiplicative.toAdd k).2
    exact Multiplicative.toAdd.injective (Subtype.ext this)
  obtain ⟨k, hk⟩ := (IsPGroup.iff_card).1 hp
  have hk : Nat.card K = n ^ k := by rw [← hk]; exact (Nat.card_congr Multiplicative.toAdd).symm
  have hd : n ^ k ∣ h * n := by rw [← hk, ← hc]; exact K.card_addSubgroup_dvd_card
  have hk1 : k ≤ 1 := by
    by_contra hk2
    have : n * n ∣ h * n := by rw [← pow_two]; exact (Nat.pow_dvd_pow n (by omega)).trans hd
    have : n ∣ h := Nat.dvd_of_mul_dvd_mul_right hn.pos this
    have h1 : n ∣ Nat.gcd h n := Nat.dvd_gcd this (dvd_refl n)
    rw [hcop] at h1
    exact hn.one_lt.ne' (Nat.dvd_one.1 h1)
  have hle : Nat.card K ≤ n := by
    rw [hk]; calc n ^ k ≤ n ^ 1 := Nat.pow_le_pow_right hn.pos hk1
      _ = n := pow_one n
  have hsub : AddSubgroup.zmultiples G ≤ K := by
    rw [AddSubgroup.zmultiples_le]
    change n • G = 0
    rw [← ho]; exact addOrderOf_nsmul_eq_zero G
  have heq : AddSubgroup.zmultiples G = K := by
    apply AddSubgroup.eq_of_le_of_card_ge hsub
    rw [Nat.card_zmultiples, ho]; exact hle
  have hin : P ∈ AddSubgroup.zmultiples G := by rw [heq]; exact hP
  rw [← mem_multiples_iff_mem_zmultiples] at hin
  obtain ⟨k, hk⟩ := hin
  exact ⟨k, hk.symm⟩

end

end Torsion.Ecc
