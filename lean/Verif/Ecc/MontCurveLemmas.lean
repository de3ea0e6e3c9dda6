import Verif.Ecc.MontCert
import Verif.Ecc.PrimeProps
import Mathlib.GroupTheory.OrderOfElement

/-!
The constants of the Montgomery curves: the certificates are checked by the kernel.
-/
namespace Torsion.Ecc

open Torsion.Spec (montCurve MPt montAffine montX MontXZ MontGood MontOk beVal)
open WeierstrassCurve.Affine (Point)

section
variable {F : Type} [Field F] [DecidableEq F] {a b : F}

theorem m_mk (g : MontGood a b) {x y : F} (h : b * y ^ 2 = x ^ 3 + a * x ^ 2 + x) :
    ∃ P : MPt a b, montAffine P = ⟨x, y, false⟩ := by
  have hb := g.b0
  refine ⟨.some (x / b) (y / b) (m_nonsing g ?_), ?_⟩
  · rw [div_pow, show y ^ 2 = (x ^ 3 + a * x ^ 2 + x) / b by rw [eq_div_iff hb]; linear_combination h]
    field_simp
  · rw [m_aff_some]
    congr 1 <;> field_simp

theorem m_aff_eqn {P : MPt a b} {x y : F} (hb : b ≠ 0) (h : montAffine P = ⟨x, y, false⟩) : b * y ^ 2 = x ^ 3 + a * x ^ 2 + x := by
  rcases P with _ | ⟨x', y', hp⟩
  · simp [montAffine] at h
  · rw [m_aff_some] at h
    injection h with h1 h2
    subst h1 h2
    rw [mul_pow, m_eqn hp]
    field_simp

theorem m_aff_x {P : MPt a b} {x y : F} (h : montAffine P = ⟨x, y, false⟩) : montX P = some x := by
  rcases P with _ | ⟨x', y', hp⟩
  · simp [montAffine] at h
  · rw [m_aff_some] at h
    injection h with h1 h2
    rw [mx_some, h1]

/-- Every element is the abscissa of a point on a curve with some `B`. -/
theorem m_twist_point (h2 : (2 : F) ≠ 0) (hd : a ^ 2 ≠ 4) {u : F} (hu : u ^ 3 + a * u ^ 2 + u ≠ 0) :
    ∃ P : MPt a (u ^ 3 + a * u ^ 2 + u), montX P = some u := by
  obtain ⟨P, hP⟩ := m_mk (a := a) (b := u ^ 3 + a * u ^ 2 + u) ⟨h2, hu, hd⟩ (x := u) (y := 1) (by ring)
  exact ⟨P, m_aff_x hP⟩

end

/-- The checks for a curve: `ut` is the abscissa of a point of the twist, `nt` the order of four times that point. -/
def montCheck (d : MontDef) (ut nt : Nat) : Bool :=
  force d.fe.p fun p => force (beVal d.sc.n) fun n => force (beVal d.a) fun a => force (beVal d.x) fun x => force (beVal d.y) fun y =>
  decide (4 < p) && (beVal d.b == 1) && decide (a < p) && (a * a % p != 4) && decide (0 < x ∧ x < p) && decide (y < p) &&
  (y * y % p == (x * x * x + a * x * x + x) % p) && (ladderZ p a x n == 0) && (4 * d.scmul % p == (a + 2) % p) &&
  (d.torsion.all fun t => if t.inf then beVal t.x == 0 && beVal t.y == 0 else
    force (beVal t.x) fun x => force (beVal t.y) fun y => decide (x < p) && decide (y < p) &&
    (y * y % p == (x * x * x + a * x * x + x) % p) && (x == 0 || ladderZ p a x d.h == 0)) &&
  (d.torsion.any fun t => !t.inf && (decide (0 < beVal t.x) && ladderZ p a (beVal t.x) (d.h / 2) != 0)) &&
  eulerCheck p (ut * ut * ut + a * ut * ut + ut) && decide (0 < ut ∧ ut < p) && (ladderZ p a ut (4 * nt) == 0) &&
  (ladderZ p a ut 4 != 0) && (d.h * n + 4 * nt == 2 * p + 2) && decide (2 * p + 2 < 2 * (d.h * n) + nt) && eulerCheck p (a * a - 4)
  && decide (4 ≤ a * a)

/-- The order of the twist of the curve, divided by four. -/
def t25519 : Nat := 14474011154664524427946373126085988481603263447650325797860494125407373907997
def t448 : Nat := 181709681073901722637330951972001133588410340171829515070372549795160160121825800627002436557645897001734148521830156375752993149532941

set_option maxRecDepth 100000 in
theorem check_x25519 : montCheck curve_x25519 2 t25519 = true := by decide +kernel
set_option maxRecDepth 100000 in
theorem check_x448 : montCheck curve_x448 6 t448 = true := by decide +kernel

/-- What the checks establish; `nt` is the order of the twist divided by four. -/
structure MontFacts (d : MontDef) [Fact d.fe.p.Prime] (nt : Nat) : Prop where
  four : 4 < d.fe.p
  b1 : beVal d.b = 1
  alt : beVal d.a < d.fe.p
  two : (2 : ZMod d.fe.p) ≠ 0
  disc : (beVal d.a : ZMod d.fe.p) ^ 2 ≠ 4
  scm : 4 * (d.scmul : ZMod d.fe.p) = (beVal d.a : ZMod d.fe.p) + 2
  x0 : (beVal d.x : ZMod d.fe.p) ≠ 0
  base : ∃ G : MPt (beVal d.a : ZMod d.fe.p) 1, montAffine G = ⟨(beVal d.x : ZMod d.fe.p), (beVal d.y : ZMod d.fe.p), false⟩ ∧
    beVal d.sc.n • G = 0
  card : Nat.card (MPt (beVal d.a : ZMod d.fe.p) 1) = d.h * beVal d.sc.n
  twist : ∀ c : ZMod d.fe.p, ¬ IsSquare c → Nat.card (MPt (beVal d.a : ZMod d.fe.p) c) = 4 * nt
  nsq : ¬ IsSquare ((beVal d.a : ZMod d.fe.p) ^ 2 - 4)
  tor : ∀ t ∈ d.torsion, ∃ T : MPt (beVal d.a : ZMod d.fe.p) 1,
    montAffine T = ⟨(beVal t.x : ZMod d.fe.p), (beVal t.y : ZMod d.fe.p), t.inf⟩ ∧ d.h • T = 0

section
variable {d : MontDef} [Fact d.fe.p.Prime]

theorem montCheck_spec {ut nt i : Nat} (h : montCheck d ut nt = true) (hn : (beVal d.sc.n).Prime) (hnt : nt.Prime)
    (hh : d.h = 2 ^ (i + 1)) (hn2 : beVal d.sc.n ≠ 2) : MontFacts d nt := by
  unfold montCheck at h
  simp only [force_eq, Bool.and_eq_true, decide_eq_true_eq, beq_iff_eq, bne_iff_ne, ne_eq] at h
  obtain ⟨⟨⟨⟨⟨⟨⟨⟨⟨⟨⟨⟨⟨⟨⟨⟨⟨⟨h1, h2⟩, h3⟩, h4⟩, h5⟩, h6⟩, h7⟩, h8⟩, h9⟩, h10⟩, h11⟩, h12⟩, h13⟩, h14⟩, h15⟩, h16⟩, h17⟩, h18⟩, h19⟩ := h
  have cne : ∀ z : Nat, 0 < z → z < d.fe.p → (z : ZMod d.fe.p) ≠ 0 := by
    intro z h0 hz h
    rw [ZMod.natCast_eq_zero_iff] at h
    exact absurd (Nat.le_of_dvd h0 h) (by omega)
  have two : (2 : ZMod d.fe.p) ≠ 0 := by exact_mod_cast cne 2 (by omega) (by omega)
  have disc : (beVal d.a : ZMod d.fe.p) ^ 2 ≠ 4 := by
    intro e
    apply h4
    have : ((beVal d.a * beVal d.a : Nat) : ZMod d.fe.p) = ((4 : Nat) : ZMod d.fe.p) := by push_cast; linear_combination e
    rw [ZMod.natCast_eq_natCast_iff'] at this
    rw [this, Nat.mod_eq_of_lt h1]
  have g1 : MontGood (beVal d.a : ZMod d.fe.p) 1 := ⟨two, one_ne_zero, disc⟩
  have eqn : ∀ x y : Nat, y * y % d.fe.p = (x * x * x + beVal d.a * x * x + x) % d.fe.p →
      ∃ P : MPt (beVal d.a : ZMod d.fe.p) 1, montAffine P = ⟨(x : ZMod d.fe.p), (y : ZMod d.fe.p), false⟩ := by
    intro x y e
    have := congrArg (Nat.cast (R := ZMod d.fe.p)) e
    simp only [cast_mod_dvd (dvd_refl d.fe.p)] at this
    simp only [Nat.cast_mul, Nat.cast_add] at this
    exact m_mk g1 (by linear_combination this)
  obtain ⟨G, hG⟩ := eqn _ _ h7
  have hx0 := cne _ h5.1 h5.2
  have hnG := (ladderZ_iff g1 (m_aff_x hG) hx0 _).1 h8
  have tor : ∀ t ∈ d.torsion, ∃ T : MPt (beVal d.a : ZMod d.fe.p) 1,
      montAffine T = ⟨(beVal t.x : ZMod d.fe.p), (beVal t.y : ZMod d.fe.p), t.inf⟩ ∧ d.h • T = 0 := by
    intro t ht
    have := (List.all_eq_true.1 h10) t ht
    by_cases hi : t.inf = true
    · rw [if_pos hi, Bool.and_eq_true, beq_iff_eq, beq_iff_eq] at this
      refine ⟨0, ?_, smul_zero _⟩
      rw [this.1, this.2, hi, m_aff_zero, Nat.cast_zero]
    · rw [if_neg hi] at this
      simp only [Bool.and_eq_true, decide_eq_true_eq, beq_iff_eq, Bool.or_eq_true] at this
      obtain ⟨⟨⟨t1, t2⟩, t3⟩, t4⟩ := this
      obtain ⟨T, hT⟩ := eqn _ _ t3
      rw [Bool.not_eq_true] at hi
      refine ⟨T, by rw [hT, hi], ?_⟩
      by_cases h0 : beVal t.x = 0
      · have hx := m_aff_x hT
        rw [h0, Nat.cast_zero] at hx
        have := mx_order_two g1 hx
        rw [hh, pow_succ, mul_nsmul', two_nsmul, this, smul_zero]
      · exact (ladderZ_iff g1 (m_aff_x hT) (cne _ (by omega) t1) _).1 (t4.resolve_left h0)
  have nsq : ¬ IsSquare ((beVal d.a : ZMod d.fe.p) ^ 2 - 4) := by
    have := eulerCheck_spec (by omega) h18
    rw [Nat.cast_sub h19, Nat.cast_mul, ← pow_two] at this
    exact_mod_cast this
  -- the twist
  have ht := eulerCheck_spec (by omega) h12
  have hc0 : (ut : ZMod d.fe.p) ^ 3 + (beVal d.a : ZMod d.fe.p) * (ut : ZMod d.fe.p) ^ 2 + ut ≠ 0 ∧
      ¬ IsSquare ((ut : ZMod d.fe.p) ^ 3 + (beVal d.a : ZMod d.fe.p) * (ut : ZMod d.fe.p) ^ 2 + ut) := by
    have e : ((ut * ut * ut + beVal d.a * ut * ut + ut : Nat) : ZMod d.fe.p)
      = (ut : ZMod d.fe.p) ^ 3 + (beVal d.a : ZMod d.fe.p) * (ut : ZMod d.fe.p) ^ 2 + ut := by push_cast; ring
    rw [e] at ht
    exact ⟨fun h0 => ht (by rw [h0]; exact IsSquare.zero), ht⟩
  obtain ⟨Q, hQ⟩ := m_twist_point two disc hc0.1
  have gt : MontGood (beVal d.a : ZMod d.fe.p) ((ut : ZMod d.fe.p) ^ 3 + (beVal d.a : ZMod d.fe.p) * (ut : ZMod d.fe.p) ^ 2 + ut) :=
    ⟨two, hc0.1, disc⟩
  have hut := cne _ h13.1 h13.2
  have q1 := (ladderZ_iff gt hQ hut _).1 h14
  have q2 : 4 • Q ≠ 0 := fun e => h15 ((ladderZ_iff gt hQ hut _).2 e)
  rw [mul_nsmul] at q1
  haveI : Fact (MontGood (beVal d.a : ZMod d.fe.p) 1) := ⟨g1⟩
  haveI : Fact (MontGood (beVal d.a : ZMod d.fe.p) ((ut : ZMod d.fe.p) ^ 3 + (beVal d.a : ZMod d.fe.p) * (ut : ZMod d.fe.p) ^ 2 + ut)) := ⟨gt⟩
  haveI : Fact nt.Prime := ⟨hnt⟩
  haveI : Fact (beVal d.sc.n).Prime := ⟨hn⟩
  have dvt : nt ∣ Nat.card (MPt (beVal d.a : ZMod d.fe.p) ((ut : ZMod d.fe.p) ^ 3 + (beVal d.a : ZMod d.fe.p) * (ut : ZMod d.fe.p) ^ 2 + ut)) := by
    rw [← addOrderOf_eq_prime q1 q2]; exact addOrderOf_dvd_natCard _
  have dvn : beVal d.sc.n ∣ Nat.card (MPt (beVal d.a : ZMod d.fe.p) 1) := by
    rw [← addOrderOf_eq_prime hnG (by rintro rfl; rw [m_aff_zero] at hG; simp at hG)]; exact addOrderOf_dvd_natCard _
  have dvh : d.h ∣ Nat.card (MPt (beVal d.a : ZMod d.fe.p) 1) := by
    obtain ⟨t, ht, hv⟩ := List.any_eq_true.1 h11
    simp only [Bool.and_eq_true, decide_eq_true_eq, bne_iff_ne, ne_eq, Bool.not_eq_true'] at hv
    obtain ⟨T, hT, hT2⟩ := tor t ht
    have ha := (List.all_eq_true.1 h10) t ht
    rw [if_neg (by rw [hv.1]; simp)] at ha
    simp only [Bool.and_eq_true, decide_eq_true_eq] at ha
    rw [hv.1] at hT
    have e1 : ¬ 2 ^ i • T = 0 := by
      intro e
      apply hv.2.2
      rw [ladderZ_iff g1 (m_aff_x hT) (cne _ hv.2.1 ha.1.1.1), hh, pow_succ, Nat.mul_div_cancel _ (by omega), e]
    rw [hh] at hT2
    rw [hh, ← addOrderOf_eq_prime_pow e1 hT2]
    exact addOrderOf_dvd_natCard _
  have cop : d.h.Coprime (beVal d.sc.n) := by
    rw [hh]
    apply Nat.Coprime.pow_left
    rw [Nat.coprime_primes Nat.prime_two hn]
    exact fun e => hn2 e.symm
  obtain ⟨j, hj⟩ := cop.mul_dvd_of_dvd_of_dvd dvh dvn
  obtain ⟨j', hj'⟩ := dvt
  have hsum := m_card_twist (by omega) g1 hc0.2
  rw [one_mul, hj, hj'] at hsum
  have p1 : 0 < Nat.card (MPt (beVal d.a : ZMod d.fe.p) 1) := Nat.card_pos
  have p2 : 0 < Nat.card (MPt (beVal d.a : ZMod d.fe.p) ((ut : ZMod d.fe.p) ^ 3 + (beVal d.a : ZMod d.fe.p) * (ut : ZMod d.fe.p) ^ 2 + ut)) := Nat.card_pos
  rw [hj] at p1
  rw [hj'] at p2
  have hj1 : j = 1 := by
    rcases Nat.lt_trichotomy j 1 with hl | rfl | hl
    · have : j = 0 := by omega
      subst this; omega
    · rfl
    · have : d.h * beVal d.sc.n * 2 ≤ d.h * beVal d.sc.n * j := Nat.mul_le_mul_left _ hl
      have hj2 : 1 ≤ j' := Nat.pos_of_ne_zero (by rintro rfl; omega)
      have : nt * 1 ≤ nt * j' := Nat.mul_le_mul_left _ hj2
      omega
  subst hj1
  rw [mul_one] at hj
  refine ⟨h1, h2, h3, two, disc, ?_, hx0, ⟨G, hG, hnG⟩, hj, ?_, nsq, tor⟩
  · have := congrArg (Nat.cast (R := ZMod d.fe.p)) h9
    simp only [cast_mod_dvd (dvd_refl d.fe.p)] at this
    exact_mod_cast this
  · intro c hc
    have := m_card_twist (by omega) g1 hc
    rw [one_mul, hj] at this
    omega

end

theorem montDefs_fe : ∀ d ∈ montDefs, d.fe ∈ fieldCodes := by
  intro d h
  simp only [montDefs, List.mem_cons, List.not_mem_nil, or_false] at h
  rcases h with rfl | rfl <;> simp [fieldCodes, curve_x25519, curve_x448]

theorem montDefs_prime {d : MontDef} (h : d ∈ montDefs) : Fact d.fe.p.Prime := ⟨fieldCodes_prime _ (montDefs_fe d h)⟩

theorem montDefs_sc : ∀ d ∈ montDefs, (beVal d.sc.n).Prime := by
  intro d h
  apply scDefs_prime
  simp only [montDefs, List.mem_cons, List.not_mem_nil, or_false] at h
  rcases h with rfl | rfl <;> simp [Sc.scDefs, curve_x25519, curve_x448]

theorem facts_x25519 [Fact curve_x25519.fe.p.Prime] : MontFacts curve_x25519 t25519 :=
  montCheck_spec (i := 2) check_x25519 (montDefs_sc _ (by simp [montDefs])) prime_14474011154664524427946373126085988481603263447650325797860494125407373907997 rfl
    (by decide +kernel)

theorem facts_x448 [Fact curve_x448.fe.p.Prime] : MontFacts curve_x448 t448 :=
  montCheck_spec (i := 1) check_x448 (montDefs_sc _ (by simp [montDefs])) prime_181709681073901722637330951972001133588410340171829515070372549795160160121825800627002436557645897001734148521830156375752993149532941 rfl
    (by decide +kernel)

end Torsion.Ecc
