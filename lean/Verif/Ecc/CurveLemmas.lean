import Verif.Ecc.CurveCert
import Verif.Ecc.CurveDefs
import Verif.Ecc.MulProps
import Verif.Ecc.PrimeProps

/-! # The constants of the short Weierstrass curves (C67): lemmas -/
namespace Torsion.Ecc

open Torsion.Spec (affine weier Pt Good EndoOk WeiOk beVal)
open WeierstrassCurve.Affine (Point)

set_option linter.style.longLine false

/-- Everything which is computed about a curve: the generator lies on it, `n - 1` times the generator is its negative,
the cubic has no root, and the sizes. -/
def weiCheck (d : WeiDef) (i j : Nat) (v : Nat × Nat × Nat) : Bool :=
  force d.fe.p fun p => force (beVal d.sc.n) fun n => force (beVal d.a) fun a => force (beVal d.b) fun b =>
  force (beVal d.x) fun x => force (beVal d.y) fun y =>
  decide (d.h = 1) && decide (a < p) && decide (b < p) && decide (x < p) && decide (y < p) && decide (0 < y) && decide (2 < p) &&
    decide (0 < n) && decide (2 * p + 1 < 3 * n) && y * y % p == (x * x * x + a * x + b) % p &&
    mulCheck p a x y (n - 1) j x (p - y) && oddCheck p a b i v

theorem wei_check_p192 : weiCheck curve_p192 192 191
    (3076984081099336410538445874700673783096882824010410041625,
     4871298686935519674170250204910228760438566091784467946767,
     105597762148406811168096478311383789005400348177979944870) = true := by
  decide +kernel

theorem wei_check_p224 : weiCheck curve_p224 224 223
    (1261710631285627074303005901530361786216288604486499842249704943048,
     4447412785031720342771701563499662000791675740805516550464163634437,
     9439789507511725786058244597052783711805086828869674293526675889612) = true := by
  decide +kernel

theorem wei_check_p256 : weiCheck curve_p256 256 255
    (76626890310466861426869089647039036757962535851890885406097439786770458211455,
     74462945259064871768191128030512052509059297803194871526163573358218695456204,
     34768139465301476436978405170953382516735956999154666452188405812258086013549) = true := by
  decide +kernel

theorem wei_check_p384 : weiCheck curve_p384 384 383
    (23037766613497683937702734290281044719364893268180251583910224888989381657771069200037813904257325918671976092329602,
     8235438212423615602427778915669574859600037698862346933589434399495169446996583974901273360826717582835190849638831,
     12157362177932134139146813183752135342286725243554133716818896354380897714709611791313184492360272402950851405460538) = true := by
  decide +kernel

theorem wei_check_p521 : weiCheck curve_p521 521 520
    (5556850081864827842302249485475501585472702946772625307642304195702912034363837867267334216347521692509406916620096684956176894315447091116492501000392161958,
     2592645775458497527836362227091103884154287512470494672274301275565663408730650270660448980645397363205839490313252565391972848223674401530161387302727484004,
     3919380404691066388712376322317341026252002696138380915147944189379687824774581460974855590730258562532022938584569429027963361353339635641909491533809725330) = true := by
  decide +kernel

theorem wei_check_secp256k1 : weiCheck curve_secp256k1 256 255
    (0,
     0,
     46758632835564736012269203954919337884311706168562511263687580192619680188360) = true := by
  decide +kernel

section
variable {d : WeiDef} [Fact d.fe.p.Prime]

/-- The curve of a table. -/
def defCurve (d : WeiDef) [Fact d.fe.p.Prime] : Curve (ZMod d.fe.p) := ⟨(beVal d.a : ZMod d.fe.p), (beVal d.b : ZMod d.fe.p), d.h⟩

theorem weiCheck_spec {i j : Nat} {v : Nat × Nat × Nat} (h : weiCheck d i j v = true) (hn : (beVal d.sc.n).Prime) :
    (beVal d.a < d.fe.p ∧ beVal d.b < d.fe.p ∧ beVal d.x < d.fe.p ∧ beVal d.y < d.fe.p ∧ d.h = 1) ∧
    Good (defCurve d) ∧ ∃ G : Pt (defCurve d), affine G = ⟨(beVal d.x : ZMod d.fe.p), (beVal d.y : ZMod d.fe.p), false⟩ ∧
      beVal d.sc.n • G = 0 ∧ Nat.card (Pt (defCurve d)) = beVal d.sc.n ∧ ∀ P : Pt (defCurve d), ∃ m : Nat, P = m • G := by
  unfold weiCheck at h
  simp only [force_eq, Bool.and_eq_true, decide_eq_true_eq, beq_iff_eq] at h
  obtain ⟨⟨⟨⟨⟨⟨⟨⟨⟨⟨⟨h1, h2⟩, h3⟩, h4⟩, h5⟩, h6⟩, h7⟩, h8⟩, h9⟩, h10⟩, h11⟩, h12⟩ := h
  have cne : ∀ z : Nat, 0 < z → z < d.fe.p → (z : ZMod d.fe.p) ≠ 0 := by
    intro z h0 hz h
    rw [ZMod.natCast_eq_zero_iff] at h
    exact absurd (Nat.le_of_dvd h0 h) (by omega)
  have two : (2 : ZMod d.fe.p) ≠ 0 := by exact_mod_cast cne 2 (by omega) h7
  have yne := cne _ h6 h5
  have hodd := oddCheck_spec h12
  have he : (beVal d.y : ZMod d.fe.p) ^ 2 = (beVal d.x : ZMod d.fe.p) ^ 3 + beVal d.a * beVal d.x + beVal d.b := by
    have := congrArg (Nat.cast (R := ZMod d.fe.p)) h10
    simp only [cast_mod_dvd (dvd_refl d.fe.p)] at this
    simp only [Nat.cast_mul, Nat.cast_add] at this
    linear_combination this
  have hns : (weier (defCurve d).a (defCurve d).b).Nonsingular (beVal d.x : ZMod d.fe.p) (beVal d.y : ZMod d.fe.p) := by
    rw [WeierstrassCurve.Affine.nonsingular_iff]
    refine ⟨?_, Or.inr ?_⟩
    · rw [WeierstrassCurve.Affine.equation_iff]
      simp only [weier, defCurve]
      linear_combination he
    · simp only [weier]
      intro h
      apply mul_ne_zero two yne
      linear_combination h
  have hg : affine (ec := defCurve d) (.some _ _ hns) = ⟨(beVal d.x : ZMod d.fe.p), (beVal d.y : ZMod d.fe.p), false⟩ := aff_some _
  have hord := order_spec (ec := defCurve d) dvd_rfl (by omega) two (a := beVal d.a) rfl hg h11 h5.le
  rw [Nat.sub_add_cancel h8] at hord
  refine ⟨⟨h2, h3, h4, h5, h1⟩, ⟨two, fun _ => hodd⟩, _, hg, hord, ?_⟩
  exact cyclic two hn (by
    intro h
    rw [h, aff_zero] at hg
    simp at hg) hord hodd h9

end

/-! ### The endomorphism of secp256k1 -/

theorem minimize_short {n k : Nat} {c : Int} {B : Nat} (hn : 0 < n) (hk : (k : Int) = c % n) (h1 : -(B : Int) < c) (h2 : c < B)
    (hB : 2 * B < n) : (sc_minimize_var n k).1 < B := by
  unfold sc_minimize_var
  by_cases hc : 0 ≤ c
  · rw [Int.emod_eq_of_lt hc (by omega)] at hk
    rw [if_neg (by omega)]
    dsimp only
    omega
  · rw [← Int.add_emod_right, Int.emod_eq_of_lt (by omega) (by omega)] at hk
    rw [if_pos (by omega)]
    dsimp only
    rw [if_neg (by omega)]
    omega

/-- The constants as numbers. -/
def k1N : Nat := 0xfffffffffffffffffffffffffffffffebaaedce6af48a03bbfd25e8cd0364141
def k1Lam : Nat := 0xac9c52b33fa3cf1f5ad9e3fd77ed9ba4a880b9fc8ec739c2e0cfc810b51283cf
def k1B1 : Nat := 0xe4437ed6010e88286f547fa90abfe4c3
def k1B2 : Nat := 0xfffffffffffffffffffffffffffffffe8a280ac50774346dd765cda83db1562c
def k1G1 : Nat := 0x3086d221a7d46bcde86c90e49284eb153daa8a1471e8ca7fe893209a45dbb031
def k1G2 : Nat := 0xe4437ed6010e88286f547fa90abfe4c4221208ac9df506c61571b4ae8ac47f71
def k1A1 : Nat := 0x3086d221a7d46bcde86c90e49284eb15
def k1A2 : Nat := 0x114ca50f7a8e2f3f657c1108d9d44cfd8

set_option exponentiation.threshold 1000 in
theorem k1_bounds {k c1 c2 : Int} (h0 : 0 ≤ k) (hk : k < k1N)
    (h1 : c1 * 2 ^ 384 ≤ k * k1G1 + 2 ^ 383) (h2 : k * k1G1 + 2 ^ 383 < (c1 + 1) * 2 ^ 384)
    (h3 : c2 * 2 ^ 384 ≤ k * k1G2 + 2 ^ 383) (h4 : k * k1G2 + 2 ^ 383 < (c2 + 1) * 2 ^ 384) :
    (-2 ^ 129 < k - c1 * k1A1 - c2 * k1A2 ∧ k - c1 * k1A1 - c2 * k1A2 < 2 ^ 129) ∧
    (-2 ^ 129 < c1 * k1B1 - c2 * k1A1 ∧ c1 * k1B1 - c2 * k1A1 < 2 ^ 129) := by
  simp only [k1N, k1G1, k1G2, k1A1, k1A2, k1B1] at *
  norm_num at *
  refine ⟨⟨?_, ?_⟩, ?_, ?_⟩ <;> linarith

theorem k1_short {F : Type} (beta : F) {k : Nat} (hk : k < k1N) :
    (sc_minimize_var k1N (wei_endo_split k1N ⟨beta, k1Lam, k1B1, k1B2, k1G1, k1G2, 384⟩ k).1).1 < 2 ^ 129 ∧
    (sc_minimize_var k1N (wei_endo_split k1N ⟨beta, k1Lam, k1B1, k1B2, k1G1, k1G2, 384⟩ k).2).1 < 2 ^ 129 := by
  unfold wei_endo_split
  dsimp only
  obtain ⟨c1, hc1⟩ : ∃ c, c = (k * k1G1 + 2 ^ (384 - 1)) / 2 ^ 384 := ⟨_, rfl⟩
  obtain ⟨c2, hc2⟩ : ∃ c, c = (k * k1G2 + 2 ^ (384 - 1)) / 2 ^ 384 := ⟨_, rfl⟩
  rw [← hc1, ← hc2]
  have e1 : c1 * 2 ^ 384 ≤ k * k1G1 + 2 ^ 383 := hc1 ▸ Nat.div_mul_le_self _ _
  have e2 : k * k1G1 + 2 ^ 383 < (c1 + 1) * 2 ^ 384 := by
    rw [hc1, Nat.mul_comm (_ + 1)]; exact Nat.lt_mul_div_succ _ (Nat.two_pow_pos _)
  have e3 : c2 * 2 ^ 384 ≤ k * k1G2 + 2 ^ 383 := hc2 ▸ Nat.div_mul_le_self _ _
  have e4 : k * k1G2 + 2 ^ 383 < (c2 + 1) * 2 ^ 384 := by
    rw [hc2, Nat.mul_comm (_ + 1)]; exact Nat.lt_mul_div_succ _ (Nat.two_pow_pos _)
  obtain ⟨⟨b1, b2⟩, b3, b4⟩ := k1_bounds (k := k) (c1 := c1) (c2 := c2) (by omega) (by exact_mod_cast hk)
    (by exact_mod_cast e1) (by exact_mod_cast e2) (by exact_mod_cast e3) (by exact_mod_cast e4)
  have hN : 0 < k1N := by decide
  have hB : 2 * 2 ^ 129 < k1N := by decide
  have m2 : (((c1 * k1B1 % k1N + c2 * k1B2 % k1N) % k1N : Nat) : Int) = ((c1 : Int) * k1B1 - c2 * k1A1) % k1N := by
    rw [← Nat.add_mod, Int.natCast_mod]
    apply Int.emod_emod_of_dvd _ (dvd_refl _) |>.symm.trans
    rw [Int.emod_emod_of_dvd _ (dvd_refl _)]
    apply Int.ModEq.eq
    apply (Int.modEq_iff_dvd.2 ⟨-(c2 : Int), _⟩)
    have : (k1B2 : Int) = k1N - k1A1 := by decide
    simp only [Nat.cast_add, Nat.cast_mul]
    rw [this]; ring
  have m1 : ((((c1 * k1B1 % k1N + c2 * k1B2 % k1N) % k1N * k1Lam % k1N + k) % k1N : Nat) : Int) =
      ((k : Int) - c1 * k1A1 - c2 * k1A2) % k1N := by
    rw [Nat.mod_add_mod, Int.natCast_mod, Nat.cast_add, Nat.cast_mul, m2]
    apply Int.ModEq.eq
    have t1 : ((c1 : Int) * k1B1 - c2 * k1A1) % k1N * k1Lam + k ≡ ((c1 : Int) * k1B1 - c2 * k1A1) * k1Lam + k [ZMOD k1N] :=
      Int.ModEq.add_right _ (Int.ModEq.mul_right _ (Int.mod_modEq _ _))
    refine t1.trans (Int.modEq_iff_dvd.2 ?_)
    have d1 : (k1N : Int) ∣ k1A1 + k1B1 * k1Lam := by decide
    have d2 : (k1N : Int) ∣ k1A1 * k1Lam - k1A2 := by decide
    obtain ⟨u, hu⟩ := d1
    obtain ⟨w, hw⟩ := d2
    exact ⟨-(c1 * u) + c2 * w, by linear_combination (-(c1 : Int)) * hu + (c2 : Int) * hw⟩
  exact ⟨minimize_short hN m1 (by exact_mod_cast b1) (by exact_mod_cast b2) hB,
    minimize_short hN m2 (by exact_mod_cast b3) (by exact_mod_cast b4) hB⟩

end Torsion.Ecc
