import Verif.Ecc.CurveLemmas

/-! # The short Weierstrass curves of the library (C67) -/
namespace Torsion

open Spec Ecc

theorem weiDefs_field {d : WeiDef} (hd : d ∈ weiDefs) : d.fe ∈ fieldCodes ∧ d.sc ∈ Sc.scDefs := by
  simp only [weiDefs, List.mem_cons, List.not_mem_nil, or_false] at hd
  rcases hd with rfl | rfl | rfl | rfl | rfl | rfl <;>
    simp [curve_p192, curve_p224, curve_p256, curve_p384, curve_p521, curve_secp256k1, fieldCodes, Sc.scDefs]

theorem weiDefs_field_prime {d : WeiDef} (hd : d ∈ weiDefs) : d.fe.p.Prime := fieldCodes_prime _ (weiDefs_field hd).1

/-- C67. The modulus of the field and the order of the group are primes. -/
theorem weiDefs_prime {d : WeiDef} (hd : d ∈ weiDefs) : d.fe.p.Prime ∧ (beVal d.sc.n).Prime :=
  ⟨fieldCodes_prime _ (weiDefs_field hd).1, scDefs_prime _ (weiDefs_field hd).2⟩

/-- C67. The constants in the tables are reduced, the generator lies on the curve, its order is the prime `n`, the curve
has exactly `n` points (so the cofactor is one, there is no point of order two, and every point is a multiple of the
generator). -/
theorem weiDefs_curve {d : WeiDef} (hd : d ∈ weiDefs) : letI := Fact.mk (weiDefs_field_prime hd)
    (beVal d.a < d.fe.p ∧ beVal d.b < d.fe.p ∧ beVal d.x < d.fe.p ∧ beVal d.y < d.fe.p ∧ d.h = 1) ∧
    Good (defCurve d) ∧ ∃ G : Pt (defCurve d), affine G = ⟨(beVal d.x : ZMod d.fe.p), (beVal d.y : ZMod d.fe.p), false⟩ ∧
      beVal d.sc.n • G = 0 ∧ Nat.card (Pt (defCurve d)) = beVal d.sc.n ∧
      ∀ P : Pt (defCurve d), ∃ m : Nat, P = m • G := by
  letI := Fact.mk (weiDefs_field_prime hd)
  have hn := (weiDefs_prime hd).2
  have hd' := hd
  simp only [weiDefs, List.mem_cons, List.not_mem_nil, or_false] at hd'
  rcases hd' with rfl | rfl | rfl | rfl | rfl | rfl
  · exact weiCheck_spec wei_check_p192 hn
  · exact weiCheck_spec wei_check_p224 hn
  · exact weiCheck_spec wei_check_p256 hn
  · exact weiCheck_spec wei_check_p384 hn
  · exact weiCheck_spec wei_check_p521 hn
  · exact weiCheck_spec wei_check_secp256k1 hn

/-- C67. The constants of the endomorphism of secp256k1: `β` is a cube root of one, `(x, y) ↦ (β x, y)` multiplies the
generator by `λ`, and the halves of every scalar fit in the 129 bits which the multiplications read. -/
theorem endo_secp256k1_exact : letI := Fact.mk (weiDefs_field_prime (d := curve_secp256k1) (by simp [weiDefs]))
    ∀ G : Pt (defCurve curve_secp256k1), affine G = ⟨(beVal curve_secp256k1.x : ZMod curve_secp256k1.fe.p),
        (beVal curve_secp256k1.y : ZMod curve_secp256k1.fe.p), false⟩ →
    EndoOk (defCurve curve_secp256k1) (beVal curve_secp256k1.sc.n) (((beVal curve_secp256k1.sc.n).size + 1) / 2 + 1)
      { beta := (beVal endo_secp256k1.beta : ZMod curve_secp256k1.fe.p), lambda := beVal endo_secp256k1.lambda,
        b1 := beVal endo_secp256k1.b1, b2 := beVal endo_secp256k1.b2, g1 := beVal endo_secp256k1.g1,
        g2 := beVal endo_secp256k1.g2, prec := endo_secp256k1.prec } G := by
  letI := Fact.mk (weiDefs_field_prime (d := curve_secp256k1) (by simp [weiDefs]))
  intro G hG
  have two : (2 : ZMod curve_secp256k1.fe.p) ≠ 0 := by
    intro h
    have h : ((2 : Nat) : ZMod curve_secp256k1.fe.p) = 0 := by exact_mod_cast h
    rw [ZMod.natCast_eq_zero_iff] at h
    revert h
    decide +kernel
  have ha : (defCurve curve_secp256k1).a = ((0 : Nat) : ZMod curve_secp256k1.fe.p) := by
    have : beVal curve_secp256k1.a = 0 := by decide +kernel
    show ((beVal curve_secp256k1.a : Nat) : ZMod curve_secp256k1.fe.p) = _
    rw [this]
  have hl := mulCheck_spec (N := curve_secp256k1.fe.p) (a := 0) dvd_rfl (by decide +kernel) two ha hG
    (n := k1N - k1Lam) (i := 254)
    (rx := beVal curve_secp256k1.x * beVal endo_secp256k1.beta % curve_secp256k1.fe.p) (ry := beVal curve_secp256k1.y)
    (by decide +kernel)
  refine ⟨by rw [ha]; simp, ?_, ⟨k1N - k1Lam, by decide +kernel, (k1N - k1Lam) • G, ?_, rfl⟩, ?_⟩
  · have : beVal endo_secp256k1.beta ^ 3 % curve_secp256k1.fe.p = 1 := by decide +kernel
    have h := congrArg (Nat.cast (R := ZMod curve_secp256k1.fe.p)) this
    rw [ZMod.natCast_mod, Nat.cast_pow, Nat.cast_one] at h
    exact h
  · rw [hl, hG, wge_endo_beta, ZMod.natCast_mod, Nat.cast_mul]
  · have e1 : beVal curve_secp256k1.sc.n = k1N := by decide +kernel
    have e2 : beVal endo_secp256k1.lambda = k1Lam := by decide +kernel
    have e3 : beVal endo_secp256k1.b1 = k1B1 := by decide +kernel
    have e4 : beVal endo_secp256k1.b2 = k1B2 := by decide +kernel
    have e5 : beVal endo_secp256k1.g1 = k1G1 := by decide +kernel
    have e6 : beVal endo_secp256k1.g2 = k1G2 := by decide +kernel
    have e7 : (k1N.size + 1) / 2 + 1 = 129 := by decide +kernel
    rw [e1, e2, e3, e4, e5, e6, e7]
    exact fun k hk => k1_short _ hk

/-- C67. The struct of every short Weierstrass curve of the library: `wei_init` succeeds on the table and establishes
everything the multiplications rely on. -/
theorem wei_create_exact {d : WeiDef} (hd : d ∈ weiDefs) : letI := Fact.mk (weiDefs_field_prime hd)
    ∃ ec, wei_create d = .ok ec ∧ ec.n = beVal d.sc.n ∧ ec.toCurve = defCurve d ∧ ∃ G : Pt ec.toCurve,
      affine G = ⟨(beVal d.x : ZMod d.fe.p), (beVal d.y : ZMod d.fe.p), false⟩ ∧ WeiOk ec G ∧
      Nat.card (Pt ec.toCurve) = ec.n ∧ ∀ P : Pt ec.toCurve, ∃ m : Nat, P = m • G := by
  letI := Fact.mk (weiDefs_field_prime hd)
  obtain ⟨-, hgood, G, hG, ho, hcard, hall⟩ := weiDefs_curve hd
  have he : ∀ e, (d.endo.map fun e : EndoDef =>
      ({ beta := (beVal e.beta : ZMod d.fe.p), lambda := beVal e.lambda, b1 := beVal e.b1, b2 := beVal e.b2,
         g1 := beVal e.g1, g2 := beVal e.g2, prec := e.prec } : Endo (ZMod d.fe.p))) = some e →
      EndoOk (defCurve d) (beVal d.sc.n) (((beVal d.sc.n).size + 1) / 2 + 1) e G := by
    intro e h
    have hd' := hd
    simp only [weiDefs, List.mem_cons, List.not_mem_nil, or_false] at hd'
    rcases hd' with rfl | rfl | rfl | rfl | rfl | rfl
    · cases h
    · cases h
    · cases h
    · cases h
    · cases h
    · rw [show curve_secp256k1.endo = some endo_secp256k1 from rfl, Option.map_some, Option.some.injEq] at h
      rw [← h]
      exact endo_secp256k1_exact G hG
  obtain ⟨ec, h1, h2, -, h3, h4⟩ := wei_init_exact hgood G (weiDefs_prime hd).2.pos ho _ he
  rw [hG] at h1
  obtain ⟨c', n', bits', ebits', g', blind', unblind', wf', wn', en', we'⟩ := ec
  dsimp only at h2 h3
  subst h3
  exact ⟨_, h1, h2, rfl, G, hG, h4, hcard.trans h2.symm, hall⟩

/-- C67. Multiplication on the curves of the library, without hypotheses on the points: fixed base, any point, and the
double multiplication of the verifiers, for the fresh struct and for every struct `wei_randomize` makes of it. -/
theorem wei_named_mul_exact {d : WeiDef} (hd : d ∈ weiDefs) : letI := Fact.mk (weiDefs_field_prime hd)
    ∃ ec, wei_create d = .ok ec ∧ ∃ G : Pt ec.toCurve,
      affine G = ⟨(beVal d.x : ZMod d.fe.p), (beVal d.y : ZMod d.fe.p), false⟩ ∧ addOrderOf G = beVal d.sc.n ∧
      (∀ k, wei_mul_g ec k = .ok (affine (k • G))) ∧
      (∀ P : Pt ec.toCurve, ∀ k, k < ec.n → wei_mul ec (affine P) k = .ok (affine (k • P))) ∧
      (∀ P : Pt ec.toCurve, ∀ k1 k2, k1 < ec.n → k2 < ec.n →
        wei_mul_double_var ec k1 (affine P) k2 = .ok (affine (k1 • G + k2 • P))) ∧
      ∀ blind < ec.n, ∃ ec', wei_randomize ec blind = .ok ec' ∧ ∃ h : ec'.toCurve = ec.toCurve,
        (∀ k, wei_mul_g ec' k = .ok (affine (k • G))) ∧
        (∀ P : Pt ec.toCurve, ∀ k, k < ec.n → wei_mul ec' (affine P) k = .ok (affine (k • P))) := by
  letI := Fact.mk (weiDefs_field_prime hd)
  obtain ⟨ec, h1, h2, -, G, hG, ok, -, hall⟩ := wei_create_exact hd
  refine ⟨ec, h1, G, hG, ?_, fun k => (wei_mul_g_exact ok k).2, fun P k hk => (wei_mul_exact ok P (Or.inr (hall P)) hk).2,
    fun P k1 k2 e1 e2 => (wei_mul_double_exact ok P (Or.inr (hall P)) e1 e2).2, fun blind hb => ?_⟩
  · have := Fact.mk (weiDefs_prime hd).2
    have ho := ok.order
    rw [h2] at ho
    refine addOrderOf_eq_prime ho ?_
    intro h
    rw [h, aff_zero] at hG
    simp at hG
  · obtain ⟨ec', e1, e2, -, e3, ok'⟩ := wei_randomize_exact ok hb
    refine ⟨ec', e1, e3, ?_⟩
    obtain ⟨c', n', bits', ebits', g', blind', unblind', wf', wn', en', we'⟩ := ec'
    dsimp only at e2 e3
    subst e3
    exact ⟨fun k => (wei_mul_g_exact ok' k).2, fun P k hk => (wei_mul_exact ok' P (Or.inr (hall P)) (by
      dsimp only; omega)).2⟩

/-- The example: `n - 1` times the generator of secp256k1 is its negative. -/
example : letI := Fact.mk (weiDefs_field_prime (d := curve_secp256k1) (by simp [weiDefs]))
    ∃ ec, wei_create curve_secp256k1 = .ok ec ∧ wei_mul_g ec (beVal Sc.field_secq256k1.n - 1) =
      .ok ⟨(beVal curve_secp256k1.x : ZMod curve_secp256k1.fe.p), -(beVal curve_secp256k1.y : ZMod curve_secp256k1.fe.p), false⟩ := by
  letI := Fact.mk (weiDefs_field_prime (d := curve_secp256k1) (by simp [weiDefs]))
  obtain ⟨ec, h1, G, hG, ho, hm, -⟩ := wei_named_mul_exact (d := curve_secp256k1) (by simp [weiDefs])
  refine ⟨ec, h1, ?_⟩
  have hn : (beVal Sc.field_secq256k1.n - 1) • G = -G := by
    have h0 : beVal Sc.field_secq256k1.n • G = 0 := by
      have := addOrderOf_nsmul_eq_zero G
      rwa [ho] at this
    have h1 : (beVal Sc.field_secq256k1.n - 1) • G + G = 0 := by
      rw [← succ_nsmul, Nat.sub_add_cancel (by decide +kernel), h0]
    exact eq_neg_of_add_eq_zero_left h1
  rw [hm, hn, ← neg_aff, hG]
  rfl

end Torsion
