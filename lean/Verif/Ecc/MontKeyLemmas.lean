import Verif.Ecc.MontSmallLemmas
import Verif.Ecc.EcdsaLemmas

/-! Lemmas on the public keys of ECDH. -/
namespace Torsion.Ecc

open Torsion.Spec (HasSign)

open Torsion.Spec (montCurve MPt montAffine montX MontXZ MontGood MontOk beVal leVal leBytes clamp privKey pubX uBytes)
open WeierstrassCurve.Affine (Point)

/-! ### The parity -/

section
variable {fe : FieldCode} [Fact fe.p.Prime]

theorem p_odd' (h2 : (2 : ZMod fe.p) ≠ 0) : fe.p % 2 = 1 := by
  rcases Nat.Prime.eq_two_or_odd (Fact.out : fe.p.Prime) with h | h
  · exfalso
    apply h2
    have : ((2 : Nat) : ZMod fe.p) = 0 := (ZMod.natCast_eq_zero_iff _ _).2 (by rw [h])
    exact_mod_cast this
  · exact h

theorem set_odd_sq (y : ZMod fe.p) (s : Bool) : fe_set_odd fe y s ^ 2 = y ^ 2 := by
  unfold fe_set_odd; split <;> ring

theorem set_odd_zero (s : Bool) : fe_set_odd fe 0 s = 0 := by
  unfold fe_set_odd; split <;> ring

theorem set_odd_parity (h2 : (2 : ZMod fe.p) ≠ 0) {y : ZMod fe.p} (hy : y ≠ 0) (s : Bool) : fe_is_odd fe (fe_set_odd fe y s) = s := by
  have ho := odd_neg fe (p_odd' h2) hy
  have hlt := Nat.mod_lt y.val (show 2 > 0 by omega)
  unfold fe_set_odd fe_is_odd
  cases s <;> by_cases hc : y.val % 2 = 1 <;> simp_all

theorem root_unique (h2 : (2 : ZMod fe.p) ≠ 0) {y y' : ZMod fe.p} (h : y ^ 2 = y' ^ 2) (hp : fe_is_odd fe y = fe_is_odd fe y') : y = y' := by
  rcases sq_eq_sq_iff_eq_or_eq_neg.1 h with e | e
  · exact e
  · by_cases hy : y' = 0
    · rw [e, hy, neg_zero]
    · exfalso
      have ho := odd_neg fe (p_odd' h2) hy
      have hlt := Nat.mod_lt y'.val (show 2 > 0 by omega)
      rw [e] at hp
      unfold fe_is_odd at hp
      rw [ho] at hp
      rcases Nat.mod_two_eq_zero_or_one y'.val with h | h <;> simp [h] at hp

end

section
variable {d : MontDef} [Fact d.fe.p.Prime] {ec : Mont (ZMod d.fe.p)}

theorem square_y2 (c : MontCtx d ec) (x : ZMod d.fe.p) : IsSquare (mont_solve_y2 ec x) ↔ ∃ P : MPt ec.a ec.b, montX P = some x := by
  rw [m_solve_y2 c.ok]
  constructor
  · rintro ⟨y, hy⟩
    obtain ⟨P, hP⟩ := m_mk c.ok.good (x := x) (y := y) (by
      rw [div_eq_iff c.ok.good.b0] at hy; rw [hy]; ring)
    exact ⟨P, m_aff_x hP⟩
  · rintro ⟨P, hP⟩
    rcases P with _ | ⟨x', y', h⟩
    · simp [montX] at hP
    · have e := m_aff_eqn c.ok.good.b0 (m_aff_some h)
      rw [mx_some, Option.some.injEq] at hP
      rw [hP] at e
      refine ⟨ec.b * y', ?_⟩
      rw [div_eq_iff c.ok.good.b0, ← e]; ring

theorem mont_set_x (hd : d ∈ montDefs) (c : MontCtx d ec) (x : ZMod d.fe.p) (sign : Option Bool) : ∃ (Q : MPt ec.a ec.b) (r : Bool),
    mge_set_x ec x sign = .ok (montAffine Q, r) ∧ (r = true → montX Q = some x ∧ HasSign d Q sign) ∧ (r = false → Q = 0) ∧
    ((∃ P : MPt ec.a ec.b, montX P = some x ∧ HasSign d P sign) → r = true) := by
  obtain ⟨y, r, h1, h2, h3⟩ := fe_sqrt_exact d.fe (montDefs_fe d hd) (ZMod.card d.fe.p) 0 0 (by decide) (by decide) (mont_solve_y2 ec x)
  unfold mge_set_x
  dsimp only
  rw [h1, C.ok_bind]
  have two := c.ok.good.two
  have hsq : r = true → y ^ 2 = mont_solve_y2 ec x := fun hr => by rw [pow_two]; exact h3 (h2.1 hr)
  have mk : ∀ y' : ZMod d.fe.p, y' ^ 2 = mont_solve_y2 ec x → ∃ Q : MPt ec.a ec.b, montAffine Q = ⟨x, y', false⟩ := by
    intro y' hy'
    rw [m_solve_y2 c.ok, eq_div_iff c.ok.good.b0] at hy'
    exact m_mk c.ok.good (by rw [← hy']; ring)
  have ex : (∃ P : MPt ec.a ec.b, montX P = some x ∧ HasSign d P sign) → r = true := by
    rintro ⟨P, hP, -⟩
    exact h2.2 ((square_y2 c x).2 ⟨P, hP⟩)
  cases sign with
  | none =>
    cases r with
    | false => exact ⟨0, false, rfl, by simp, fun _ => rfl, ex⟩
    | true =>
      obtain ⟨Q, hQ⟩ := mk y (hsq rfl)
      exact ⟨Q, true, by rw [hQ]; rfl, fun _ => ⟨m_aff_x hQ, trivial⟩, by simp, fun _ => rfl⟩
  | some s =>
    dsimp only
    cases r with
    | false => exact ⟨0, false, rfl, by simp, fun _ => rfl, ex⟩
    | true =>
      rw [Bool.true_and]
      by_cases hy : y = 0
      · subst hy
        rw [set_odd_zero]
        cases s with
        | false =>
          obtain ⟨Q, hQ⟩ := mk 0 (hsq rfl)
          refine ⟨Q, true, by rw [hQ]; simp [fe_select, C.pure_eq], fun _ => ⟨m_aff_x hQ, ?_⟩, by simp, fun _ => rfl⟩
          simp [HasSign, hQ]
        | true =>
          refine ⟨0, false, by simp [fe_select, fe_is_zero, C.pure_eq, m_aff_zero], by simp, fun _ => rfl, ?_⟩
          rintro ⟨P, hP, hs⟩
          exfalso
          rcases P with _ | ⟨x', y', h⟩
          · simp [montX] at hP
          · have e := m_aff_eqn c.ok.good.b0 (m_aff_some h)
            rw [mx_some, Option.some.injEq] at hP
            have h0 := hsq rfl
            rw [m_solve_y2 c.ok, eq_div_iff c.ok.good.b0] at h0
            rw [hP, ← h0] at e
            have : ec.b * y' = 0 := by
              have : (ec.b * y') ^ 2 = 0 := by
                apply (mul_eq_zero.1 (show ec.b * (ec.b * y') ^ 2 = 0 by rw [e]; ring)).resolve_left c.ok.good.b0
              exact pow_eq_zero_iff (by norm_num) |>.1 this
            simp [HasSign, m_aff_some, this] at hs
      · have hpar := set_odd_parity two hy s
        have hne : fe_set_odd d.fe y s ≠ 0 := by
          intro e
          have := set_odd_sq (fe := d.fe) y s
          rw [e] at this
          exact hy (pow_eq_zero_iff (n := 2) (by norm_num) |>.1 (by rw [← this]; ring))
        obtain ⟨Q, hQ⟩ := mk (fe_set_odd d.fe y s) (by rw [set_odd_sq, hsq rfl])
        refine ⟨Q, true, by rw [hQ]; simp [fe_select, fe_is_zero, hne, C.pure_eq], fun _ => ⟨m_aff_x hQ, ?_⟩, by simp, fun _ => rfl⟩
        rw [HasSign, hQ]
        dsimp only
        conv_rhs => rw [← hpar]
        simp [fe_is_odd]

theorem mont_set_x_iff (hd : d ∈ montDefs) (c : MontCtx d ec) (x : ZMod d.fe.p) (sign : Option Bool) : ∃ (Q : MPt ec.a ec.b) (r : Bool),
    mge_set_x ec x sign = .ok (montAffine Q, r) ∧ (r = true → montX Q = some x ∧ HasSign d Q sign) ∧ (r = false → Q = 0) ∧
    (r = true ↔ ∃ P : MPt ec.a ec.b, montX P = some x ∧ HasSign d P sign) := by
  obtain ⟨Q, r, h1, h2, h3, h4⟩ := mont_set_x hd c x sign
  exact ⟨Q, r, h1, h2, h3, fun h => ⟨Q, h2 h⟩, h4⟩

theorem mont_import_ok (hd : d ∈ montDefs) (c : MontCtx d ec) {pub : List Byte} (hl : feSize d.fe ≤ pub.length) (sign : Option Bool) :
    mge_import ec pub sign = mge_set_x ec (pubX d pub) sign := by
  unfold mge_import
  rw [fe_import_le_ok d.fe hl, C.ok_bind]
  rfl

theorem pge_import_ok (hd : d ∈ montDefs) (c : MontCtx d ec) {pub : List Byte} (hl : feSize d.fe ≤ pub.length) :
    ∃ p r, pge_import ec pub = .ok (p, r) ∧ (r = true ↔ ∃ P : MPt ec.a ec.b, montX P = some (pubX d pub)) ∧
      (r = true → p = ⟨pubX d pub, 1⟩) ∧ (r = false → p = ⟨1, 0⟩) := by
  obtain ⟨r, h1, h2⟩ := fe_is_square_exact d.fe (montDefs_fe d hd) (ZMod.card d.fe.p) (mont_solve_y2 ec (pubX d pub))
  unfold pge_import
  rw [fe_import_le_ok d.fe hl, C.ok_bind]
  dsimp only
  rw [pge_set_x, mont_validate_x, show ((leVal (pub.take (feSize d.fe)) % 2 ^ d.fe.p.size : Nat) : ZMod d.fe.p) = pubX d pub from rfl, h1, C.ok_bind]
  exact ⟨_, _, rfl, by rw [h2, square_y2 c], by rintro rfl; rfl, by rintro rfl; rfl⟩

theorem n_lt {d : MontDef} (hd : d ∈ montDefs) : beVal d.sc.n < 2 ^ feBits d.fe ∧ beVal d.sc.n % 2 = 1 := by
  simp only [montDefs, List.mem_cons, List.not_mem_nil, or_false] at hd
  rcases hd with rfl | rfl <;> decide +kernel

theorem has_torsion_ok (hd : d ∈ montDefs) (c : MontCtx d ec) {u : ZMod d.fe.p} {P : MPt ec.a ec.b} (hP : montX P = some u) :
    pge_has_torsion ec ⟨u, 1⟩ = true ↔ ec.n • P ≠ 0 := by
  have hbits := bits_big hd
  rw [← c.bits] at hbits
  obtain ⟨hn, hodd⟩ := n_lt hd
  rw [← c.n] at hn hodd
  rw [← c.bits] at hn
  unfold pge_has_torsion
  dsimp only
  by_cases hu : u = 0
  · subst hu
    have h2 := mx_order_two c.ok.good hP
    have : ec.n • P = P := by
      rw [show ec.n = 2 * (ec.n / 2) + 1 by omega, add_nsmul, one_nsmul, mul_nsmul, two_nsmul, h2, smul_zero, zero_add]
    rw [this]
    have h0 : P ≠ 0 := by rintro rfl; simp [mx_zero] at hP
    simp [fe_is_zero, h0]
  · have := xz_inf (mont_mul_exact c.ok c.ok.good.b0 (by omega) hP hn (Or.inl hu) false)
    rw [Bool.or_eq_true, Bool.not_eq_true', ← Bool.not_eq_true, this, fe_is_zero, decide_eq_true_iff]
    simp [hu]

theorem is_small_ok (hd : d ∈ montDefs) (c : MontCtx d ec) {u : ZMod d.fe.p} {P : MPt ec.a ec.b} (hP : montX P = some u) :
    ∃ r, pge_is_small ec ⟨u, 1⟩ = .ok r ∧ (r = true ↔ ec.h • P = 0) := by
  obtain ⟨j, hj, hh, -⟩ := hpow hd
  rw [← c.h] at hh
  obtain ⟨q, h1, h2⟩ := pge_mulh_xz c.ok c.ok.good.b0 (by omega) hh (xz_one (ec := ec) hP)
  refine ⟨pge_is_zero q && !pge_is_zero (⟨u, 1⟩ : Pge (ZMod d.fe.p)), ?_, ?_⟩
  · unfold pge_is_small
    rw [h1, C.ok_bind]; rfl
  · rw [Bool.and_eq_true, xz_inf h2]
    simp [pge_is_zero, fe_is_zero]

/-! ### Padding -/

theorem byte_pad_le_ok (zn : Nat) (xp : List Byte) : (byte_pad_le zn xp).1.length = zn ∧
    ((byte_pad_le zn xp).2 = true ↔ leVal xp < 256 ^ zn) ∧
    (leVal xp < 256 ^ zn → leVal (byte_pad_le zn xp).1 = leVal xp) ∧
    (¬ leVal xp < 256 ^ zn → (byte_pad_le zn xp).1 = List.replicate zn 0) := by
  obtain ⟨h1, h2⟩ := pad_skip_val zn xp.reverse
  have e : leVal (byte_pad_skip zn xp.reverse).reverse = leVal xp := by
    rw [← beVal_eq, h1, beVal_eq, List.reverse_reverse]
  have hb : leVal xp = beVal (byte_pad_skip zn xp.reverse) := by rw [← e, beVal_eq]
  unfold byte_pad_le
  dsimp only
  rw [List.length_reverse]
  by_cases h : (byte_pad_skip zn xp.reverse).length > zn
  · rw [if_pos h]
    have := h2 h
    rw [← hb] at this
    exact ⟨by simp, by simp [this], fun h' => absurd h' (by omega), fun _ => rfl⟩
  · rw [if_neg h]
    have hlt : leVal xp < 256 ^ zn := by
      rw [← e]
      refine (leVal_lt _).trans_le (Nat.pow_le_pow_right (by omega) ?_)
      rw [List.length_reverse]; omega
    refine ⟨?_, by simp [hlt], fun _ => ?_, fun h' => absurd hlt h'⟩
    · rw [List.length_append, List.length_reverse, List.length_replicate]; omega
    · rw [Sc.leVal_zeros, e]

theorem import_pad_le_ok (xp : List Byte) : ∃ x b, fe_import_pad_le d.fe xp = .ok (x, b) ∧ (b = true ↔ leVal xp < d.fe.p) ∧
    (b = true → x = (leVal xp : ZMod d.fe.p)) := by
  obtain ⟨h1, h2, h3, h4⟩ := byte_pad_le_ok (feSize d.fe) xp
  unfold fe_import_pad_le
  dsimp only
  rw [fe_import_le_ok d.fe h1.ge, C.ok_bind, List.take_of_length_le h1.le]
  have hp := feSize_pow d.fe
  refine ⟨_, _, rfl, ?_, ?_⟩
  · rw [Bool.and_eq_true, h2, decide_eq_true_iff]
    constructor
    · rintro ⟨a, b⟩; rwa [h3 a] at b
    · intro a; have := a.trans hp; exact ⟨this, by rwa [h3 this]⟩
  · rw [Bool.and_eq_true, h2, decide_eq_true_iff]
    rintro ⟨a, b⟩
    rw [h3 a] at b ⊢
    dsimp only
    rw [Nat.mod_eq_of_lt (b.trans (Nat.lt_size_self _))]

end

end Torsion.Ecc
