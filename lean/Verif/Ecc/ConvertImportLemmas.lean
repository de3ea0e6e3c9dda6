import Verif.Ecc.ConvertKeyLemmas
import Verif.Ecc.MontKeyLemmas

/-! Lemmas on the conversion of Montgomery keys to Edwards keys. -/
set_option linter.unusedSectionVars false
set_option exponentiation.threshold 500

namespace Torsion.Ecc

open Torsion.Spec

theorem mont_init_conv {d : MontDef} [Fact d.fe.p.Prime] {ec : Mont (ZMod d.fe.p)} (he : mont_init d = .ok ec) :
    ec.c = (if fe_is_zero (beVal d.c : ZMod d.fe.p) then 1 else (beVal d.c : ZMod d.fe.p)) ∧ ec.invert = d.invert ∧
      (feBits d.fe = 448 → ec.i16 = (num_invert (beVal d.sc.n) 16).1) := by
  unfold mont_init at he
  dsimp only at he
  cases h : decide ((feBits d.fe + 63) / 64 ≤ ((beVal d.sc.n).size + 63) / 64) with
  | false => rw [h] at he; cases he
  | true =>
    rw [h, C.check, if_pos rfl, C.ok_bind] at he
    by_cases h4 : feBits d.fe = 448
    · rw [if_pos h4] at he
      have : (num_invert (beVal d.sc.n) 16).2 = true := rfl
      rw [this, C.check, if_pos rfl, C.ok_bind, C.ok_bind] at he
      obtain rfl := C.ok.inj he
      exact ⟨rfl, rfl, fun _ => rfl⟩
    · rw [if_neg h4, C.ok_bind] at he
      obtain rfl := C.ok.inj he
      exact ⟨rfl, rfl, fun h => absurd h h4⟩

section
variable {d : MontDef} [Fact d.fe.p.Prime] {ec : Mont (ZMod d.fe.p)}

theorem mont_kill (c : MontCtx d ec) (P : MPt ec.a ec.b) : ec.n • ec.h • P = 0 := by
  have h : ∀ b : ZMod d.fe.p, b = 1 → ∀ P : MPt ec.a b, ec.n • ec.h • P = 0 := by
    rintro _ rfl
    have : ∀ a : ZMod d.fe.p, a = (beVal d.a : ZMod d.fe.p) → ∀ P : MPt a 1, ec.n • ec.h • P = 0 := by
      rintro _ rfl P
      have hc := c.facts.card
      have hf : Finite (MPt (beVal d.a : ZMod d.fe.p) 1) := by
        apply Nat.finite_of_card_ne_zero
        rw [hc, ← c.h, ← c.n]
        have := c.nprime.pos
        rw [← c.n] at this
        refine (Nat.mul_pos ?_ this).ne'
        by_contra h0
        have h1 : d.h * beVal d.sc.n = 0 := by rw [← c.h]; simp [Nat.eq_zero_of_not_pos h0]
        rw [h1] at hc
        obtain ⟨G, -, -⟩ := c.facts.base
        haveI := c.facts
        have : Finite (MPt (beVal d.a : ZMod d.fe.p) 1) := by
          have hinj : Function.Injective (montAffine : MPt (beVal d.a : ZMod d.fe.p) 1 → _) := fun _ _ h => m_aff_inj one_ne_zero h
          have : Finite (Mge (ZMod d.fe.p)) := Finite.of_injective (fun m : Mge (ZMod d.fe.p) => (m.x, m.y, m.inf)) (by
            rintro ⟨x, y, i⟩ ⟨x', y', i'⟩ h; simp_all)
          exact Finite.of_injective _ hinj
        exact Nat.card_pos.ne' hc
      rw [← mul_nsmul', mul_comm, c.h, c.n, ← hc]
      exact card_nsmul_eq_zero'
    exact this _ c.a
  exact h _ c.b P

/-- The ladder from infinity stays there. -/
theorem ladder_z0 (ok : MontOk ec) {p r s : Pge (ZMod d.fe.p)} (hr : r.z = 0) (hs : s.z = 0) :
    (pge_ladder ec p r s false).1.z = 0 ∧ (pge_ladder ec p r s false).2.z = 0 := by
  unfold pge_ladder
  dsimp only
  constructor
  · have := dbl_coords ok r.x r.z
    rw [hr] at this ⊢
    rw [this]; ring
  · rw [hr, hs]; ring

theorem mont_mul_loop_z0 (ok : MontOk ec) {p : Pge (ZMod d.fe.p)} (k : Nat) : ∀ i swap r s, r.z = 0 → s.z = 0 →
    (mont_mul_loop ec p k false i swap r s).2.1.z = 0 ∧ (mont_mul_loop ec p k false i swap r s).2.2.z = 0
  | 0, swap, r, s, h1, h2 => ⟨h1, h2⟩
  | i + 1, swap, r, s, h1, h2 => by
    rw [mont_mul_loop]
    have hp : (pge_swap r s (swap ^^ k.testBit i)).1.z = 0 ∧ (pge_swap r s (swap ^^ k.testBit i)).2.z = 0 := by
      cases (swap ^^ k.testBit i)
      · exact ⟨h1, h2⟩
      · exact ⟨h2, h1⟩
    obtain ⟨e1, e2⟩ := ladder_z0 ok (p := p) hp.1 hp.2
    exact mont_mul_loop_z0 ok k i _ _ _ e1 e2

theorem mont_mul_z0 (ok : MontOk ec) {p : Pge (ZMod d.fe.p)} (hp : p.z = 0) (k : Nat) : mont_mul ec p k false = ⟨1, 0⟩ := by
  have h := mont_mul_loop_z0 ok (p := p) k ec.bits false pge_zero p rfl hp
  unfold mont_mul
  dsimp only
  have : (pge_swap (mont_mul_loop ec p k false ec.bits false pge_zero p).2.1 (mont_mul_loop ec p k false ec.bits false pge_zero p).2.2
      (mont_mul_loop ec p k false ec.bits false pge_zero p).1).1.z = 0 := by
    cases (mont_mul_loop ec p k false ec.bits false pge_zero p).1
    · exact h.1
    · exact h.2
  rw [this]
  simp [fe_select, fe_is_zero]

theorem set_pge_ok (hd : d ∈ montDefs) (c : MontCtx d ec) {p : Pge (ZMod d.fe.p)} {R : MPt ec.a ec.b} (h : MontXZ p R) :
    ∃ x y, mge_set_pge ec p none = .ok (⟨x, y, !decide (p.z ≠ 0)⟩, true) ∧
      (p.z ≠ 0 → montX R = some x ∧ y ^ 2 = x ^ 3 + ec.a * x ^ 2 + x) ∧ (p.z = 0 ↔ R = 0) := by
  have hz : p.z = 0 ↔ R = 0 := by
    rw [← mx_none]
    unfold MontXZ at h
    cases hm : montX R with
    | none => rw [hm] at h; simp [h.1]
    | some x => rw [hm] at h; simp [h.1]
  have key : ∀ x, (∃ P : MPt ec.a ec.b, montX P = some x) → ∃ y, mge_set_x ec x none = .ok (⟨x, y, false⟩, true) ∧ y ^ 2 = x ^ 3 + ec.a * x ^ 2 + x := by
    rintro x ⟨P, hP⟩
    obtain ⟨Q, r, h1, h2, h3, h4⟩ := mont_set_x hd c x none
    have hr := h4 ⟨P, hP, trivial⟩
    have hx := (h2 hr).1
    rcases Q with _ | ⟨x', y', hq⟩
    · simp [montX] at hx
    · rw [mx_some, Option.some.injEq] at hx
      have := m_aff_eqn c.ok.good.b0 (m_aff_some hq)
      rw [m_aff_some] at h1
      rw [hx, hr] at h1
      rw [hx] at this
      refine ⟨_, h1, ?_⟩
      rw [← this]
      nth_rw 2 [c.b]
      rw [one_mul]
  unfold mge_set_pge
  by_cases h0 : p.z = 0
  · rw [h0, inv_zero']
    dsimp only
    obtain ⟨P, hP⟩ : ∃ P : MPt ec.a ec.b, montX P = some 0 := by
      obtain ⟨P, hP⟩ := m_mk c.ok.good (x := 0) (y := 0) (by ring)
      exact ⟨P, m_aff_x hP⟩
    obtain ⟨y, e1, e2⟩ := key 0 ⟨P, hP⟩
    rw [mul_zero, e1, C.ok_bind]
    exact ⟨0, y, by simp [C.pure_eq], fun h => absurd rfl h, by rw [← hz, h0]⟩
  · rw [inv_ne h0]
    dsimp only
    have hx : montX R = some (p.x * p.z⁻¹) := by
      unfold MontXZ at h
      cases hm : montX R with
      | none => rw [hm] at h; exact absurd h.1 h0
      | some x => rw [hm] at h; rw [h.2]; field_simp
    obtain ⟨y, e1, e2⟩ := key _ ⟨R, hx⟩
    rw [e1, C.ok_bind]
    exact ⟨_, y, by simp [C.pure_eq, h0], fun _ => ⟨hx, e2⟩, hz⟩

end

/-! ### The two pairs of curves -/

set_option allowUnsafeReducibility true in
attribute [local reducible] curve_ed25519 curve_x25519 curve_ed448 curve_x448

theorem nat_eq (p : Nat) {x y : Nat} (h : x % p = y % p) : (x : ZMod p) = (y : ZMod p) := (ZMod.natCast_eq_natCast_iff' _ _ _).2 h

section
variable [Fact curve_ed25519.fe.p.Prime] {ec : Edwards (ZMod curve_ed25519.fe.p)} [g : EdGood ec.a ec.d] {G : EPt ec.a ec.d}
  (ok : EdCurve curve_ed25519 ec G) {me : Mont (ZMod curve_x25519.fe.p)} (he : mont_init curve_x25519 = .ok me)

include ok he in
theorem pair_25519 : EdIso ec.a ec.d me.a me.c false ∧ me.invert = false ∧ me.a * (ec.a - ec.d) = 2 * (ec.a + ec.d) := by
  have c := mont_ctx_of (List.mem_cons_self : curve_x25519 ∈ montDefs) he
  obtain ⟨h1, h2, -⟩ := mont_init_conv he
  have key : me.a * (ec.a - ec.d) = 2 * (ec.a + ec.d) := by
    rw [ok.aval, ok.dval, c.a]
    have := nat_eq curve_ed25519.fe.p (x := beVal curve_x25519.a * beVal curve_ed25519.a)
      (y := 2 * (beVal curve_ed25519.a + beVal curve_ed25519.d) + beVal curve_x25519.a * beVal curve_ed25519.d) (by decide +kernel)
    push_cast at this
    linear_combination this
  have hc : me.c = (beVal curve_ed25519.c : ZMod curve_ed25519.fe.p) := by
    rw [h1, if_neg]
    rw [fe_is_zero, decide_eq_true_iff, ZMod.natCast_eq_zero_iff]
    decide +kernel
  refine ⟨⟨by simpa using key, ?_⟩, h2, key⟩
  have := ok.iso
  rw [ok.inv, ok.cval] at this
  rw [hc]
  exact this

include ok in
theorem base_25519 : edU false G = some (9 : ZMod curve_ed25519.fe.p) := by
  have e : G.x = 0 ∧ G.y = 1 → False := by
    rintro ⟨h, -⟩
    rw [ok.gx, ZMod.natCast_eq_zero_iff] at h
    revert h
    decide +kernel
  have hy := pt_y1 (P := G) (fun h => e (by rw [h]; exact ⟨rfl, rfl⟩))
  rw [edU, if_neg e, Option.some.injEq, div_eq_iff hy, ok.gy]
  have := nat_eq curve_ed25519.fe.p (x := 1 + 10 * beVal curve_ed25519.y) (y := 9) (by decide +kernel)
  push_cast at this
  simp only [Bool.false_eq_true, if_false]
  linear_combination this

end

section
variable [Fact curve_ed448.fe.p.Prime] {ec : Edwards (ZMod curve_ed448.fe.p)} [g : EdGood ec.a ec.d] {G : EPt ec.a ec.d}
  (ok : EdCurve curve_ed448 ec G) {me : Mont (ZMod curve_x448.fe.p)} (he : mont_init curve_x448 = .ok me)

include ok he in
theorem pair_448 : ec.a = 1 ∧ me.a = 2 - 4 * ec.d ∧ ¬ IsSquare (me.a ^ 2 - 4) ∧ (16 * me.i16) % me.n = 1 ∧ me.i16 < me.n ∧ me.n = ec.n ∧ me.n % 2 = 1 := by
  have c := mont_ctx_of (List.mem_cons_of_mem _ List.mem_cons_self : curve_x448 ∈ montDefs) he
  obtain ⟨-, -, h3⟩ := mont_init_conv he
  have h3 := h3 (by decide +kernel)
  refine ⟨?_, ?_, ?_, ?_, ?_, by rw [c.n, ok.nval], by rw [c.n]; decide +kernel⟩
  · rw [ok.aval]
    have := nat_eq curve_ed448.fe.p (x := beVal curve_ed448.a) (y := 1) (by decide +kernel)
    rw [this, Nat.cast_one]
  · rw [ok.dval, c.a]
    have := nat_eq curve_ed448.fe.p (x := beVal curve_x448.a + 4 * beVal curve_ed448.d) (y := 2) (by decide +kernel)
    push_cast at this
    linear_combination this
  · rw [c.a]; exact c.facts.nsq
  · rw [h3, c.n]
    have : Fact (beVal curve_x448.sc.n).Prime := ⟨c.nprime⟩
    have h0 : ((16 : Nat) : ZMod (beVal curve_x448.sc.n)) ≠ 0 := by
      rw [ne_eq, ZMod.natCast_eq_zero_iff]; decide +kernel
    have : ((16 * (num_invert (beVal curve_x448.sc.n) 16).1 : Nat) : ZMod (beVal curve_x448.sc.n)) = ((1 : Nat) : ZMod _) := by
      rw [Nat.cast_mul, num_invert, ZMod.natCast_zmod_val, mul_inv_cancel₀ h0, Nat.cast_one]
    rw [ZMod.natCast_eq_natCast_iff'] at this
    rw [this]
    decide +kernel
  · rw [h3, c.n, num_invert]
    have : Fact (beVal curve_x448.sc.n).Prime := ⟨c.nprime⟩
    exact ZMod.val_lt (((16 : Nat) : ZMod (beVal curve_x448.sc.n))⁻¹)

include ok in
theorem base_448 : isoU G = some (5 : ZMod curve_ed448.fe.p) := by
  have e : G.x ≠ 0 := by
    intro h
    rw [ok.gx, ZMod.natCast_eq_zero_iff] at h
    revert h
    decide +kernel
  rw [isoU, if_neg e, Option.some.injEq, div_eq_iff (pow_ne_zero _ e), ok.gy, ok.gx]
  have := nat_eq curve_ed448.fe.p (x := beVal curve_ed448.y ^ 2) (y := 5 * beVal curve_ed448.x ^ 2) (by decide +kernel)
  push_cast at this
  exact this

end


/-! ### The conversion -/

section
variable [Fact curve_ed25519.fe.p.Prime] {ec : Edwards (ZMod curve_ed25519.fe.p)} [g : EdGood ec.a ec.d] {G : EPt ec.a ec.d}
  (ok : EdCurve curve_ed25519 ec G) {me : Mont (ZMod curve_x25519.fe.p)} (he : mont_init curve_x25519 = .ok me)

include ok he in
theorem to_ed_25519 {pub : List Byte} (hl : 32 ≤ pub.length) (sign : Option Bool) : ∃ (P : EPt ec.a ec.d) (r : Bool),
    ecdh_pubkey_convert me pub sign = .ok (edBytes P, r) ∧ (r = true ↔ ∃ U : MPt me.a me.b, montX U = some (pubX curve_x25519 pub)) ∧
    (r = true → edU false P = some (pubX curve_x25519 pub)) ∧ (r = false → P = 0) ∧ (P.x ≠ 0 → CoordSign P.x sign) := by
  have hd : curve_x25519 ∈ montDefs := List.mem_cons_self
  have c := mont_ctx_of hd he
  have hs : feSize curve_x25519.fe = 32 := by decide +kernel
  obtain ⟨iso, hinv, -⟩ := pair_25519 ok he
  obtain ⟨Q, r, h1, h2, h3, h4⟩ := mont_set_x_iff hd c (pubX curve_x25519 pub) none
  have hr : r = true ↔ ∃ U : MPt me.a me.b, montX U = some (pubX curve_x25519 pub) := by
    rw [h4]
    exact ⟨fun ⟨P, h, _⟩ => ⟨P, h⟩, fun ⟨P, h⟩ => ⟨P, h, trivial⟩⟩
  have hbits : me.bits ≠ 448 := by rw [c.bits]; decide +kernel
  have hb2 : (feBits curve_x25519.fe == 448) = false := by decide +kernel
  have key : ∃ P : EPt ec.a ec.d, Ext (mge_export_xge me (montAffine Q)) P ∧ (r = true → edU false P = some (pubX curve_x25519 pub)) ∧ (r = false → P = 0) := by
    unfold mge_export_xge
    rw [to_ed_flag hbits, hinv]
    cases hr' : r with
    | false =>
      rw [h3 hr', m_aff_zero]
      exact ⟨0, to_ed_inf _ _ _ _, by simp, fun _ => rfl⟩
    | true =>
      obtain ⟨hx, -⟩ := h2 hr'
      rcases Q with _ | ⟨x', y', hq⟩
      · simp [montX] at hx
      · have e := m_aff_eqn c.ok.good.b0 (m_aff_some hq)
        rw [mx_some, Option.some.injEq] at hx
        rw [m_aff_some]
        generalize me.b * x' = x at *
        generalize me.b * y' = y at *
        rw [c.b, one_mul] at e
        obtain ⟨P, hP⟩ := montOf_exists iso e
        exact ⟨P, to_ed_ext iso hP _, fun _ => by rw [edU_of iso hP, hx], by simp⟩
  obtain ⟨P, k1, k2, k3⟩ := key
  obtain ⟨P', f1, f2, f3, f4⟩ := convert_finish k1 sign
  refine ⟨P', r, ?_, hr, ?_, ?_, f2⟩
  · unfold ecdh_pubkey_convert
    rw [hb2, if_neg (by simp), mont_import_ok hd c (by rw [hs]; exact hl), h1, C.ok_bind]
    dsimp only
    rw [f3, show C.check true = .ok () from rfl, C.ok_bind]
    exact congrArg (· >>= fun out => C.ok (out, r)) f4
  · intro h
    rw [← k2 h]
    rcases f1 with rfl | rfl
    · rfl
    · simp only [edU, ed_neg_x, ed_neg_y, neg_eq_zero]
  · intro h
    rw [k3 h, neg_zero, or_self] at f1
    exact f1

end

section
variable [Fact curve_ed448.fe.p.Prime] {ec : Edwards (ZMod curve_ed448.fe.p)} [g : EdGood ec.a ec.d] {G : EPt ec.a ec.d}
  (ok : EdCurve curve_ed448 ec G) {me : Mont (ZMod curve_x448.fe.p)} (he : mont_init curve_x448 = .ok me)

include ok he in
theorem dual_odd {R : MPt me.a me.b} (hR : me.n • R = 0) {u v : ZMod curve_x448.fe.p} (hu : montX R = some u) (hv : v ^ 2 = u ^ 3 + me.a * u ^ 2 + u)
    {P : EPt ec.a ec.d} (hP : Dual me.a u v P) : ec.n • P = 0 := by
  have c := mont_ctx_of (List.mem_cons_of_mem _ List.mem_cons_self : curve_x448 ∈ montDefs) he
  obtain ⟨ha, hA, hns, hi, -, hn, hodd⟩ := pair_448 ok he
  have gm := c.ok.good
  have hb := gm.b0
  set W := (me.i16 * 4) • R with hW
  have hW4 : (W + W) + (W + W) = R := by
    have : W + W + (W + W) = (16 * me.i16) • R := by
      rw [hW, ← add_nsmul, ← add_nsmul, show me.i16 * 4 + me.i16 * 4 + (me.i16 * 4 + me.i16 * 4) = 16 * me.i16 by ring]
    rw [this, ← Nat.mod_add_div (16 * me.i16) me.n, hi, add_nsmul, mul_comm me.n, mul_nsmul', hR, nsmul_zero, add_zero, one_nsmul]
  have hR0 : R ≠ 0 := by intro h; rw [mx_none.2 h] at hu; cases hu
  have dual : ∀ S : MPt me.a me.b, me.n • S = 0 → S ≠ 0 → ∃ u v, montX S = some u ∧ v ^ 2 = u ^ 3 + me.a * u ^ 2 + u ∧ ∃ P : EPt ec.a ec.d, Dual me.a u v P := by
    intro S h1 h2
    rcases S with _ | ⟨x', y', hq⟩
    · exact absurd rfl h2
    · have e := m_aff_eqn hb (m_aff_some hq)
      have hx := mx_some hq
      have hx0 : me.b * x' ≠ 0 := by
        intro h0
        rw [h0] at hx
        have := mx_order_two gm hx
        apply h2
        rw [← h1]
        conv_rhs => rw [show me.n = 2 * (me.n / 2) + 1 by omega, add_nsmul, mul_nsmul, two_nsmul, this, nsmul_zero, zero_add, one_nsmul]
      generalize me.b * x' = x at *
      generalize me.b * y' = y at *
      rw [c.b, one_mul] at e
      exact ⟨x, y, hx, e, dual_exists' ha hA hns e hx0⟩
  have hWn : me.n • W = 0 := by rw [hW, smul_comm, hR, nsmul_zero]
  have hW0 : W ≠ 0 := by intro h; rw [h] at hW4; apply hR0; rw [← hW4]; simp
  have hW2n : me.n • (W + W) = 0 := by rw [nsmul_add, hWn, add_zero]
  have hW20 : W + W ≠ 0 := by intro h; rw [h] at hW4; apply hR0; rw [← hW4]; simp
  obtain ⟨u1, v1, a1, a2, P1, a3⟩ := dual W hWn hW0
  obtain ⟨u2, v2, b1, b2, P2, b3⟩ := dual (W + W) hW2n hW20
  have e1 := dual_dbl' ha hA hb a2 b2 a1 b1 a3 b3
  have e2 := dual_dbl' ha hA hb b2 hv b1 (by rw [hW4]; exact hu) b3 hP
  have hh : ec.h = 4 := ok.hval
  have hk := ed_kill (by simp [edDefs]) ok P1
  rw [hh] at hk
  have k2 : ec.n • (P2 + P2) = 0 := by
    have : P2 + P2 = 4 • P1 ∨ P2 + P2 = -(4 • P1) := by
      rcases e1 with rfl | rfl
      · left; abel
      · right; abel
    rcases this with h | h
    · rw [h, hk]
    · rw [h, smul_neg, hk, neg_zero]
  rcases e2 with h | h
  · rw [h, k2]
  · rw [h, smul_neg, k2, neg_zero]

include ok he in
theorem to_ed_448 {pub : List Byte} (hl : 56 ≤ pub.length) (sign : Option Bool) : ∃ (P : EPt ec.a ec.d) (r : Bool),
    ecdh_pubkey_convert me pub sign = .ok (edBytes P, r) ∧ (r = true ↔ ∃ U : MPt me.a me.b, montX U = some (pubX curve_x448 pub)) ∧
    (r = true → ∃ U V : MPt me.a me.b, montX U = some (pubX curve_x448 pub) ∧ me.n • V = 0 ∧ 4 • V = 4 • U ∧ isoU P = montX V) ∧
    ec.n • P = 0 ∧ (r = false → P = 0) ∧ (P.x ≠ 0 → CoordSign P.x sign) := by
  have hd : curve_x448 ∈ montDefs := List.mem_cons_of_mem _ List.mem_cons_self
  have c := mont_ctx_of hd he
  have hs : feSize curve_x448.fe = 56 := by decide +kernel
  obtain ⟨ha, hA, hns, hi, hlt, hn, hodd⟩ := pair_448 ok he
  have gm := c.ok.good
  have hb := gm.b0
  have hbits : me.bits = 448 := by rw [c.bits]; decide +kernel
  have hb2 : (feBits curve_x448.fe == 448) = true := by decide +kernel
  have hh : me.h = 4 := c.h
  obtain ⟨p, r, h1, h2, h3, h4⟩ := pge_import_ok hd c (pub := pub) (by rw [hs]; exact hl)
  obtain ⟨U, hU, hU1, hU2⟩ : ∃ U : MPt me.a me.b, MontXZ p U ∧ (r = true → montX U = some (pubX curve_x448 pub)) ∧ (r = false → U = 0) := by
    cases hr : r with
    | true =>
      obtain ⟨U, hU⟩ := h2.1 hr
      exact ⟨U, by rw [h3 hr]; exact xz_one hU, fun _ => hU, by simp⟩
    | false => exact ⟨0, by rw [h4 hr]; exact ⟨rfl, one_ne_zero⟩, by simp, fun _ => rfl⟩
  obtain ⟨q, m1, m2⟩ := pge_mulh_xz c.ok hb (i := 2) (by omega) (by rw [hh]; rfl) hU
  rw [hh] at m2
  have hkill : me.n • (4 • U) = 0 := by have := mont_kill c U; rwa [hh] at this
  set R := me.i16 • (4 • U) with hRdef
  have hR : MontXZ (mont_mul me q me.i16 false) R := by
    have hq : q.z = 0 ↔ 4 • U = 0 := by
      rw [← mx_none]
      unfold MontXZ at m2
      cases hm : montX (4 • U) with
      | none => rw [hm] at m2; simp [m2.1]
      | some x => rw [hm] at m2; simp [m2.1]
    by_cases hz : q.z = 0
    · rw [mont_mul_z0 c.ok hz, hRdef, hq.1 hz, nsmul_zero]
      exact ⟨rfl, one_ne_zero⟩
    · have hx : q.x ≠ 0 := by
        intro hx
        have hne : 4 • U ≠ 0 := fun h => hz (hq.2 h)
        unfold MontXZ at m2
        cases hm : montX (4 • U) with
        | none => exact hne (mx_none.1 hm)
        | some x =>
          rw [hm] at m2
          dsimp only at m2
          rw [hx] at m2
          have hx0 : x = 0 := (mul_eq_zero.1 m2.2.symm).resolve_right hz
          rw [hx0] at hm
          have := mx_order_two gm hm
          apply hne
          rw [← hkill]
          conv_rhs => rw [show me.n = 2 * (me.n / 2) + 1 by omega, add_nsmul, mul_nsmul, two_nsmul, this, nsmul_zero, zero_add, one_nsmul]
      have := mont_mul_xz c.ok hb m2 hx hz (affine := false) (by simp) me.i16
      rwa [Nat.mod_eq_of_lt] at this
      refine hlt.trans ?_
      rw [hbits, c.n]
      decide +kernel
  have hRn : me.n • R = 0 := by rw [hRdef, smul_comm, hkill, nsmul_zero]
  obtain ⟨x, y, s1, s2, s3⟩ := set_pge_ok hd c hR
  have key : ∃ P : EPt ec.a ec.d, Ext (mge_export_xge me ⟨x, y, !decide ((mont_mul me q me.i16 false).z ≠ 0)⟩) P ∧ ec.n • P = 0 ∧
      montX (4 • R) = isoU P ∧ (R = 0 → P = 0) := by
    unfold mge_export_xge
    rw [hbits]
    by_cases hz : (mont_mul me q me.i16 false).z = 0
    · have hR0 := s3.1 hz
      rw [hz, hR0, nsmul_zero]
      simp only [ne_eq, not_true_eq_false, decide_false, Bool.not_false]
      exact ⟨0, dual_zero' ha _ _ _ _, nsmul_zero _, by rw [isoU_zero]; rfl, fun _ => rfl⟩
    · obtain ⟨t1, t2⟩ := s2 hz
      have hR0 : R ≠ 0 := fun h => hz (s3.2 h)
      have hx0 : x ≠ 0 := by
        rintro rfl
        have := mx_order_two gm t1
        apply hR0
        rw [← hRn]
        conv_rhs => rw [show me.n = 2 * (me.n / 2) + 1 by omega, add_nsmul, mul_nsmul, two_nsmul, this, nsmul_zero, zero_add, one_nsmul]
      obtain ⟨P, hP⟩ := dual_exists' (d := ec.d) ha hA hns t2 hx0
      rw [show (!decide ((mont_mul me q me.i16 false).z ≠ 0)) = false by simp [hz]]
      exact ⟨P, dual_ext' ha t2 hx0 hP _ _, dual_odd ok he hRn t1 t2 hP, dual_iso' ha hA hb t2 t1 hP, fun h => absurd h hR0⟩
  obtain ⟨P, k1, k2, k3, k4⟩ := key
  obtain ⟨P', f1, f2, f3, f4⟩ := convert_finish k1 sign
  refine ⟨P', r, ?_, h2, ?_, ?_, ?_, f2⟩
  · unfold ecdh_pubkey_convert
    rw [hb2, if_pos rfl, h1]
    simp only [C.ok_bind]
    rw [m1]
    simp only [C.ok_bind]
    rw [s1]
    simp only [C.ok_bind]
    rw [show C.check true = .ok () from rfl]
    simp only [C.ok_bind, C.pure_eq]
    rw [f3, show C.check true = .ok () from rfl]
    simp only [C.ok_bind]
    exact congrArg (· >>= fun out => C.ok (out, r)) f4
  · intro h
    refine ⟨U, 4 • R, hU1 h, by rw [smul_comm, hRn, nsmul_zero], ?_, ?_⟩
    · have : 4 • 4 • R = (16 * me.i16) • (4 • U) := by
        rw [hRdef, ← mul_nsmul', ← mul_nsmul', ← mul_nsmul']
      rw [this, ← Nat.mod_add_div (16 * me.i16) me.n, hi, add_nsmul, mul_comm me.n, mul_nsmul', hkill, nsmul_zero, add_zero, one_nsmul]
    · rw [k3]
      rcases f1 with rfl | rfl
      · rfl
      · simp only [isoU, ed_neg_x, ed_neg_y, neg_eq_zero, neg_sq]
  · rcases f1 with rfl | rfl
    · exact k2
    · rw [smul_neg, k2, neg_zero]
  · intro h
    have : R = 0 := by rw [hRdef, hU2 h, nsmul_zero, nsmul_zero]
    rw [k4 this, neg_zero, or_self] at f1
    exact f1

end

end Torsion.Ecc
