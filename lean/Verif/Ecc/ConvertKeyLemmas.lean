import Verif.Ecc.ConvertLemmas
import Verif.Ecc.MontSmallLemmas

/-! Lemmas on the conversion between Montgomery and Edwards keys: the keys. -/
set_option linter.unusedSectionVars false

namespace Torsion.Ecc

open Torsion.Spec

/-! ### The maps with a curve constant -/

section
variable {F : Type} [Field F] [DecidableEq F] {A b a d c : F} {inv : Bool} [g : EdGood a d]

theorem isoU_mul (ha : a = 1) (hA : A = 2 - 4 * d) (hb : b ≠ 0) {P : EPt a d} {M : MPt A b} (h : montX M = isoU P) (k : Nat) :
    montX (k • M) = isoU (k • P) := by
  subst ha
  exact iso_mul hA hb h k

theorem isoU_unique (ha : a = 1) {n : Nat} (hn : n % 2 = 1) {P Q : EPt a d} (hP : n • P = 0) (hQ : n • Q = 0) (h : isoU P = isoU Q) :
    P = Q ∨ P = -Q := by
  subst ha
  exact iso_unique hn hP hQ h

theorem isoU_zero : isoU (0 : EPt a d) = none := if_pos rfl

theorem isoU_none (ha : a = 1) {n : Nat} (hn : n % 2 = 1) {P : EPt a d} (hP : n • P = 0) : isoU P = none ↔ P = 0 := by
  constructor
  · intro h
    rcases isoU_unique ha hn hP (nsmul_zero n) (h.trans isoU_zero.symm) with h | h
    · exact h
    · rw [h, neg_zero]
  · rintro rfl
    exact isoU_zero

/-- The image by the isogeny is on the curve, not on its twist. -/
theorem isoU_on (ha : a = 1) (hA : A = 2 - 4 * d) (P : EPt a d) : ∃ M : MPt A 1, montX M = isoU P := by
  subst ha
  by_cases hx : P.x = 0
  · exact ⟨0, by rw [isoU, if_pos hx]; rfl⟩
  · obtain ⟨M, hM⟩ := m_mk (iso_mont hA one_ne_zero) (b := 1) (x := P.y ^ 2 / P.x ^ 2) (y := P.y * (1 - d * P.x ^ 2 * P.y ^ 2) / P.x ^ 3) (by
      have hon := P.on
      rw [hA]
      generalize P.x = x at *
      generalize P.y = y at *
      field_simp
      linear_combination (1 + d * x ^ 2 * y ^ 2 + x ^ 2 + y ^ 2) * y ^ 2 * (-hon))
    exact ⟨M, by rw [m_aff_x hM, isoU, if_neg hx]⟩

theorem dual_exists' (ha : a = 1) (hA : A = 2 - 4 * d) (hs : ¬ IsSquare (A ^ 2 - 4)) {u v : F} (hv : v ^ 2 = u ^ 3 + A * u ^ 2 + u) (hu : u ≠ 0) :
    ∃ P : EPt a d, Dual A u v P := by
  subst ha
  exact dual_exists hA hs hv hu

theorem dual_ext' (ha : a = 1) {u v : F} (hv : v ^ 2 = u ^ 3 + A * u ^ 2 + u) (hu : u ≠ 0) {P : EPt a d} (h : Dual A u v P) (c : F) (inv : Bool) :
    Ext (mont_to_edwards 448 ⟨u, v, false⟩ c inv true) P := by
  subst ha
  exact dual_ext hv hu h c inv

theorem dual_zero' (ha : a = 1) (u v c : F) (inv : Bool) : Ext (mont_to_edwards 448 ⟨u, v, true⟩ c inv true) (0 : EPt a d) := by
  subst ha
  exact dual_zero u v c inv

theorem dual_iso' (ha : a = 1) (hA : A = 2 - 4 * d) (hb : b ≠ 0) {u v : F} (hv : v ^ 2 = u ^ 3 + A * u ^ 2 + u) {M : MPt A b} (hM : montX M = some u)
    {P : EPt a d} (h : Dual A u v P) : montX (4 • M) = isoU P := by
  subst ha
  exact dual_iso hA hb hv hM h

theorem dual_dbl' (ha : a = 1) (hA : A = 2 - 4 * d) (hb : b ≠ 0) {u v u' v' : F} (hv : v ^ 2 = u ^ 3 + A * u ^ 2 + u)
    (hv' : v' ^ 2 = u' ^ 3 + A * u' ^ 2 + u') {M : MPt A b} (hM : montX M = some u) (hM2 : montX (M + M) = some u') {P P' : EPt a d}
    (h : Dual A u v P) (h' : Dual A u' v' P') : P' = P + P ∨ P' = -(P + P) := by
  subst ha
  exact dual_dbl hA hb hv hv' hM hM2 h h'

theorem edU_of (h : EdIso a d A c inv) {P : EPt a d} {u v : F} (hm : MontOf A c inv P u v) : edU inv P = some u := by
  have hne := montOf_ne hm
  have hy := pt_y1 hne
  rw [edU, if_neg (fun e => hne (EPt.ext e.1 e.2)), ← hm.eu, mul_div_cancel_right₀ _ hy]

theorem edU_none {P : EPt a d} : edU inv P = none ↔ P = 0 := by
  unfold edU
  constructor
  · intro h
    split at h
    · rename_i e; exact EPt.ext e.1 e.2
    · simp at h
  · rintro rfl
    exact if_pos ⟨rfl, rfl⟩

theorem edU_eq {P Q : EPt a d} (h : edU inv P = edU inv Q) : P = Q ∨ P = -Q := by
  by_cases hp : P = 0
  · left; rw [edU_none.2 hp] at h; rw [hp, edU_none.1 h.symm]
  by_cases hq : Q = 0
  · rw [edU_none.2 hq] at h; exact absurd (edU_none.1 h) hp
  have h1 := pt_y1 hp
  have h2 := pt_y1 hq
  unfold edU at h
  rw [← esgn, if_neg (fun e : P.x = 0 ∧ P.y = 1 => hp (EPt.ext e.1 e.2)), if_neg (fun e : Q.x = 0 ∧ Q.y = 1 => hq (EPt.ext e.1 e.2)),
    Option.some.injEq, div_eq_div_iff h1 h2] at h
  have hs := esgn_ne (F := F) (inv := inv)
  have hy : P.y = Q.y := by
    apply mul_left_cancel₀ (mul_ne_zero hs g.two)
    linear_combination h
  have hx : P.x ^ 2 = Q.x ^ 2 := by
    have a1 := P.on
    have a2 := Q.on
    rw [hy] at a1
    generalize Q.y = y at *
    obtain ⟨r, hr⟩ := g.sq
    have hr0 : r ≠ 0 := by rintro rfl; exact g.a0 (by rw [hr]; ring)
    have hy : a - d * y ^ 2 ≠ 0 := by
      intro e
      have hy0 : y ≠ 0 := by rintro rfl; apply g.a0; linear_combination e
      exact g.nsq ⟨r / y, by field_simp; linear_combination -e + hr⟩
    apply mul_left_cancel₀ hy
    linear_combination a1 - a2
  rcases sq_eq_sq_iff_eq_or_eq_neg.1 hx with e | e
  · left; exact EPt.ext e hy
  · right; exact EPt.ext e hy

theorem edU_toM (P : EPt a d) : montX (toM P) = edU false P := by
  have h := toM_aff P
  unfold edMge at h
  unfold edU
  by_cases hx : P.x = 0
  · rw [if_pos hx] at h
    by_cases hy : P.y = 1
    · rw [if_pos hy] at h
      rw [if_pos ⟨hx, hy⟩]
      exact mx_none.2 (m_aff_inj ed_mont.b0 (h.trans m_aff_zero.symm))
    · rw [if_neg hy] at h
      rw [if_neg (fun e => hy e.2), m_aff_x h, ((ed_x0 P.on).1 hx).resolve_left hy]
      simp
  · rw [if_neg hx] at h
    rw [if_neg (fun e => hx e.1), m_aff_x h]
    simp

theorem edU_exists (hA : A * (a - d) = 2 * (a + d)) (P : EPt a d) : ∃ b : F, b ≠ 0 ∧ ∃ M : MPt A b, ∀ k : Nat, montX (k • M) = edU false (k • P) := by
  have e : A = edA a d := by rw [edA, eq_div_iff ed_ad]; exact hA
  subst e
  refine ⟨edB a d, ed_mont.b0, toM P, fun k => ?_⟩
  rw [← edU_toM, show toM (k • P) = k • toM P from map_nsmul toMHom k P]

theorem to_mont_flag {bits : Nat} (h : bits ≠ 448) (p : Xge F) (c : F) (inv : Bool) :
    edwards_to_mont bits p c inv true = edwards_to_mont bits p c inv false := by
  simp [edwards_to_mont, h]

theorem to_ed_flag {bits : Nat} (h : bits ≠ 448) (p : Mge F) (c : F) (inv : Bool) :
    mont_to_edwards bits p c inv true = mont_to_edwards bits p c inv false := by
  simp [mont_to_edwards, h]

theorem to_ed_inf {bits : Nat} (u v c : F) (inv : Bool) : Ext (mont_to_edwards bits ⟨u, v, true⟩ c inv false) (0 : EPt a d) := by
  simp only [mont_to_edwards, fe_select, Bool.false_and, Bool.false_eq_true, if_false, if_true]
  exact ⟨one_ne_zero, by rw [ed_zero_x]; ring, by rw [ed_zero_y]; ring, by rw [ed_zero_x]; ring⟩

theorem to_mont_iso (P : EPt a d) (c : F) (inv : Bool) : (edwards_to_mont 448 (xaff P) c inv true).x = (isoU P).getD 0 ∧
    ((edwards_to_mont 448 (xaff P) c inv true).inf = true ↔ P = 0) := by
  have hi : (edwards_to_mont 448 (xaff P) c inv true).inf = (decide (P.x = 0) && decide (P.y = 1)) := by
    simp only [edwards_to_mont, fe_is_zero, fe_equal, xaff]
    rfl
  constructor
  · unfold isoU
    by_cases hx : P.x = 0
    · rw [if_pos hx]
      by_cases hy : P.y = 1
      · simp [edwards_to_mont, fe_is_zero, fe_equal, fe_select, xaff, hx]
      · simp [edwards_to_mont, fe_is_zero, fe_equal, fe_select, xaff, hx, hy]
    · rw [if_neg hx]
      simp only [edwards_to_mont, fe_is_zero, fe_equal, fe_select, xaff, hx, decide_false, Bool.false_and, Bool.false_eq_true, if_false,
        Bool.true_and, BEq.rfl, if_true, fe_invert, Option.getD_some]
      field_simp
  · rw [hi, Bool.and_eq_true, decide_eq_true_iff, decide_eq_true_iff]
    exact ⟨fun h => EPt.ext h.1 h.2, by rintro rfl; exact ⟨rfl, rfl⟩⟩

end

/-! ### Bytes -/

section
variable {fe : FieldCode} [Fact fe.p.Prime]

theorem optBytes_one (o : Option (ZMod fe.p)) : (optBytes fe o).1 = fe_export_le fe (o.getD 0) := by
  cases o with
  | none => rw [optBytes, Option.getD_none, fe_export_le, ZMod.val_zero, leBytes_zero]
  | some u => rfl

theorem optBytes_two (o : Option (ZMod fe.p)) : (optBytes fe o).2 = o.isSome := by cases o <;> rfl

theorem optBytes_len (o : Option (ZMod fe.p)) : (optBytes fe o).1.length = feSize fe := by rw [optBytes_one, le_len]

theorem optBytes_inj {o o' : Option (ZMod fe.p)} (h : optBytes fe o = optBytes fe o') : o = o' := by
  have h2 : o.isSome = o'.isSome := by rw [← optBytes_two, ← optBytes_two, h]
  have h1 : (optBytes fe o).1 = (optBytes fe o').1 := by rw [h]
  rw [optBytes_one, optBytes_one] at h1
  have h3 : o.getD 0 = o'.getD 0 := by
    apply ZMod.val_injective
    rw [← le_val, h1, le_val]
  cases o <;> cases o' <;> simp_all

theorem sign_same {a d : ZMod fe.p} [g : EdGood a d] {P Q : EPt a d} (h : Q = P ∨ Q = -P)
    (hs : Q.x ≠ 0 → CoordSign Q.x (some (decide (P.x.val % 2 = 1)))) : Q = P := by
  rcases h with h | h
  · exact h
  · by_cases hx : P.x = 0
    · rw [h]
      exact EPt.ext (by rw [ed_neg_x, hx, neg_zero]) (by rw [ed_neg_y])
    · have hq : Q.x ≠ 0 := by rw [h, ed_neg_x]; exact neg_ne_zero.2 hx
      have := hs hq
      rw [CoordSign, h, ed_neg_x, odd_neg fe (p_odd' g.two) hx, decide_eq_true_iff] at this
      omega

theorem ok_pair {α β : Type} {x : C (α × β)} {z : α × β} {r : β} (h : x = .ok z) (h2 : z.2 = r) : x = .ok (z.1, r) := by rw [h, ← h2]

theorem convert_export_ok {a d : ZMod fe.p} [EdGood a d] (P : EPt a d) : ecdh_convert_export P.x P.y = .ok (edBytes P) := by
  rw [← xexport (ext_aff P), xge_export, ecdh_convert_export]
  have hi : fe_invert (xaff P).z = (1, true) := by simp [xaff, fe_invert, fe_is_zero]
  rw [hi]
  dsimp only
  rw [show C.check true = .ok () from rfl, C.ok_bind, mul_one, mul_one]
  have h7 : (feBits fe &&& 7 == 0) = decide (feBits fe % 8 = 0) := by
    rw [show (7 : Nat) = 2 ^ 3 - 1 from rfl, Nat.and_two_pow_sub_one_eq_mod]
    rfl
  rw [h7]
  simp only [decide_eq_true_eq]
  rfl

/-- The end of `ecdh_pubkey_convert`. -/
theorem convert_finish {a d : ZMod fe.p} [g : EdGood a d] {e : Xge (ZMod fe.p)} {P : EPt a d} (h : Ext e P) (sign : Option Bool) :
    ∃ Q : EPt a d, (Q = P ∨ Q = -P) ∧ (Q.x ≠ 0 → CoordSign Q.x sign) ∧ (fe_invert e.z).2 = true ∧
      ecdh_convert_export (match sign with
        | none => e.x * (fe_invert e.z).1
        | some s => fe_set_odd fe (e.x * (fe_invert e.z).1) s) (e.y * (fe_invert e.z).1) = .ok (edBytes Q) := by
  have hz := h.z
  have hi : fe_invert e.z = (e.z⁻¹, true) := inv_ne hz
  have hx : e.x * e.z⁻¹ = P.x := by rw [h.x]; field_simp
  have hy : e.y * e.z⁻¹ = P.y := by rw [h.y]; field_simp
  rw [hi]
  dsimp only
  rw [hx, hy]
  cases sign with
  | none => exact ⟨P, Or.inl rfl, fun _ => trivial, rfl, convert_export_ok P⟩
  | some s =>
    dsimp only
    have key : ∀ Q : EPt a d, Q.x = fe_set_odd fe P.x s → Q.x ≠ 0 → CoordSign Q.x (some s) := by
      intro Q h1 h2
      have hP : P.x ≠ 0 := by
        intro h0
        rw [h0, set_odd_zero] at h1
        exact h2 h1
      have := set_odd_parity g.two hP s
      rw [← h1] at this
      unfold fe_is_odd at this
      rw [CoordSign, ← this]
      simp
    by_cases ho : (fe_is_odd fe P.x ^^ s) = true
    · have hs : fe_set_odd fe P.x s = -P.x := if_pos ho
      refine ⟨-P, Or.inr rfl, key _ (by rw [hs, ed_neg_x]), rfl, ?_⟩
      rw [hs, ← ed_neg_x, ← ed_neg_y, convert_export_ok]
    · have hs : fe_set_odd fe P.x s = P.x := if_neg ho
      refine ⟨P, Or.inl rfl, key _ hs.symm, rfl, ?_⟩
      rw [hs, convert_export_ok]

end

/-! ### Edwards to Montgomery -/

section
variable {d : EdwardsDef} (hd : d ∈ edDefs) [Fact d.fe.p.Prime] {ec : Edwards (ZMod d.fe.p)} [g : EdGood ec.a ec.d] {G : EPt ec.a ec.d}
  (ok : EdCurve d ec G)

include ok in
theorem conv_to_mont (P : EPt ec.a ec.d) : (xge_export_mge ec (xaff P)).x = (convU d P).getD 0 ∧ ((xge_export_mge ec (xaff P)).inf = true ↔ P = 0) := by
  unfold xge_export_mge convU
  rw [ok.bits]
  by_cases h : d.fe.p.size = 448
  · rw [if_pos h, show feBits d.fe = 448 from h]
    exact to_mont_iso P _ _
  · rw [if_neg h, to_mont_flag (show feBits d.fe ≠ 448 from h)]
    by_cases hP : P = 0
    · subst hP
      have h0 := ed_to_zero (c := ec.c) (inv := ec.invert) (ext_aff (0 : EPt ec.a ec.d)) (feBits d.fe)
      refine ⟨?_, by simp [h0]⟩
      rw [edU_none.2 rfl]
      cases ec.invert <;> simp [edwards_to_mont, fe_is_zero, fe_equal, fe_select, xaff, ed_zero_x]
    · obtain ⟨u, v, hm⟩ := montOf_of (ed_iso ok) hP
      have e := ed_to_mont (ed_iso ok) (ext_aff P) hm (feBits d.fe)
      have e2 := edU_of (ed_iso ok) hm
      rw [e]
      rw [ok.inv] at e2
      exact ⟨by rw [e2]; rfl, by simp [hP]⟩

include hd ok in
theorem conv_ok {pub : List Byte} (hl : pub.length = edLen d.fe) : ∃ (P : EPt ec.a ec.d) (b : Bool),
    eddsa_pubkey_convert ec pub = .ok ((optBytes d.fe (convU d P)).1, b) ∧ (b = true ↔ pub = edBytes P ∧ P ≠ 0) ∧
    ∀ Q : EPt ec.a ec.d, pub = edBytes Q → Q = P := by
  obtain ⟨P, b, h1, h2, h3⟩ := pub_import hd ok (raw := pub) hl.ge
  rw [List.take_of_length_le hl.le] at h2 h3
  obtain ⟨c1, c2⟩ := conv_to_mont ok P
  refine ⟨P, b && !(xge_export_mge ec (xaff P)).inf, ?_, ?_, h3⟩
  · unfold eddsa_pubkey_convert
    rw [h1, C.ok_bind]
    dsimp only
    rw [c1, optBytes_one]
    rfl
  · rw [Bool.and_eq_true, h2, Bool.not_eq_true', Bool.eq_false_iff, ne_eq, c2]

include hd ok in
theorem conv_pt (P : EPt ec.a ec.d) : eddsa_pubkey_convert ec (edBytes P) = .ok ((optBytes d.fe (convU d P)).1, !decide (P.x = 0 ∧ P.y = 1)) := by
  obtain ⟨Q, b, h1, h2, h3⟩ := conv_ok hd ok (edBytes_len P)
  obtain rfl := h3 P rfl
  rw [h1]
  have : b = !decide (P.x = 0 ∧ P.y = 1) := by
    rw [Bool.eq_iff_iff, h2, Bool.not_eq_true', decide_eq_false_iff_not]
    exact ⟨fun h e => h.2 (EPt.ext e.1 e.2), fun h => ⟨rfl, by rintro rfl; exact h ⟨rfl, rfl⟩⟩⟩
  rw [this]

end

/-! ### Key exchange with a converted key -/

section
variable {d : MontDef} [Fact d.fe.p.Prime] {ec : Mont (ZMod d.fe.p)}

theorem uBytes_opt {a b : ZMod d.fe.p} (P : MPt a b) : uBytes d P = optBytes d.fe (montX P) := by
  unfold uBytes
  cases montX P <;> rfl

theorem pubX_bytes (x : ZMod d.fe.p) : pubX d (fe_export_le d.fe x) = x := by
  rw [pubX, List.take_of_length_le (le_len d.fe x).le, le_val, Nat.mod_eq_of_lt (x.val_lt.trans (Nat.lt_size_self _)), ZMod.natCast_zmod_val]

theorem conv_derive (hd : d ∈ montDefs) (c : MontCtx d ec) {φ : Nat → Option (ZMod d.fe.p)}
    (h : ∃ b : ZMod d.fe.p, b ≠ 0 ∧ ∃ Q : MPt ec.a b, ∀ k : Nat, montX (k • Q) = φ k) {s : List Byte} (hs : feSize d.fe ≤ s.length) :
    ecdh_derive ec (optBytes d.fe (φ 1)).1 s = .ok (optBytes d.fe (φ (privKey d s))) := by
  obtain ⟨b, hb, Q, hQ⟩ := h
  have h1 := hQ 1
  rw [one_nsmul] at h1
  have hlen := (optBytes_len (φ 1)).ge
  have hpx : pubX d (optBytes d.fe (φ 1)).1 = (φ 1).getD 0 := by rw [optBytes_one, pubX_bytes]
  rw [← hQ (privKey d s)]
  cases hφ : φ 1 with
  | some u =>
    rw [hφ] at h1 hlen hpx
    rw [derive_ok hd c hlen hs hb (h1.trans (by rw [hpx]; rfl)), uBytes_opt]
  | none =>
    rw [hφ] at h1 hlen hpx
    rw [mx_none.1 h1, nsmul_zero]
    have key : ∀ {b : ZMod d.fe.p}, b ≠ 0 → ∀ P : MPt ec.a b, montX P = some 0 →
        ecdh_derive ec (optBytes d.fe (none : Option (ZMod d.fe.p))).1 s = .ok (optBytes d.fe none) := by
      intro b hb P hP
      rw [derive_ok hd c hlen hs hb (hP.trans (by rw [hpx]; rfl)), uBytes_opt]
      obtain ⟨m, k1, k2, -⟩ := clamp_facts hd c (leVal (s.take (feSize d.fe)))
      have h2 : privKey d s % 2 = 0 := by rw [← priv_eq c, k1]; exact k2
      rw [show privKey d s = (privKey d s / 2) * 2 by omega, mul_nsmul', two_nsmul, mx_order_two (m_good c.ok hb) hP, nsmul_zero]
      rfl
    rcases m_exists c 0 with ⟨P, hP⟩ | ⟨t, ht, P, hP⟩
    · exact key c.ok.good.b0 P hP
    · exact key (by rintro rfl; exact ht ⟨0, by simp⟩) P hP

end

end Torsion.Ecc
