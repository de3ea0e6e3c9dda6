import Verif.Ecc.EcdsaLemmas
import Verif.Ecc.CurveProps

/-! # Encodings of points, and keys on the short Weierstrass curves (C68) -/
namespace Torsion

open Spec Ecc
open WeierstrassCurve.Affine (Point)

/-- C68. The struct of every short Weierstrass curve of the library has everything the protocols use: `EcOk`, the
hypothesis of the theorems on encodings, keys and signatures. -/
theorem wei_curve_exact {d : WeiDef} (hd : d ∈ weiDefs) : letI := Fact.mk (weiDefs_field_prime hd)
    ∃ ec, wei_curve d = .ok ec ∧ ec.n = beVal d.sc.n ∧ ec.toCurve = defCurve d ∧ ∃ G : Pt ec.toCurve,
      affine G = ⟨(beVal d.x : ZMod d.fe.p), (beVal d.y : ZMod d.fe.p), false⟩ ∧ EcOk ec G := by
  letI := Fact.mk (weiDefs_field_prime hd)
  obtain ⟨ec, h1, h2, h3, G, h4, h5, h6, h7⟩ := wei_create_exact hd
  have hh := (weiDefs_curve hd).1.2.2.2.2
  have hn := (weiDefs_prime hd).2
  have gap : ∀ d ∈ weiDefs, d.fe.p < 2 * beVal d.sc.n ∧
      wei_has_high_order (beVal d.sc.n) d.fe.p = decide (d.fe.p ≤ beVal d.sc.n) := by decide +kernel
  unfold wei_curve
  rw [h1, C.ok_bind]
  refine ⟨_, rfl, h2, h3, G, h4, ⟨h5, (weiDefs_field hd).1, ?_, ?_, ?_, h7, ?_, ?_, ?_, ?_⟩⟩
  · show ec.h = 1
    rw [h3]; exact hh
  · show ec.n.Prime
    rw [h2]; exact hn
  · rintro rfl
    rw [aff_zero] at h4
    injection h4 with _ _ h
    cases h
  · show _ = d.fe.p % ec.n
    rw [h2]
  · show _ = (ec.n : ZMod d.fe.p)
    rw [h2]
  · show _ = decide (d.fe.p ≤ ec.n)
    rw [h2]; exact (gap d hd).2
  · show d.fe.p < 2 * ec.n
    rw [h2]; exact (gap d hd).1

section
variable {fe : FieldCode} [Fact fe.p.Prime] {ec : WeiT fe} {G : Pt ec.toCurve}

/-- C68. Decoding a point never aborts nor reads outside the string, and succeeds exactly on the three SEC 1 encodings of a
finite point of the curve, giving that point. -/
theorem wge_import_exact (ok : EcOk ec G) (raw : List Byte) :
    (∃ r, wge_import ec raw = .ok r) ∧
    ∀ P : Pt ec.toCurve, (wge_import ec raw = .ok (affine P, true) ↔ Sec1 P raw) := by
  rcases import_cases ok raw with ⟨Q, h1, h2, h3⟩ | ⟨Q, h1, h2⟩
  · refine ⟨⟨_, h2⟩, fun P => ⟨fun h => ?_, fun h => ?_⟩⟩
    · rw [h2] at h
      injection h with h
      injection h with h
      have : P = Q := (aff_inj h).symm
      rw [this]; exact h1
    · rw [h3 P h, h2]
  · refine ⟨⟨_, h1⟩, fun P => ⟨fun h => ?_, fun h => absurd h (h2 P)⟩⟩
    rw [h1] at h
    injection h with h
    injection h with _ h
    cases h

/-- C68. A string encodes at most one point. -/
theorem sec1_unique (ok : EcOk ec G) {P Q : Pt ec.toCurve} {raw : List Byte} (h1 : Sec1 P raw) (h2 : Sec1 Q raw) : P = Q := by
  rcases import_cases ok raw with ⟨R, -, -, h⟩ | ⟨-, -, h⟩
  · rw [h P h1, h Q h2]
  · exact absurd h1 (h P)

/-- C68. What is written is read back: both forms, every finite point. -/
theorem wge_roundtrip (ok : EcOk ec G) {P : Pt ec.toCurve} (hP : P ≠ 0) (compact : Bool) :
    (wge_export ec (affine P) compact).2 = true ∧
    wge_import ec (wge_export ec (affine P) compact).1 = .ok (affine P, true) := by
  rw [export_out]
  exact ⟨decide_eq_true hP, ((wge_import_exact ok _).2 P).2 (out_sec1 hP compact)⟩

/-! ### Private keys -/

/-- C68. A private key is a number between one and the order of the group; exporting and importing keep it, and the
import accepts any number of leading zeroes. -/
theorem ecdsa_privkey_exact (ok : EcOk ec G) {priv : List Byte} (hl : priv.length = scSize ec.n) (bytes : List Byte) :
    ecdsa_privkey_verify ec priv = .ok (decide (0 < beVal priv ∧ beVal priv < ec.n)) ∧
    (∃ out, ecdsa_privkey_export ec priv = .ok (out, decide (0 < beVal priv ∧ beVal priv < ec.n)) ∧
      (beVal priv < ec.n → out = priv)) ∧
    (ecdsa_privkey_import ec bytes).2 = decide (0 < beVal bytes ∧ beVal bytes < ec.n) ∧
    (beVal bytes < ec.n → beVal (ecdsa_privkey_import ec bytes).1 = beVal bytes ∧
      (ecdsa_privkey_import ec bytes).1.length = scSize ec.n) := by
  obtain ⟨a, b, h1, h2, h3, h4, h5⟩ := key_ok ok hl.ge
  rw [List.take_of_length_le hl.le] at h3 h4 h5
  have hb : b = decide (0 < beVal priv ∧ beVal priv < ec.n) := by
    rw [Bool.eq_iff_iff, h3, decide_eq_true_iff]
  refine ⟨?_, ⟨num_export ec.n a, ?_, fun h => ?_⟩, ?_, fun h => ⟨?_, num_export_len _ _⟩⟩
  · rw [ecdsa_privkey_verify, h1, C.ok_bind, hb]; rfl
  · rw [ecdsa_privkey_export, h1, C.ok_bind, hb]; rfl
  · rw [h4 h, num_export, Drb.bigBytes_beVal hl]
  · rw [ecdsa_privkey_import, num_import_pad]
    by_cases h : beVal bytes < ec.n
    · simp [h, Nat.pos_iff_ne_zero]
      rfl
    · simp [h]
  · rw [ecdsa_privkey_import, num_import_pad]
    dsimp only
    rw [if_pos h, num_export, Drb.beVal_bigBytes, Nat.mod_eq_of_lt (h.trans (scSize_pow _))]

/-- C68. The operations on private keys are those of the integers modulo the order; they succeed exactly if the key is
valid, the other operand is reduced and the result is not zero. -/
theorem ecdsa_privkey_ops_exact (ok : EcOk ec G) {priv tweak : List Byte} (hl : priv.length = scSize ec.n)
    (ht : tweak.length = scSize ec.n) :
    (∃ out ret, ecdsa_privkey_tweak_add ec priv tweak = .ok (out, ret) ∧
      (ret = true ↔ 0 < beVal priv ∧ beVal priv < ec.n ∧ beVal tweak < ec.n ∧ (beVal priv + beVal tweak) % ec.n ≠ 0) ∧
      (beVal priv < ec.n → beVal tweak < ec.n → out = bigBytes (scSize ec.n) ((beVal priv + beVal tweak) % ec.n))) ∧
    (∃ out ret, ecdsa_privkey_tweak_mul ec priv tweak = .ok (out, ret) ∧
      (ret = true ↔ 0 < beVal priv ∧ beVal priv < ec.n ∧ beVal tweak < ec.n ∧ beVal priv * beVal tweak % ec.n ≠ 0) ∧
      (beVal priv < ec.n → beVal tweak < ec.n → out = bigBytes (scSize ec.n) (beVal priv * beVal tweak % ec.n))) ∧
    (∃ out ret, ecdsa_privkey_negate ec priv = .ok (out, ret) ∧ (ret = true ↔ 0 < beVal priv ∧ beVal priv < ec.n) ∧
      (ret = true → out = bigBytes (scSize ec.n) (ec.n - beVal priv))) ∧
    (∃ out ret, ecdsa_privkey_invert ec priv = .ok (out, ret) ∧ (ret = true ↔ 0 < beVal priv ∧ beVal priv < ec.n) ∧
      (ret = true → ∃ i < ec.n, beVal priv * i % ec.n = 1 ∧ out = bigBytes (scSize ec.n) i)) := by
  obtain ⟨a, b, h1, h2, h3, h4, h5⟩ := key_ok ok hl.ge
  rw [List.take_of_length_le hl.le] at h3 h4 h5
  obtain ⟨t, c, t1, t2, t3, t4, -⟩ := num_import_lt ok.prime.pos ht.ge
  rw [List.take_of_length_le ht.le] at t3 t4
  obtain ⟨v, e, v1, v2, v3, v4, v5⟩ := num_import_lt ok.prime.pos hl.ge
  rw [List.take_of_length_le hl.le] at v3 v4
  refine ⟨⟨num_export ec.n ((a + t) % ec.n), b && c && (a + t) % ec.n != 0, ?_, ?_, ?_⟩,
    ⟨num_export ec.n (a * t % ec.n), b && c && a * t % ec.n != 0, ?_, ?_, ?_⟩,
    ⟨num_export ec.n (num_neg ec.n a), b, ?_, h3, ?_⟩, ⟨num_export ec.n (num_invert ec.n v).1, e && (num_invert ec.n v).2, ?_, ?_, ?_⟩⟩
  · rw [ecdsa_privkey_tweak_add, h1, C.ok_bind, t1, C.ok_bind]; rfl
  · rw [Bool.and_eq_true, Bool.and_eq_true, h3, t3, bne_iff_ne]
    constructor
    · rintro ⟨⟨⟨p1, p2⟩, p3⟩, p4⟩
      rw [h4 p2, t4 (t3.2 p3)] at p4
      exact ⟨p1, p2, p3, p4⟩
    · rintro ⟨p1, p2, p3, p4⟩
      rw [h4 p2, t4 (t3.2 p3)]
      exact ⟨⟨⟨p1, p2⟩, p3⟩, p4⟩
  · intro p2 p3
    rw [h4 p2, t4 (t3.2 p3)]; rfl
  · rw [ecdsa_privkey_tweak_mul, h1, C.ok_bind, t1, C.ok_bind]; rfl
  · rw [Bool.and_eq_true, Bool.and_eq_true, h3, t3, bne_iff_ne]
    constructor
    · rintro ⟨⟨⟨p1, p2⟩, p3⟩, p4⟩
      rw [h4 p2, t4 (t3.2 p3)] at p4
      exact ⟨p1, p2, p3, p4⟩
    · rintro ⟨p1, p2, p3, p4⟩
      rw [h4 p2, t4 (t3.2 p3)]
      exact ⟨⟨⟨p1, p2⟩, p3⟩, p4⟩
  · intro p2 p3
    rw [h4 p2, t4 (t3.2 p3)]; rfl
  · rw [ecdsa_privkey_negate, h1, C.ok_bind]; rfl
  · intro hb
    obtain ⟨p1, p2⟩ := h3.1 hb
    rw [h4 p2, num_export, num_neg, Nat.mod_eq_of_lt (by omega)]
  · rw [ecdsa_privkey_invert, v1, C.ok_bind]; rfl
  · rw [Bool.and_eq_true, v3, num_invert]
    simp only [decide_eq_true_iff]
    constructor
    · rintro ⟨p1, p2⟩
      rw [v4 (v3.2 p1)] at p2
      exact ⟨by omega, p1⟩
    · rintro ⟨p1, p2⟩
      rw [v4 (v3.2 p2)]
      exact ⟨p2, by omega⟩
  · intro hb
    rw [Bool.and_eq_true] at hb
    obtain ⟨p1, p2⟩ := hb
    have hv := v4 p1
    rw [← hv]
    exact ⟨_, inv_lt ok v, mul_of_inv ok (by simpa [num_invert] using p2) v2, rfl⟩

/-! ### Public keys -/

/-- C68. The public key of a private key `a` is `a G`; invalid private keys are refused. -/
theorem ecdsa_pubkey_create_exact (ok : EcOk ec G) {priv : List Byte} (hl : priv.length = scSize ec.n) (compact : Bool) :
    ∃ out ret, ecdsa_pubkey_create ec priv compact = .ok (out, ret) ∧ (ret = true ↔ 0 < beVal priv ∧ beVal priv < ec.n) ∧
      (ret = true → out = sec1Out (beVal priv • G) compact ∧ Sec1 (beVal priv • G) out) := by
  obtain ⟨a, b, h1, h2, h3, h4, h5⟩ := key_ok ok hl.ge
  rw [List.take_of_length_le hl.le] at h3 h4 h5
  have hne : 0 < beVal priv ∧ beVal priv < ec.n → beVal priv • G ≠ 0 := by
    rintro ⟨p1, p2⟩ h
    rw [smul_zero_iff ok ok.nonzero, Nat.mod_eq_of_lt p2] at h
    omega
  refine ⟨sec1Out (a • G) compact, b && decide (a • G ≠ 0), ?_, ?_, ?_⟩
  · rw [ecdsa_pubkey_create, h1, C.ok_bind, (wei_mul_g_exact ok.wei _).2, C.ok_bind, export_out]; rfl
  · rw [Bool.and_eq_true, h3, decide_eq_true_iff]
    refine ⟨fun h => h.1, fun h => ⟨h, ?_⟩⟩
    rw [h4 h.2]; exact hne h
  · intro h
    rw [Bool.and_eq_true, h3, decide_eq_true_iff] at h
    rw [h4 h.1.2]
    exact ⟨rfl, out_sec1 (hne h.1) _⟩

/-- C68. Checking and converting public keys; the long form has the coordinates. -/
theorem ecdsa_pubkey_convert_exact (ok : EcOk ec G) (pub : List Byte) (compact : Bool) :
    (∃ ret, ecdsa_pubkey_verify ec pub = .ok ret ∧ (ret = true ↔ ∃ Q : Pt ec.toCurve, Sec1 Q pub)) ∧
    (∃ out ret, ecdsa_pubkey_convert ec pub compact = .ok (out, ret) ∧ (ret = true ↔ ∃ Q : Pt ec.toCurve, Sec1 Q pub) ∧
      ∀ Q : Pt ec.toCurve, Sec1 Q pub → out = sec1Out Q compact) ∧
    (∃ x y ret, ecdsa_pubkey_export ec pub = .ok (x, y, ret) ∧ (ret = true ↔ ∃ Q : Pt ec.toCurve, Sec1 Q pub) ∧
      ∀ Q : Pt ec.toCurve, Sec1 Q pub → x = bigBytes (feSize fe) (absc Q) ∧ y = bigBytes (feSize fe) (ordin Q)) := by
  unfold ecdsa_pubkey_verify ecdsa_pubkey_convert ecdsa_pubkey_export
  rcases import_cases ok pub with ⟨Q, q1, q2, q3⟩ | ⟨Q, q1, q2⟩
  · rw [q2, C.ok_bind, C.ok_bind, C.ok_bind]
    dsimp only
    rw [export_out]
    refine ⟨⟨_, rfl, by simp; exact ⟨Q, q1⟩⟩, ⟨_, _, rfl, ?_, ?_⟩, ⟨_, _, _, rfl, by simp; exact ⟨Q, q1⟩, ?_⟩⟩
    · simp only [Bool.true_and, decide_eq_true_iff]
      exact ⟨fun _ => ⟨Q, q1⟩, fun _ => sec1_ne q1⟩
    · intro P hP; rw [q3 P hP]
    · intro P hP; rw [q3 P hP]; exact ⟨rfl, rfl⟩
  · rw [q1, C.ok_bind, C.ok_bind, C.ok_bind]
    refine ⟨⟨_, rfl, ?_⟩, ⟨_, _, rfl, ?_, fun P hP => absurd hP (q2 P)⟩, ⟨_, _, _, rfl, ?_, fun P hP => absurd hP (q2 P)⟩⟩
    all_goals simp only [Bool.false_and, Bool.false_eq_true, false_iff]; rintro ⟨P, hP⟩; exact q2 P hP

/-- C68. Importing coordinates: with both, the point must be on the curve; with the abscissa only, `sign` selects the
parity of the ordinate (or any square root); the coordinates must be reduced, leading zeroes do not matter. -/
theorem ecdsa_pubkey_import_exact (ok : EcOk ec G) (x y : List Byte) (sign : Option Bool) (compact : Bool) :
    ∃ out ret, ecdsa_pubkey_import ec x y sign compact = .ok (out, ret) ∧
      (ret = true ↔ x ≠ [] ∧ ∃ P : Pt ec.toCurve, P ≠ 0 ∧ absc P = beVal x ∧
        if y ≠ [] then ordin P = beVal y else ∀ s, sign = some s → (ordin P % 2 = 1 ↔ s = true)) ∧
      (ret = true → ∃ P : Pt ec.toCurve, out = sec1Out P compact ∧ P ≠ 0 ∧ absc P = beVal x ∧
        if y ≠ [] then ordin P = beVal y else ∀ s, sign = some s → (ordin P % 2 = 1 ↔ s = true)) := by
  obtain ⟨X, b1, x1, x2, x3⟩ := import_pad_ok (fe := fe) x
  obtain ⟨Y, b2, y1, y2, y3⟩ := import_pad_ok (fe := fe) y
  have onc : ∀ (x y : ZMod fe.p) (h : (weier ec.a ec.b).Nonsingular x y), y ^ 2 = x ^ 3 + ec.a * x + ec.b := by
    intro x y h
    have := h.1
    rw [WeierstrassCurve.Affine.equation_iff] at this
    simpa [weier] using this
  have pt : ∀ P : Pt ec.toCurve, P ≠ 0 → ∃ h, P = .some (absc P : ZMod fe.p) (ordin P : ZMod fe.p) h := by
    rintro (_ | ⟨u, v, h⟩) hP
    · exact absurd rfl hP
    · have e1 : ((absc (Point.some u v h : Pt ec.toCurve) : Nat) : ZMod fe.p) = u := by
        show ((u.val : Nat) : ZMod fe.p) = u
        rw [ZMod.natCast_val, ZMod.cast_id', id]
      have e2 : ((ordin (Point.some u v h : Pt ec.toCurve) : Nat) : ZMod fe.p) = v := by
        show ((v.val : Nat) : ZMod fe.p) = v
        rw [ZMod.natCast_val, ZMod.cast_id', id]
      rw [e1, e2]
      exact ⟨h, rfl⟩
  have lt : ∀ P : Pt ec.toCurve, absc P < fe.p ∧ ordin P < fe.p := fun P => ⟨ZMod.val_lt _, ZMod.val_lt _⟩
  unfold ecdsa_pubkey_import
  rw [x1, C.ok_bind, y1, C.ok_bind]
  dsimp only
  by_cases hx : x = []
  · subst hx
    simp only [List.length_nil, gt_iff_lt, lt_self_iff_false, decide_false, Bool.false_and, Bool.false_eq_true, if_false,
      ne_eq, not_true_eq_false, false_and, iff_false]
    obtain ⟨Q, b, s1, -⟩ := set_x_ok ok X sign
    rw [s1, C.ok_bind]
    exact ⟨_, _, rfl, by simp, by simp⟩
  have hx' : decide (x.length > 0) = true := by
    rw [decide_eq_true_iff]; exact List.length_pos_iff.2 hx
  rw [hx']
  by_cases hy : y = []
  · subst hy
    obtain ⟨Q, b, s1, s2, s3, s4⟩ := set_x_ok ok X sign
    have hb2 : b2 = true := y2.2 (by
      show beVal [] < fe.p
      rw [show beVal [] = 0 from rfl]; exact Nat.Prime.pos Fact.out)
    have e0 : decide (([] : List Byte).length > 0) = false := rfl
    rw [e0]
    simp only [Bool.and_false, Bool.false_eq_true, if_false]
    rw [s1, C.ok_bind]
    dsimp only
    rw [export_out]
    refine ⟨_, _, rfl, ?_, ?_⟩
    · simp only [hb2, Bool.and_true, Bool.true_and, Bool.and_eq_true, decide_eq_true_iff, ne_eq, hx, not_false_eq_true, true_and,
        not_true_eq_false, if_false]
      constructor
      · rintro ⟨⟨p1, p2⟩, p3⟩
        obtain ⟨v, h, rfl, hs⟩ := s3 p2
        refine ⟨_, p3, ?_, hs⟩
        show X.val = _
        rw [← val_eq_iff (x2.1 p1)]; exact x3 (x2.1 p1)
      · rintro ⟨P, p1, p2, p3⟩
        have hlt : beVal x < fe.p := by rw [← p2]; exact (lt P).1
        obtain ⟨h, hP⟩ := pt P p1
        have hb : b = true := s2.2 (by
          rw [x3 hlt, ← p2, ← onc _ _ h, pow_two]; exact ⟨_, rfl⟩)
        obtain ⟨v, h, rfl, hs⟩ := s3 hb
        exact ⟨⟨x2.2 hlt, hb⟩, Point.some_ne_zero h⟩
    · simp only [hb2, Bool.and_true, Bool.true_and, Bool.and_eq_true, decide_eq_true_iff, ne_eq, not_true_eq_false, if_false]
      rintro ⟨⟨p1, p2⟩, p3⟩
      obtain ⟨v, h, rfl, hs⟩ := s3 p2
      refine ⟨_, rfl, p3, ?_, hs⟩
      show X.val = _
      rw [← val_eq_iff (x2.1 p1)]; exact x3 (x2.1 p1)
  · have hy' : decide (y.length > 0) = true := by
      rw [decide_eq_true_iff]; exact List.length_pos_iff.2 hy
    obtain ⟨Q, b, s1, s2, s3, s4⟩ := set_xy_ok ok X Y
    rw [hy']
    simp only [Bool.and_true, if_true, C.pure_eq, C.ok_bind]
    rw [s1]
    dsimp only
    rw [export_out]
    refine ⟨_, _, rfl, ?_, ?_⟩
    · simp only [Bool.true_and, Bool.and_eq_true, decide_eq_true_iff, ne_eq, hx, hy, not_false_eq_true, true_and, if_true]
      constructor
      · rintro ⟨⟨⟨p1, p2⟩, p3⟩, p4⟩
        obtain ⟨h, rfl⟩ := s3 p3
        refine ⟨_, p4, ?_, ?_⟩
        · show X.val = _
          rw [← val_eq_iff (x2.1 p1)]; exact x3 (x2.1 p1)
        · show Y.val = _
          rw [← val_eq_iff (y2.1 p2)]; exact y3 (y2.1 p2)
      · rintro ⟨P, p1, p2, p3⟩
        have hlt : beVal x < fe.p := by rw [← p2]; exact (lt P).1
        have hlt' : beVal y < fe.p := by rw [← p3]; exact (lt P).2
        obtain ⟨h, hP⟩ := pt P p1
        have hb : b = true := s2.2 (by rw [x3 hlt, y3 hlt', ← p2, ← p3, onc _ _ h])
        obtain ⟨h, rfl⟩ := s3 hb
        exact ⟨⟨⟨x2.2 hlt, y2.2 hlt'⟩, hb⟩, Point.some_ne_zero h⟩
    · simp only [Bool.true_and, Bool.and_eq_true, decide_eq_true_iff, ne_eq, hy, not_false_eq_true, if_true]
      rintro ⟨⟨⟨p1, p2⟩, p3⟩, p4⟩
      obtain ⟨h, rfl⟩ := s3 p3
      refine ⟨_, rfl, p4, ?_, ?_⟩
      · show X.val = _
        rw [← val_eq_iff (x2.1 p1)]; exact x3 (x2.1 p1)
      · show Y.val = _
        rw [← val_eq_iff (y2.1 p2)]; exact y3 (y2.1 p2)

/-- C68. The tweaks of public keys: `Q + t G` and `t Q`; refused exactly if a string is invalid or the result is
infinity. -/
theorem ecdsa_pubkey_tweak_exact (ok : EcOk ec G) (pub : List Byte) {tweak : List Byte} (ht : tweak.length = scSize ec.n)
    (compact : Bool) :
    (∃ out ret, ecdsa_pubkey_tweak_add ec pub tweak compact = .ok (out, ret) ∧
      (ret = true ↔ ∃ Q : Pt ec.toCurve, Sec1 Q pub ∧ beVal tweak < ec.n ∧ Q + beVal tweak • G ≠ 0) ∧
      ∀ Q : Pt ec.toCurve, Sec1 Q pub → beVal tweak < ec.n → out = sec1Out (Q + beVal tweak • G) compact) ∧
    (∃ out ret, ecdsa_pubkey_tweak_mul ec pub tweak compact = .ok (out, ret) ∧
      (ret = true ↔ ∃ Q : Pt ec.toCurve, Sec1 Q pub ∧ beVal tweak < ec.n ∧ beVal tweak • Q ≠ 0) ∧
      ∀ Q : Pt ec.toCurve, Sec1 Q pub → beVal tweak < ec.n → out = sec1Out (beVal tweak • Q) compact) := by
  obtain ⟨t, c, t1, t2, t3, t4, -⟩ := num_import_lt ok.prime.pos ht.ge
  rw [List.take_of_length_le ht.le] at t3 t4
  obtain ⟨j, j1, j2⟩ := (wei_mul_g_exact ok.wei t).1
  unfold ecdsa_pubkey_tweak_add ecdsa_pubkey_tweak_mul
  rcases import_cases ok pub with ⟨Q, q1, q2, q3⟩ | ⟨Q, q1, q2⟩
  · rw [q2, t1]
    simp only [C.ok_bind]
    rw [j1, (wei_mul_exact ok.wei Q (Or.inr (ok.all Q)) t2).2, C.ok_bind, C.ok_bind]
    rw [((jge_convert_exact _).2.2 _ (jge_mixed_add_exact ok.wei.good Q j2).2).1, export_out, export_out, add_comm (t • G)]
    have hex : ∀ p : Pt ec.toCurve → Prop, (∃ Q', Sec1 Q' pub ∧ beVal tweak < ec.n ∧ p Q') ↔ c = true ∧ p Q := by
      intro p
      rw [t3]
      exact ⟨fun ⟨Q', a1, a2, a3⟩ => ⟨a2, by rw [← q3 Q' a1]; exact a3⟩, fun ⟨a1, a2⟩ => ⟨Q, q1, a1, a2⟩⟩
    refine ⟨⟨_, _, rfl, ?_, ?_⟩, ⟨_, _, rfl, ?_, ?_⟩⟩
    · rw [hex]
      simp only [Bool.true_and, Bool.and_eq_true, decide_eq_true_iff]
      exact and_congr_right fun h => by rw [t4 h]
    · intro P hP h
      rw [q3 P hP, t4 (t3.2 h)]
    · rw [hex]
      simp only [Bool.true_and, Bool.and_eq_true, decide_eq_true_iff]
      exact and_congr_right fun h => by rw [t4 h]
    · intro P hP h
      rw [q3 P hP, t4 (t3.2 h)]
  · rw [q1, t1]
    simp only [C.ok_bind]
    rw [j1, (wei_mul_exact ok.wei Q (Or.inr (ok.all Q)) t2).2, C.ok_bind, C.ok_bind]
    refine ⟨⟨_, _, rfl, ?_, fun P hP => absurd hP (q2 P)⟩, ⟨_, _, rfl, ?_, fun P hP => absurd hP (q2 P)⟩⟩
    all_goals simp only [Bool.false_and, Bool.false_eq_true, false_iff]; rintro ⟨P, hP, -⟩; exact q2 P hP

/-- C68. The sum of two public keys, the sum of any number of them, and the negation. -/
theorem ecdsa_pubkey_sum_exact (ok : EcOk ec G) (pub1 pub2 : List Byte) (pubs : List (List Byte)) (compact : Bool) :
    (∃ out ret, ecdsa_pubkey_add ec pub1 pub2 compact = .ok (out, ret) ∧
      (ret = true ↔ ∃ P Q : Pt ec.toCurve, Sec1 P pub1 ∧ Sec1 Q pub2 ∧ P + Q ≠ 0) ∧
      ∀ P Q : Pt ec.toCurve, Sec1 P pub1 → Sec1 Q pub2 → out = sec1Out (P + Q) compact) ∧
    (∃ out ret, ecdsa_pubkey_combine ec pubs compact = .ok (out, ret) ∧
      (ret = true ↔ ∃ Qs : List (Pt ec.toCurve), List.Forall₂ Sec1 Qs pubs ∧ Qs.sum ≠ 0) ∧
      ∀ Qs : List (Pt ec.toCurve), List.Forall₂ Sec1 Qs pubs → out = sec1Out Qs.sum compact) ∧
    (∃ out ret, ecdsa_pubkey_negate ec pub1 compact = .ok (out, ret) ∧
      (ret = true ↔ ∃ Q : Pt ec.toCurve, Sec1 Q pub1) ∧
      ∀ Q : Pt ec.toCurve, Sec1 Q pub1 → out = sec1Out (-Q) compact) := by
  refine ⟨?_, ?_, ?_⟩
  · unfold ecdsa_pubkey_add
    rcases import_cases ok pub1 with ⟨P, p1, p2, p3⟩ | ⟨P, p1, p2⟩ <;>
      rcases import_cases ok pub2 with ⟨Q, q1, q2, q3⟩ | ⟨Q, q1, q2⟩
    · rw [p2, C.ok_bind, q2, C.ok_bind]
      dsimp only
      rw [(wge_add_exact ok.wei.good P Q).2, export_out]
      refine ⟨_, _, rfl, ?_, ?_⟩
      · simp only [Bool.true_and, decide_eq_true_iff]
        exact ⟨fun h => ⟨P, Q, p1, q1, h⟩, fun ⟨P', Q', a1, a2, a3⟩ => by rw [← p3 P' a1, ← q3 Q' a2]; exact a3⟩
      · intro P' Q' a1 a2
        rw [p3 P' a1, q3 Q' a2]
    · rw [p2, C.ok_bind, q1, C.ok_bind]
      refine ⟨_, _, rfl, ?_, fun _ Q _ h => absurd h (q2 Q)⟩
      simp only [Bool.true_and, Bool.false_and, Bool.false_eq_true, false_iff]
      rintro ⟨_, Q', -, a2, -⟩; exact q2 Q' a2
    · rw [p1, C.ok_bind, q2, C.ok_bind]
      refine ⟨_, _, rfl, ?_, fun P _ h => absurd h (p2 P)⟩
      simp only [Bool.false_and, Bool.false_eq_true, false_iff]
      rintro ⟨P', _, a1, -⟩; exact p2 P' a1
    · rw [p1, C.ok_bind, q1, C.ok_bind]
      refine ⟨_, _, rfl, ?_, fun P _ h => absurd h (p2 P)⟩
      simp only [Bool.false_and, Bool.false_eq_true, false_iff]
      rintro ⟨P', _, a1, -⟩; exact p2 P' a1
  · unfold ecdsa_pubkey_combine
    have key : ∃ j P' b, pubkey_combine_sum ec pubs = .ok (j, b) ∧ Jac j P' ∧
        (b = true ↔ ∃ Qs : List (Pt ec.toCurve), List.Forall₂ Sec1 Qs pubs) ∧
        ∀ Qs : List (Pt ec.toCurve), List.Forall₂ Sec1 Qs pubs → P' = Qs.sum := by
      rcases pubs with _ | ⟨pub, pubs⟩
      · refine ⟨jge_zero, 0, true, rfl, (jge_convert_exact 0).2.1, by simp, ?_⟩
        rintro Qs (_ | _); rfl
      · rw [pubkey_combine_sum]
        rcases import_cases ok pub with ⟨Q, q1, q2, q3⟩ | ⟨Q, q1, q2⟩
        · rw [q2, C.ok_bind]
          obtain ⟨j', P', b, h1, h2, h3, h4⟩ := combine_loop_ok ok pubs _ Q true (jge_convert_exact Q).1
          refine ⟨j', P', b, h1, h2, ?_, ?_⟩
          · rw [h3]
            constructor
            · rintro ⟨-, Qs, a2⟩; exact ⟨Q :: Qs, .cons q1 a2⟩
            · rintro ⟨Qs, a2⟩
              cases a2 with
              | cons a3 a4 => exact ⟨rfl, _, a4⟩
          · intro Qs hQs
            cases hQs with
            | cons a3 a4 => rw [h4 _ a4, q3 _ a3, List.sum_cons]
        · rw [q1, C.ok_bind]
          obtain ⟨j', P', b, h1, h2, h3, h4⟩ := combine_loop_ok ok pubs _ Q false (jge_convert_exact Q).1
          refine ⟨j', P', b, h1, h2, ?_, ?_⟩
          · rw [h3]
            simp only [Bool.false_eq_true, false_and, false_iff]
            rintro ⟨Qs, a2⟩
            cases a2 with
            | cons a3 a4 => exact q2 _ a3
          · intro Qs hQs
            cases hQs with
            | cons a3 a4 => exact absurd a3 (q2 _)
    obtain ⟨j, P, b, h1, h2, h3, h4⟩ := key
    rw [h1, C.ok_bind]
    dsimp only
    rw [((jge_convert_exact _).2.2 _ h2).1, export_out]
    refine ⟨_, _, rfl, ?_, ?_⟩
    · rw [Bool.and_eq_true, decide_eq_true_iff, h3]
      constructor
      · rintro ⟨⟨Qs, a1⟩, a2⟩; exact ⟨Qs, a1, by rw [← h4 Qs a1]; exact a2⟩
      · rintro ⟨Qs, a1, a2⟩; exact ⟨⟨Qs, a1⟩, by rw [h4 Qs a1]; exact a2⟩
    · intro Qs a1; rw [h4 Qs a1]
  · unfold ecdsa_pubkey_negate
    rcases import_cases ok pub1 with ⟨Q, q1, q2, q3⟩ | ⟨Q, q1, q2⟩
    · rw [q2, C.ok_bind]
      dsimp only
      rw [(wge_neg_exact Q true).1, export_out]
      refine ⟨_, _, rfl, ?_, fun P hP => by rw [q3 P hP]⟩
      simp only [Bool.true_and, decide_eq_true_iff]
      exact ⟨fun _ => ⟨Q, q1⟩, fun _ => neg_ne_zero.2 (sec1_ne q1)⟩
    · rw [q1, C.ok_bind]
      refine ⟨_, _, rfl, ?_, fun P hP => absurd hP (q2 P)⟩
      simp only [Bool.false_and, Bool.false_eq_true, false_iff]
      rintro ⟨P, hP⟩; exact q2 P hP

/-- C68. The shared secret is `a Q`, never infinity for valid keys. -/
theorem ecdsa_derive_exact (ok : EcOk ec G) (pub : List Byte) {priv : List Byte} (hl : priv.length = scSize ec.n) (compact : Bool) :
    ∃ out ret, ecdsa_derive ec pub priv compact = .ok (out, ret) ∧
      (ret = true ↔ 0 < beVal priv ∧ beVal priv < ec.n ∧ ∃ Q : Pt ec.toCurve, Sec1 Q pub) ∧
      ∀ Q : Pt ec.toCurve, Sec1 Q pub → beVal priv < ec.n → out = sec1Out (beVal priv • Q) compact := by
  obtain ⟨a, b, h1, h2, h3, h4, h5⟩ := key_ok ok hl.ge
  rw [List.take_of_length_le hl.le] at h3 h4 h5
  unfold ecdsa_derive
  rw [h1, C.ok_bind]
  rcases import_cases ok pub with ⟨Q, q1, q2, q3⟩ | ⟨Q, q1, q2⟩
  · rw [q2, C.ok_bind, (wei_mul_exact ok.wei Q (Or.inr (ok.all Q)) h2).2, C.ok_bind]
    dsimp only
    rw [export_out]
    refine ⟨_, _, rfl, ?_, ?_⟩
    · simp only [Bool.and_true, Bool.and_eq_true, decide_eq_true_iff, h3]
      constructor
      · rintro ⟨⟨p1, p2⟩, -⟩; exact ⟨p1, p2, Q, q1⟩
      · rintro ⟨p1, p2, -⟩
        refine ⟨⟨p1, p2⟩, ?_⟩
        rw [h4 p2, ne_eq, smul_zero_iff ok (sec1_ne q1), Nat.mod_eq_of_lt p2]
        omega
    · intro P hP hp
      rw [q3 P hP, h4 hp]
  · rw [q1, C.ok_bind, (wei_mul_exact ok.wei Q (Or.inr (ok.all Q)) h2).2, C.ok_bind]
    refine ⟨_, _, rfl, ?_, fun P hP => absurd hP (q2 P)⟩
    simp only [Bool.and_false, Bool.false_and, Bool.false_eq_true, false_iff]
    rintro ⟨-, -, P, hP⟩; exact q2 P hP

/-- C68. Both parties derive the same secret. -/
theorem ecdsa_derive_agree (ok : EcOk ec G) {a b : List Byte} (ha : a.length = scSize ec.n) (hb : b.length = scSize ec.n)
    (ha' : 0 < beVal a ∧ beVal a < ec.n) (hb' : 0 < beVal b ∧ beVal b < ec.n) (c1 c2 compact : Bool) :
    ∃ A B s, ecdsa_pubkey_create ec a c1 = .ok (A, true) ∧ ecdsa_pubkey_create ec b c2 = .ok (B, true) ∧
      ecdsa_derive ec B a compact = .ok (s, true) ∧ ecdsa_derive ec A b compact = .ok (s, true) := by
  obtain ⟨A, r1, e1, e2, e3⟩ := ecdsa_pubkey_create_exact ok ha c1
  obtain ⟨B, r2, f1, f2, f3⟩ := ecdsa_pubkey_create_exact ok hb c2
  obtain rfl := e2.2 ha'
  obtain rfl := f2.2 hb'
  obtain ⟨s, r3, g1, g2, g3⟩ := ecdsa_derive_exact ok B ha compact
  obtain ⟨s', r4, k1, k2, k3⟩ := ecdsa_derive_exact ok A hb compact
  obtain rfl := g2.2 ⟨ha'.1, ha'.2, _, (f3 rfl).2⟩
  obtain rfl := k2.2 ⟨hb'.1, hb'.2, _, (e3 rfl).2⟩
  refine ⟨A, B, s, e1, f1, g1, ?_⟩
  rw [k1, g3 _ (f3 rfl).2 ha'.2, k3 _ (e3 rfl).2 hb'.2, smul_comm]

/-- C68. Tweaking commutes with taking the public key: the public key of the tweaked private key is the tweaked public
key, and both sides are refused together. -/
theorem ecdsa_tweak_commutes (ok : EcOk ec G) {priv tweak : List Byte} (hl : priv.length = scSize ec.n)
    (ht : tweak.length = scSize ec.n) (hp : 0 < beVal priv ∧ beVal priv < ec.n) (c1 compact : Bool) :
    ∃ pub, ecdsa_pubkey_create ec priv c1 = .ok (pub, true) ∧
    (∃ k r1 o r2, ecdsa_privkey_tweak_add ec priv tweak = .ok (k, r1) ∧ ecdsa_pubkey_tweak_add ec pub tweak compact = .ok (o, r2) ∧
      r1 = r2 ∧ (r1 = true → ecdsa_pubkey_create ec k compact = .ok (o, true))) ∧
    (∃ k r1 o r2, ecdsa_privkey_tweak_mul ec priv tweak = .ok (k, r1) ∧ ecdsa_pubkey_tweak_mul ec pub tweak compact = .ok (o, r2) ∧
      r1 = r2 ∧ (r1 = true → ecdsa_pubkey_create ec k compact = .ok (o, true))) ∧
    (∃ k o, ecdsa_privkey_negate ec priv = .ok (k, true) ∧ ecdsa_pubkey_negate ec pub compact = .ok (o, true) ∧
      ecdsa_pubkey_create ec k compact = .ok (o, true)) := by
  have hn := ok.prime.pos
  obtain ⟨pub, r0, e1, e2, e3⟩ := ecdsa_pubkey_create_exact ok hl c1
  obtain rfl := e2.2 hp
  obtain ⟨-, hS⟩ := e3 rfl
  obtain ⟨⟨k1, b1, f1, f2, f3⟩, ⟨k2, b2, g1, g2, g3⟩, ⟨k3, b3, i1, i2, i3⟩, -⟩ := ecdsa_privkey_ops_exact ok hl ht
  obtain ⟨⟨o1, d1, j1, j2, j3⟩, ⟨o2, d2, l1, l2, l3⟩⟩ := ecdsa_pubkey_tweak_exact ok pub ht compact
  obtain ⟨-, -, ⟨o3, d3, m1, m2, m3⟩⟩ := ecdsa_pubkey_sum_exact ok pub [] [] compact
  have cr : ∀ v, v ≠ 0 → v < ec.n → ecdsa_pubkey_create ec (bigBytes (scSize ec.n) v) compact =
      .ok (sec1Out (v • G) compact, true) := by
    intro v h0 hv
    have hv' : beVal (bigBytes (scSize ec.n) v) = v := by
      rw [Drb.beVal_bigBytes, Nat.mod_eq_of_lt (hv.trans (scSize_pow _))]
    obtain ⟨o, r, a1, a2, a3⟩ := ecdsa_pubkey_create_exact ok (priv := bigBytes (scSize ec.n) v) (Hsh.bigBytes_len _ _) compact
    rw [hv'] at a2 a3
    obtain rfl := a2.2 ⟨by omega, hv⟩
    rw [a1, (a3 rfl).1]
  have sm : ∀ v : Nat, v % ec.n = 0 ↔ v • G = 0 := fun v => (smul_zero_iff ok ok.nonzero).symm
  have md : ∀ v : Nat, (v % ec.n) • G = v • G := fun v => smul_cast ok (ZMod.natCast_mod _ _) G
  refine ⟨pub, e1, ⟨k1, b1, o1, d1, f1, j1, ?_, ?_⟩, ⟨k2, b2, o2, d2, g1, l1, ?_, ?_⟩, k3, o3, ?_, ?_, ?_⟩
  · rw [Bool.eq_iff_iff, f2, j2, ne_eq, sm, add_nsmul]
    constructor
    · rintro ⟨-, -, p3, p4⟩; exact ⟨_, hS, p3, p4⟩
    · rintro ⟨Q, p1, p2, p3⟩
      rw [sec1_unique ok p1 hS] at p3
      exact ⟨hp.1, hp.2, p2, p3⟩
  · intro hb
    obtain ⟨-, -, p3, p4⟩ := f2.1 hb
    rw [f3 hp.2 p3, cr _ p4 (Nat.mod_lt _ hn), md, j3 _ hS p3, add_nsmul]
  · rw [Bool.eq_iff_iff, g2, l2, ne_eq, sm]
    constructor
    · rintro ⟨-, -, p3, p4⟩
      exact ⟨_, hS, p3, by rwa [mul_comm, mul_nsmul'] at p4⟩
    · rintro ⟨Q, p1, p2, p3⟩
      rw [sec1_unique ok p1 hS] at p3
      exact ⟨hp.1, hp.2, p2, by rwa [mul_comm, mul_nsmul']⟩
  · intro hb
    obtain ⟨-, -, p3, p4⟩ := g2.1 hb
    rw [g3 hp.2 p3, cr _ p4 (Nat.mod_lt _ hn), md, l3 _ hS p3, mul_comm, mul_nsmul']
  · rw [i1, i2.2 hp]
  · rw [m1, m2.2 ⟨_, hS⟩]
  · rw [i3 (i2.2 hp), cr _ (by omega) (by omega), m3 _ hS]
    congr 3
    rw [eq_neg_iff_add_eq_zero, ← add_nsmul, Nat.sub_add_cancel hp.2.le, ord_all ok]

end

/-- The hypotheses hold for each curve: e.g. secp256k1, where the key 1 gives the generator. -/
example : letI := Fact.mk (weiDefs_field_prime (d := curve_secp256k1) (by simp [weiDefs]))
    ∃ ec G, wei_curve curve_secp256k1 = .ok ec ∧ EcOk ec G ∧
      ∃ out, ecdsa_pubkey_create ec (bigBytes (scSize ec.n) 1) true = .ok (out, true) ∧ Sec1 G out := by
  letI := Fact.mk (weiDefs_field_prime (d := curve_secp256k1) (by simp [weiDefs]))
  obtain ⟨ec, h1, h2, -, G, -, ok⟩ := wei_curve_exact (d := curve_secp256k1) (by simp [weiDefs])
  have h1n := ok.prime.one_lt
  obtain ⟨out, ret, e1, e2, e3⟩ := ecdsa_pubkey_create_exact ok (priv := bigBytes (scSize ec.n) 1) (Hsh.bigBytes_len _ _) true
  rw [Drb.beVal_bigBytes, Nat.mod_eq_of_lt (h1n.trans (scSize_pow _))] at e2 e3
  rw [one_nsmul] at e3
  obtain rfl := e2.2 ⟨by omega, h1n⟩
  exact ⟨ec, G, h1, ok, out, e1, (e3 rfl).2⟩

end Torsion
