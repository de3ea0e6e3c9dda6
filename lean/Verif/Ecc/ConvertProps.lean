import Verif.Ecc.ConvertImportLemmas
import Verif.Ecc.EcdhProps
import Verif.Ecc.EddsaProps

/-! # Properties: keys for signatures as keys for key exchange, and back (C84) -/
set_option exponentiation.threshold 500

namespace Torsion

open Torsion.Spec

set_option allowUnsafeReducibility true in
attribute [local reducible] curve_ed25519 curve_x25519 curve_ed448 curve_x448

/-! ### From Edwards to Montgomery -/

section
variable {d : EdwardsDef} (hd : d ∈ edDefs) [Fact d.fe.p.Prime] {ec : Edwards (ZMod d.fe.p)} [g : EdGood ec.a ec.d] {G : EPt ec.a ec.d}
  (ok : EdCurve d ec G)

include hd ok in
/-- C84. A public key is converted to the abscissa of the image of its point. It is refused if it is no point or the neutral element. -/
theorem eddsa_pubkey_convert_exact {pub : List Byte} (hl : pub.length = edLen d.fe) : ∃ out r, eddsa_pubkey_convert ec pub = .ok (out, r) ∧
    (r = true ↔ ∃ P : EPt ec.a ec.d, pub = edBytes P ∧ P ≠ 0) ∧ ∀ P : EPt ec.a ec.d, pub = edBytes P → out = (optBytes d.fe (convU d P)).1 := by
  obtain ⟨P, b, h1, h2, h3⟩ := Ecc.conv_ok hd ok hl
  refine ⟨_, b, h1, ?_, fun Q hQ => by rw [h3 Q hQ]⟩
  rw [h2]
  constructor
  · rintro ⟨h, h'⟩; exact ⟨P, h, h'⟩
  · rintro ⟨Q, h, h'⟩
    obtain rfl := h3 Q h
    exact ⟨h, h'⟩

end

/-- C84. On Ed448 the point `(0, -1)` is in the kernel of the isogeny, but it is converted to the abscissa zero with success. -/
theorem ed448_convert_torsion [Fact curve_ed448.fe.p.Prime] {ec : Edwards (ZMod curve_ed448.fe.p)} [g : EdGood ec.a ec.d] {G : EPt ec.a ec.d}
    (ok : EdCurve curve_ed448 ec G) : ∃ T : EPt ec.a ec.d, T.x = 0 ∧ T.y = -1 ∧ convU curve_ed448 T = none ∧
      eddsa_pubkey_convert ec (edBytes T) = .ok (List.replicate 56 0, true) := by
  have hp : curve_ed448.fe.p.size = 448 := by decide +kernel
  have hs : feSize curve_ed448.fe = 56 := by decide +kernel
  refine ⟨⟨0, -1, by ring⟩, rfl, rfl, ?_, ?_⟩
  · rw [convU, if_pos hp, isoU, if_pos rfl]
  · rw [Ecc.conv_pt (by simp [edDefs]) ok]
    have h1 : (-1 : ZMod curve_ed448.fe.p) ≠ 1 := by
      intro h
      apply g.two
      linear_combination -h
    have h2 : convU curve_ed448 (⟨0, -1, by ring⟩ : EPt ec.a ec.d) = none := by rw [convU, if_pos hp, isoU, if_pos rfl]
    rw [h2, optBytes, hs]
    simp [h1]

/-! ### Ed25519 and X25519 -/

section
variable [Fact curve_ed25519.fe.p.Prime] {ec : Edwards (ZMod curve_ed25519.fe.p)} [g : EdGood ec.a ec.d] {G : EPt ec.a ec.d}
  (ok : EdCurve curve_ed25519 ec G) {me : Mont (ZMod curve_x25519.fe.p)} (he : mont_init curve_x25519 = .ok me)

theorem conv_25519 {a d : ZMod curve_ed25519.fe.p} (P : EPt a d) : convU curve_ed25519 P = edU false P := by
  have hp : curve_ed25519.fe.p.size ≠ 448 := by decide +kernel
  rw [convU, if_neg hp]

theorem flag_25519 {a d : ZMod curve_ed25519.fe.p} (P : EPt a d) :
    (optBytes curve_ed25519.fe (convU curve_ed25519 P)).2 = !decide (P.x = 0 ∧ P.y = 1) := by
  rw [Ecc.optBytes_two, conv_25519, edU]
  by_cases h : P.x = 0 ∧ P.y = 1
  · rw [if_pos h, decide_eq_true h]; rfl
  · rw [if_neg h, decide_eq_false h]; rfl

include ok he in
/-- C84. X25519 with a converted key is the multiplication of the point. -/
theorem x25519_converted (P : EPt ec.a ec.d) {s : List Byte} (hs : 32 ≤ s.length) :
    ecdh_derive me (optBytes curve_ed25519.fe (convU curve_ed25519 P)).1 s =
      .ok (optBytes curve_ed25519.fe (convU curve_ed25519 (privKey curve_x25519 s • P))) := by
  have hd : curve_x25519 ∈ montDefs := List.mem_cons_self
  have c := Ecc.mont_ctx_of hd he
  have hsz : feSize curve_x25519.fe = 32 := by decide +kernel
  obtain ⟨-, -, hA⟩ := Ecc.pair_25519 ok he
  rw [conv_25519, conv_25519]
  have h := Ecc.conv_derive hd c (φ := fun k => edU false (k • P)) (Ecc.edU_exists hA P) (s := s) (by rw [hsz]; exact hs)
  dsimp only at h
  rwa [one_nsmul] at h

include ok he in
/-- C84. Secrets shared by EdDSA keys are those shared by the converted keys. -/
theorem x25519_derive_agrees {pub s u : List Byte} (hp : pub.length = 32) (hs : s.length = 32)
    (hc : eddsa_pubkey_convert ec pub = .ok (u, true)) : ∃ sec v r, eddsa_derive_with_scalar ec pub s = .ok (sec, r) ∧
      ecdh_derive me u s = .ok (v, r) ∧ eddsa_pubkey_convert ec sec = .ok (v, r) := by
  have hd : curve_ed25519 ∈ edDefs := by simp [edDefs]
  have hl : edLen curve_ed25519.fe = 32 := by decide +kernel
  have hsc : edScLen curve_ed25519 = 32 := by decide +kernel
  have hfs : feSize curve_x25519.fe = 32 := by decide +kernel
  obtain ⟨P, b, e1, e2, e3⟩ := Ecc.conv_ok hd ok (hp.trans hl.symm)
  rw [hc, C.ok.injEq, Prod.mk.injEq] at e1
  obtain ⟨hu, hb⟩ := e1
  obtain ⟨hpb, hP⟩ := e2.1 hb.symm
  obtain ⟨out, r, f1, f2, f3⟩ := eddsa_derive_with_scalar_exact hd ok (hp.trans hl.symm) (hs.trans hsc.symm)
  have hlen : (s.take (feSize curve_x25519.fe)) = s := List.take_of_length_le (by rw [hfs, hs])
  have hk : privKey curve_x25519 s = clamp curve_ed25519.fe.p.size curve_ed25519.h (leVal s) := by
    unfold privKey
    rw [hlen, show curve_x25519.h = curve_ed25519.h from rfl]
  rw [← hk] at f2 f3
  have f3 := f3 P hpb
  have hr : r = (!decide ((privKey curve_x25519 s • P).x = 0 ∧ (privKey curve_x25519 s • P).y = 1)) := by
    rw [Bool.eq_iff_iff, f2, Bool.not_eq_true', decide_eq_false_iff_not]
    constructor
    · rintro ⟨A, hA, h⟩ e
      rw [← Ecc.edBytes_inj (hpb.symm.trans hA)] at h
      exact h (EPt.ext e.1 e.2)
    · intro h
      exact ⟨P, hpb, fun e => h (by rw [e]; exact ⟨rfl, rfl⟩)⟩
  have h2 : (optBytes curve_ed25519.fe (convU curve_ed25519 (privKey curve_x25519 s • P))).2 = r := by
    rw [hr, flag_25519]
  refine ⟨out, (optBytes curve_ed25519.fe (convU curve_ed25519 (privKey curve_x25519 s • P))).1, r, f1, ?_, ?_⟩
  · have h3 := x25519_converted ok he P hs.ge
    rw [← hu] at h3
    exact Ecc.ok_pair h3 h2
  · rw [f3, Ecc.conv_pt hd ok, hr]

include ok he in
theorem x25519_base {s : List Byte} (hs : 32 ≤ s.length) :
    ecdh_pubkey_create me s = (match convU curve_ed25519 (privKey curve_x25519 s • G) with
      | none => .abort
      | some x => .ok (leBytes (feSize curve_x25519.fe) x.val)) := by
  have hd : curve_x25519 ∈ montDefs := List.mem_cons_self
  have c := Ecc.mont_ctx_of hd he
  have hsz : feSize curve_x25519.fe = 32 := by decide +kernel
  obtain ⟨M, m1, m2, m3⟩ := Ecc.base_order c
  have h9 : montX M = some 9 := by
    have hx : ec.a = ec.a := rfl
    rw [c.g] at m1
    rw [Ecc.m_aff_x m1]
    have : beVal curve_x25519.x = 9 := by decide +kernel
    rw [this]
    norm_num
  rw [Ecc.create_ok hd c (by rw [hsz]; exact hs) m1]
  have hG := Ecc.base_25519 ok
  have h1 := x25519_converted ok he G hs
  rw [conv_25519, hG] at h1
  have hpx : pubX curve_x25519 (optBytes curve_ed25519.fe (some (9 : ZMod curve_ed25519.fe.p))).1 = 9 := by
    rw [Ecc.optBytes_one]
    exact Ecc.pubX_bytes (d := curve_x25519) 9
  have h2 := Ecc.derive_ok hd c (pub := (optBytes curve_ed25519.fe (some (9 : ZMod curve_ed25519.fe.p))).1) (priv := s)
    (Ecc.optBytes_len (fe := curve_x25519.fe) _).ge (by rw [hsz]; exact hs) c.ok.good.b0 (P := M) (by rw [h9, hpx])
  rw [h1, C.ok.injEq, Ecc.uBytes_opt] at h2
  have h3 := Ecc.optBytes_inj h2
  rw [← h3]
  cases convU curve_ed25519 (privKey curve_x25519 s • G) <;> rfl

include ok he in
/-- C84. The converted private key belongs to the converted public key. -/
theorem x25519_keys_convert (junk : Nat → Byte) {priv : List Byte} (hl : priv.length = 32) : ∃ s pub u,
    eddsa_privkey_convert junk ec priv = .ok s ∧ eddsa_pubkey_create junk ec priv = .ok pub ∧
      eddsa_pubkey_convert ec pub = .ok (u, true) ∧ ecdh_pubkey_create me s = .ok u := by
  have hd : curve_ed25519 ∈ edDefs := by simp [edDefs]
  have hle : edLen curve_ed25519.fe = 32 := by decide +kernel
  have hsc : edScLen curve_ed25519 = 32 := by decide +kernel
  have hfs : feSize curve_x25519.fe = 32 := by decide +kernel
  obtain ⟨s, -, h1, h2, h3, h4⟩ := eddsa_privkey_exact hd ok junk (hl.trans hle.symm)
  have hlen : (s.take (feSize curve_x25519.fe)) = s := List.take_of_length_le (by rw [hfs, h2, hsc])
  have hk : privKey curve_x25519 s = edSecret curve_ed25519 priv := by
    unfold privKey
    rw [hlen, show curve_x25519.h = curve_ed25519.h from rfl, h3, edSecret]
    exact Ecc.clamp_clamp (Ecc.ed_sizes _ hd).2.2.2.2.2.1
  have hb := x25519_base ok he (s := s) (by rw [h2, hsc])
  obtain ⟨u, hu, -⟩ := x25519_create_succeeds he (priv := s) (by rw [h2, hsc])
  refine ⟨s, _, u, h1, h4, ?_, hu⟩
  rw [hu, hk] at hb
  rw [Ecc.conv_pt hd ok]
  cases hc : convU curve_ed25519 (edSecret curve_ed25519 priv • G) with
  | none => rw [hc] at hb; cases hb
  | some x =>
    rw [hc] at hb
    have hn : ¬ ((edSecret curve_ed25519 priv • G).x = 0 ∧ (edSecret curve_ed25519 priv • G).y = 1) := by
      intro h
      rw [conv_25519, edU, if_pos h] at hc
      cases hc
    rw [decide_eq_false hn]
    rw [C.ok.injEq] at hb
    rw [hb, optBytes, Bool.not_false]

/-! ### From X25519 to Ed25519 -/

include ok he in
/-- C84. A key for X25519 is converted to a point with its abscissa and with the wanted sign. It is refused if it is on the twist. -/
theorem x25519_pubkey_convert_exact {pub : List Byte} (hl : 32 ≤ pub.length) (sign : Option Bool) : ∃ (P : EPt ec.a ec.d) (r : Bool),
    ecdh_pubkey_convert me pub sign = .ok (edBytes P, r) ∧ (r = true ↔ ∃ U : MPt me.a me.b, montX U = some (pubX curve_x25519 pub)) ∧
    (r = true → edU false P = some (pubX curve_x25519 pub)) ∧ (r = false → P = 0) ∧ (P.x ≠ 0 → CoordSign P.x sign) :=
  Ecc.to_ed_25519 ok he hl sign

include ok he in
theorem x25519_back {pub : List Byte} (hl : 32 ≤ pub.length) (sign : Option Bool) {Q : EPt ec.a ec.d} (hQ : edU false Q = some (pubX curve_x25519 pub)) :
    ∃ P : EPt ec.a ec.d, ecdh_pubkey_convert me pub sign = .ok (edBytes P, true) ∧ (P = Q ∨ P = -Q) ∧ (P.x ≠ 0 → CoordSign P.x sign) := by
  have c := Ecc.mont_ctx_of (List.mem_cons_self : curve_x25519 ∈ montDefs) he
  obtain ⟨iso, -, -⟩ := Ecc.pair_25519 ok he
  obtain ⟨P, r, h1, h2, h3, -, h5⟩ := Ecc.to_ed_25519 ok he hl sign
  have hr : r = true := by
    apply h2.2
    have hne : Q ≠ 0 := fun h => by rw [Ecc.edU_none.2 h] at hQ; cases hQ
    obtain ⟨u, v, hm⟩ := Ecc.montOf_of iso hne
    obtain ⟨U, hU⟩ := Ecc.m_mk c.ok.good (x := u) (y := v) (by rw [c.b, one_mul]; exact hm.on)
    refine ⟨U, ?_⟩
    rw [Ecc.m_aff_x hU, ← hQ, Ecc.edU_of iso hm]
  subst hr
  exact ⟨P, h1, Ecc.edU_eq ((h3 rfl).trans hQ.symm), h5⟩

include ok he in
/-- C84. The key of X25519 for a private key is converted to the multiple of the base point, or its negative, whichever has the sign. -/
theorem x25519_create_convert {s pub : List Byte} (hs : 32 ≤ s.length) (hc : ecdh_pubkey_create me s = .ok pub) (sign : Option Bool) :
    ∃ P : EPt ec.a ec.d, ecdh_pubkey_convert me pub sign = .ok (edBytes P, true) ∧
      (P = privKey curve_x25519 s • G ∨ P = -(privKey curve_x25519 s • G)) ∧ (P.x ≠ 0 → CoordSign P.x sign) := by
  have hfs : feSize curve_x25519.fe = 32 := by decide +kernel
  rw [x25519_base ok he hs] at hc
  cases hx : convU curve_ed25519 (privKey curve_x25519 s • G) with
  | none => rw [hx] at hc; cases hc
  | some x =>
    rw [hx] at hc
    dsimp only at hc
    rw [C.ok.injEq] at hc
    have hl : pub.length = 32 := by rw [← hc, Strm.leBytes_len, hfs]
    apply x25519_back ok he hl.ge sign
    rw [← conv_25519, hx, ← hc]
    exact congrArg some (Ecc.pubX_bytes (d := curve_x25519) x).symm

include ok he in
/-- C84. The conversion of a key and back, with the sign of its abscissa. -/
theorem x25519_convert_round_trip {pub u : List Byte} (hp : pub.length = 32) (hc : eddsa_pubkey_convert ec pub = .ok (u, true)) :
    ∃ P : EPt ec.a ec.d, pub = edBytes P ∧ ecdh_pubkey_convert me u (some (decide (P.x.val % 2 = 1))) = .ok (pub, true) := by
  have hd : curve_ed25519 ∈ edDefs := by simp [edDefs]
  have hl : edLen curve_ed25519.fe = 32 := by decide +kernel
  have hfs : feSize curve_ed25519.fe = 32 := by decide +kernel
  obtain ⟨P, b, e1, e2, e3⟩ := Ecc.conv_ok hd ok (hp.trans hl.symm)
  rw [hc, C.ok.injEq, Prod.mk.injEq] at e1
  obtain ⟨hu, hb⟩ := e1
  obtain ⟨hpb, hP⟩ := e2.1 hb.symm
  cases hx : convU curve_ed25519 P with
  | none => rw [conv_25519] at hx; exact absurd (Ecc.edU_none.1 hx) hP
  | some x =>
    rw [hx] at hu
    have hlu : u.length = 32 := by rw [hu, Ecc.optBytes_len, hfs]
    obtain ⟨Q, q1, q2, q3⟩ := x25519_back ok he hlu.ge (some (decide (P.x.val % 2 = 1))) (Q := P) (by
      rw [← conv_25519, hx, hu, Ecc.optBytes_one]
      exact congrArg some (Ecc.pubX_bytes (d := curve_x25519) x).symm)
    refine ⟨P, hpb, ?_⟩
    rw [q1, Ecc.sign_same q2 q3, hpb]

end

/-! ### Ed448 and X448 -/

section
variable [Fact curve_ed448.fe.p.Prime] {ec : Edwards (ZMod curve_ed448.fe.p)} [g : EdGood ec.a ec.d] {G : EPt ec.a ec.d}
  (ok : EdCurve curve_ed448 ec G) {me : Mont (ZMod curve_x448.fe.p)} (he : mont_init curve_x448 = .ok me)

theorem conv_448 {a d : ZMod curve_ed448.fe.p} (P : EPt a d) : convU curve_ed448 P = isoU P := by
  have hp : curve_ed448.fe.p.size = 448 := by decide +kernel
  rw [convU, if_pos hp]

theorem flag_448 {a d : ZMod curve_ed448.fe.p} [EdGood a d] (ha : a = 1) {n : Nat} (hn : n % 2 = 1) {P : EPt a d} (hP : n • P = 0) :
    (optBytes curve_ed448.fe (convU curve_ed448 P)).2 = !decide (P.x = 0 ∧ P.y = 1) := by
  rw [Ecc.optBytes_two, conv_448]
  by_cases h : P.x = 0 ∧ P.y = 1
  · rw [(Ecc.isoU_none ha hn hP).2 (EPt.ext h.1 h.2), decide_eq_true h]; rfl
  · rw [decide_eq_false h]
    cases hi : isoU P with
    | none =>
      have := (Ecc.isoU_none ha hn hP).1 hi
      rw [this] at h
      exact absurd ⟨rfl, rfl⟩ h
    | some u => rfl

include ok he in
/-- C84. X448 with a converted key is the multiplication of the point. -/
theorem x448_converted (P : EPt ec.a ec.d) {s : List Byte} (hs : 56 ≤ s.length) :
    ecdh_derive me (optBytes curve_ed448.fe (convU curve_ed448 P)).1 s =
      .ok (optBytes curve_ed448.fe (convU curve_ed448 (privKey curve_x448 s • P))) := by
  have hd : curve_x448 ∈ montDefs := List.mem_cons_of_mem _ List.mem_cons_self
  have c := Ecc.mont_ctx_of hd he
  have hsz : feSize curve_x448.fe = 56 := by decide +kernel
  obtain ⟨ha, hA, -⟩ := Ecc.pair_448 ok he
  rw [conv_448, conv_448]
  have hex : ∃ b : ZMod curve_x448.fe.p, b ≠ 0 ∧ ∃ Q : MPt me.a b, ∀ k : Nat, montX (k • Q) = isoU (k • P) := by
    obtain ⟨M, hM⟩ := Ecc.isoU_on ha hA P
    exact ⟨1, one_ne_zero, M, fun k => Ecc.isoU_mul ha hA one_ne_zero hM k⟩
  have h := Ecc.conv_derive hd c (φ := fun k => isoU (k • P)) hex (s := s) (by rw [hsz]; exact hs)
  dsimp only at h
  rwa [one_nsmul] at h

include ok he in
theorem x448_order (s : List Byte) (P : EPt ec.a ec.d) : me.n • privKey curve_x448 s • P = 0 := by
  have hd : curve_ed448 ∈ edDefs := by simp [edDefs]
  obtain ⟨-, -, -, -, -, hn, -⟩ := Ecc.pair_448 ok he
  have h4 : ec.h ∣ privKey curve_x448 s := by
    rw [ok.hval]
    exact Ecc.clamp_dvd (bits := curve_ed448.fe.p.size) (h := curve_ed448.h) (v := leVal (s.take (feSize curve_x448.fe))) (Ecc.ed_h_dvd _ hd)
  obtain ⟨m, hm⟩ := h4
  rw [hm, mul_comm, mul_nsmul', hn, smul_comm, Ecc.ed_kill hd ok, nsmul_zero]

include ok he in
/-- C84. Secrets shared by EdDSA keys are those shared by the converted keys. -/
theorem x448_derive_agrees {pub s u : List Byte} (hp : pub.length = 57) (hs : s.length = 56)
    (hc : eddsa_pubkey_convert ec pub = .ok (u, true)) : ∃ sec v r, eddsa_derive_with_scalar ec pub s = .ok (sec, r) ∧
      ecdh_derive me u s = .ok (v, r) ∧ eddsa_pubkey_convert ec sec = .ok (v, r) := by
  have hd : curve_ed448 ∈ edDefs := by simp [edDefs]
  have hl : edLen curve_ed448.fe = 57 := by decide +kernel
  have hsc : edScLen curve_ed448 = 56 := by decide +kernel
  have hfs : feSize curve_x448.fe = 56 := by decide +kernel
  obtain ⟨ha, hA, -, -, -, -, hodd⟩ := Ecc.pair_448 ok he
  obtain ⟨P, b, e1, e2, e3⟩ := Ecc.conv_ok hd ok (hp.trans hl.symm)
  rw [hc, C.ok.injEq, Prod.mk.injEq] at e1
  obtain ⟨hu, hb⟩ := e1
  obtain ⟨hpb, hP⟩ := e2.1 hb.symm
  obtain ⟨out, r, f1, f2, f3⟩ := eddsa_derive_with_scalar_exact hd ok (hp.trans hl.symm) (hs.trans hsc.symm)
  have hlen : (s.take (feSize curve_x448.fe)) = s := List.take_of_length_le (by rw [hfs, hs])
  have hk : privKey curve_x448 s = clamp curve_ed448.fe.p.size curve_ed448.h (leVal s) := by
    unfold privKey
    rw [hlen, show curve_x448.h = curve_ed448.h from rfl]
  rw [← hk] at f2 f3
  have f3 := f3 P hpb
  have hr : r = (!decide ((privKey curve_x448 s • P).x = 0 ∧ (privKey curve_x448 s • P).y = 1)) := by
    rw [Bool.eq_iff_iff, f2, Bool.not_eq_true', decide_eq_false_iff_not]
    constructor
    · rintro ⟨A, hA, h⟩ e
      rw [← Ecc.edBytes_inj (hpb.symm.trans hA)] at h
      exact h (EPt.ext e.1 e.2)
    · intro h
      exact ⟨P, hpb, fun e => h (by rw [e]; exact ⟨rfl, rfl⟩)⟩
  have h2 : (optBytes curve_ed448.fe (convU curve_ed448 (privKey curve_x448 s • P))).2 = r := by
    rw [hr, flag_448 ha hodd (x448_order ok he s P)]
  refine ⟨out, (optBytes curve_ed448.fe (convU curve_ed448 (privKey curve_x448 s • P))).1, r, f1, ?_, ?_⟩
  · have h3 := x448_converted ok he P hs.ge
    rw [← hu] at h3
    exact Ecc.ok_pair h3 h2
  · rw [f3, Ecc.conv_pt hd ok, hr]

include ok he in
theorem x448_base {s : List Byte} (hs : 56 ≤ s.length) :
    ecdh_pubkey_create me s = (match convU curve_ed448 (privKey curve_x448 s • G) with
      | none => .abort
      | some x => .ok (leBytes (feSize curve_x448.fe) x.val)) := by
  have hd : curve_x448 ∈ montDefs := List.mem_cons_of_mem _ List.mem_cons_self
  have c := Ecc.mont_ctx_of hd he
  have hsz : feSize curve_x448.fe = 56 := by decide +kernel
  obtain ⟨ha, hA, -⟩ := Ecc.pair_448 ok he
  obtain ⟨M, m1, m2, m3⟩ := Ecc.base_order c
  have hM : montX M = isoU G := by
    have m1' := m1
    rw [c.g] at m1'
    rw [Ecc.m_aff_x m1', Ecc.base_448 ok]
    have : beVal curve_x448.x = 5 := by decide +kernel
    rw [this]
    norm_num
  rw [Ecc.create_ok hd c (by rw [hsz]; exact hs) m1, Ecc.isoU_mul ha hA c.ok.good.b0 hM, conv_448]
  cases isoU (privKey curve_x448 s • G) <;> rfl

include ok he in
/-- C84. The converted private key belongs to the converted public key; the conversion is refused where the creation of the key aborts. -/
theorem x448_keys_convert (junk : Nat → Byte) {priv : List Byte} (hl : priv.length = 57) : ∃ s pub u r,
    eddsa_privkey_convert junk ec priv = .ok s ∧ eddsa_pubkey_create junk ec priv = .ok pub ∧
      eddsa_pubkey_convert ec pub = .ok (u, r) ∧ ecdh_pubkey_create me s = if r then .ok u else .abort := by
  have hd : curve_ed448 ∈ edDefs := by simp [edDefs]
  have hle : edLen curve_ed448.fe = 57 := by decide +kernel
  have hsc : edScLen curve_ed448 = 56 := by decide +kernel
  have hfs : feSize curve_x448.fe = 56 := by decide +kernel
  obtain ⟨ha, hA, -, -, -, -, hodd⟩ := Ecc.pair_448 ok he
  obtain ⟨s, -, h1, h2, h3, h4⟩ := eddsa_privkey_exact hd ok junk (hl.trans hle.symm)
  have hlen : (s.take (feSize curve_x448.fe)) = s := List.take_of_length_le (by rw [hfs, h2, hsc])
  have hk : privKey curve_x448 s = edSecret curve_ed448 priv := by
    unfold privKey
    rw [hlen, show curve_x448.h = curve_ed448.h from rfl, h3, edSecret]
    exact Ecc.clamp_clamp (Ecc.ed_sizes _ hd).2.2.2.2.2.1
  have hb := x448_base ok he (s := s) (by rw [h2, hsc])
  have ho := x448_order ok he s G
  rw [hk] at hb ho
  have hf := flag_448 ha hodd ho
  refine ⟨s, _, _, _, h1, h4, Ecc.conv_pt hd ok _, ?_⟩
  rw [hb, ← hf]
  cases convU curve_ed448 (edSecret curve_ed448 priv • G) with
  | none => rw [optBytes, if_neg (by simp)]
  | some x => rw [optBytes, if_pos rfl]

/-! ### From X448 to Ed448 -/

include ok he in
/-- C84. A key for X448 is converted to the point in the subgroup of prime order whose image by the isogeny is the part of the key in the
subgroup of prime order, with the wanted sign. It is refused if it is on the twist. -/
theorem x448_pubkey_convert_exact {pub : List Byte} (hl : 56 ≤ pub.length) (sign : Option Bool) : ∃ (P : EPt ec.a ec.d) (r : Bool),
    ecdh_pubkey_convert me pub sign = .ok (edBytes P, r) ∧ (r = true ↔ ∃ U : MPt me.a me.b, montX U = some (pubX curve_x448 pub)) ∧
    (r = true → ∃ U V : MPt me.a me.b, montX U = some (pubX curve_x448 pub) ∧ me.n • V = 0 ∧ 4 • V = 4 • U ∧ isoU P = montX V) ∧
    ec.n • P = 0 ∧ (r = false → P = 0) ∧ (P.x ≠ 0 → CoordSign P.x sign) :=
  Ecc.to_ed_448 ok he hl sign

include ok he in
theorem x448_back {pub : List Byte} (hl : 56 ≤ pub.length) (sign : Option Bool) {Q : EPt ec.a ec.d} (hn : ec.n • Q = 0)
    (hQ : isoU Q = some (pubX curve_x448 pub)) :
    ∃ P : EPt ec.a ec.d, ecdh_pubkey_convert me pub sign = .ok (edBytes P, true) ∧ (P = Q ∨ P = -Q) ∧ (P.x ≠ 0 → CoordSign P.x sign) := by
  have c := Ecc.mont_ctx_of (List.mem_cons_of_mem _ List.mem_cons_self : curve_x448 ∈ montDefs) he
  obtain ⟨ha, hA, -, -, -, hne, hodd⟩ := Ecc.pair_448 ok he
  obtain ⟨P, r, h1, h2, h3, h4, -, h5⟩ := Ecc.to_ed_448 ok he hl sign
  have hex : ∃ M : MPt me.a me.b, montX M = isoU Q := by
    have := Ecc.isoU_on ha hA Q
    rw [c.b]
    exact this
  obtain ⟨M, hM⟩ := hex
  have hr : r = true := h2.2 ⟨M, hM.trans hQ⟩
  obtain ⟨U, V, u1, u2, u3, u4⟩ := h3 hr
  have hMn : me.n • M = 0 := by
    apply Ecc.mx_none.1
    rw [Ecc.isoU_mul ha hA c.ok.good.b0 hM, hne, hn, Ecc.isoU_zero]
  have hUn : me.n • U = 0 := by
    rcases Ecc.mx_eq c.ok.good.b0 (u1.trans (hM.trans hQ).symm) with h | h
    · rw [h, hMn]
    · rw [h, smul_neg, hMn, neg_zero]
  have hVU : V = U := by
    rw [← sub_eq_zero]
    have k1 : me.n • (V - U) = 0 := by rw [nsmul_sub, u2, hUn, sub_zero]
    have k2 : 4 • (V - U) = 0 := by rw [nsmul_sub, u3, sub_self]
    have hc : Nat.Coprime me.n 4 := by
      have : Nat.Coprime me.n (2 ^ 2) := Nat.Coprime.pow_right 2 (Nat.coprime_two_right.2 (Nat.odd_iff.2 hodd))
      exact this
    have o1 := addOrderOf_dvd_iff_nsmul_eq_zero.2 k1
    have o2 := addOrderOf_dvd_iff_nsmul_eq_zero.2 k2
    have := Nat.eq_one_of_dvd_coprimes hc o1 o2
    exact AddMonoid.addOrderOf_eq_one_iff.1 this
  refine ⟨P, hr ▸ h1, ?_, h5⟩
  apply Ecc.isoU_unique ha (n := ec.n) (hne ▸ hodd) h4 hn
  rw [u4, hVU, u1, hQ]

include ok he in
/-- C84. The key of X448 for a private key is converted to the multiple of the base point, or its negative, whichever has the sign. -/
theorem x448_create_convert {s pub : List Byte} (hs : 56 ≤ s.length) (hc : ecdh_pubkey_create me s = .ok pub) (sign : Option Bool) :
    ∃ P : EPt ec.a ec.d, ecdh_pubkey_convert me pub sign = .ok (edBytes P, true) ∧
      (P = privKey curve_x448 s • G ∨ P = -(privKey curve_x448 s • G)) ∧ (P.x ≠ 0 → CoordSign P.x sign) := by
  have hfs : feSize curve_x448.fe = 56 := by decide +kernel
  obtain ⟨-, -, -, -, -, hne, -⟩ := Ecc.pair_448 ok he
  rw [x448_base ok he hs] at hc
  cases hx : convU curve_ed448 (privKey curve_x448 s • G) with
  | none => rw [hx] at hc; cases hc
  | some x =>
    rw [hx] at hc
    dsimp only at hc
    rw [C.ok.injEq] at hc
    have hl : pub.length = 56 := by rw [← hc, Strm.leBytes_len, hfs]
    apply x448_back ok he hl.ge sign
    · rw [← hne]; exact x448_order ok he s G
    rw [← conv_448, hx, ← hc]
    exact congrArg some (Ecc.pubX_bytes (d := curve_x448) x).symm

include ok he in
/-- C84. The conversion of a key in the subgroup of prime order and back, with the sign of its abscissa. -/
theorem x448_convert_round_trip {u : List Byte} {P : EPt ec.a ec.d} (hn : ec.n • P = 0) (hc : eddsa_pubkey_convert ec (edBytes P) = .ok (u, true)) :
    ecdh_pubkey_convert me u (some (decide (P.x.val % 2 = 1))) = .ok (edBytes P, true) := by
  have hd : curve_ed448 ∈ edDefs := by simp [edDefs]
  have hfs : feSize curve_ed448.fe = 56 := by decide +kernel
  obtain ⟨ha, hA, -, -, -, hne, hodd⟩ := Ecc.pair_448 ok he
  rw [Ecc.conv_pt hd ok, C.ok.injEq, Prod.mk.injEq] at hc
  obtain ⟨hu, hb⟩ := hc
  have hP : P ≠ 0 := by
    rintro rfl
    rw [decide_eq_true (⟨rfl, rfl⟩ : (0 : EPt ec.a ec.d).x = 0 ∧ (0 : EPt ec.a ec.d).y = 1)] at hb
    cases hb
  cases hx : convU curve_ed448 P with
  | none => rw [conv_448] at hx; exact absurd ((Ecc.isoU_none ha (hne ▸ hodd) hn).1 hx) hP
  | some x =>
    rw [hx] at hu
    have hlu : u.length = 56 := by rw [← hu, Ecc.optBytes_len, hfs]
    obtain ⟨Q, q1, q2, q3⟩ := x448_back ok he hlu.ge (some (decide (P.x.val % 2 = 1))) (Q := P) hn (by
      rw [← conv_448, hx, ← hu, Ecc.optBytes_one]
      exact congrArg some (Ecc.pubX_bytes (d := curve_x448) x).symm)
    rw [q1, Ecc.sign_same q2 q3]

end

/-- A key pair for Ed25519 used with X25519: the converted keys belong together, the secret shared with themselves agrees, and the public key
comes back. -/
example [Fact curve_ed25519.fe.p.Prime] (junk : Nat → Byte) : ∃ ec me s pub u sec v r sign, edwards_init curve_ed25519 = .ok ec ∧
    mont_init curve_x25519 = .ok me ∧ eddsa_privkey_convert junk ec (List.replicate 32 7) = .ok s ∧
    eddsa_pubkey_create junk ec (List.replicate 32 7) = .ok pub ∧ eddsa_pubkey_convert ec pub = .ok (u, true) ∧
    ecdh_pubkey_create me s = .ok u ∧ eddsa_derive_with_scalar ec pub s = .ok (sec, r) ∧ ecdh_derive me u s = .ok (v, r) ∧
    eddsa_pubkey_convert ec sec = .ok (v, r) ∧ ecdh_pubkey_convert me u sign = .ok (pub, true) := by
  have hd : curve_ed25519 ∈ edDefs := by simp [edDefs]
  have hl : edLen curve_ed25519.fe = 32 := by decide +kernel
  have hsc : edScLen curve_ed25519 = 32 := by decide +kernel
  obtain ⟨ec, h, _, G, ok⟩ := edwards_init_exact hd
  obtain ⟨me, he⟩ := mont_init_succeeds (List.mem_cons_self : curve_x25519 ∈ montDefs)
  obtain ⟨s, pub, u, h1, h2, h3, h4⟩ := x25519_keys_convert ok he junk (priv := List.replicate 32 7) (by simp)
  obtain ⟨s', -, k1, k2, -, k4⟩ := eddsa_privkey_exact hd ok junk (priv := List.replicate 32 7) (by rw [hl]; simp)
  rw [h1, C.ok.injEq] at k1
  rw [h2, C.ok.injEq] at k4
  have hp : pub.length = 32 := by rw [k4, Ecc.edBytes_len, hl]
  obtain ⟨sec, v, r, f1, f2, f3⟩ := x25519_derive_agrees ok he hp (k1 ▸ k2.trans hsc) h3
  obtain ⟨P, -, g⟩ := x25519_convert_round_trip ok he hp h3
  exact ⟨ec, me, s, pub, u, sec, v, r, _, h, he, h1, h2, h3, h4, f1, f2, f3, g⟩

/-- The base point of Ed448 is converted and comes back. -/
example [Fact curve_ed448.fe.p.Prime] : ∃ (ec : Edwards (ZMod curve_ed448.fe.p)) (_ : EdGood ec.a ec.d) (G : EPt ec.a ec.d) (me : Mont (ZMod curve_x448.fe.p)) (u : List Byte)
    (sign : Option Bool), EdCurve curve_ed448 ec G ∧ mont_init curve_x448 = .ok me ∧ eddsa_pubkey_convert ec (edBytes G) = .ok (u, true) ∧
    ecdh_pubkey_convert me u sign = .ok (edBytes G, true) := by
  have hd : curve_ed448 ∈ edDefs := by simp [edDefs]
  obtain ⟨ec, h, g, G, ok⟩ := edwards_init_exact hd
  obtain ⟨me, he⟩ := mont_init_succeeds (List.mem_cons_of_mem _ List.mem_cons_self : curve_x448 ∈ montDefs)
  have hG : G.x ≠ 0 := by
    have := Ecc.base_448 ok
    intro h
    rw [isoU, if_pos h] at this
    cases this
  have hc := Ecc.conv_pt hd ok G
  rw [decide_eq_false (fun e => hG e.1)] at hc
  exact ⟨ec, g, G, me, _, _, ok, he, hc, x448_convert_round_trip ok he ok.order hc⟩

end Torsion
