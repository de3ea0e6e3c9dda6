import Verif.Ecc.EdHashLemmas
import Verif.Ecc.EddsaKeyProps

/-! # Properties: Elligator 2 on Edwards curves, uniform bytes and hashes as points (C82) -/
namespace Torsion

open Torsion.Spec

section
variable {d : EdwardsDef} (hd : d ∈ edDefs) [Fact d.fe.p.Prime] {ec : Edwards (ZMod d.fe.p)} [g : EdGood ec.a ec.d] {G : EPt ec.a ec.d}
  (ok : EdCurve d ec G)
include hd ok

/-- C82. The element `z` is not a square, as the map needs, and the point of the Edwards curve which corresponds to a point of the Montgomery
curve, and conversely, exists and is unique, except for the neutral elements. -/
theorem edwards_elligator_setting : ¬ IsSquare ec.z ∧
    (∀ u v, v ^ 2 = u ^ 3 + ec.A * u ^ 2 + u → ∃! P : EPt ec.a ec.d, MontOf ec.A ec.c ec.invert P u v) ∧
    ∀ P : EPt ec.a ec.d, P ≠ 0 ↔ ∃! w : ZMod d.fe.p × ZMod d.fe.p, MontOf ec.A ec.c ec.invert P w.1 w.2 := by
  have hi := Ecc.ed_iso ok
  refine ⟨(Ecc.ed_ell hd ok).1.z, fun u v h => ?_, fun P => ⟨fun hP => ?_, fun ⟨w, hw, _⟩ => Ecc.montOf_ne hw⟩⟩
  · obtain ⟨P, hP⟩ := Ecc.montOf_exists hi h
    exact ⟨P, hP, fun Q hQ => Ecc.montOf_inj_pt hi hQ hP⟩
  · obtain ⟨u, v, h⟩ := Ecc.montOf_of hi hP
    refine ⟨(u, v), h, fun w hw => ?_⟩
    obtain ⟨h1, h2⟩ := Ecc.montOf_inj hi hw h
    exact Prod.ext h1 h2

/-- C82. The point of a string of bytes: the image by Elligator 2, and no assertion fails. -/
theorem edwards_from_uniform_exact {bytes : List Byte} (hl : feSize d.fe ≤ bytes.length) :
    ∃ (p : Xge (ZMod d.fe.p)) (P : EPt ec.a ec.d), edwards_point_from_uniform ec bytes = .ok p ∧ Ext p P ∧ P ≠ 0 ∧
      ∀ Q : EPt ec.a ec.d, EdElligator ec.A ec.z ec.c ec.invert (leElem d.fe bytes) Q ↔ Q = P := by
  obtain ⟨p, P, e1, x1, i1⟩ := Ecc.ed_from_uniform_pt hd ok hl
  obtain ⟨x, y, -, hm⟩ := id i1
  exact ⟨p, P, e1, x1, Ecc.montOf_ne hm, fun Q => ⟨fun hq => Ecc.ed_elligator_unique hd ok hq i1, fun h => h ▸ i1⟩⟩

/-- C82. If `edwards_point_to_uniform` succeeds, its bytes are a preimage of the point plus the point of small order that the hint asks for.
On ed1174 this is only so if the abscissa of the sum on the Montgomery curve is neither zero nor `-A`. -/
theorem edwards_to_uniform_sound {p : Xge (ZMod d.fe.p)} {P : EPt ec.a ec.d} (hp : Ext p P) (hint : BitVec 32) :
    ∃ (T : EPt ec.a ec.d) (out : List Byte) (r : Bool), edwards_point_to_uniform ec p hint = .ok (out, r) ∧ out.length = feSize d.fe ∧
      ec.torsion[((hint >>> 4) &&& 15).toNat % ec.h]? = some (xaff T) ∧ ec.h • T = 0 ∧ (r = true → P + T ≠ 0) ∧
      (r = true → (d ≠ curve_ed1174 ∨ ∀ u v, MontOf ec.A ec.c ec.invert (P + T) u v → u ≠ 0 ∧ u ≠ -ec.A) →
        EdElligator ec.A ec.z ec.c ec.invert (leElem d.fe out) (P + T) ∧ ∃ q, edwards_point_from_uniform ec out = .ok q ∧ Ext q (P + T)) := by
  obtain ⟨T, q, out, r, t1, t2, t3, t4, t5, t6⟩ := Ecc.ed_to_uniform_ok hd ok hp hint
  refine ⟨T, out, r, t3, t4, t1, t2, fun hr h0 => ?_, fun hr hex => ?_⟩
  · obtain ⟨u, r', i1, i2, -⟩ := Ecc.ed_inv2_ok hd ok t5 hint.toNat
    rw [t6] at i1
    obtain ⟨-, rfl⟩ := Prod.mk.inj (C.ok.inj i1)
    rw [i2 h0] at hr
    cases hr
  · rw [hr] at t6
    have i := Ecc.ed_to_uniform_sound hd ok t5 t6 (hex.imp_left fun h => Ecc.ed_nonsquare hd ok h)
    obtain ⟨q', Q, e1, x1, i1⟩ := Ecc.ed_from_uniform_pt hd ok t4.ge
    rw [Ecc.ed_elligator_unique hd ok i1 i] at x1
    exact ⟨i, q', e1, x1⟩

/-- C82. Every preimage is found: with one value of the lowest bit of the hint, whatever the other bits. -/
theorem edwards_to_uniform_complete {bytes : List Byte} (hz : 1 + ec.z * leElem d.fe bytes ^ 2 ≠ 0) {P : EPt ec.a ec.d}
    (hP : EdElligator ec.A ec.z ec.c ec.invert (leElem d.fe bytes) P) :
    ∃ bit < 2, ∀ (hint : BitVec 32) (T : EPt ec.a ec.d) (p : Xge (ZMod d.fe.p)), hint.toNat % 2 = bit →
      ec.torsion[((hint >>> 4) &&& 15).toNat % ec.h]? = some (xaff T) → Ext p (P - T) →
      ∃ out, edwards_point_to_uniform ec p hint = .ok (out, true) ∧ leElem d.fe out = leElem d.fe bytes := by
  obtain ⟨x, y, h1, hm⟩ := hP
  obtain ⟨odd, o1, o2, o3⟩ := Ecc.inv_complete (Ecc.ed_ell hd ok).1 h1 hz
  refine ⟨if odd then 1 else 0, by cases odd <;> simp, fun hint T p hb hT hp => ?_⟩
  have hodd : decide (hint.toNat % 2 = 1) = odd := by rw [hb]; cases odd <;> simp
  obtain ⟨T', q, out, r, t1, t2, t3, t4, t5, t6⟩ := Ecc.ed_to_uniform_ok hd ok hp hint
  have : T' = T := Ecc.xaff_inj (Option.some.inj (t1.symm.trans hT))
  subst this
  rw [sub_add_cancel] at t5
  obtain ⟨u, r', i1, -, i3⟩ := Ecc.ed_inv2_ok hd ok t5 hint.toNat
  rw [t6] at i1
  obtain ⟨rfl, rfl⟩ := Prod.mk.inj (C.ok.inj i1)
  obtain ⟨k1, k2, k3⟩ := i3 x y hm
  rw [hodd, o2] at k1 k2
  have hr : r = true := k1.2 ⟨o1, leElem d.fe bytes, pow_two _⟩
  exact ⟨out, by rw [t3, hr], o3 _ (k2 hr) k3⟩

/-- C82. The point of two strings of bytes is the sum of the two points. -/
theorem edwards_from_hash_exact {bytes : List Byte} (hl : 2 * feSize d.fe ≤ bytes.length) :
    ∃ (p : Xge (ZMod d.fe.p)) (P1 P2 : EPt ec.a ec.d), EdElligator ec.A ec.z ec.c ec.invert (leElem d.fe bytes) P1 ∧
      EdElligator ec.A ec.z ec.c ec.invert (leElem d.fe (bytes.drop (feSize d.fe))) P2 ∧
      edwards_point_from_hash ec bytes = .ok p ∧ Ext p (P1 + P2) := Ecc.ed_from_hash_pt hd ok hl

/-- C82. On ed25519 and ed448, `edwards_point_to_hash` never makes bytes of another point, if the abscissa of the first point it draws is
not zero. -/
theorem edwards_to_hash_sound (hne : d ≠ curve_ed1174) {S : Type} (rng : Source S) (fuel : Nat) {p : Xge (ZMod d.fe.p)} {P : EPt ec.a ec.d}
    (hp : Ext p P) (subgroup : BitVec 32) (entropy : List Byte)
    (hx : ∀ p1, edwards_point_from_uniform ec (rng.gen (rng.init entropy) (feSize d.fe)).1 = .ok p1 → p1.x ≠ 0) :
    ∃ T : EPt ec.a ec.d, ec.torsion[(subgroup &&& 15).toNat % ec.h]? = some (xaff T) ∧
      (edwards_point_to_hash rng fuel ec p subgroup entropy = .spin ∨
        ∃ out q, edwards_point_to_hash rng fuel ec p subgroup entropy = .ok out ∧ out.length = 2 * feSize d.fe ∧
          edwards_point_from_hash ec out = .ok q ∧ Ext q (P + T)) := by
  obtain ⟨i, hi, hh⟩ := Ecc.edDefs_h d hd
  obtain ⟨T, t1, -, -⟩ := Ecc.ed_tor_get ok (by rw [ok.hval, hh]; positivity) (subgroup &&& 15).toNat
  exact ⟨T, t1, Ecc.ed_to_hash_loop hd ok (Ecc.ed_nonsquare hd ok hne) rng.toByteGen hp T subgroup t1 fuel none 0 _ (Or.inr ⟨rfl, hx⟩)⟩

omit g ok hd in
/-- C82. Otherwise it reads a variable that is not initialized: `continue` in a `do … while` goes to the condition. -/
theorem edwards_to_hash_undefined {S : Type} (rng : Source S) (fuel : Nat) (p : Xge (ZMod d.fe.p)) (subgroup : BitVec 32) (entropy : List Byte)
    (p1 : Xge (ZMod d.fe.p)) (h1 : edwards_point_from_uniform ec (rng.gen (rng.init entropy) (feSize d.fe)).1 = .ok p1) (hx : p1.x = 0) :
    edwards_point_to_hash rng (fuel + 1) ec p subgroup entropy = .ub := Ecc.ed_to_hash_ub rng.toByteGen ec p p1 _ _ _ _ h1 hx

/-- C82. That happens on ed25519 and ed448 if the first output of the generator is zero. -/
theorem edwards_to_hash_undefined_happens (hne : d ≠ curve_ed1174) {S : Type} (rng : Source S) (fuel : Nat) (p : Xge (ZMod d.fe.p))
    (subgroup : BitVec 32) (entropy : List Byte)
    (h0 : (rng.gen (rng.init entropy) (feSize d.fe)).1 = List.replicate (feSize d.fe) 0) :
    edwards_point_to_hash rng (fuel + 1) ec p subgroup entropy = .ub := by
  obtain ⟨p1, P, e1, x1, i1⟩ := Ecc.ed_from_uniform_pt hd ok (bytes := List.replicate (feSize d.fe) 0) (by simp)
  refine edwards_to_hash_undefined rng fuel p subgroup entropy p1 (by rw [h0]; exact e1) ?_
  rw [Ecc.leElem_zero] at i1
  obtain ⟨x, y, q1, q2⟩ := i1
  have h1 : elligX1 ec.A ec.z 0 = -ec.A := by simp [elligX1]
  have hsec := q1.second
  rw [h1] at hsec
  have hx : x = 0 := by
    rw [hsec (by rw [show (-ec.A) ^ 3 + ec.A * (-ec.A) ^ 2 + -ec.A = -ec.A by ring]; exact Ecc.ed_nonsquare hd ok hne)]
    ring
  rw [x1.x, (Ecc.montOf_x0 q2 hx).1, zero_mul]

/-! ### The interface for EdDSA -/

/-- C82. The public key of a string of bytes. -/
theorem eddsa_from_uniform_exact {bytes : List Byte} (hl : feSize d.fe ≤ bytes.length) :
    ∃ P : EPt ec.a ec.d, EdElligator ec.A ec.z ec.c ec.invert (leElem d.fe bytes) P ∧ eddsa_pubkey_from_uniform ec bytes = .ok (edBytes P) := by
  obtain ⟨p, P, e1, x1, i1⟩ := Ecc.ed_from_uniform_pt hd ok hl
  refine ⟨P, i1, ?_⟩
  unfold eddsa_pubkey_from_uniform
  rw [e1, C.ok_bind, Ecc.xexport x1]

/-- C82. If `eddsa_pubkey_to_uniform` succeeds, the key is valid and `eddsa_pubkey_from_uniform` makes the key of the point plus the point of
small order, on ed25519 and ed448. -/
theorem eddsa_to_uniform_sound (hne : d ≠ curve_ed1174) {pub : List Byte} (hl : pub.length = edLen d.fe) (hint : BitVec 32) :
    ∃ out r, eddsa_pubkey_to_uniform ec pub hint = .ok (out, r) ∧ out.length = feSize d.fe ∧
      (r = true → ∃ P T : EPt ec.a ec.d, pub = edBytes P ∧ ec.torsion[((hint >>> 4) &&& 15).toNat % ec.h]? = some (xaff T) ∧
        eddsa_pubkey_from_uniform ec out = .ok (edBytes (P + T))) := by
  obtain ⟨Q, b, e1, e2, -⟩ := Ecc.ximport (Ecc.edDefs_fe d hd) ok.const hl.ge
  rw [List.take_of_length_le hl.le] at e2
  obtain ⟨T, out, r, t1, t2, t3, -, -, t6⟩ := edwards_to_uniform_sound hd ok (Ecc.ext_aff Q) hint
  unfold eddsa_pubkey_to_uniform
  rw [e1, C.ok_bind]
  dsimp only
  rw [t1, C.ok_bind]
  refine ⟨_, _, rfl, t2, fun h => ?_⟩
  rw [Bool.and_eq_true] at h
  obtain ⟨-, q, q1, q2⟩ := t6 h.2 (Or.inl hne)
  refine ⟨Q, T, e2.1 h.1, t3, ?_⟩
  unfold eddsa_pubkey_from_uniform
  rw [q1, C.ok_bind, Ecc.xexport q2]

/-- C82. The public key of two strings of bytes; multiplied by the cofactor if that is asked for. -/
theorem eddsa_from_hash_exact {bytes : List Byte} (hl : 2 * feSize d.fe ≤ bytes.length) (pake : Bool) :
    ∃ P1 P2 : EPt ec.a ec.d, EdElligator ec.A ec.z ec.c ec.invert (leElem d.fe bytes) P1 ∧
      EdElligator ec.A ec.z ec.c ec.invert (leElem d.fe (bytes.drop (feSize d.fe))) P2 ∧
      eddsa_pubkey_from_hash ec bytes pake = .ok (edBytes ((if pake then ec.h else 1) • (P1 + P2))) := by
  obtain ⟨p, P1, P2, i1, i2, e1, x1⟩ := Ecc.ed_from_hash_pt hd ok hl
  refine ⟨P1, P2, i1, i2, ?_⟩
  unfold eddsa_pubkey_from_hash
  rw [e1, C.ok_bind]
  cases pake with
  | false => rw [if_neg (by simp), C.ok_bind, if_neg (by simp), one_nsmul]; exact Ecc.xexport x1
  | true =>
    obtain ⟨i, hi, hh⟩ := Ecc.edDefs_h d hd
    obtain ⟨q, q1, q2⟩ := Ecc.xmulh (ec := ec) (m := i) hi (by rw [ok.hval, hh]) x1
    rw [if_pos rfl, q1, C.ok_bind, if_pos rfl]; exact Ecc.xexport q2

/-- C82. If `eddsa_pubkey_to_hash` ends with success, `eddsa_pubkey_from_hash` makes the key of the point plus the point of small order, on
ed25519 and ed448. -/
theorem eddsa_to_hash_sound (hne : d ≠ curve_ed1174) {S : Type} (rng : Source S) (fuel : Nat) {pub : List Byte} (hl : pub.length = edLen d.fe)
    (subgroup : BitVec 32) (entropy : List Byte)
    (hx : ∀ p1, edwards_point_from_uniform ec (rng.gen (rng.init entropy) (feSize d.fe)).1 = .ok p1 → p1.x ≠ 0) :
    eddsa_pubkey_to_hash rng fuel ec pub subgroup entropy = .spin ∨
    ∃ out r, eddsa_pubkey_to_hash rng fuel ec pub subgroup entropy = .ok (out, r) ∧ out.length = 2 * feSize d.fe ∧
      (r = true ↔ ∃ P : EPt ec.a ec.d, pub = edBytes P) ∧
      (r = true → ∃ P T : EPt ec.a ec.d, pub = edBytes P ∧ ec.torsion[(subgroup &&& 15).toNat % ec.h]? = some (xaff T) ∧
        eddsa_pubkey_from_hash ec out false = .ok (edBytes (P + T))) := by
  obtain ⟨Q, b, e1, e2, e3⟩ := Ecc.ximport (Ecc.edDefs_fe d hd) ok.const hl.ge
  rw [List.take_of_length_le hl.le] at e2 e3
  obtain ⟨T, t1, ht⟩ := edwards_to_hash_sound hd ok hne rng fuel (Ecc.ext_aff Q) subgroup entropy hx
  unfold eddsa_pubkey_to_hash
  rw [e1, R.lift_ok, R.ok_bind]
  dsimp only
  rcases ht with ht | ⟨out, q, o1, o2, o3, o4⟩
  · rw [ht]; exact Or.inl rfl
  · rw [o1, R.ok_bind]
    refine Or.inr ⟨_, _, rfl, o2, ⟨fun h => ⟨Q, e2.1 h⟩, fun ⟨P, hP⟩ => e2.2 (by rw [hP, e3 P hP])⟩, fun h => ⟨Q, T, e2.1 h, t1, ?_⟩⟩
    unfold eddsa_pubkey_from_hash
    rw [o3, C.ok_bind, if_neg (by simp), C.ok_bind]; exact Ecc.xexport o4

end

/-- C82. The exception on ed1174 is real: there is a valid public key for which `eddsa_pubkey_to_uniform` reports success, but its output is
not a preimage: `eddsa_pubkey_from_uniform` makes another key of it, whichever point of small order the hint may mean. -/
theorem eddsa_to_uniform_wrong_ed1174 [Fact curve_ed1174.fe.p.Prime] {ec : Edwards (ZMod curve_ed1174.fe.p)} [g : EdGood ec.a ec.d]
    {G : EPt ec.a ec.d} (ok : EdCurve curve_ed1174 ec G) :
    ∃ (P Q : EPt ec.a ec.d) (out : List Byte), eddsa_pubkey_to_uniform ec (edBytes P) 1 = .ok (out, true) ∧
      eddsa_pubkey_from_uniform ec out = .ok (edBytes Q) ∧
      ∀ T : EPt ec.a ec.d, ec.torsion[(((1 : BitVec 32) >>> 4) &&& 15).toNat % ec.h]? = some (xaff T) → Q ≠ P + T := by
  have hd : curve_ed1174 ∈ edDefs := by simp [edDefs]
  obtain ⟨c, -⟩ := Ecc.ed_ell hd ok
  obtain ⟨i, hi, hh⟩ := Ecc.edDefs_h curve_ed1174 hd
  obtain ⟨T, t1, -, -⟩ := Ecc.ed_tor_get ok (by rw [ok.hval, hh]; positivity) (((1 : BitVec 32) >>> 4) &&& 15).toNat
  let N : EPt ec.a ec.d := ⟨0, -1, by ring⟩
  have hN : MontOf ec.A ec.c ec.invert N 0 0 := ⟨by ring, by show 0 * (1 - (-1)) = _ * (1 + -1); ring, by ring⟩
  obtain ⟨T', q, out, r, u1, u2, u3, u4, u5, u6⟩ := Ecc.ed_to_uniform_ok hd ok (Ecc.ext_aff (N - T)) 1
  have : T' = T := Ecc.xaff_inj (Option.some.inj (u1.symm.trans t1))
  subst this
  rw [sub_add_cancel] at u5
  obtain ⟨u, r', i1, -, i3⟩ := Ecc.ed_inv2_ok hd ok u5 (1 : BitVec 32).toNat
  rw [u6] at i1
  obtain ⟨rfl, rfl⟩ := Prod.mk.inj (C.ok.inj i1)
  obtain ⟨k1, k2, k3⟩ := i3 0 0 hN
  have hb : decide ((1 : BitVec 32).toNat % 2 = 1) = true := by decide
  have hv : Ecc.invU2 ec.A ec.z 0 true = 0 := by simp [Ecc.invU2]
  rw [hb, hv] at k1 k2
  have hr : r = true := k1.2 ⟨by rw [if_pos rfl, zero_add]; exact mul_ne_zero c.a c.z0, 0, by ring⟩
  have hu : leElem curve_ed1174.fe out = 0 := pow_eq_zero_iff (two_ne_zero) |>.1 (k2 hr)
  obtain ⟨Q, q1, q2⟩ := eddsa_from_uniform_exact hd ok u4.ge
  refine ⟨N - T', Q, out, ?_, q2, fun T'' h => ?_⟩
  · unfold eddsa_pubkey_to_uniform
    have := Ecc.ximport_bytes (Ecc.edDefs_fe _ hd) ok.const (N - T') []
    rw [List.append_nil] at this
    rw [this, C.ok_bind]
    dsimp only
    rw [u3, C.ok_bind, hr, C.pure_eq]
    rfl
  · have : T'' = T' := Ecc.xaff_inj (Option.some.inj (h.symm.trans t1))
    subst this
    rw [sub_add_cancel]
    rintro rfl
    rw [hu] at q1
    obtain ⟨x, y, e1, e2⟩ := q1
    obtain ⟨rfl, rfl⟩ := Ecc.montOf_inj (Ecc.ed_iso ok) e2 hN
    have h1 : elligX1 ec.A ec.z 0 = -ec.A := by simp [elligX1]
    have hf := e1.first
    rw [h1] at hf
    have := hf (by rw [show (-ec.A) ^ 3 + ec.A * (-ec.A) ^ 2 + -ec.A = -ec.A by ring]; exact Ecc.ed1174_square ok)
    exact c.a (neg_eq_zero.1 this.symm)

/-- The hypotheses are met, for all curves: the bytes of the number one, the point they stand for, and the generator. -/
example : ∀ d ∈ edDefs, ∃ (_ : Fact d.fe.p.Prime) (ec : Edwards (ZMod d.fe.p)) (_ : EdGood ec.a ec.d) (G : EPt ec.a ec.d),
    edwards_init d = .ok ec ∧ EdCurve d ec G ∧ (∃ out r, edwards_point_to_uniform ec (xaff G) 0 = .ok (out, r)) ∧
    ∃ Q : EPt ec.a ec.d, EdElligator ec.A ec.z ec.c ec.invert (leElem d.fe (leBytes (feSize d.fe) 1)) Q ∧
      eddsa_pubkey_from_uniform ec (leBytes (feSize d.fe) 1) = .ok (edBytes Q) := by
  intro d hd
  have := Ecc.edDefs_prime hd
  obtain ⟨ec, he, g, G, ok⟩ := edwards_init_exact hd
  obtain ⟨T, out, r, t1, -⟩ := edwards_to_uniform_sound hd ok (Ecc.ext_aff G) 0
  exact ⟨inferInstance, ec, g, G, he, ok, ⟨out, r, t1⟩, eddsa_from_uniform_exact hd ok (Strm.leBytes_len _ _).ge⟩

end Torsion
