import Verif.Ecc.EcdhProps

/-!
# Elligator 2: uniform bytes and hashes as points of a Montgomery curve
-/
namespace Torsion

open Torsion.Spec (MPt montAffine montX MontXZ beVal leVal leBytes pubX uBytes Elligator)
open Torsion.Ecc

section
variable {d : MontDef} (hd : d ∈ montDefs) [Fact d.fe.p.Prime] {ec : Mont (ZMod d.fe.p)} (he : mont_init d = .ok ec)
include hd he

/-- The element `z` is not a square, as the map needs. -/
theorem elligator_nonsquare : ¬ IsSquare ec.z := (ellig_facts hd (mont_ctx_of hd he)).1

/-- The point of a string of bytes: the image by Elligator 2, and no assertion fails. -/
theorem mont_from_uniform_exact {bytes : List Byte} (hl : feSize d.fe ≤ bytes.length) :
    ∃ P : MPt ec.a ec.b, mont_point_from_uniform ec bytes = .ok (montAffine P) ∧ P ≠ 0 ∧
      ∀ Q : MPt ec.a ec.b, Elligator ec.z (pubX d bytes) Q ↔ Q = P := by
  have c := mont_ctx_of hd he
  obtain ⟨x, y, e1, i1⟩ := ellig_ok hd c (pubX d bytes)
  obtain ⟨P, p1, p2, p3⟩ := point_eim c i1
  refine ⟨P, by rw [from_uniform_ok hd c hl, e1, p1], p2, fun Q => ⟨fun hq => ?_, fun h => h ▸ p3⟩⟩
  obtain ⟨x', y', q1, q2⟩ := eim_point c hq
  obtain ⟨rfl, rfl⟩ := eim_unique c i1 q2
  exact m_aff_inj c.ok.good.b0 (q1.trans p1.symm)

/-- If `mont_point_to_uniform` succeeds, `mont_point_from_uniform` gives the point back, plus the point of small order that the hint asks for. -/
theorem mont_to_uniform_sound (P : MPt ec.a ec.b) (hint : BitVec 32) :
    ∃ (T : MPt ec.a ec.b) (out : List Byte) (r : Bool), mont_point_to_uniform ec (montAffine P) hint = .ok (out, r) ∧ out.length = feSize d.fe ∧
      ec.torsion[((hint >>> 4) &&& 15).toNat % ec.h]? = some (montAffine T) ∧ ec.h • T = 0 ∧
      (r = true → mont_point_from_uniform ec out = .ok (montAffine (P + T))) := by
  obtain ⟨T, out, r, t1, t2, t3, t4, -, t6, -⟩ := to_uniform_ok hd (mont_ctx_of hd he) P hint
  exact ⟨T, out, r, t3, t4, t1, t2, t6⟩

/-- Every preimage is found: with one value of the lowest bit of the hint, whatever the other bits. -/
theorem mont_to_uniform_complete {bytes : List Byte} (hz : 1 + ec.z * pubX d bytes ^ 2 ≠ 0) {P : MPt ec.a ec.b} (hP : Elligator ec.z (pubX d bytes) P) :
    ∃ bit < 2, ∀ (hint : BitVec 32) (T : MPt ec.a ec.b), hint.toNat % 2 = bit → ec.torsion[((hint >>> 4) &&& 15).toNat % ec.h]? = some (montAffine T) →
      ∃ out, mont_point_to_uniform ec (montAffine (P - T)) hint = .ok (out, true) ∧ pubX d out = pubX d bytes := by
  have c := mont_ctx_of hd he
  obtain ⟨x, y, p1, p2⟩ := eim_point c hP
  obtain ⟨bit, b1, b2⟩ := invert2_complete hd c p2 hz
  refine ⟨bit, b1, fun hint T hb hT => ?_⟩
  obtain ⟨T', out, r, t1, t2, t3, t4, -, -, t7⟩ := to_uniform_ok hd c (P - T) hint
  have : T' = T := m_aff_inj c.ok.good.b0 (Option.some.inj (t1.symm.trans hT))
  subst this
  have h := t7 x y (by rw [sub_add_cancel, p1])
  rw [b2 _ hb] at h
  obtain ⟨h1, rfl⟩ := Prod.mk.inj (C.ok.inj h)
  exact ⟨out, t3, h1.symm⟩

/-- The point of two strings of bytes is the sum of the two points. -/
theorem mont_from_hash_exact {bytes : List Byte} (hl : 2 * feSize d.fe ≤ bytes.length) :
    ∃ P1 P2 : MPt ec.a ec.b, Elligator ec.z (pubX d bytes) P1 ∧ Elligator ec.z (pubX d (bytes.drop (feSize d.fe))) P2 ∧
      mont_point_from_hash ec bytes = .ok (montAffine (P1 + P2)) := by
  obtain ⟨P1, P2, h1, h2, -, -, h5⟩ := from_hash_ok hd (mont_ctx_of hd he) hl
  exact ⟨P1, P2, h1, h2, h5⟩

/-- `mont_point_to_hash` never makes bytes of another point, if the ordinate of the first point it draws is not zero. -/
theorem mont_to_hash_sound {S : Type} (rng : Source S) (fuel : Nat) (P : MPt ec.a ec.b) (subgroup : BitVec 32) (entropy : List Byte)
    (hy : ∀ p1, mont_point_from_uniform ec (rng.gen (rng.init entropy) (feSize d.fe)).1 = .ok p1 → p1.y ≠ 0) :
    ∃ T : MPt ec.a ec.b, ec.torsion[(subgroup &&& 15).toNat % ec.h]? = some (montAffine T) ∧
      (mont_point_to_hash rng fuel ec (montAffine P) subgroup entropy = .spin ∨
        ∃ out, mont_point_to_hash rng fuel ec (montAffine P) subgroup entropy = .ok out ∧ out.length = 2 * feSize d.fe ∧
          mont_point_from_hash ec out = .ok (montAffine (P + T))) := by
  have c := mont_ctx_of hd he
  obtain ⟨T, t1, -, -⟩ := tor_get hd c (subgroup &&& 15).toNat
  exact ⟨T, t1, to_hash_loop hd c rng.toByteGen P T subgroup t1 fuel none 0 _ (Or.inr ⟨rfl, hy⟩)⟩

/-- Otherwise it reads a variable that is not initialized: `continue` in a `do … while` goes to the condition. -/
theorem mont_to_hash_undefined {S : Type} (rng : Source S) (fuel : Nat) (p : Mge (ZMod d.fe.p)) (subgroup : BitVec 32) (entropy : List Byte)
    (p1 : Mge (ZMod d.fe.p)) (h1 : mont_point_from_uniform ec (rng.gen (rng.init entropy) (feSize d.fe)).1 = .ok p1) (hy : p1.y = 0) :
    mont_point_to_hash rng (fuel + 1) ec p subgroup entropy = .ub := to_hash_ub rng.toByteGen ec p p1 _ _ _ _ h1 hy

/-- That happens: if the first output of the generator is zero. -/
theorem mont_to_hash_undefined_happens {S : Type} (rng : Source S) (fuel : Nat) (p : Mge (ZMod d.fe.p)) (subgroup : BitVec 32) (entropy : List Byte)
    (h0 : (rng.gen (rng.init entropy) (feSize d.fe)).1 = List.replicate (feSize d.fe) 0) :
    mont_point_to_hash rng (fuel + 1) ec p subgroup entropy = .ub := by
  have c := mont_ctx_of hd he
  obtain ⟨P, e1, -, e3⟩ := mont_from_uniform_exact hd he (bytes := List.replicate (feSize d.fe) 0) (by simp)
  refine mont_to_hash_undefined hd he rng fuel p subgroup entropy _ (by rw [h0]; exact e1) ?_
  have hE := (e3 P).2 rfl
  have hx : pubX d (List.replicate (feSize d.fe) 0) = 0 := by
    rw [pubX, List.take_of_length_le (by simp), ← leBytes_zero, Strm.leVal_leBytes]; simp
  rw [hx] at hE
  obtain ⟨x, y, p1, p2⟩ := eim_point c hE
  have h1 : Spec.elligX1 ec.a ec.z 0 = -ec.a := by simp [Spec.elligX1]
  have hns : ¬ IsSquare (-ec.a) := (ellig_facts hd c).2.1
  have hsec := p2.second
  rw [h1] at hsec
  have : x = 0 := by
    rw [hsec (by rw [show (-ec.a) ^ 3 + ec.a * (-ec.a) ^ 2 + -ec.a = -ec.a by ring]; exact hns)]
    ring
  have he := p2.eqn
  rw [this] at he
  rw [p1]
  exact pow_eq_zero_iff (two_ne_zero) |>.1 (he.trans (by ring))

/-! ### The interface for ECDH -/

theorem ecdh_from_uniform_exact {bytes : List Byte} (hl : feSize d.fe ≤ bytes.length) :
    ∃ P : MPt ec.a ec.b, Elligator ec.z (pubX d bytes) P ∧ ecdh_pubkey_from_uniform ec bytes = .ok (uBytes d P).1 := by
  obtain ⟨P, e1, e2, e3⟩ := mont_from_uniform_exact hd he hl
  refine ⟨P, (e3 P).2 rfl, ?_⟩
  unfold ecdh_pubkey_from_uniform
  rw [e1, C.ok_bind]
  rcases P with _ | ⟨x, y, hp⟩
  · exact absurd rfl e2
  · rw [m_aff_some]; rfl

/-- If it succeeds, `ecdh_pubkey_from_uniform` makes the public key of the point plus the point of small order. -/
theorem ecdh_to_uniform_sound {pub : List Byte} (hl : feSize d.fe ≤ pub.length) (hint : BitVec 32) :
    ∃ out r, ecdh_pubkey_to_uniform ec pub hint = .ok (out, r) ∧ out.length = feSize d.fe ∧
      (r = true → ∃ P T : MPt ec.a ec.b, montX P = some (pubX d pub) ∧ ec.torsion[((hint >>> 4) &&& 15).toNat % ec.h]? = some (montAffine T) ∧
        ecdh_pubkey_from_uniform ec out = .ok (uBytes d (P + T)).1) := by
  have c := mont_ctx_of hd he
  obtain ⟨Q, r, e1, e2, -, -⟩ := mont_set_x_iff hd c (pubX d pub) none
  obtain ⟨T, out, r', t1, t2, t3, t4, t5, t6, -⟩ := to_uniform_ok hd c Q hint
  unfold ecdh_pubkey_to_uniform
  rw [mont_import_ok hd c hl, e1, C.ok_bind]
  dsimp only
  rw [t3, C.ok_bind]
  refine ⟨_, _, rfl, t4, fun h => ?_⟩
  rw [Bool.and_eq_true] at h
  refine ⟨Q, T, (e2 h.1).1, t1, ?_⟩
  unfold ecdh_pubkey_from_uniform
  rw [t6 h.2, C.ok_bind]
  have hne : Q + T ≠ 0 := fun h0 => absurd ((t5 h0).symm.trans h.2) (by simp)
  rcases hq : Q + T with _ | ⟨x, y, hp⟩
  · exact absurd hq hne
  · rw [m_aff_some]; rfl

/-- The public key of two strings of bytes; multiplied by the cofactor if that is asked for. The result is a failure if the point is infinity. -/
theorem ecdh_from_hash_exact {bytes : List Byte} (hl : 2 * feSize d.fe ≤ bytes.length) (pake : Bool) :
    ∃ P1 P2 : MPt ec.a ec.b, Elligator ec.z (pubX d bytes) P1 ∧ Elligator ec.z (pubX d (bytes.drop (feSize d.fe))) P2 ∧
      ecdh_pubkey_from_hash ec bytes pake = .ok (uBytes d ((if pake then ec.h else 1) • (P1 + P2))) := by
  have c := mont_ctx_of hd he
  obtain ⟨P1, P2, h1, h2, h3⟩ := mont_from_hash_exact hd he hl
  refine ⟨P1, P2, h1, h2, ?_⟩
  unfold ecdh_pubkey_from_hash
  rw [h3, C.ok_bind]
  dsimp only
  have hx := pge_set_mge_xz (P1 + P2)
  cases pake with
  | false =>
    rw [if_neg (by simp), C.ok_bind, if_neg (by simp), one_nsmul, C.pure_eq, export_uBytes hx]
  | true =>
    obtain ⟨j, hj, hh, -⟩ := hpow hd
    rw [← c.h] at hh
    obtain ⟨q, q1, q2⟩ := pge_mulh_xz c.ok c.ok.good.b0 (by omega) hh hx
    rw [if_pos rfl, q1, C.ok_bind, if_pos rfl, C.pure_eq, export_uBytes q2]

/-- If `ecdh_pubkey_to_hash` ends with success, `ecdh_pubkey_from_hash` makes the public key of the point plus the point of small order. -/
theorem ecdh_to_hash_sound {S : Type} (rng : Source S) (fuel : Nat) {pub : List Byte} (hl : feSize d.fe ≤ pub.length) (subgroup : BitVec 32)
    (entropy : List Byte) (hy : ∀ p1, mont_point_from_uniform ec (rng.gen (rng.init entropy) (feSize d.fe)).1 = .ok p1 → p1.y ≠ 0) :
    ecdh_pubkey_to_hash rng fuel ec pub subgroup entropy = .spin ∨
    ∃ out r, ecdh_pubkey_to_hash rng fuel ec pub subgroup entropy = .ok (out, r) ∧ out.length = 2 * feSize d.fe ∧
      (r = true ↔ ∃ P : MPt ec.a ec.b, montX P = some (pubX d pub)) ∧
      (r = true → ∃ P T : MPt ec.a ec.b, montX P = some (pubX d pub) ∧ ec.torsion[(subgroup &&& 15).toNat % ec.h]? = some (montAffine T) ∧
        ecdh_pubkey_from_hash ec out false = .ok (uBytes d (P + T))) := by
  have c := mont_ctx_of hd he
  obtain ⟨Q, r, e1, e2, -, e4⟩ := mont_set_x_iff hd c (pubX d pub) none
  obtain ⟨T, t1, ht⟩ := mont_to_hash_sound hd he rng fuel Q subgroup entropy hy
  unfold ecdh_pubkey_to_hash
  rw [mont_import_ok hd c hl, e1, R.lift_ok, R.ok_bind]
  dsimp only
  rcases ht with ht | ⟨out, o1, o2, o3⟩
  · rw [ht]; exact Or.inl rfl
  · rw [o1, R.ok_bind]
    refine Or.inr ⟨_, _, rfl, o2, e4.trans (by simp [Spec.HasSign]), fun h => ⟨Q, T, (e2 h).1, t1, ?_⟩⟩
    unfold ecdh_pubkey_from_hash
    rw [o3, C.ok_bind]
    dsimp only
    rw [if_neg (by simp), C.ok_bind, C.pure_eq, export_uBytes (pge_set_mge_xz (Q + T))]

end

/-- The hypotheses are met, for both curves: the base point, the bytes of its abscissa, and a generator that starts with a one, which
is not the case of the undefined behaviour. -/
example : ∀ d ∈ montDefs, ∃ (_ : Fact d.fe.p.Prime) (ec : Mont (ZMod d.fe.p)) (P : MPt ec.a ec.b) (out : List Byte) (r : Bool),
    mont_init d = .ok ec ∧ montAffine P = ec.g ∧ mont_point_to_uniform ec (montAffine P) 0 = .ok (out, r) ∧
    ∃ Q : MPt ec.a ec.b, Elligator ec.z (pubX d (leBytes (feSize d.fe) 1)) Q ∧
      ecdh_pubkey_from_uniform ec (leBytes (feSize d.fe) 1) = .ok (uBytes d Q).1 := by
  intro d hd
  haveI := montDefs_prime hd
  obtain ⟨ec, he⟩ := mont_init_succeeds hd
  obtain ⟨-, -, -, -, -, -, G, g1, -, -⟩ := mont_curve_exact hd he
  obtain ⟨T, out, r, t1, -⟩ := mont_to_uniform_sound hd he G 0
  exact ⟨inferInstance, ec, G, out, r, he, g1, t1, ecdh_from_uniform_exact hd he (Strm.leBytes_len _ _).ge⟩

end Torsion
