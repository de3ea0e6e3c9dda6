import Verif.Ecc.WeiHashLemmas

/-!
# Uniform bytes and hashes as points and keys of the short Weierstrass curves (C87)
-/
namespace Torsion

open Spec Ecc
open WeierstrassCurve.Affine (Point)

set_option exponentiation.threshold 600

set_option maxRecDepth 100000 in
/-- C87. The setting: every curve of the library with a map, and the constants of its map, are what the theorems need. -/
theorem wei_map_setting : ∀ de ∈ weiMapDefs, ∃ hd : de.1 ∈ weiDefs, letI := Fact.mk (weiDefs_field_prime hd)
    ∃ ec, wei_curve de.1 = .ok ec ∧ ec.toCurve = defCurve de.1 ∧ (∃ G : Pt ec.toCurve, EcOk ec G) ∧ MapC ec (wei_map_init ec de.2) := by
  have key : ∀ d ∈ weiDefs, ∀ e : WeiMapDef, (∃ x w, sswuCert d e.z x w = true ∨ svdwCert d e x w = true) →
      ∃ hd : d ∈ weiDefs, letI := Fact.mk (weiDefs_field_prime hd)
      ∃ ec, wei_curve d = .ok ec ∧ ec.toCurve = defCurve d ∧ (∃ G : Pt ec.toCurve, EcOk ec G) ∧ MapC ec (wei_map_init ec e) := by
    rintro d hd e ⟨x, w, h⟩
    have := Fact.mk (weiDefs_field_prime hd)
    obtain ⟨ec, h1, -, h3, G, -, h5⟩ := wei_curve_exact hd
    refine ⟨hd, ec, h1, h3, ⟨G, h5⟩, ?_⟩
    rcases h with h | h
    · exact sswu_mapC h3 h
    · exact svdw_mapC h3 h
  intro de hde
  simp only [weiMapDefs, List.mem_cons, List.not_mem_nil, or_false] at hde
  rcases hde with rfl | rfl | rfl | rfl | rfl | rfl
  · exact key _ (by simp [weiDefs]) _ ⟨0x6acde34ed2c91207882a92d90248bc0aa94dba96237ea3f, 0xcb6ab1bfc5ead8a7e8b98eb0300213921968efa70351e0b4,
      Or.inl (by decide +kernel)⟩
  · exact key _ (by simp [weiDefs]) _ ⟨0x3a9f9a0994841416ecd8c2e64c3650adf56c0b6edbcb9407894123ca, 0x5dd49ed944d561c7fd1918b9c9be917190b21726210ec8ad6313cd9c,
      Or.inl (by decide +kernel)⟩
  · exact key _ (by simp [weiDefs]) _ ⟨0xa528bd8696bdaf996c65b982d94959d3146fe6a020693090bdba13132375f224,
      0xe5fb73d16791ce358fb5adb2d33668a3b24099fd8d401f6685e0e994fb4d756, Or.inl (by decide +kernel)⟩
  · exact key _ (by simp [weiDefs]) _ ⟨0x533324e11b9e311baee780268d718f799600d2914e2e41ceb8f97203fb1cfca5c58265272e814cef084ad3ce05e30131,
      0xf409ff49f8f12c68e973c9b47a385ac1cd9bb39c9a6f4c77137597adac5618d1b0be26d5f19a079aaac7bf09e36a5463, Or.inl (by decide +kernel)⟩
  · exact key _ (by simp [weiDefs]) _ ⟨0xb1771a8f72cbd7b782a18cd822b9e07013e2e78987a22441d44f6460cc213ec0d2c72cc4c6d3b536f4ec86e5651a4ecfeb447452a0afc3af142945c2a708f15a95,
      0x1386c4faab4b9b73ecf30fe24c43a7626603ea9ac33ef6a2456332501e77d10f589f08f8a82959f40b2dd9132b2f24046121095b8eb1b71bd9749bd5aed3e0a14f5,
      Or.inl (by decide +kernel)⟩
  · exact key _ (by simp [weiDefs]) _ ⟨0x851695d49a83f8ef919bb86153cbcb16630fb68aed0a766a3ec693d68e6afa40,
      0x4218f20ae6c646b363db68605822fb14264ca8d2587fdd6fbc750d587e76a7ee, Or.inr (by decide +kernel)⟩

section
variable {fe : FieldCode} [Fact fe.p.Prime] {ec : WeiT fe} {G : Pt ec.toCurve} {m : WeiMap (ZMod fe.p)} (ok : EcOk ec G) (mc : MapC ec m)
include ok mc

/-- C87. Every number has exactly one point. -/
theorem wei_mapped_total (u : ZMod fe.p) : ∃! P : Pt ec.toCurve, WeiMapped m.c m.z u P := by
  obtain ⟨P, -, h⟩ := wei_map_ok ok mc u
  exact ⟨P, h, fun Q hQ => mapped_unique ok hQ h⟩

/-- C87. The point of a string of bytes is the image of its number, and no assertion fails. -/
theorem wei_from_uniform_exact {bytes : List Byte} (hl : feSize fe ≤ bytes.length) :
    (∃ P : Pt ec.toCurve, P ≠ 0 ∧ wei_point_from_uniform ec m bytes = .ok (affine P)) ∧
    ∀ P : Pt ec.toCurve, wei_point_from_uniform ec m bytes = .ok (affine P) ↔ WeiMapped m.c m.z (beElem fe bytes) P := by
  refine ⟨?_, wei_from_uniform_iff ok mc hl⟩
  obtain ⟨P, h1, h2⟩ := wei_from_uniform_ok ok mc hl
  exact ⟨P, by rintro rfl; exact h2, h1⟩

/-- C87. If `wei_point_to_uniform` succeeds, its bytes give the point back, unless they are zero. They are zero at most for a point with the abscissa
`-b / a`, or `(c - z) / 2` if `a = 0`. -/
theorem wei_to_uniform_sound (P : Pt ec.toCurve) (hint : BitVec 32) :
    ∃ out r, wei_point_to_uniform ec m (affine P) hint = .ok (out, r) ∧ out.length = feSize fe ∧ (P = 0 → r = false) ∧
      (r = true → beElem fe out ≠ 0 → wei_point_from_uniform ec m out = .ok (affine P)) ∧
      (r = true → beElem fe out = 0 → if ec.a = 0 then (affine P).x = (m.c - m.z) / 2 else ec.a * (affine P).x + ec.b = 0) := by
  obtain ⟨out, r, h1, h2, h3, h4, h5, -⟩ := wei_to_uniform_ok ok mc P hint
  refine ⟨out, r, h1, h2, fun h => ?_, fun hr h => (wei_from_uniform_iff ok mc h2.ge P).2 (h4 hr h), h5⟩
  cases r with
  | false => rfl
  | true => exact absurd h (h3 rfl)

/-- C87. Every preimage is found, with one value of the two lowest bits of the hint, whatever the other bits; except those numbers for which the simplified map
has its exceptional value. -/
theorem wei_to_uniform_complete {u : ZMod fe.p} (hu : ec.a ≠ 0 → m.z ^ 2 * u ^ 4 + m.z * u ^ 2 ≠ 0) {P : Pt ec.toCurve} (hP : WeiMapped m.c m.z u P) :
    ∃ k : BitVec 32, k &&& 3 = k ∧ ∀ hint : BitVec 32, hint &&& 3 = k → ∃ out, wei_point_to_uniform ec m (affine P) hint = .ok (out, true) ∧ beElem fe out = u :=
  wei_to_uniform_all ok mc hu hP

/-- C87. The point of two strings is the sum of the two points. -/
theorem wei_from_hash_exact {bytes : List Byte} (hl : 2 * feSize fe ≤ bytes.length) :
    ∃ P1 P2 : Pt ec.toCurve, WeiMapped m.c m.z (beElem fe bytes) P1 ∧ WeiMapped m.c m.z (beElem fe (bytes.drop (feSize fe))) P2 ∧
      wei_point_from_hash ec m bytes = .ok (affine (P1 + P2)) := wei_from_hash_ok ok mc hl

/-- C87. `wei_point_to_hash` never fails other than by not ending, and its bytes give the point back, unless the second half is zero. -/
theorem wei_to_hash_sound {S : Type} (rng : Source S) (fuel : Nat) (P : Pt ec.toCurve) (subgroup : BitVec 32) (entropy : List Byte) :
    wei_point_to_hash rng fuel ec m (affine P) subgroup entropy = .spin ∨
      ∃ out, wei_point_to_hash rng fuel ec m (affine P) subgroup entropy = .ok out ∧ out.length = 2 * feSize fe ∧
        (beElem fe (out.drop (feSize fe)) ≠ 0 → wei_point_from_hash ec m out = .ok (affine P)) := by
  rcases wei_to_hash_loop ok mc rng.toByteGen P ((subgroup &&& 15) <<< 4) fuel (rng.init entropy) with h | ⟨out, h1, h2, P1, h3, -, h5, -⟩
  · exact Or.inl h
  · refine Or.inr ⟨out, h1, h2, fun h => ?_⟩
    obtain ⟨Q1, Q2, q1, q2, q3⟩ := wei_from_hash_ok ok mc h2.ge
    rw [q3, mapped_unique ok q1 h3, mapped_unique ok q2 (h5 h), add_sub_cancel]

/-! ### Keys -/

/-- C87. The key of a string of bytes: the encoding of its point. -/
theorem ecdsa_from_uniform_exact {bytes : List Byte} (hl : feSize fe ≤ bytes.length) (compact : Bool) (P : Pt ec.toCurve)
    (hP : WeiMapped m.c m.z (beElem fe bytes) P) : P ≠ 0 ∧ ecdsa_pubkey_from_uniform ec m bytes compact = .ok (sec1Out P compact) := by
  have h0 : P ≠ 0 := by rintro rfl; exact hP
  refine ⟨h0, ?_⟩
  unfold ecdsa_pubkey_from_uniform
  rw [(wei_from_uniform_iff ok mc hl P).2 hP, C.ok_bind, export_out]
  dsimp only
  rw [C.check, if_pos (decide_eq_true h0)]
  rfl

/-- C87. The inverse on keys: success only for the encoding of a point, and the bytes give the key back, unless they are zero; every preimage is found. -/
theorem ecdsa_to_uniform_exact (pub : List Byte) :
    (∀ hint, ∃ out r, ecdsa_pubkey_to_uniform ec m pub hint = .ok (out, r) ∧ out.length = feSize fe ∧
      (r = true → ∃ P : Pt ec.toCurve, Sec1 P pub ∧
        (beElem fe out ≠ 0 → ∀ compact, ecdsa_pubkey_from_uniform ec m out compact = .ok (sec1Out P compact)))) ∧
    ∀ P : Pt ec.toCurve, Sec1 P pub → ∀ u : ZMod fe.p, (ec.a ≠ 0 → m.z ^ 2 * u ^ 4 + m.z * u ^ 2 ≠ 0) → WeiMapped m.c m.z u P →
      ∃ k : BitVec 32, k &&& 3 = k ∧ ∀ hint : BitVec 32, hint &&& 3 = k → ∃ out, ecdsa_pubkey_to_uniform ec m pub hint = .ok (out, true) ∧ beElem fe out = u := by
  constructor
  · intro hint
    rcases import_cases ok pub with ⟨Q, h1, h2, -⟩ | ⟨Q, h1, -⟩
    · obtain ⟨out, r, o1, o2, -, o4, -, -⟩ := wei_to_uniform_ok ok mc Q hint
      refine ⟨out, r, ?_, o2, fun hr => ⟨Q, h1, fun h compact => (ecdsa_from_uniform_exact ok mc o2.ge compact Q (o4 hr h)).2⟩⟩
      unfold ecdsa_pubkey_to_uniform
      rw [h2, C.ok_bind]
      dsimp only
      rw [o1, C.ok_bind, Bool.true_and, C.pure_eq]
    · obtain ⟨out, r, o1, o2, -⟩ := wei_to_uniform_ok ok mc Q hint
      refine ⟨out, false, ?_, o2, fun h => by simp at h⟩
      unfold ecdsa_pubkey_to_uniform
      rw [h1, C.ok_bind]
      dsimp only
      rw [o1, C.ok_bind, Bool.false_and, C.pure_eq]
  · intro P hP u hu hm
    obtain ⟨k, kk, hk⟩ := wei_to_uniform_all ok mc hu hm
    refine ⟨k, kk, fun hint hh => ?_⟩
    obtain ⟨out, o1, o2⟩ := hk hint hh
    refine ⟨out, ?_, o2⟩
    unfold ecdsa_pubkey_to_uniform
    rw [((wge_import_exact ok pub).2 P).2 hP, C.ok_bind]
    dsimp only
    rw [o1, C.ok_bind]
    rfl

/-- C87. The key of two strings: the encoding of the sum; it fails exactly if the sum is zero. -/
theorem ecdsa_from_hash_exact {bytes : List Byte} (hl : 2 * feSize fe ≤ bytes.length) (compact : Bool) :
    ∃ P1 P2 : Pt ec.toCurve, WeiMapped m.c m.z (beElem fe bytes) P1 ∧ WeiMapped m.c m.z (beElem fe (bytes.drop (feSize fe))) P2 ∧
      ecdsa_pubkey_from_hash ec m bytes compact = .ok (sec1Out (P1 + P2) compact, decide (P1 + P2 ≠ 0)) := by
  obtain ⟨P1, P2, h1, h2, h3⟩ := wei_from_hash_ok ok mc hl
  refine ⟨P1, P2, h1, h2, ?_⟩
  unfold ecdsa_pubkey_from_hash
  rw [h3, C.ok_bind, export_out]
  rfl

/-- C87. Two strings for a key give the key back, unless the second is zero; the result says whether it was a key. -/
theorem ecdsa_to_hash_sound {S : Type} (rng : Source S) (fuel : Nat) (pub : List Byte) (subgroup : BitVec 32) (entropy : List Byte) :
    ecdsa_pubkey_to_hash rng fuel ec m pub subgroup entropy = .spin ∨
      ∃ out r, ecdsa_pubkey_to_hash rng fuel ec m pub subgroup entropy = .ok (out, r) ∧ out.length = 2 * feSize fe ∧
        (r = true ↔ ∃ P : Pt ec.toCurve, Sec1 P pub) ∧
        ∀ P : Pt ec.toCurve, Sec1 P pub → beElem fe (out.drop (feSize fe)) ≠ 0 →
          ∀ compact, ecdsa_pubkey_from_hash ec m out compact = .ok (sec1Out P compact, true) := by
  obtain ⟨Q, b, q1, q2, q3⟩ : ∃ (Q : Pt ec.toCurve) (b : Bool), wge_import ec pub = .ok (affine Q, b) ∧ (b = true ↔ ∃ P : Pt ec.toCurve, Sec1 P pub) ∧
      ∀ P : Pt ec.toCurve, Sec1 P pub → P = Q ∧ P ≠ 0 := by
    rcases import_cases ok pub with ⟨Q, h1, h2, h3⟩ | ⟨Q, h1, h2⟩
    · exact ⟨Q, true, h2, ⟨fun _ => ⟨Q, h1⟩, fun _ => rfl⟩, fun P hP => ⟨h3 P hP, by rintro rfl; exact hP⟩⟩
    · exact ⟨Q, false, h1, ⟨fun h => by simp at h, fun ⟨P, hP⟩ => absurd hP (h2 P)⟩, fun P hP => absurd hP (h2 P)⟩
  unfold ecdsa_pubkey_to_hash
  rw [q1, R.lift_ok, R.ok_bind]
  dsimp only
  rcases wei_to_hash_sound ok mc rng fuel Q subgroup entropy with h | ⟨out, h1, h2, h3⟩
  · left; rw [h]; rfl
  · right
    rw [h1, R.ok_bind]
    refine ⟨out, b, rfl, h2, q2, fun P hP hne compact => ?_⟩
    obtain ⟨rfl, h0⟩ := q3 P hP
    unfold ecdsa_pubkey_from_hash
    rw [h3 hne, C.ok_bind, export_out, decide_eq_true h0]
    rfl

/-- C87. The key of BIP 340 for a string of bytes: the abscissa of its point. -/
theorem bip340_from_uniform_exact {bytes : List Byte} (hl : feSize fe ≤ bytes.length) (P : Pt ec.toCurve) (hP : WeiMapped m.c m.z (beElem fe bytes) P) :
    bip340_pubkey_from_uniform ec m bytes = .ok (xBytes P) ∧ (XOnly P (xBytes P) ∨ XOnly (-P) (xBytes P)) := by
  have h0 : P ≠ 0 := by rintro rfl; exact hP
  refine ⟨?_, (xonly_iff ok (xBytes_len P)).2 P h0⟩
  unfold bip340_pubkey_from_uniform
  rw [(wei_from_uniform_iff ok mc hl P).2 hP, C.ok_bind, export_x_out]
  dsimp only
  rw [C.check, if_pos (decide_eq_true h0)]
  rfl

/-- C87. The inverse on the keys of BIP 340: the bytes give the key back, unless `a ≠ 0` and they are zero; every preimage of the even point is found. -/
theorem bip340_to_uniform_exact {pub : List Byte} (hl : pub.length = feSize fe) :
    (∀ hint, ∃ out r, bip340_pubkey_to_uniform ec m pub hint = .ok (out, r) ∧ out.length = feSize fe ∧
      (r = true → (∃ P : Pt ec.toCurve, XOnly P pub) ∧ (beElem fe out ≠ 0 ∨ ec.a = 0 → bip340_pubkey_from_uniform ec m out = .ok pub))) ∧
    ∀ P : Pt ec.toCurve, XOnly P pub → ∀ u : ZMod fe.p, (ec.a ≠ 0 → m.z ^ 2 * u ^ 4 + m.z * u ^ 2 ≠ 0) → WeiMapped m.c m.z u P →
      ∃ k : BitVec 32, k &&& 3 = k ∧ ∀ hint : BitVec 32, hint &&& 3 = k → ∃ out, bip340_pubkey_to_uniform ec m pub hint = .ok (out, true) ∧ beElem fe out = u := by
  constructor
  · intro hint
    rcases xonly_import_exact ok hl with ⟨Q, h1, h2, -⟩ | ⟨Q, h1, -⟩
    · obtain ⟨out, r, o1, o2, o3, o4, o5, -⟩ := wei_to_uniform_ok ok mc Q hint
      refine ⟨out, r, ?_, o2, fun hr => ⟨⟨Q, h1⟩, fun h => ?_⟩⟩
      · unfold bip340_pubkey_to_uniform
        rw [h2, C.ok_bind]
        dsimp only
        rw [o1, C.ok_bind, Bool.true_and, C.pure_eq]
      · by_cases hz : beElem fe out = 0
        · have ha : ec.a = 0 := by rcases h with h | h; exacts [absurd hz h, h]
          obtain ⟨R, r1, r2⟩ := wei_from_uniform_ok ok mc o2.ge
          rw [(bip340_from_uniform_exact ok mc o2.ge R r2).1, h1.2]
          have hx := o5 hr hz
          rw [ZeroX, if_pos ha] at hx
          rcases R with _ | ⟨x, y, hR⟩
          · exact r2.elim
          rcases Q with _ | ⟨x', y', hQ⟩
          · exact absurd rfl (o3 hr)
          have r3 := ((mapped_iff hR).1 r2).2
          rw [MapX, if_pos ha, Svdw, if_pos (Or.inl hz)] at r3
          have : x = x' := by rw [r3]; exact hx.symm
          subst this
          rfl
        · rw [(bip340_from_uniform_exact ok mc o2.ge Q (o4 hr hz)).1, h1.2]
    · obtain ⟨out, r, o1, o2, -⟩ := wei_to_uniform_ok ok mc Q hint
      refine ⟨out, false, ?_, o2, fun h => by simp at h⟩
      unfold bip340_pubkey_to_uniform
      rw [h1, C.ok_bind]
      dsimp only
      rw [o1, C.ok_bind, Bool.false_and, C.pure_eq]
  · intro P hP u hu hm
    obtain ⟨k, kk, hk⟩ := wei_to_uniform_all ok mc hu hm
    refine ⟨k, kk, fun hint hh => ?_⟩
    obtain ⟨out, o1, o2⟩ := hk hint hh
    refine ⟨out, ?_, o2⟩
    unfold bip340_pubkey_to_uniform
    rcases xonly_import_exact ok hl with ⟨Q, -, h2, h3⟩ | ⟨Q, -, h2⟩
    · rw [h2, C.ok_bind, ← h3 P hP]
      dsimp only
      rw [o1, C.ok_bind]
      rfl
    · exact absurd hP (h2 P)

/-- C87. The key of BIP 340 for two strings: the abscissa of the sum; it fails exactly if the sum is zero. -/
theorem bip340_from_hash_exact {bytes : List Byte} (hl : 2 * feSize fe ≤ bytes.length) :
    ∃ P1 P2 : Pt ec.toCurve, WeiMapped m.c m.z (beElem fe bytes) P1 ∧ WeiMapped m.c m.z (beElem fe (bytes.drop (feSize fe))) P2 ∧
      bip340_pubkey_from_hash ec m bytes = .ok (xBytes (P1 + P2), decide (P1 + P2 ≠ 0)) := by
  obtain ⟨P1, P2, h1, h2, h3⟩ := wei_from_hash_ok ok mc hl
  refine ⟨P1, P2, h1, h2, ?_⟩
  unfold bip340_pubkey_from_hash
  rw [h3, C.ok_bind, export_x_out]
  rfl

/-- C87. Two strings for a key of BIP 340 give the key back, unless the second is zero; the result says whether it was a key. -/
theorem bip340_to_hash_sound {S : Type} (rng : Source S) (fuel : Nat) {pub : List Byte} (hl : pub.length = feSize fe) (subgroup : BitVec 32)
    (entropy : List Byte) :
    bip340_pubkey_to_hash rng fuel ec m pub subgroup entropy = .spin ∨
      ∃ out r, bip340_pubkey_to_hash rng fuel ec m pub subgroup entropy = .ok (out, r) ∧ out.length = 2 * feSize fe ∧
        (r = true ↔ ∃ P : Pt ec.toCurve, XOnly P pub) ∧
        (r = true → beElem fe (out.drop (feSize fe)) ≠ 0 → bip340_pubkey_from_hash ec m out = .ok (pub, true)) := by
  obtain ⟨Q, b, q1, q2, q3⟩ : ∃ (Q : Pt ec.toCurve) (b : Bool), wge_import_even ec pub = .ok (affine Q, b) ∧ (b = true ↔ ∃ P : Pt ec.toCurve, XOnly P pub) ∧
      (b = true → XOnly Q pub) := by
    rcases xonly_import_exact ok hl with ⟨Q, h1, h2, h3⟩ | ⟨Q, h1, h2⟩
    · exact ⟨Q, true, h2, ⟨fun _ => ⟨Q, h1⟩, fun _ => rfl⟩, fun _ => h1⟩
    · exact ⟨Q, false, h1, ⟨fun h => by simp at h, fun ⟨P, hP⟩ => absurd hP (h2 P)⟩, fun h => by simp at h⟩
  unfold bip340_pubkey_to_hash
  rw [q1, R.lift_ok, R.ok_bind]
  dsimp only
  rcases wei_to_hash_sound ok mc rng fuel Q subgroup entropy with h | ⟨out, h1, h2, h3⟩
  · left; rw [h]; rfl
  · right
    rw [h1, R.ok_bind]
    refine ⟨out, b, rfl, h2, q2, fun hr hne => ?_⟩
    have hq := q3 hr
    unfold bip340_pubkey_from_hash
    rw [h3 hne, C.ok_bind, export_x_out, decide_eq_true hq.1.1, ← hq.2]
    rfl

/-- C87. A fault with `a ≠ 0`: for a point with the abscissa `-b / a` and the hint 2 the inverse succeeds with zero, but zero has another point. -/
theorem wei_to_uniform_zero_wrong (ha : ec.a ≠ 0) {P : Pt ec.toCurve} (h0 : P ≠ 0) (hx : ec.a * (affine P).x + ec.b = 0) {hint : BitVec 32}
    (hh : hint &&& 3 = 2) : ∃ out, wei_point_to_uniform ec m (affine P) hint = .ok (out, true) ∧ beElem fe out = 0 ∧
      wei_point_from_uniform ec m out ≠ .ok (affine P) := by
  obtain ⟨out, h1, h2, -, h4⟩ := wei_zero_sswu ok mc ha h0 hx hh
  exact ⟨out, h1, h2, h4⟩

/-- C87. The fault with `a = 0`: of the two points with the abscissa `(c - z) / 2` the inverse gives zero for both. -/
theorem wei_to_uniform_root_wrong (ha : ec.a = 0) : ∃ (P : Pt ec.toCurve) (hint : BitVec 32) (out : List Byte),
    wei_point_to_uniform ec m (affine P) hint = .ok (out, true) ∧ wei_point_from_uniform ec m out = .ok (affine (-P)) ∧ -P ≠ P := by
  obtain ⟨P, -, hP⟩ := wei_map_ok ok mc 0
  have h0 : P ≠ 0 := by rintro rfl; exact hP
  have h0' : -P ≠ 0 := neg_ne_zero.2 h0
  have hx : (affine (-P)).x = (m.c - m.z) / 2 := by
    rcases P with _ | ⟨x, y, h⟩
    · exact absurd rfl h0
    have h3 := ((mapped_iff h).1 hP).2
    rw [MapX, if_pos ha, Svdw, if_pos (Or.inl rfl)] at h3
    rw [← h3, ← (wge_neg_exact _ true).1]
    rfl
  obtain ⟨k, kk, hk⟩ := wei_zero_svdw ok mc ha h0' hx
  obtain ⟨out, e1, e2, e3⟩ := hk k kk
  refine ⟨-P, k, out, e1, ?_, ?_⟩
  · rw [neg_neg, wei_from_uniform_iff ok mc e3.ge, e2]; exact hP
  · rw [neg_neg]
    intro h
    have := even_neg ok h0
    rw [← h] at this
    tauto

end

/-! ### The curves with and without the fault -/

set_option maxRecDepth 100000 in
/-- C87. On P-224, P-256 and P-521 no point has the abscissa `-b / a`, so the inverse is right without exception. -/
theorem wei_to_uniform_p224_p256_p521 {d : WeiDef} (hd : d = curve_p224 ∨ d = curve_p256 ∨ d = curve_p521) [Fact d.fe.p.Prime] {ec : WeiT d.fe}
    (hc : ec.toCurve = defCurve d) {G : Pt ec.toCurve} (ok : EcOk ec G) {m : WeiMap (ZMod d.fe.p)} (mc : MapC ec m) (P : Pt ec.toCurve) (hint : BitVec 32) :
    ∃ out r, wei_point_to_uniform ec m (affine P) hint = .ok (out, r) ∧ (r = true → wei_point_from_uniform ec m out = .ok (affine P)) := by
  have cert : ∃ xe, zeroCert d xe = true := by
    rcases hd with rfl | rfl | rfl
    · exact ⟨0xe6ac58d70401913951c0661cc56c3ae747ea9d9362591316611caa92, by decide +kernel⟩
    · exact ⟨0x73976747e368dbf83bf93f1c7cdd823ecc5f023b441be5a76944bebf629b756e, by decide +kernel⟩
    · exact ⟨0xc5dc6a3dcb2f5ede0a8633608ae781c04f8b9e261e889107513d91833084fb034b1cb3131b4ed4dbd3b21b9594693b3fad11d14a82bf0ebc50a5170a9c23c56a55, by decide +kernel⟩
  obtain ⟨xe, hxe⟩ := cert
  obtain ⟨out, r, h1, -, h3, h4, h5⟩ := wei_to_uniform_sound ok mc P hint
  refine ⟨out, r, h1, fun hr => h4 hr fun h0 => ?_⟩
  have hP : P ≠ 0 := fun h => by rw [h3 h] at hr; simp at hr
  obtain ⟨ha, hn⟩ := zero_none hc hxe hP
  have := h5 hr h0
  rw [if_neg ha] at this
  exact hn this

/-- The checks for the abscissa `-b / a`: `xe`, with the ordinate `ye`. -/
def zeroPoint (d : WeiDef) (xe ye : Nat) : Bool :=
  force d.fe.p fun p => ((beVal d.a * xe + beVal d.b) % p == 0) && (ye * ye % p == (xe ^ 3 + beVal d.a * xe + beVal d.b) % p) && decide (beVal d.a % p ≠ 0)

set_option maxRecDepth 100000 in
/-- C87. On P-192 and P-384 there is a point for which the inverse succeeds and its bytes have another point. -/
theorem wei_to_uniform_p192_p384_wrong {d : WeiDef} (hd : d = curve_p192 ∨ d = curve_p384) [Fact d.fe.p.Prime] {ec : WeiT d.fe}
    (hc : ec.toCurve = defCurve d) {G : Pt ec.toCurve} (ok : EcOk ec G) {m : WeiMap (ZMod d.fe.p)} (mc : MapC ec m) :
    ∃ (P : Pt ec.toCurve) (out : List Byte), P ≠ 0 ∧ wei_point_to_uniform ec m (affine P) 2 = .ok (out, true) ∧
      wei_point_from_uniform ec m out ≠ .ok (affine P) := by
  have cert : ∃ xe ye, zeroPoint d xe ye = true := by
    rcases hd with rfl | rfl
    · exact ⟨0x21605708a1ded5a25a8d4de3d0b6bac354e84a4eeb17933b, 0x2ded2a440168aaa8ebeb52acb0447b81640d5ce1e2615cea, by decide +kernel⟩
    · exact ⟨0xe665ba8d4b6a4d4c32da01cea152b9b30809decfaa2b15b0abb1582fc55bd7c8421cbdd92e0f9b346381eda546a40e4f,
        0xd5546a93f57f4cafabd356b90360173794de01f59c195b94594cca9d18cd218eba42476addb42053a65a59134901b3a5, by decide +kernel⟩
  obtain ⟨xe, ye, h⟩ := cert
  unfold zeroPoint at h
  simp only [force_eq, Bool.and_eq_true, decide_eq_true_eq, beq_iff_eq] at h
  obtain ⟨⟨h1, h2⟩, h3⟩ := h
  have ea : ec.a = (beVal d.a : ZMod d.fe.p) := congrArg Curve.a hc
  have eb : ec.b = (beVal d.b : ZMod d.fe.p) := congrArg Curve.b hc
  have h1 := cast_zero_mod h1
  have h2 := cast_of_mod h2
  have h3 := cast_ne_mod h3
  push_cast at h1 h2
  rw [← ea] at h1 h2 h3
  rw [← eb] at h1 h2
  have hne : (Point.some _ _ (pt_ns ok (show ((ye : ZMod d.fe.p)) ^ 2 = _ by rw [pow_two, h2])) : Pt ec.toCurve) ≠ 0 := Point.some_ne_zero _
  obtain ⟨out, o1, -, o3⟩ := wei_to_uniform_zero_wrong ok mc h3 hne h1 (hint := 2) rfl
  exact ⟨_, out, hne, o1, o3⟩

/-- The hypotheses are met: on secp256k1 the fault with `a = 0` is there. -/
example : ∃ hd : curve_secp256k1 ∈ weiDefs, letI := Fact.mk (weiDefs_field_prime hd)
    ∃ ec, wei_curve curve_secp256k1 = .ok ec ∧ ∃ (P : Pt ec.toCurve) (hint : BitVec 32) (out : List Byte),
      wei_point_to_uniform ec (wei_map_init ec ⟨1, svdw_secp256k1⟩) (affine P) hint = .ok (out, true) ∧
      wei_point_from_uniform ec (wei_map_init ec ⟨1, svdw_secp256k1⟩) out = .ok (affine (-P)) ∧ -P ≠ P := by
  obtain ⟨hd, ec, h1, h2, ⟨G, h3⟩, h4⟩ := wei_map_setting (curve_secp256k1, ⟨1, svdw_secp256k1⟩) (by simp [weiMapDefs])
  have := Fact.mk (weiDefs_field_prime hd)
  have ha : ec.a = 0 := by
    have e : beVal curve_secp256k1.a = 0 := by decide +kernel
    have : ec.a = (beVal curve_secp256k1.a : ZMod curve_secp256k1.fe.p) := congrArg Curve.a h2
    rw [this, e, Nat.cast_zero]
  exact ⟨hd, ec, h1, wei_to_uniform_root_wrong h3 h4 ha⟩

end Torsion
