import Verif.Ecc.RistUniformLemmas

/-! # Properties: Elligator on the Ristretto groups, uniform bytes and hashes as elements (C86) -/
set_option linter.unusedSectionVars false

namespace Torsion

open Torsion.Spec

namespace Ecc

section
variable {fe : FieldCode} [Fact fe.p.Prime] {ec : Edwards (ZMod fe.p)} {rs : Ristretto (ZMod fe.p)}

/-- The inverse ends whatever the struct is. -/
theorem rist_invert_total (hfe : fe ∈ fieldCodes) (h : ec.h = 4 ∨ ec.h = 8) (p : Xge (ZMod fe.p)) (hint : BitVec 32) :
    ∃ u r, ristretto_invert ec rs p hint = .ok (u, r) := by
  obtain ⟨qs, e1, e2⟩ : ∃ qs, qge_import_rge ec rs p = .ok qs ∧ qs.length = ec.h / 2 := by
    unfold qge_import_rge
    dsimp only
    obtain ⟨r, o, e1, -⟩ := rsqrt_ok hfe 2 (by omega) 1 (p.y * p.y * (p.y * p.y) * (p.x * p.x) * (p.z * p.z - p.y * p.y))
    rw [e1, C.ok_bind]
    dsimp only
    rcases h with h | h
    · rw [if_neg (by omega)]; exact ⟨_, rfl, by rw [h]; rfl⟩
    · rw [if_pos h]; exact ⟨_, rfl, by rw [h]; rfl⟩
  have tot : ∀ q k, ∃ u r, qge_invert rs q k = .ok (u, r) := by
    intro q k
    unfold qge_invert
    dsimp only
    obtain ⟨r, o, e1, -⟩ := rsqrt_ok hfe 2 (by omega) 1
      ((q.s * q.s * (q.s * q.s) - (q.t + 1) * rs.dmaddpa * ((q.t + 1) * rs.dmaddpa)) * rs.qnr)
    rw [e1, C.ok_bind]
    exact ⟨_, _, rfl⟩
  unfold ristretto_invert
  dsimp only
  rw [check_true (by omega), C.ok_bind, e1, C.ok_bind, if_neg (by omega), List.take_of_length_le e2.le]
  have hlt : (hint &&& 15).toNat % ec.h < (qs ++ qs.map fun q => (⟨-q.s, -q.t⟩ : Qge (ZMod fe.p))).length := by
    rw [List.length_append, List.length_map, e2]
    have := Nat.mod_lt (hint &&& 15).toNat (show 0 < ec.h by omega)
    omega
  rw [C.rd, List.getElem?_eq_getElem hlt]
  exact tot _ _

end

section
variable {d : EdwardsDef} [Fact d.fe.p.Prime] {ec : Edwards (ZMod d.fe.p)} [EdGood ec.a ec.d] {rs : Ristretto (ZMod d.fe.p)}

theorem rist_to_uniform_total (hfe : d.fe ∈ fieldCodes) (h : ec.h = 4 ∨ ec.h = 8) (p : Xge (ZMod d.fe.p)) (hint : BitVec 32) :
    ∃ out r, ristretto_point_to_uniform ec rs p hint = .ok (out, r) ∧ out.length = feSize d.fe := by
  obtain ⟨u, r, e⟩ := rist_invert_total (rs := rs) hfe h p hint
  obtain ⟨out, e1, e2, -⟩ := rist_to_uniform_eq e
  exact ⟨out, r, e1, e2⟩

end

end Ecc

section
variable {d : EdwardsDef} {rd : RistrettoDef} (hd : (d, rd) ∈ ristrettoDefs) (h4 : d ≠ curve_ed448) [Fact d.fe.p.Prime]
  {ec : Edwards (ZMod d.fe.p)} [g : EdGood ec.a ec.d] {G : EPt ec.a ec.d} (ok : EdCurve d ec G) {rs : Ristretto (ZMod d.fe.p)}
  (hrs : ristretto_init d.fe rd = .ok rs)

/-! ### Points -/

include hd h4 ok hrs in
/-- C86. The two constants of the map are as it needs them, and every number stands for exactly one point. -/
theorem ristretto_elligator_setting : ¬ IsSquare rs.qnr ∧ rs.adm1s ^ 2 = ec.a * ec.d - 1 ∧
    ∀ u : ZMod d.fe.p, ∃! P : EPt ec.a ec.d, RistElligator rs.qnr rs.adm1s u P := by
  have c := Ecc.rist_c hd h4 ok hrs
  refine ⟨c.qn, c.adm, fun u => ?_⟩
  obtain ⟨p, P, -, -, -, h⟩ := Ecc.ell_ok ok.const c u
  exact ⟨P, h, fun Q hQ => Ecc.rist_elligator_fun c hQ h⟩

include hd h4 ok hrs in
/-- C86. The point of a string of bytes is a doubled point: the one of its number. -/
theorem ristretto_from_uniform_exact {bytes : List Byte} (hl : feSize d.fe ≤ bytes.length) :
    ∃ (p : Xge (ZMod d.fe.p)) (P : EPt ec.a ec.d), ristretto_point_from_uniform ec rs bytes = .ok p ∧ Ext p P ∧ Even P ∧
      ∀ Q : EPt ec.a ec.d, RistElligator rs.qnr rs.adm1s (leElem d.fe bytes) Q ↔ Q = P := by
  obtain ⟨p, P, e1, x1, v1, i1⟩ := Ecc.rist_from_uniform_pt hd h4 ok hrs hl
  exact ⟨p, P, e1, x1, v1, fun Q => ⟨fun hq => Ecc.rist_elligator_fun (Ecc.rist_c hd h4 ok hrs) hq i1, fun h => h ▸ i1⟩⟩

include hd h4 ok hrs in
/-- C86. If `ristretto_point_to_uniform` succeeds on a doubled point, its bytes stand for an element of the same class; on ed1174 if their
number is not zero, and the number zero is only made for the class of the neutral element. -/
theorem ristretto_to_uniform_sound {p : Xge (ZMod d.fe.p)} {P : EPt ec.a ec.d} (hp : Ext p P) (hP : Even P) (hint : BitVec 32) :
    ∃ out r, ristretto_point_to_uniform ec rs p hint = .ok (out, r) ∧ out.length = feSize d.fe ∧
      (r = true → leElem d.fe out ≠ 0 ∨ d ≠ curve_ed1174 →
        ∃ q Q, ristretto_point_from_uniform ec rs out = .ok q ∧ Ext q Q ∧ Even Q ∧ RistEq ec.h Q P) ∧
      (r = true → leElem d.fe out = 0 → RistEq ec.h P 0) := by
  obtain ⟨out, r, h1, h2, h3, h5⟩ := Ecc.rist_to_uniform_pt hd h4 ok hrs hp hP hint
  refine ⟨out, r, h1, h2, fun hr hz => ?_, h5⟩
  obtain ⟨Q, hQ, i⟩ := h3 hr hz
  obtain ⟨q, Q', e1, x1, v1, i1⟩ := Ecc.rist_from_uniform_pt hd h4 ok hrs h2.ge
  rw [Ecc.rist_elligator_fun (Ecc.rist_c hd h4 ok hrs) i1 i] at x1 v1
  exact ⟨q, Q, e1, x1, v1, hQ⟩

include hd h4 ok hrs in
/-- C86. Every number but zero which stands for a class other than the neutral one is found, from every member of the class and every
struct for it: it is enough to try the `h` values of the low bits of the hint with both values of the sign. -/
theorem ristretto_to_uniform_complete {bytes : List Byte} (hz : leElem d.fe bytes ≠ 0) {P Q : EPt ec.a ec.d}
    (hQ : RistElligator rs.qnr rs.adm1s (leElem d.fe bytes) Q) (hPQ : RistEq ec.h Q P) (hP : Even P) (h0 : ¬ RistEq ec.h P 0)
    {p : Xge (ZMod d.fe.p)} (hp : Ext p P) :
    ∃ i < ec.h, ∀ hint : BitVec 32, (hint &&& 15).toNat % ec.h = i → ((hint >>> 4) &&& 15).toNat % 2 = (leElem d.fe bytes).val % 2 →
      ∃ out, ristretto_point_to_uniform ec rs p hint = .ok (out, true) ∧ leElem d.fe out = leElem d.fe bytes := by
  obtain ⟨i, hi, h⟩ := (Ecc.rist_invert_ok (Ecc.rist_c hd h4 ok hrs) hp hP).2 h0 _ hz Q hPQ hQ
  refine ⟨i, hi, fun hint e1 e2 => ?_⟩
  obtain ⟨out, k1, -, k3⟩ := Ecc.rist_to_uniform_eq (h hint e1 e2)
  exact ⟨out, k1, k3⟩

include hd h4 ok hrs in
/-- C86. The point of two strings of bytes is the sum of the two points. -/
theorem ristretto_from_hash_exact {bytes : List Byte} (hl : 2 * feSize d.fe ≤ bytes.length) :
    ∃ (p : Xge (ZMod d.fe.p)) (P1 P2 : EPt ec.a ec.d), RistElligator rs.qnr rs.adm1s (leElem d.fe bytes) P1 ∧
      RistElligator rs.qnr rs.adm1s (leElem d.fe (bytes.drop (feSize d.fe))) P2 ∧
      ristretto_point_from_hash ec rs bytes = .ok p ∧ Ext p (P1 + P2) ∧ Even (P1 + P2) := Ecc.rist_from_hash_pt hd h4 ok hrs hl

include hd h4 ok hrs in
/-- C86. If `ristretto_point_to_hash` ends, its bytes stand for an element of the class of the point; on ed1174 if the number of their
second half is not zero. -/
theorem ristretto_to_hash_sound {S : Type} (rng : Source S) (fuel : Nat) {p : Xge (ZMod d.fe.p)} {P : EPt ec.a ec.d} (hp : Ext p P) (hP : Even P)
    (entropy : List Byte) : ristretto_point_to_hash rng fuel ec rs p entropy = .spin ∨
      ∃ out, ristretto_point_to_hash rng fuel ec rs p entropy = .ok out ∧ out.length = 2 * feSize d.fe ∧
        (leElem d.fe (out.drop (feSize d.fe)) ≠ 0 ∨ d ≠ curve_ed1174 →
          ∃ q Q, ristretto_point_from_hash ec rs out = .ok q ∧ Ext q Q ∧ Even Q ∧ RistEq ec.h Q P) :=
  Ecc.rist_to_hash_loop hd h4 ok hrs rng.toByteGen hp hP fuel _

/-! ### Public keys -/

include hd h4 ok hrs in
/-- C86. The public key of a string of bytes, or of two of them, is the code of the class of the point. -/
theorem ristretto_pubkey_from_uniform_exact {bytes : List Byte} :
    (feSize d.fe ≤ bytes.length → ∃ (P : EPt ec.a ec.d) (b : List Byte), RistElligator rs.qnr rs.adm1s (leElem d.fe bytes) P ∧
      ristretto_pubkey_from_uniform ec rs bytes = .ok b ∧ RistOf ec.h P b ∧ ∃ k : Nat, RistOf ec.h (k • G) b) ∧
    (2 * feSize d.fe ≤ bytes.length → ∃ (P1 P2 : EPt ec.a ec.d) (b : List Byte), RistElligator rs.qnr rs.adm1s (leElem d.fe bytes) P1 ∧
      RistElligator rs.qnr rs.adm1s (leElem d.fe (bytes.drop (feSize d.fe))) P2 ∧
      ristretto_pubkey_from_hash ec rs bytes = .ok b ∧ RistOf ec.h (P1 + P2) b ∧ ∃ k : Nat, RistOf ec.h (k • G) b) := by
  have fin : ∀ {P : EPt ec.a ec.d} {b : List Byte}, Even P → RistOf ec.h P b → ∃ k : Nat, RistOf ec.h (k • G) b := by
    rintro P b ⟨Q, hQ⟩ ⟨s, hs, e⟩
    obtain ⟨k, -, hk⟩ := Ecc.rist_class hd ok hQ
    exact ⟨k, s, Ecc.rist_num_congr hk hs, e⟩
  constructor
  · intro hl
    obtain ⟨p, P, e1, x1, v1, i1⟩ := Ecc.rist_from_uniform_pt hd h4 ok hrs hl
    obtain ⟨b, b1, b2, -⟩ := rge_export_exact hd ok hrs x1 v1
    exact ⟨P, b, i1, by rw [ristretto_pubkey_from_uniform, e1, C.ok_bind, b1], b2, fin v1 b2⟩
  · intro hl
    obtain ⟨p, P1, P2, i1, i2, e1, x1, v1⟩ := Ecc.rist_from_hash_pt hd h4 ok hrs hl
    obtain ⟨b, b1, b2, -⟩ := rge_export_exact hd ok hrs x1 v1
    exact ⟨P1, P2, b, i1, i2, by rw [ristretto_pubkey_from_hash, e1, C.ok_bind, b1], b2, fin v1 b2⟩

include hd h4 ok hrs in
/-- C86. If `ristretto_pubkey_to_uniform` succeeds, `ristretto_pubkey_from_uniform` makes the same key again, with the same exception; on an
invalid key it fails. -/
theorem ristretto_pubkey_to_uniform_sound {pub : List Byte} (hl : pub.length = ristLen d.fe) (hint : BitVec 32) :
    ∃ out r, ristretto_pubkey_to_uniform ec rs pub hint = .ok (out, r) ∧ out.length = feSize d.fe ∧
      (r = true → (∃ k : Nat, RistOf ec.h (k • G) pub) ∧
        (leElem d.fe out ≠ 0 ∨ d ≠ curve_ed1174 → ristretto_pubkey_from_uniform ec rs out = .ok pub)) := by
  obtain ⟨p, b, e1, e2, e3⟩ := Ecc.rist_in hd ok hl
  unfold ristretto_pubkey_to_uniform
  rw [e1, C.ok_bind]
  dsimp only
  cases b with
  | false =>
    obtain ⟨out, r, t1, t2⟩ := Ecc.rist_to_uniform_total (rs := rs) (Ecc.edDefs_fe d (Ecc.rist_defs hd)) (Ecc.rist_h hd ok).hh p hint
    rw [t1, C.ok_bind]
    exact ⟨_, _, rfl, t2, fun h => by simp at h⟩
  | true =>
    obtain ⟨k, hk⟩ := e2.1 rfl
    obtain ⟨P, v, c, rfl⟩ := e3 k hk
    obtain ⟨out, r, t1, t2, t3, -⟩ := ristretto_to_uniform_sound hd h4 ok hrs (Ecc.ext_aff P) v hint
    rw [t1, C.ok_bind]
    refine ⟨_, _, rfl, t2, fun h => ⟨⟨k, hk⟩, fun hz => ?_⟩⟩
    rw [Bool.true_and] at h
    obtain ⟨q, Q, q1, q2, q3, q4⟩ := t3 h hz
    obtain ⟨b, b1, b2, -, b3⟩ := rge_export_exact hd ok hrs q2 q3
    rw [ristretto_pubkey_from_uniform, q1, C.ok_bind, b1, (b3 _ _ hk).2 (Ecc.rist_symm (Ecc.rist_trans q4 c))]

include hd h4 ok hrs in
/-- C86. Every string of bytes whose number is not zero and whose key is not the one of the neutral element is found again from the key, up
to bits which are not read. -/
theorem ristretto_pubkey_to_uniform_complete {bytes pub : List Byte} (hl : feSize d.fe ≤ bytes.length)
    (hpub : ristretto_pubkey_from_uniform ec rs bytes = .ok pub) (hz : leElem d.fe bytes ≠ 0) (h0 : ¬ RistOf ec.h (0 : EPt ec.a ec.d) pub) :
    ∃ i < ec.h, ∀ hint : BitVec 32, (hint &&& 15).toNat % ec.h = i → ((hint >>> 4) &&& 15).toNat % 2 = (leElem d.fe bytes).val % 2 →
      ∃ out, ristretto_pubkey_to_uniform ec rs pub hint = .ok (out, true) ∧ leElem d.fe out = leElem d.fe bytes := by
  obtain ⟨p, P, e1, x1, v1, i1⟩ := Ecc.rist_from_uniform_pt hd h4 ok hrs hl
  obtain ⟨b, b1, b2, b3, -⟩ := rge_export_exact hd ok hrs x1 v1
  rw [ristretto_pubkey_from_uniform, e1, C.ok_bind, b1] at hpub
  cases hpub
  obtain ⟨q, r, k1, k2, -, k3⟩ := rge_import_exact hd ok b3
  have hr : r = true := k2.2 ⟨P, v1, b2⟩
  obtain ⟨Q, v2, c2, rfl⟩ := k3 P b2 hr
  have hn : ¬ RistEq ec.h Q 0 := fun h => h0 <| by
    obtain ⟨s, hs, e⟩ := b2
    exact ⟨s, Ecc.rist_num_congr (Ecc.rist_trans (Ecc.rist_symm c2) h) hs, e⟩
  obtain ⟨i, hi, h⟩ := ristretto_to_uniform_complete hd h4 ok hrs hz i1 (Ecc.rist_symm c2) v2 hn (Ecc.ext_aff Q)
  refine ⟨i, hi, fun hint h1 h2 => ?_⟩
  obtain ⟨out, o1, o2⟩ := h hint h1 h2
  refine ⟨out, ?_, o2⟩
  unfold ristretto_pubkey_to_uniform
  rw [k1, C.ok_bind]
  dsimp only
  rw [o1, C.ok_bind, hr]
  rfl

include hd h4 ok hrs in
theorem Ecc.rist_to_hash_total {S : Type} (gen : ByteGen S) (p : Xge (ZMod d.fe.p)) : ∀ fuel s,
    ristretto_point_to_hash_loop ec rs gen p fuel s = .spin ∨
      ∃ out, ristretto_point_to_hash_loop ec rs gen p fuel s = .ok out ∧ out.length = 2 * feSize d.fe
  | 0, _ => Or.inl (by rw [ristretto_point_to_hash_loop])
  | fuel + 1, s => by
    rw [ristretto_point_to_hash_loop]
    have hlen := gen.len s (feSize d.fe)
    obtain ⟨p1, P1, e1, -⟩ := Ecc.rist_from_uniform_pt hd h4 ok hrs hlen.ge
    dsimp only
    rw [e1, R.lift_ok, R.ok_bind]
    obtain ⟨out, r, t1, t2⟩ := Ecc.rist_to_uniform_total (rs := rs) (Ecc.edDefs_fe d (Ecc.rist_defs hd)) (Ecc.rist_h hd ok).hh (xge_sub ec p p1)
      (BitVec.ofNat 32 (leVal (gen.gen (gen.gen s (feSize d.fe)).2 4).1))
    rw [t1, R.lift_ok, R.ok_bind]
    dsimp only
    cases r with
    | false =>
      rw [if_neg (by simp)]
      exact rist_to_hash_total gen p fuel _
    | true =>
      rw [if_pos rfl]
      exact Or.inr ⟨_, rfl, by rw [List.length_append, hlen, t2]; omega⟩

include hd h4 ok hrs in
/-- C86. If `ristretto_pubkey_to_hash` ends, it reports whether the key is valid, and then `ristretto_pubkey_from_hash` makes the same key
again, with the same exception. -/
theorem ristretto_pubkey_to_hash_sound {S : Type} (rng : Source S) (fuel : Nat) {pub : List Byte} (hl : pub.length = ristLen d.fe)
    (entropy : List Byte) : ristretto_pubkey_to_hash rng fuel ec rs pub entropy = .spin ∨
      ∃ out r, ristretto_pubkey_to_hash rng fuel ec rs pub entropy = .ok (out, r) ∧ out.length = 2 * feSize d.fe ∧
        (r = true ↔ ∃ k : Nat, RistOf ec.h (k • G) pub) ∧
        (r = true → leElem d.fe (out.drop (feSize d.fe)) ≠ 0 ∨ d ≠ curve_ed1174 → ristretto_pubkey_from_hash ec rs out = .ok pub) := by
  obtain ⟨p, b, e1, e2, e3⟩ := Ecc.rist_in hd ok hl
  unfold ristretto_pubkey_to_hash
  rw [e1, R.lift_ok, R.ok_bind]
  dsimp only
  cases b with
  | false =>
    rcases Ecc.rist_to_hash_total hd h4 ok hrs rng.toByteGen p fuel (rng.init entropy) with h | ⟨out, h, h'⟩
    · rw [ristretto_point_to_hash, h]; exact Or.inl rfl
    · rw [ristretto_point_to_hash, h]
      exact Or.inr ⟨out, false, rfl, h', e2, fun h => by cases h⟩
  | true =>
    obtain ⟨k, hk⟩ := e2.1 rfl
    obtain ⟨P, v, c, rfl⟩ := e3 k hk
    rcases ristretto_to_hash_sound hd h4 ok hrs rng fuel (Ecc.ext_aff P) v entropy with h | ⟨out, h, h', h''⟩
    · rw [h]; exact Or.inl rfl
    · rw [h]
      refine Or.inr ⟨out, true, rfl, h', e2, fun _ hz => ?_⟩
      obtain ⟨q, Q, q1, q2, q3, q4⟩ := h'' hz
      obtain ⟨b, b1, b2, -, b3⟩ := rge_export_exact hd ok hrs q2 q3
      rw [ristretto_pubkey_from_hash, q1, C.ok_bind, b1, (b3 _ _ hk).2 (Ecc.rist_symm (Ecc.rist_trans q4 c))]

end

/-! ### Where it is wrong -/

namespace Ecc

set_option maxRecDepth 100000 in
set_option exponentiation.threshold 500 in
/-- The constant of ed448 which `ristretto_init` reads is not a root of `a d - 1`. -/
theorem adm448 : (constVal curve_ed448.fe ristretto_ed448.adm1s ^ 2 + 1) % curve_ed448.fe.p ≠
    beVal curve_ed448.a * beVal curve_ed448.d % curve_ed448.fe.p := by decide +kernel

set_option maxRecDepth 100000 in
theorem a448 : beVal curve_ed448.a % curve_ed448.fe.p = 1 % curve_ed448.fe.p := by decide +kernel

/-- A root of `N / D` for the number two on ed448. -/
def root448 : Nat := 226111544873443707348745542734472208366496144580681406144792583848629366735610050133561964876265449221662751897595277927965009433820171

/-- What has to be checked on numbers. -/
def Wit (p q d w : Nat) : Prop := (w ^ 2 * ((d * (q * 4) + (p - 1)) * (q * 4 + (p - d)))) % p = ((q * 4 + 1) * (d + 1) * (d + (p - 1))) % p ∧
    ((d * (q * 4) + (p - 1)) * (q * 4 + (p - d))) % p ≠ 0 ∧ ((q * 4 + 1) * (d + 1) * (d + (p - 1))) % p ≠ 0 ∧ 1 ≤ p ∧ d ≤ p

instance (p q d w : Nat) : Decidable (Wit p q d w) := by unfold Wit; infer_instance

theorem wit_ok {p q d w : Nat} (h : Wit p q d w) : ((w : Nat) : ZMod p) ≠ 0 ∧ ((d : ZMod p) * ((q : ZMod p) * 2 ^ 2) - 1) * ((q : ZMod p) * 2 ^ 2 - d) ≠ 0 ∧
    (w : ZMod p) ^ 2 * (((d : ZMod p) * ((q : ZMod p) * 2 ^ 2) - 1) * ((q : ZMod p) * 2 ^ 2 - d)) =
      ((q : ZMod p) * 2 ^ 2 + 1) * ((d : ZMod p) + 1) * ((d : ZMod p) - 1) := by
  obtain ⟨f1, f2, f3, f4, f5⟩ := h
  have e1 := cast_mod_eq f1
  have e2 : ((((d * (q * 4) + (p - 1)) * (q * 4 + (p - d))) : Nat) : ZMod p) ≠ 0 := by
    rw [ne_eq, ZMod.natCast_eq_zero_iff, Nat.dvd_iff_mod_eq_zero]; exact f2
  have e3 : ((((q * 4 + 1) * (d + 1) * (d + (p - 1))) : Nat) : ZMod p) ≠ 0 := by
    rw [ne_eq, ZMod.natCast_eq_zero_iff, Nat.dvd_iff_mod_eq_zero]; exact f3
  push_cast [Nat.cast_sub f4, Nat.cast_sub f5] at e1 e2 e3
  simp only [CharP.cast_eq_zero] at e1 e2 e3
  have e2' : ((d : ZMod p) * ((q : ZMod p) * 2 ^ 2) - 1) * ((q : ZMod p) * 2 ^ 2 - d) ≠ 0 := by
    intro h; apply e2; linear_combination h
  refine ⟨fun h => e3 ?_, e2', ?_⟩
  · rw [← e1, h]; ring
  · linear_combination e1

set_option maxRecDepth 100000 in
set_option exponentiation.threshold 500 in
theorem root448_sq : Wit curve_ed448.fe.p (constVal curve_ed448.fe ristretto_ed448.qnr) (beVal curve_ed448.d) root448 := by decide +kernel

theorem leElem_two {fe : FieldCode} (h : leVal (leBytes (feSize fe) 2) % 2 ^ fe.p.size = 2) : leElem fe (leBytes (feSize fe) 2) = 2 := by
  rw [leElem, List.take_of_length_le (Strm.leBytes_len _ _).le, h]; rfl

set_option maxRecDepth 100000 in
set_option exponentiation.threshold 500 in
theorem two448 : leVal (leBytes (feSize curve_ed448.fe) 2) % 2 ^ curve_ed448.fe.p.size = 2 := by decide +kernel

section
variable {fe : FieldCode} [Fact fe.p.Prime] {ec : Edwards (ZMod fe.p)} [g : EdGood ec.a ec.d] {rs : Ristretto (ZMod fe.p)}

/-- With a wrong constant the map leaves the curve. -/
theorem ell_wrong (hfe : fe ∈ fieldCodes) (cc : EdConst ec) (ha : ec.a = 1) (hk : rs.adm1s ^ 2 ≠ ec.a * ec.d - 1) {u b : ZMod fe.p} (hb : b ≠ 0)
    (hD : (ec.d * (rs.qnr * u ^ 2) - ec.a) * (ec.a * (rs.qnr * u ^ 2) - ec.d) ≠ 0)
    (hbD : b ^ 2 * ((ec.d * (rs.qnr * u ^ 2) - ec.a) * (ec.a * (rs.qnr * u ^ 2) - ec.d)) =
      ec.a * (rs.qnr * u ^ 2 + 1) * (ec.d + ec.a) * (ec.d - ec.a)) :
    ∃ p, ristretto_elligator ec rs u = .ok p ∧ ∀ P : EPt ec.a ec.d, ¬ Ext p P := by
  have a2 : ec.a ^ 2 = 1 := by rw [ha, one_pow]
  obtain ⟨r, hr⟩ : ∃ r, r = rs.qnr * u ^ 2 := ⟨_, rfl⟩
  have hr' : u * u * rs.qnr = r := by rw [hr]; ring
  rw [← hr] at hD hbD
  obtain ⟨N, hN⟩ : ∃ N, N = ec.a * (r + 1) * (ec.d + ec.a) * (ec.d - ec.a) := ⟨_, rfl⟩
  have hN' : ec.a * ((r + 1) * (ec.d + ec.a) * (ec.d - ec.a)) = N := by rw [hN]; ring
  obtain ⟨D, hDe⟩ : ∃ D, D = (ec.d * r - ec.a) * (ec.a * r - ec.d) := ⟨_, rfl⟩
  rw [← hDe] at hD hbD
  rw [← hN] at hbD
  obtain ⟨s, o, h1, h2, h3⟩ := rsqrt_ok hfe 0 (by omega) N D
  have ho : o = true := h2.2 ⟨hD, b, by rw [← hbD, mul_div_cancel_right₀ _ hD, pow_two]⟩
  have h3 := h3 ho
  unfold ristretto_elligator
  simp only [mul_a_eq, mul_d_eq cc]
  rw [hr', hN', ← hDe, h1, C.ok_bind]
  dsimp only
  rw [C.pure_eq, ho]
  refine ⟨_, rfl, fun P hP => ?_⟩
  simp only [Bool.not_true, fe_select, Bool.false_eq_true, if_false] at hP
  have hs0 : s ≠ 0 := by
    rintro rfl
    rw [zero_pow (by norm_num), zero_mul] at h3
    rw [← h3] at hbD
    exact mul_ne_zero (pow_ne_zero 2 hb) hD hbD
  obtain ⟨t, ht⟩ : ∃ t, t = -(r - 1) * (ec.d + ec.a) ^ 2 / D - 1 := ⟨_, rfl⟩
  have ht' : (t + 1) * D = -(r - 1) * (ec.d + ec.a) ^ 2 := by
    rw [ht, sub_add_cancel, div_mul_cancel₀ _ hD]
  have hnt : (r - 1) * -1 * ((ec.d + ec.a) * (ec.d + ec.a)) - D = t * D := by linear_combination -ht'
  have hq := ell_quartic a2 hDe hD (Or.inl ⟨by rw [h3, hN], ht'⟩)
  rw [hnt] at hP
  obtain ⟨hz, hx, hy, -⟩ := hP
  dsimp only at hz hx hy
  have w1 : t * D * rs.adm1s ≠ 0 := left_ne_zero_of_mul hz
  have w3 : 1 - ec.a * (s * s) ≠ 0 := right_ne_zero_of_mul hz
  have ex : P.x * (t * rs.adm1s) = 2 * s := by
    apply mul_right_cancel₀ hD
    apply mul_right_cancel₀ w3
    linear_combination -hx
  have ey : P.y * (1 - ec.a * s ^ 2) = 1 + ec.a * s ^ 2 := by
    apply mul_right_cancel₀ w1
    linear_combination -hy
  have hx0 : P.x ≠ 0 := by
    intro h; rw [h, zero_mul] at ex
    exact mul_ne_zero g.two hs0 ex.symm
  have hw : 1 + P.y ≠ 0 := by
    intro h
    apply g.two
    linear_combination -ey + (1 - ec.a * s ^ 2) * h
  have hs2 : s ^ 2 * (1 + P.y) = -ec.a * (1 - P.y) := by
    linear_combination (-ec.a) * ey - (s ^ 2 * (1 + P.y)) * a2
  have hv := (rist_v a2 hw P.on hs2).1
  have ht0 : t ≠ 0 := left_ne_zero_of_mul (left_ne_zero_of_mul w1)
  apply hk
  apply mul_left_cancel₀ (pow_ne_zero 2 ht0)
  apply mul_left_cancel₀ (pow_ne_zero 2 hx0)
  have e1 : P.x ^ 2 * (t ^ 2 * rs.adm1s ^ 2) = 4 * s ^ 2 := by linear_combination (P.x * (t * rs.adm1s) + 2 * s) * ex
  rw [e1, ← hv]
  congr 1
  rw [ha] at hq ⊢
  linear_combination -hq

/-- The inverse for the neutral element. -/
theorem inv_neutral (hfe : fe ∈ fieldCodes) (hh : ec.h = 4) : ristretto_invert ec rs (xaff (0 : EPt ec.a ec.d)) 2 = .ok (0, true) := by
  have himp : qge_import_rge ec rs (xaff (0 : EPt ec.a ec.d)) = .ok [⟨0, 1⟩, ⟨0, 1⟩] := by
    have hx : fe_is_zero (xaff (0 : EPt ec.a ec.d)).x = true := by
      rw [fe_is_zero, decide_eq_true_iff]; exact ed_zero_x (a := ec.a) (d := ec.d)
    obtain ⟨r, o, e1, -⟩ := rsqrt_ok hfe 2 (by omega) 1 ((xaff (0 : EPt ec.a ec.d)).y * (xaff (0 : EPt ec.a ec.d)).y *
      ((xaff (0 : EPt ec.a ec.d)).y * (xaff (0 : EPt ec.a ec.d)).y) * ((xaff (0 : EPt ec.a ec.d)).x * (xaff (0 : EPt ec.a ec.d)).x) *
      ((xaff (0 : EPt ec.a ec.d)).z * (xaff (0 : EPt ec.a ec.d)).z - (xaff (0 : EPt ec.a ec.d)).y * (xaff (0 : EPt ec.a ec.d)).y))
    unfold qge_import_rge
    dsimp only
    rw [e1, C.ok_bind, hx, if_neg (by omega)]
    simp only [Bool.true_or, fe_select, if_true]
    rfl
  unfold ristretto_invert
  dsimp only
  rw [check_true (by omega), C.ok_bind, himp, C.ok_bind, if_neg (by rw [hh]; simp), hh]
  have hl : C.rd (List.take (4 / 2) [(⟨0, 1⟩ : Qge (ZMod fe.p)), ⟨0, 1⟩] ++
      List.map (fun q => (⟨-q.s, -q.t⟩ : Qge (ZMod fe.p))) (List.take (4 / 2) [(⟨0, 1⟩ : Qge (ZMod fe.p)), ⟨0, 1⟩]))
      (((2 : BitVec 32) &&& 15).toNat % 4) = .ok ⟨-0, -1⟩ := rfl
  rw [hl, C.ok_bind]
  obtain ⟨r, o, e1, -⟩ := rsqrt_ok hfe 2 (by omega) 1
    ((-0 * -0 * (-0 * -0) - (-1 + 1) * rs.dmaddpa * ((-1 + 1) * rs.dmaddpa)) * rs.qnr)
  have z1 : fe_is_zero (-0 : ZMod fe.p) = true := by rw [fe_is_zero, decide_eq_true_iff, neg_zero]
  have z2 : fe_equal (-1 : ZMod fe.p) 1 = false := by
    rw [fe_equal, decide_eq_false_iff_not]
    intro h
    apply g.two
    linear_combination -h
  unfold qge_invert
  dsimp only
  rw [e1, C.ok_bind, z1, z2]
  simp only [Bool.true_or, Bool.not_false, Bool.and_true, fe_select, if_true, C.pure_eq]
  rw [set_odd_zero]

theorem zero_square {a d w : Nat} (e : (w ^ 2 + a ^ 4 * d) % fe.p = a ^ 2 * d ^ 3 % fe.p) (ha : ec.a = (a : ZMod fe.p)) (hd : ec.d = (d : ZMod fe.p)) :
    ¬ InvZero ec := by
  rw [InvZero, not_not]
  have e := cast_mod_eq e
  simp only [Nat.cast_add, Nat.cast_mul, Nat.cast_pow] at e
  rw [← ha, ← hd] at e
  have h0 : ec.a * ec.d ≠ 0 := mul_ne_zero g.a0 (ed_d0 (a := ec.a))
  refine ⟨(w : ZMod fe.p) / (ec.a * ec.d), ?_⟩
  rw [div_mul_div_comm, div_eq_div_iff h0 (mul_ne_zero h0 h0)]
  linear_combination (-ec.a * ec.d) * e

theorem zero_not_neutral (c : RistC ec rs) (hz : ¬ InvZero ec) (hh : ec.h = 4) {Q : EPt ec.a ec.d} (hQ : RistElligator rs.qnr rs.adm1s 0 Q) :
    ¬ RistEq ec.h Q 0 := by
  obtain ⟨s, t, i1, i2⟩ := hQ
  intro h
  have hs : s ≠ 0 := by
    rintro rfl
    exact quartic_zero_not hz c i1
  rcases (rist_zero_iff c.h.hh Q).1 h with h | ⟨h, -⟩
  · have := i2.1
    rw [h, zero_mul] at this
    exact mul_ne_zero g.two hs this.symm
  · omega

end

theorem ne_448 : curve_ed25519 ≠ curve_ed448 ∧ curve_ed1174 ≠ curve_ed448 := by
  constructor <;> intro h
  · have := congrArg (fun d : EdwardsDef => d.h) h
    exact absurd this (by decide)
  · have := congrArg (fun d : EdwardsDef => beVal d.d) h
    exact absurd this (by decide +kernel)

end Ecc

set_option exponentiation.threshold 500

section
variable [Fact curve_ed448.fe.p.Prime] {ec : Edwards (ZMod curve_ed448.fe.p)} [g : EdGood ec.a ec.d] {G : EPt ec.a ec.d}
  (ok : EdCurve curve_ed448 ec G) {rs : Ristretto (ZMod curve_ed448.fe.p)} (hrs : ristretto_init curve_ed448.fe ristretto_ed448 = .ok rs)

include ok hrs in
/-- C86. On ed448 the map is wrong: whenever the quotient of the map is a square and not zero, the struct which
`ristretto_point_from_uniform` returns is not a point of the curve. (The arrays of the constants have eight zero bytes at the front which
are not part of the number, and `fe_import_be` reads the first 56 bytes.) -/
theorem ristretto_from_uniform_wrong_ed448 {bytes : List Byte} (hl : feSize curve_ed448.fe ≤ bytes.length) {b : ZMod curve_ed448.fe.p} (hb : b ≠ 0)
    (hD : (ec.d * (rs.qnr * leElem curve_ed448.fe bytes ^ 2) - ec.a) * (ec.a * (rs.qnr * leElem curve_ed448.fe bytes ^ 2) - ec.d) ≠ 0)
    (hbD : b ^ 2 * ((ec.d * (rs.qnr * leElem curve_ed448.fe bytes ^ 2) - ec.a) * (ec.a * (rs.qnr * leElem curve_ed448.fe bytes ^ 2) - ec.d)) =
      ec.a * (rs.qnr * leElem curve_ed448.fe bytes ^ 2 + 1) * (ec.d + ec.a) * (ec.d - ec.a)) :
    ∃ p, ristretto_point_from_uniform ec rs bytes = .ok p ∧ ∀ P : EPt ec.a ec.d, ¬ Ext p P := by
  have hm : (curve_ed448, ristretto_ed448) ∈ ristrettoDefs := by simp [ristrettoDefs]
  have hrs' := C.ok.inj ((Ecc.rist_init_def hm).symm.trans hrs)
  have k1 : rs.adm1s = (Ecc.constVal curve_ed448.fe ristretto_ed448.adm1s : Nat) := by rw [← hrs']; rfl
  have ha : ec.a = 1 := by
    rw [ok.aval, Ecc.cast_mod_eq Ecc.a448, Nat.cast_one]
  have hk : rs.adm1s ^ 2 ≠ ec.a * ec.d - 1 := by
    intro h
    apply Ecc.adm448
    rw [← ZMod.natCast_eq_natCast_iff', Nat.cast_add, Nat.cast_pow, Nat.cast_one, Nat.cast_mul, ← k1, ← ok.aval, ← ok.dval, h, sub_add_cancel]
  rw [Ecc.rist_from_uniform ec rs hl]
  exact Ecc.ell_wrong (Ecc.edDefs_fe _ (Ecc.rist_defs hm)) ok.const ha hk hb hD hbD

include ok hrs in
/-- C86. That happens for the number two. -/
theorem ristretto_from_uniform_wrong_ed448_happens : ∃ p, ristretto_point_from_uniform ec rs (leBytes (feSize curve_ed448.fe) 2) = .ok p ∧
    ∀ P : EPt ec.a ec.d, ¬ Ext p P := by
  have hm : (curve_ed448, ristretto_ed448) ∈ ristrettoDefs := by simp [ristrettoDefs]
  have hrs' := C.ok.inj ((Ecc.rist_init_def hm).symm.trans hrs)
  have k1 : rs.qnr = (Ecc.constVal curve_ed448.fe ristretto_ed448.qnr : Nat) := by rw [← hrs']; rfl
  have ha : ec.a = 1 := by
    rw [ok.aval, Ecc.cast_mod_eq Ecc.a448, Nat.cast_one]
  obtain ⟨e1, e2, e3⟩ := Ecc.wit_ok Ecc.root448_sq
  rw [← k1, ← ok.dval] at e2 e3
  refine ristretto_from_uniform_wrong_ed448 ok hrs (Strm.leBytes_len _ _).ge e1 ?_ ?_
  · rw [Ecc.leElem_two Ecc.two448, ha, one_mul]; exact e2
  · rw [Ecc.leElem_two Ecc.two448, ha, one_mul, one_mul]; exact e3

end

section
variable [Fact curve_ed1174.fe.p.Prime] {ec : Edwards (ZMod curve_ed1174.fe.p)} [g : EdGood ec.a ec.d] {G : EPt ec.a ec.d}
  (ok : EdCurve curve_ed1174 ec G) {rs : Ristretto (ZMod curve_ed1174.fe.p)} (hrs : ristretto_init curve_ed1174.fe ristretto_ed1174 = .ok rs)

include ok hrs in
/-- C86. The exception on ed1174 is real: for the neutral element and the hint 2, `ristretto_point_to_uniform` reports success, and its
bytes stand for another class. -/
theorem ristretto_to_uniform_wrong_ed1174 : ∃ out q Q, ristretto_point_to_uniform ec rs (xaff (0 : EPt ec.a ec.d)) 2 = .ok (out, true) ∧
    ristretto_point_from_uniform ec rs out = .ok q ∧ Ext q (Q : EPt ec.a ec.d) ∧ Even Q ∧ ¬ RistEq ec.h Q 0 := by
  have hm : (curve_ed1174, ristretto_ed1174) ∈ ristrettoDefs := by simp [ristrettoDefs]
  have hne := Ecc.ne_448.2
  have c := Ecc.rist_c hm hne ok hrs
  have hh : ec.h = 4 := ok.hval
  obtain ⟨out, o1, o2, o3⟩ := Ecc.rist_to_uniform_eq (Ecc.inv_neutral (rs := rs) (Ecc.edDefs_fe _ (Ecc.rist_defs hm)) hh)
  obtain ⟨q, Q, e1, x1, v1, i⟩ := Ecc.rist_from_uniform_pt hm hne ok hrs o2.ge
  rw [o3] at i
  exact ⟨out, q, Q, o1, e1, x1, v1, Ecc.zero_not_neutral c (Ecc.zero_square Ecc.rootZero1174_sq ok.aval ok.dval) hh i⟩

end

/-! ### The hypotheses hold in concrete cases -/

/-- After initialization, on both curves: the bytes of the number two are a key, and the hints which the completeness asks for exist. -/
example : ∀ q ∈ [(curve_ed25519, ristretto_ed25519), (curve_ed1174, ristretto_ed1174)], ∃ (_ : Fact q.1.fe.p.Prime) (ec : Edwards (ZMod q.1.fe.p))
    (rs : Ristretto (ZMod q.1.fe.p)) (_ : EdGood ec.a ec.d) (P : EPt ec.a ec.d) (b : List Byte), edwards_init q.1 = .ok ec ∧
    ristretto_init q.1.fe q.2 = .ok rs ∧ RistElligator rs.qnr rs.adm1s (leElem q.1.fe (leBytes (feSize q.1.fe) 2)) P ∧
    ristretto_pubkey_from_uniform ec rs (leBytes (feSize q.1.fe) 2) = .ok b ∧ RistOf ec.h P b ∧
    ∀ i < 16, ∀ s < 2, ∃ hint : BitVec 32, (hint &&& 15).toNat = i ∧ ((hint >>> 4) &&& 15).toNat % 2 = s := by
  rintro ⟨d, rd⟩ hq
  have hm : (d, rd) ∈ ristrettoDefs := by
    simp only [List.mem_cons, List.not_mem_nil, or_false] at hq
    rcases hq with h | h <;> rw [h] <;> simp [ristrettoDefs]
  have hne : d ≠ curve_ed448 := by
    simp only [List.mem_cons, List.not_mem_nil, or_false, Prod.mk.injEq] at hq
    rcases hq with ⟨rfl, -⟩ | ⟨rfl, -⟩
    · exact Ecc.ne_448.1
    · exact Ecc.ne_448.2
  have := Ecc.edDefs_prime (Ecc.rist_defs hm)
  obtain ⟨ec, h1, g, G, ok⟩ := edwards_init_exact (Ecc.rist_defs hm)
  obtain ⟨rs, h2⟩ := ristretto_init_exact hm
  obtain ⟨P, b, e1, e2, e3, -⟩ := (ristretto_pubkey_from_uniform_exact hm hne ok h2 (bytes := leBytes (feSize d.fe) 2)).1 (Strm.leBytes_len _ _).ge
  exact ⟨inferInstance, ec, rs, g, P, b, h1, h2, e1, e2, e3, fun i hi s hs => ⟨_, Ecc.hint_parts i s hi hs⟩⟩

end Torsion
