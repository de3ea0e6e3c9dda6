import Verif.Ecc.EddsaLemmas
import Verif.Ecc.EdwardsProps

/-! # Properties: encodings of Edwards points, EdDSA keys and the arithmetic of keys (C78) -/
namespace Torsion

open Torsion.Spec

/-! ### Encodings -/

section
variable {fe : FieldCode} [Fact fe.p.Prime]

/-- Points are written as their ordinate with the parity of the abscissa, whatever the struct which stands for the point, and
different points are written differently. -/
theorem xge_export_exact {a d : ZMod fe.p} [EdGood a d] :
    (∀ {p : Xge (ZMod fe.p)} {P : EPt a d}, Ext p P → xge_export p = .ok (edBytes P)) ∧
    (∀ P : EPt a d, (edBytes P).length = edLen fe) ∧ ∀ P Q : EPt a d, edBytes P = edBytes Q → P = Q :=
  ⟨fun h => Ecc.xexport h, fun P => Ecc.edBytes_len P, fun _ _ => Ecc.edBytes_inj⟩

/-- Reading accepts the encodings of points and nothing else: in particular no ordinate which is not reduced, and no parity bit
for the abscissa zero. -/
theorem xge_import_exact (hfe : fe ∈ fieldCodes) {ec : Edwards (ZMod fe.p)} [EdGood ec.a ec.d] (c : EdConst ec) {raw : List Byte}
    (hl : raw.length = edLen fe) : ∃ (p : Xge (ZMod fe.p)) (b : Bool), xge_import ec raw = .ok (p, b) ∧
      (b = true ↔ ∃ P : EPt ec.a ec.d, raw = edBytes P) ∧ ∀ P : EPt ec.a ec.d, raw = edBytes P → Ext p P := by
  obtain ⟨Q, b, h1, h2, h3⟩ := Ecc.ximport hfe c hl.ge
  rw [List.take_of_length_le hl.le] at h2 h3
  refine ⟨_, b, h1, ⟨fun h => ⟨Q, h2.1 h⟩, ?_⟩, fun P hP => by rw [h3 P hP]; exact Ecc.ext_aff Q⟩
  rintro ⟨P, hP⟩
  obtain rfl := h3 P hP
  exact h2.2 hP

end

section
variable {d : EdwardsDef} (hd : d ∈ edDefs) [Fact d.fe.p.Prime] {ec : Edwards (ZMod d.fe.p)} [g : EdGood ec.a ec.d] {G : EPt ec.a ec.d}
  (ok : EdCurve d ec G)

/-! ### Private keys -/

include hd ok in
/-- The secret scalar is the clamped first half of the hash of the private key, the prefix its second half; the public key is the
multiple of the generator. -/
theorem eddsa_privkey_exact (junk : Nat → Byte) {priv : List Byte} (hl : priv.length = edLen d.fe) :
    ∃ s, eddsa_privkey_expand junk ec priv = .ok (s, edPrefix d priv) ∧ eddsa_privkey_convert junk ec priv = .ok s ∧
      s.length = edScLen d ∧ leVal s = edSecret d priv ∧
      eddsa_pubkey_create junk ec priv = .ok (edBytes (edSecret d priv • G)) := by
  obtain ⟨s, h1, h2, h3, h4⟩ := Ecc.privkey_expand_ok hd ok junk hl.ge
  have h5 := Ecc.pubkey_create_ok hd ok junk hl.ge
  rw [List.take_of_length_le hl.le] at h1 h4 h5
  exact ⟨s, h1, h2, h3, h4, h5⟩

include ok in
/-- The public key of a scalar of any size. -/
theorem eddsa_pubkey_from_scalar_exact {s : List Byte} (hl : s.length = edScLen d) :
    eddsa_pubkey_from_scalar ec s = .ok (edBytes (leVal s • G)) := by
  rw [Ecc.from_scalar_ok ok hl.ge, List.take_of_length_le hl.le]

include hd ok in
/-- Private keys by trial: the first output of the generator whose public key passes the test; the scalar is the one which belongs
to it. -/
theorem eddsa_privkey_grind_exact {S : Type} (rng : Source S) (fuel : Nat) (junk : Nat → Byte) (entropy : List Byte)
    (check : List Byte → Bool) (out : Nat → List Byte) (st : Nat → S) (h0 : st 0 = rng.init entropy)
    (hs : ∀ i, (out i, st (i + 1)) = rng.gen (st i) (edLen d.fe)) :
    (eddsa_privkey_grind rng fuel junk ec entropy check = .spin ∧ eddsa_scalar_grind rng fuel junk ec entropy check = .spin ∧
      ∀ i < fuel, check (edBytes (edSecret d (out i) • G)) = false) ∨
    ∃ i < fuel, eddsa_privkey_grind rng fuel junk ec entropy check = .ok (out i) ∧
      (∃ s, eddsa_scalar_grind rng fuel junk ec entropy check = .ok s ∧ leVal s = edSecret d (out i)) ∧
      check (edBytes (edSecret d (out i) • G)) = true ∧ ∀ j < i, check (edBytes (edSecret d (out j) • G)) = false := by
  have hst : ∀ i, (fun s => (rng.gen s (edLen d.fe)).2)^[i] (rng.init entropy) = st i := by
    intro i
    induction i with
    | zero => exact h0.symm
    | succ i ih => rw [Function.iterate_succ_apply', ih, ← hs]
  have hout : ∀ i, (rng.gen ((fun s => (rng.gen s (edLen d.fe)).2)^[i] (rng.init entropy)) (edLen d.fe)).1 = out i := by
    intro i; rw [hst, ← hs]
  have h := Ecc.grind_loop hd ok rng.toByteGen junk check fuel (rng.init entropy)
  simp only [hout] at h
  rcases h with ⟨h1, h2⟩ | ⟨i, hi, h1, h2, h3⟩
  · left
    refine ⟨h1, ?_, h2⟩
    rw [eddsa_scalar_grind, eddsa_privkey_grind, h1]
    rfl
  · right
    have hl : (out i).length = edLen d.fe := by rw [← hout i]; exact rng.len _ _
    obtain ⟨s, -, e1, -, e2, -⟩ := eddsa_privkey_exact hd ok junk hl
    refine ⟨i, hi, h1, ⟨s, ?_, e2⟩, h2, h3⟩
    rw [eddsa_scalar_grind, eddsa_privkey_grind, h1, R.ok_bind, e1, R.lift_ok]

/-! ### Scalars -/

include hd ok in
/-- The operations on scalars compute modulo the order and write reduced scalars; clamping sets the bits RFC 8032 names. -/
theorem eddsa_scalar_ops_exact {s t : List Byte} (hs : s.length = edScLen d) (ht : t.length = edScLen d) :
    eddsa_scalar_tweak_add ec s t = .ok (leBytes (edScLen d) ((leVal s + leVal t) % ec.n)) ∧
    eddsa_scalar_tweak_mul ec s t = .ok (leBytes (edScLen d) (leVal s * leVal t % ec.n)) ∧
    eddsa_scalar_reduce ec s = .ok (leBytes (edScLen d) (leVal s % ec.n)) ∧
    (∃ m, eddsa_scalar_negate ec s = .ok (leBytes (edScLen d) m) ∧ m < ec.n ∧ (m + leVal s) % ec.n = 0) ∧
    (∃ m, eddsa_scalar_invert ec s = .ok (leBytes (edScLen d) m) ∧ m < ec.n ∧
      if leVal s % ec.n = 0 then m = 0 else m * leVal s % ec.n = 1) ∧
    (∃ z, eddsa_scalar_is_zero ec s = .ok z ∧ (z = true ↔ ec.n ∣ leVal s)) ∧
    (∃ c, eddsa_scalar_clamp ec s = .ok c ∧ c.length = edScLen d ∧ leVal c = clamp d.fe.p.size d.h (leVal s)) ∧
    leVal (leBytes (edScLen d) (leVal s % ec.n)) = leVal s % ec.n := by
  have hn0 : 0 < ec.n := ok.pos
  have hpr := Ecc.ed_prime hd ok
  have hsc := Ecc.ed_sc_eq ok
  have i1 : num_import_reduce_le ec.n s = .ok (leVal s % ec.n) := by
    rw [Ecc.red_le (by rw [hsc]; exact hs.ge), hsc, List.take_of_length_le hs.le]
  have i2 : num_import_reduce_le ec.n t = .ok (leVal t % ec.n) := by
    rw [Ecc.red_le (by rw [hsc]; exact ht.ge), hsc, List.take_of_length_le ht.le]
  have hx : ∀ a, num_export_le ec.n a = leBytes (edScLen d) a := fun a => by rw [num_export_le, hsc]
  obtain ⟨c, c1, c2, c3⟩ := Ecc.ed_clamp hd ok hs.ge
  rw [List.take_of_length_le hs.le] at c3
  have hfact : Fact ec.n.Prime := ⟨hpr⟩
  refine ⟨?_, ?_, ?_, ⟨num_neg ec.n (leVal s % ec.n), ?_, Nat.mod_lt _ hn0, ?_⟩, ⟨(num_invert ec.n (leVal s % ec.n)).1, ?_, ?_, ?_⟩,
    ⟨_, by rw [eddsa_scalar_is_zero, i1, C.ok_bind]; rfl, ?_⟩, ⟨c, c1, c2, c3⟩, ?_⟩
  · rw [eddsa_scalar_tweak_add, i1, C.ok_bind, i2, C.ok_bind, hx, ← Nat.add_mod]; rfl
  · rw [eddsa_scalar_tweak_mul, i1, C.ok_bind, i2, C.ok_bind, hx, ← Nat.mul_mod]; rfl
  · rw [eddsa_scalar_reduce, i1, C.ok_bind, hx]; rfl
  · rw [eddsa_scalar_negate, i1, C.ok_bind, hx]; rfl
  · rw [num_neg, Nat.mod_add_mod]
    have := Nat.mod_lt (leVal s) hn0
    have h2 := Nat.div_add_mod (leVal s) ec.n
    have : ec.n - leVal s % ec.n + leVal s = ec.n + ec.n * (leVal s / ec.n) := by omega
    rw [this, Nat.add_mul_mod_self_left, Nat.mod_self]
  · rw [eddsa_scalar_invert, i1, C.ok_bind, hx]; rfl
  · haveI : NeZero ec.n := ⟨hpr.ne_zero⟩
    exact ZMod.val_lt _
  · haveI : NeZero ec.n := ⟨hpr.ne_zero⟩
    have hc : (((num_invert ec.n (leVal s % ec.n)).1 : Nat) : ZMod ec.n) = (leVal s : ZMod ec.n)⁻¹ := by
      rw [← ZMod.natCast_mod (leVal s)]; exact ZMod.natCast_zmod_val _
    split
    · rename_i h
      rw [h]
      show ((0 : Nat) : ZMod ec.n)⁻¹.val = 0
      simp
    · rename_i h
      have hne : (leVal s : ZMod ec.n) ≠ 0 := by rwa [Ne, ZMod.natCast_eq_zero_iff, Nat.dvd_iff_mod_eq_zero]
      have : (((num_invert ec.n (leVal s % ec.n)).1 * leVal s : Nat) : ZMod ec.n) = (1 : Nat) := by
        rw [Nat.cast_mul, hc, inv_mul_cancel₀ hne, Nat.cast_one]
      rw [(ZMod.natCast_eq_natCast_iff' _ _ _).1 this, Nat.mod_eq_of_lt hpr.one_lt]
  · rw [beq_iff_eq, Nat.dvd_iff_mod_eq_zero]
  · have hp := Ecc.scSize_pow ec.n
    rw [hsc] at hp
    rw [Strm.leVal_leBytes, Nat.mod_eq_of_lt ((Nat.mod_lt _ hn0).trans hp)]

/-! ### Public keys -/

include hd ok in
/-- The tests of public keys: the encodings of points are accepted, and the tests for the neutral element, for small orders and
for a part outside of the subgroup of the generator say what they are named after. -/
theorem eddsa_pubkey_tests_exact {pub : List Byte} (hl : pub.length = edLen d.fe) :
    (∃ b, eddsa_pubkey_verify ec pub = .ok b ∧ (b = true ↔ ∃ P : EPt ec.a ec.d, pub = edBytes P)) ∧
    (∃ b, eddsa_pubkey_is_infinity ec pub = .ok b ∧ (b = true ↔ pub = edBytes (0 : EPt ec.a ec.d))) ∧
    (∃ b, eddsa_pubkey_is_small ec pub = .ok b ∧ (b = true ↔ ∃ P : EPt ec.a ec.d, pub = edBytes P ∧ P ≠ 0 ∧ ec.h • P = 0)) ∧
    ∃ b, eddsa_pubkey_has_torsion ec pub = .ok b ∧ (b = true ↔ ∃ P : EPt ec.a ec.d, pub = edBytes P ∧ ¬ ∃ k : Nat, P = k • G) := by
  obtain ⟨Q, b, h1, h2, h3⟩ := Ecc.pub_import hd ok (raw := pub) hl.ge
  rw [List.take_of_length_le hl.le] at h2 h3
  obtain ⟨-, ⟨s, t1, t2⟩, ⟨t, t3, t4⟩⟩ := xge_torsion_exact hd ok (Ecc.ext_aff Q)
  have hiff : ∀ p : EPt ec.a ec.d → Prop, (∃ P : EPt ec.a ec.d, pub = edBytes P ∧ p P) ↔ b = true ∧ p Q := by
    intro p
    rw [h2]
    constructor
    · rintro ⟨P, e, hp⟩
      obtain rfl := h3 P e
      exact ⟨e, hp⟩
    · rintro ⟨e, hp⟩; exact ⟨Q, e, hp⟩
  refine ⟨⟨b, by rw [eddsa_pubkey_verify, h1, C.ok_bind]; rfl, ?_⟩, ⟨_, by rw [eddsa_pubkey_is_infinity, Ecc.adj_eq, Ecc.slice_take hl.ge, C.ok_bind]; rfl, ?_⟩,
    ⟨_, by rw [eddsa_pubkey_is_small, h1, C.ok_bind, t1, C.ok_bind]; rfl, ?_⟩,
    ⟨_, by rw [eddsa_pubkey_has_torsion, h1, C.ok_bind, t3, C.ok_bind]; rfl, ?_⟩⟩
  · simpa using (hiff fun _ => True).symm
  · have hz : edBytes (0 : EPt ec.a ec.d) = 1 :: List.replicate (edLen d.fe - 1) 0 := by
      refine leVal_inj (by rw [Ecc.edBytes_len, List.length_cons, List.length_replicate]; have := Ecc.edLen_pos d.fe; omega) ?_
      have h1 : (0 : EPt ec.a ec.d).y.val = 1 := by
        have : Fact (1 < d.fe.p) := ⟨(Fact.out : d.fe.p.Prime).one_lt⟩
        rw [show (0 : EPt ec.a ec.d).y = 1 from rfl, ZMod.val_one]
      have h0 : (0 : EPt ec.a ec.d).x.val = 0 := by rw [show (0 : EPt ec.a ec.d).x = 0 from rfl, ZMod.val_zero]
      rw [edBytes, h1, h0, Strm.leVal_leBytes, leVal_cons, show leVal (List.replicate (edLen d.fe - 1) 0) = 0 by simpa [leVal_nil] using Sc.leVal_zeros [] (edLen d.fe - 1)]
      have := Ecc.edLen_pos d.fe
      rw [Nat.mod_eq_of_lt]
      · simp
      · simpa using Nat.one_lt_pow (by omega) (by omega)
    rw [List.take_of_length_le hl.le, beq_iff_eq, hz]
  · rw [hiff fun P => P ≠ 0 ∧ ec.h • P = 0, Bool.and_eq_true, t2]
  · rw [hiff fun P => ¬ ∃ k : Nat, P = k • G, Bool.and_eq_true, t4]

include hd ok in
/-- The sum of keys, and the negation. -/
theorem eddsa_pubkey_add_exact {pub1 pub2 : List Byte} (h1 : pub1.length = edLen d.fe) (h2 : pub2.length = edLen d.fe) :
    (∃ out b, eddsa_pubkey_add ec pub1 pub2 = .ok (out, b) ∧
      (b = true ↔ ∃ P Q : EPt ec.a ec.d, pub1 = edBytes P ∧ pub2 = edBytes Q) ∧
      ∀ P Q : EPt ec.a ec.d, pub1 = edBytes P → pub2 = edBytes Q → out = edBytes (P + Q)) ∧
    ∃ out b, eddsa_pubkey_negate ec pub1 = .ok (out, b) ∧ (b = true ↔ ∃ P : EPt ec.a ec.d, pub1 = edBytes P) ∧
      ∀ P : EPt ec.a ec.d, pub1 = edBytes P → out = edBytes (-P) := by
  obtain ⟨P, b, e1, e2, e3⟩ := Ecc.pub_import hd ok (raw := pub1) h1.ge
  obtain ⟨Q, c, f1, f2, f3⟩ := Ecc.pub_import hd ok (raw := pub2) h2.ge
  rw [List.take_of_length_le h1.le] at e2 e3
  rw [List.take_of_length_le h2.le] at f2 f3
  refine ⟨⟨_, _, by rw [eddsa_pubkey_add, e1, C.ok_bind, f1, C.ok_bind, Ecc.xexport (Ecc.xmadd ok.const (Ecc.ext_aff P) Q), C.ok_bind]; rfl, ?_, ?_⟩,
    ⟨_, _, by rw [eddsa_pubkey_negate, e1, C.ok_bind, Ecc.xexport (Ecc.xneg (Ecc.ext_aff P)), C.ok_bind]; rfl, ?_, ?_⟩⟩
  · rw [Bool.and_eq_true, e2, f2]
    constructor
    · rintro ⟨a, b⟩; exact ⟨P, Q, a, b⟩
    · rintro ⟨P', Q', a, b⟩
      obtain rfl := e3 _ a
      obtain rfl := f3 _ b
      exact ⟨a, b⟩
  · intro P' Q' a b
    rw [e3 _ a, f3 _ b]
  · rw [e2]
    exact ⟨fun h => ⟨P, h⟩, by rintro ⟨P', a⟩; obtain rfl := e3 _ a; exact a⟩
  · intro P' a
    rw [e3 _ a]

include hd ok in
/-- The sum of any number of keys; of none it is the neutral element. -/
theorem eddsa_pubkey_combine_exact {pubs : List (List Byte)} (hl : ∀ p ∈ pubs, p.length = edLen d.fe) :
    ∃ out b, eddsa_pubkey_combine ec pubs = .ok (out, b) ∧ (b = true ↔ ∃ Ps : List (EPt ec.a ec.d), pubs = Ps.map edBytes) ∧
      ∀ Ps : List (EPt ec.a ec.d), pubs = Ps.map edBytes → out = edBytes Ps.sum := by
  rcases pubs with _ | ⟨p, ps⟩
  · refine ⟨_, true, by rw [eddsa_pubkey_combine, C.ok_bind]; dsimp only; rw [Ecc.xexport (Ecc.ext_zero (a := ec.a) (d := ec.d)), C.ok_bind]; rfl, ?_, ?_⟩
    · simp
    · intro Ps h
      rw [show Ps = [] by simpa using h.symm]; rfl
  · have hp := hl p List.mem_cons_self
    obtain ⟨P, b, e1, e2, e3⟩ := Ecc.pub_import hd ok (raw := p) hp.ge
    rw [List.take_of_length_le hp.le] at e2 e3
    obtain ⟨y, Y, b', h1, h2, h3, h4⟩ := Ecc.combine_loop hd ok ps (fun q hq => hl q (List.mem_cons_of_mem _ hq)) _ _ b (Ecc.ext_aff P)
    refine ⟨edBytes Y, b', ?_, ?_, ?_⟩
    · rw [eddsa_pubkey_combine]
      dsimp only
      rw [e1, C.ok_bind, h1, C.ok_bind, Ecc.xexport h2, C.ok_bind]
      rfl
    · rw [h3, e2]
      constructor
      · rintro ⟨h, Ps, rfl⟩
        exact ⟨P :: Ps, by rw [h]; rfl⟩
      · rintro ⟨Ps, hPs⟩
        rcases Ps with _ | ⟨P', Ps⟩
        · cases hPs
        · simp only [List.map_cons, List.cons.injEq] at hPs
          obtain rfl := e3 _ hPs.1
          exact ⟨hPs.1, Ps, hPs.2⟩
    · rintro Ps hPs
      rcases Ps with _ | ⟨P', Ps⟩
      · cases hPs
      · simp only [List.map_cons, List.cons.injEq] at hPs
        obtain rfl := e3 _ hPs.1
        rw [h4 _ hPs.2, List.sum_cons]

include hd ok in
/-- Tweaks of public keys. The tweak of the product is not reduced, and what it has above the bits of the field, in whole
digits of four bits, is dropped. -/
theorem eddsa_pubkey_tweak_exact {pub tweak : List Byte} (hl : pub.length = edLen d.fe) (ht : tweak.length = edScLen d) :
    (∃ out b, eddsa_pubkey_tweak_add ec pub tweak = .ok (out, b) ∧ (b = true ↔ ∃ P : EPt ec.a ec.d, pub = edBytes P) ∧
      ∀ P : EPt ec.a ec.d, pub = edBytes P → out = edBytes (P + leVal tweak • G)) ∧
    ∃ out b, eddsa_pubkey_tweak_mul ec pub tweak = .ok (out, b) ∧ (b = true ↔ ∃ P : EPt ec.a ec.d, pub = edBytes P) ∧
      ∀ P : EPt ec.a ec.d, pub = edBytes P → out = edBytes ((leVal tweak % 16 ^ ((d.fe.p.size + 3) / 4)) • P) := by
  have hsc := Ecc.ed_sc_eq ok
  obtain ⟨P, b, e1, e2, e3⟩ := Ecc.pub_import hd ok (raw := pub) hl.ge
  rw [List.take_of_length_le hl.le] at e2 e3
  obtain ⟨j, g1, g2⟩ := Ecc.xmul_g ok.toEdOk (leVal tweak % ec.n)
  rw [Ecc.ed_smul_mod ok] at g2
  obtain ⟨k, k1, k2⟩ := Ecc.xmul_mod ok.const (Ecc.ext_aff P) (leVal tweak)
  rw [ok.bits] at k2
  refine ⟨⟨_, b, by rw [eddsa_pubkey_tweak_add, e1, C.ok_bind, Ecc.red_le (by rw [hsc]; exact ht.ge), hsc, List.take_of_length_le ht.le, C.ok_bind, g1,
      C.ok_bind, Ecc.xexport (Ecc.xadd ok.const (Ecc.ext_aff P) g2), C.ok_bind]; rfl, ?_, ?_⟩,
    ⟨_, b, by rw [eddsa_pubkey_tweak_mul, e1, C.ok_bind, Ecc.raw_le (by rw [hsc]; exact ht.ge), hsc, List.take_of_length_le ht.le, C.ok_bind, k1,
      C.ok_bind, Ecc.xexport k2, C.ok_bind]; rfl, ?_, ?_⟩⟩
  · rw [e2]
    exact ⟨fun h => ⟨P, h⟩, by rintro ⟨P', a⟩; obtain rfl := e3 _ a; exact a⟩
  · intro P' a; rw [e3 _ a]
  · rw [e2]
    exact ⟨fun h => ⟨P, h⟩, by rintro ⟨P', a⟩; obtain rfl := e3 _ a; exact a⟩
  · intro P' a; rw [e3 _ a]; rfl

include hd ok in
/-- Tweaking a scalar and its public key agree: for sums always, for products as long as the tweak has no bits above those of the
field. -/
theorem eddsa_tweak_agree {s tweak : List Byte} (hs : s.length = edScLen d) (ht : tweak.length = edScLen d) :
    (∃ s' pub', eddsa_scalar_tweak_add ec s tweak = .ok s' ∧ eddsa_pubkey_from_scalar ec s' = .ok pub' ∧
      eddsa_pubkey_tweak_add ec (edBytes (leVal s • G)) tweak = .ok (pub', true)) ∧
    (leVal tweak < 16 ^ ((d.fe.p.size + 3) / 4) → ∃ s' pub', eddsa_scalar_tweak_mul ec s tweak = .ok s' ∧
      eddsa_pubkey_from_scalar ec s' = .ok pub' ∧ eddsa_pubkey_tweak_mul ec (edBytes (leVal s • G)) tweak = .ok (pub', true)) := by
  obtain ⟨a1, a2, -⟩ := eddsa_scalar_ops_exact hd ok hs ht
  obtain ⟨⟨o1, b1, f1, f2, f3⟩, o2, b2, f4, f5, f6⟩ := eddsa_pubkey_tweak_exact hd ok (pub := edBytes (leVal s • G)) (Ecc.edBytes_len _) ht
  have hb1 := f2.2 ⟨_, rfl⟩
  have hb2 := f5.2 ⟨_, rfl⟩
  have hn0 : 0 < ec.n := ok.pos
  have hval : ∀ m, leVal (leBytes (edScLen d) (m % ec.n)) • G = m • G := by
    intro m
    obtain ⟨-, -, -⟩ := Ecc.sc_bytes_eq hd ok (Nat.mod_lt m hn0)
    have hp := Ecc.scSize_pow ec.n
    rw [Ecc.ed_sc_eq ok] at hp
    rw [Strm.leVal_leBytes, Nat.mod_eq_of_lt ((Nat.mod_lt _ hn0).trans hp), Ecc.ed_smul_mod ok]
  refine ⟨⟨_, _, a1, eddsa_pubkey_from_scalar_exact ok (Strm.leBytes_len _ _), ?_⟩,
    fun hlt => ⟨_, _, a2, eddsa_pubkey_from_scalar_exact ok (Strm.leBytes_len _ _), ?_⟩⟩
  · rw [f1, hb1, f3 _ rfl, hval, add_nsmul]
  · rw [f4, hb2, f6 _ rfl, hval, Nat.mod_eq_of_lt hlt, mul_comm, mul_nsmul']

include hd ok in
/-- The coordinates of a key. -/
theorem eddsa_pubkey_export_exact {pub : List Byte} (hl : pub.length = edLen d.fe) :
    ∃ x y b, eddsa_pubkey_export ec pub = .ok (x, y, b) ∧ (b = true ↔ ∃ P : EPt ec.a ec.d, pub = edBytes P) ∧
      ∀ P : EPt ec.a ec.d, pub = edBytes P → x = leBytes ((d.fe.p.size + 7) / 8) P.x.val ∧ y = leBytes ((d.fe.p.size + 7) / 8) P.y.val := by
  obtain ⟨P, b, e1, e2, e3⟩ := Ecc.pub_import hd ok (raw := pub) hl.ge
  rw [List.take_of_length_le hl.le] at e2 e3
  refine ⟨_, _, b, by rw [eddsa_pubkey_export, e1, C.ok_bind]; rfl, ?_, ?_⟩
  · rw [e2]
    exact ⟨fun h => ⟨P, h⟩, by rintro ⟨P', a⟩; obtain rfl := e3 _ a; exact a⟩
  · intro P' a
    rw [e3 _ a]
    exact ⟨rfl, rfl⟩

include hd ok in
/-- A key from its coordinates, given in little-endian order in any length: from both, or from one and the parity of the other. -/
theorem eddsa_pubkey_import_exact (x y : List Byte) (sign : Option Bool) :
    ∃ out b, eddsa_pubkey_import ec x y sign = .ok (out, b) ∧
      (b = true ↔ (x ≠ [] ∨ y ≠ []) ∧ leVal x < d.fe.p ∧ leVal y < d.fe.p ∧ ∃ P : EPt ec.a ec.d,
        (x ≠ [] → P.x = (leVal x : ZMod d.fe.p)) ∧ (y ≠ [] → P.y = (leVal y : ZMod d.fe.p)) ∧
        (x = [] → CoordSign P.x sign) ∧ (y = [] → CoordSign P.y sign)) ∧
      (b = true → ∃ P : EPt ec.a ec.d, out = edBytes P ∧
        (x ≠ [] → P.x = (leVal x : ZMod d.fe.p)) ∧ (y ≠ [] → P.y = (leVal y : ZMod d.fe.p)) ∧
        (x = [] → CoordSign P.x sign) ∧ (y = [] → CoordSign P.y sign)) := by
  obtain ⟨vx, bx, f1, f2, f3⟩ := Ecc.import_pad_fe d.fe x
  obtain ⟨vy, by', f4, f5, f6⟩ := Ecc.import_pad_fe d.fe y
  have hfe := Ecc.edDefs_fe d hd
  have hcase : ∃ (Q : EPt ec.a ec.d) (c : Bool), (do
      let A ← if decide (x.length > 0) && decide (y.length > 0) then .ok (xge_set_xy ec vx vy)
        else if decide (x.length > 0) then xge_set_x ec vx sign
        else xge_set_y ec vy sign
      let out ← xge_export A.1
      return (out, (decide (x.length > 0) || decide (y.length > 0)) && bx && by' && A.2)) =
        C.ok (edBytes Q, (decide (x.length > 0) || decide (y.length > 0)) && bx && by' && c) ∧
      ((x ≠ [] ∨ y ≠ []) → c = true → (x ≠ [] → Q.x = vx) ∧ (y ≠ [] → Q.y = vy) ∧ (x = [] → CoordSign Q.x sign) ∧ (y = [] → CoordSign Q.y sign)) ∧
      ((x ≠ [] ∨ y ≠ []) → ∀ P : EPt ec.a ec.d, (x ≠ [] → P.x = vx) → (y ≠ [] → P.y = vy) → (x = [] → CoordSign P.x sign) →
        (y = [] → CoordSign P.y sign) → c = true) := by
    obtain ⟨Q1, c1, s1, s2, s3, -⟩ := Ecc.set_xy_ed ok.const vx vy
    obtain ⟨Q2, c2, t1, t2, t3, -⟩ := Ecc.set_x_ed hfe ok.const vx sign
    obtain ⟨Q3, c3, u1, u2, u3, -⟩ := Ecc.set_y_ok hfe ok.const vy sign
    rcases x with _ | ⟨x0, x⟩ <;> rcases y with _ | ⟨y0, y⟩
    · refine ⟨Q3, c3, ?_, by simp, by simp⟩
      simp only [List.length_nil, gt_iff_lt, lt_self_iff_false, decide_false, Bool.and_false, Bool.false_eq_true, if_false]
      rw [u1, C.ok_bind, Ecc.xexport (Ecc.ext_aff Q3), C.ok_bind]
      rfl
    · refine ⟨Q3, c3, ?_, fun _ h => ?_, fun _ P _ h1 h2 _ => u3 P (h1 (by simp)) (h2 rfl)⟩
      · simp only [List.length_nil, gt_iff_lt, lt_self_iff_false, decide_false, Bool.false_and, Bool.false_eq_true, if_false]
        rw [u1, C.ok_bind, Ecc.xexport (Ecc.ext_aff Q3), C.ok_bind]
        rfl
      · exact ⟨by simp, fun _ => (u2 h).1, fun _ => (u2 h).2, by simp⟩
    · refine ⟨Q2, c2, ?_, fun _ h => ?_, fun _ P h1 _ _ h2 => t3 P (h1 (by simp)) (h2 rfl)⟩
      · simp only [List.length_nil, List.length_cons, gt_iff_lt, lt_self_iff_false, Nat.zero_lt_succ, decide_false, decide_true, Bool.and_false, Bool.false_eq_true, if_false,
          if_true]
        rw [t1, C.ok_bind, Ecc.xexport (Ecc.ext_aff Q2), C.ok_bind]
        rfl
      · exact ⟨fun _ => (t2 h).1, by simp, by simp, fun _ => (t2 h).2⟩
    · refine ⟨Q1, c1, ?_, fun _ h => ?_, fun _ P h1 h2 _ _ => s3 P (h1 (by simp)) (h2 (by simp))⟩
      · simp only [List.length_cons, gt_iff_lt, Nat.zero_lt_succ, decide_true, Bool.and_true, if_true]
        rw [s1, C.ok_bind, Ecc.xexport (Ecc.ext_aff Q1), C.ok_bind]
        rfl
      · exact ⟨fun _ => (s2 h).1, fun _ => (s2 h).2, by simp, by simp⟩
  obtain ⟨Q, c, h1, h2, h3⟩ := hcase
  have hlen : (decide (x.length > 0) || decide (y.length > 0)) = true ↔ (x ≠ [] ∨ y ≠ []) := by
    cases x <;> cases y <;> simp
  refine ⟨edBytes Q, (decide (x.length > 0) || decide (y.length > 0)) && bx && by' && c, ?_, ?_, ?_⟩
  · rw [eddsa_pubkey_import]
    dsimp only
    rw [f1, C.ok_bind, f4, C.ok_bind]
    exact h1
  · rw [Bool.and_eq_true, Bool.and_eq_true, Bool.and_eq_true, hlen, f2, f5]
    constructor
    · rintro ⟨⟨⟨a, b⟩, c⟩, e⟩
      rw [f3 (f2.2 b), f6 (f5.2 c)] at h2
      exact ⟨a, b, c, Q, h2 a e⟩
    · rintro ⟨a, b, c, P, p1, p2, p3, p4⟩
      rw [f3 (f2.2 b), f6 (f5.2 c)] at h3
      exact ⟨⟨⟨a, b⟩, c⟩, h3 a P p1 p2 p3 p4⟩
  · rw [Bool.and_eq_true, Bool.and_eq_true, Bool.and_eq_true, hlen, f2, f5]
    rintro ⟨⟨⟨a, b⟩, c⟩, e⟩
    rw [f3 (f2.2 b), f6 (f5.2 c)] at h2
    exact ⟨Q, rfl, h2 a e⟩

end

/-- On ed1174 the tweak has room for bits above those of the field, and there the two ways to multiply a key differ: the scalar one
with the tweak `2^252` has another public key than the product of its public key with the tweak, which is the neutral element. -/
theorem eddsa_tweak_mul_ed1174_differs [Fact curve_ed1174.fe.p.Prime] {ec : Edwards (ZMod curve_ed1174.fe.p)} [EdGood ec.a ec.d]
    {G : EPt ec.a ec.d} (ok : EdCurve curve_ed1174 ec G) : ∃ s' pub' pub'', 
      eddsa_scalar_tweak_mul ec (leBytes 32 1) (leBytes 32 (2 ^ 252)) = .ok s' ∧ eddsa_pubkey_from_scalar ec s' = .ok pub' ∧
      eddsa_pubkey_tweak_mul ec (edBytes ((1 : Nat) • G)) (leBytes 32 (2 ^ 252)) = .ok (pub'', true) ∧ pub' ≠ pub'' := by
  have hd : curve_ed1174 ∈ edDefs := by simp [edDefs]
  have hL : edScLen curve_ed1174 = 32 := by decide +kernel
  have hL' : (leBytes 32 (2 ^ 252)).length = edScLen curve_ed1174 := by rw [hL, Strm.leBytes_len]
  obtain ⟨-, a2, -⟩ := eddsa_scalar_ops_exact hd ok (s := leBytes 32 1) (t := leBytes 32 (2 ^ 252)) (by rw [hL, Strm.leBytes_len]) hL'
  obtain ⟨-, o2, b2, f4, f5, f6⟩ := eddsa_pubkey_tweak_exact hd ok (pub := edBytes ((1 : Nat) • G)) (Ecc.edBytes_len _) hL'
  rw [f5.2 ⟨_, rfl⟩, f6 _ rfl] at f4
  refine ⟨_, _, _, a2, eddsa_pubkey_from_scalar_exact ok (by rw [Strm.leBytes_len]), f4, fun h => ?_⟩
  have h := Ecc.edBytes_inj h
  rw [Strm.leVal_leBytes, Strm.leVal_leBytes, Strm.leVal_leBytes, hL,
    show 2 ^ 252 % 256 ^ 32 % 16 ^ ((curve_ed1174.fe.p.size + 3) / 4) = 0 by decide +kernel, zero_nsmul] at h
  have hdvd := addOrderOf_dvd_of_nsmul_eq_zero h
  rw [ok.exact, ok.nval] at hdvd
  revert hdvd
  decide +kernel

/-! ### The hypotheses hold in concrete cases -/

/-- The key pair of thirty-two sevens on ed25519, after initialization: its public key is accepted. -/
example [Fact curve_ed25519.fe.p.Prime] (junk : Nat → Byte) : ∃ ec pub, edwards_init curve_ed25519 = .ok ec ∧
    eddsa_pubkey_create junk ec (List.replicate 32 7) = .ok pub ∧ eddsa_pubkey_verify ec pub = .ok true := by
  have hd : curve_ed25519 ∈ edDefs := by simp [edDefs]
  obtain ⟨ec, h, _, G, ok⟩ := edwards_init_exact hd
  obtain ⟨-, -, -, -, -, h1⟩ := eddsa_privkey_exact hd ok junk (priv := List.replicate 32 7) (by decide +kernel)
  obtain ⟨⟨b, h2, h3⟩, -⟩ := eddsa_pubkey_tests_exact hd ok (Ecc.edBytes_len (edSecret curve_ed25519 (List.replicate 32 7) • G))
  exact ⟨ec, _, h, h1, by rw [h2, h3.2 ⟨_, rfl⟩]⟩

/-- Fifty-seven bytes on ed448 of which the first is one and the others are zero are the neutral element. -/
example [Fact curve_ed448.fe.p.Prime] : ∃ ec, edwards_init curve_ed448 = .ok ec ∧
    eddsa_pubkey_is_infinity ec (1 :: List.replicate 56 0) = .ok true := by
  have hd : curve_ed448 ∈ edDefs := by simp [edDefs]
  obtain ⟨ec, h, _, G, ok⟩ := edwards_init_exact hd
  refine ⟨ec, h, ?_⟩
  rw [eddsa_pubkey_is_infinity, Ecc.adj_eq, show edLen curve_ed448.fe = 57 by decide +kernel]
  rfl

end Torsion
