import Verif.Ecc.RistrettoPubLemmas

/-! # Properties: keys of the Ristretto groups (C85) -/
set_option linter.unusedSectionVars false

namespace Torsion

open Torsion.Spec

variable {d : EdwardsDef} {rd : RistrettoDef} (hd : (d, rd) ∈ ristrettoDefs) [Fact d.fe.p.Prime] {ec : Edwards (ZMod d.fe.p)}
  [g : EdGood ec.a ec.d] {G : EPt ec.a ec.d} (ok : EdCurve d ec G) {rs : Ristretto (ZMod d.fe.p)}
  (hrs : ristretto_init d.fe rd = .ok rs)

/-! ### Private keys -/

include hd ok in
/-- Private keys are the scalars below the order; all functions say exactly whether their inputs are, and compute modulo the order. -/
theorem ristretto_privkey_exact {priv tweak : List Byte} (hl : priv.length = edScLen d) (ht : tweak.length = edScLen d) :
    ristretto_privkey_verify ec priv = .ok (decide (leVal priv < ec.n)) ∧
    (∃ z, ristretto_privkey_is_zero ec priv = .ok z ∧ (z = true ↔ leVal priv = 0)) ∧
    (∃ b r, ristretto_privkey_export ec priv = .ok (b, r) ∧ (r = true ↔ leVal priv < ec.n) ∧ (r = true → b = priv)) ∧
    (∃ b r, ristretto_privkey_tweak_add ec priv tweak = .ok (b, r) ∧ (r = true ↔ leVal priv < ec.n ∧ leVal tweak < ec.n) ∧
      (r = true → b = leBytes (edScLen d) ((leVal priv + leVal tweak) % ec.n))) ∧
    (∃ b r, ristretto_privkey_tweak_mul ec priv tweak = .ok (b, r) ∧
      (r = true ↔ leVal priv < ec.n ∧ leVal tweak < ec.n ∧ leVal priv ≠ 0 ∧ leVal tweak ≠ 0) ∧
      (r = true → b = leBytes (edScLen d) (leVal priv * leVal tweak % ec.n))) ∧
    (∃ b r, ristretto_privkey_negate ec priv = .ok (b, r) ∧ (r = true ↔ leVal priv < ec.n) ∧
      (r = true → ∃ m < ec.n, b = leBytes (edScLen d) m ∧ (m + leVal priv) % ec.n = 0)) ∧
    (∃ b r, ristretto_privkey_invert ec priv = .ok (b, r) ∧ (r = true ↔ leVal priv < ec.n) ∧
      (r = true → ∃ m < ec.n, b = leBytes (edScLen d) m ∧ if leVal priv = 0 then m = 0 else m * leVal priv % ec.n = 1)) := by
  have hn0 : 0 < ec.n := ok.pos
  have hpr := Ecc.ed_prime (Ecc.rist_defs hd) ok
  have hsc := Ecc.ed_sc_eq ok
  have i1 : num_import_le ec.n priv = .ok (if leVal priv < ec.n then leVal priv else 0, decide (leVal priv < ec.n)) := by
    rw [Ecc.imp_le (by rw [hsc]; exact hl.ge), hsc, List.take_of_length_le hl.le]
  have i2 : num_import_le ec.n tweak = .ok (if leVal tweak < ec.n then leVal tweak else 0, decide (leVal tweak < ec.n)) := by
    rw [Ecc.imp_le (by rw [hsc]; exact ht.ge), hsc, List.take_of_length_le ht.le]
  have hx : ∀ a, num_export_le ec.n a = leBytes (edScLen d) a := fun a => by rw [num_export_le, hsc]
  refine ⟨?_, ⟨_, by rw [ristretto_privkey_is_zero, hsc, Ecc.slice_take hl.ge, C.ok_bind]; rfl, ?_⟩,
    ⟨_, _, by rw [ristretto_privkey_export, i1, C.ok_bind]; rfl, ?_, ?_⟩,
    ⟨_, _, by rw [ristretto_privkey_tweak_add, i1, i2]; rfl, ?_, ?_⟩,
    ⟨_, _, by rw [ristretto_privkey_tweak_mul, i1, i2]; rfl, ?_, ?_⟩,
    ⟨_, _, by rw [ristretto_privkey_negate, i1, C.ok_bind]; rfl, ?_, ?_⟩,
    ⟨_, _, by rw [ristretto_privkey_invert, i1, C.ok_bind]; rfl, ?_, ?_⟩⟩
  · rw [ristretto_privkey_verify, i1, C.ok_bind]; rfl
  · rw [List.take_of_length_le hl.le, beq_iff_eq, ← Ecc.leBytes_zero]
    constructor
    · intro h; rw [h, Strm.leVal_leBytes, Nat.zero_mod]
    · intro h
      apply Torsion.leVal_inj
      · rw [Strm.leBytes_len, hl]
      · rw [h, Strm.leVal_leBytes, Nat.zero_mod]
  · rw [decide_eq_true_iff]
  · rw [decide_eq_true_iff]
    intro h
    rw [hx, if_pos h]
    apply Torsion.leVal_inj
    · rw [Strm.leBytes_len, hl]
    · have := Ecc.scSize_pow ec.n
      rw [hsc] at this
      rw [Strm.leVal_leBytes, Nat.mod_eq_of_lt (h.trans this)]
  · rw [Bool.and_eq_true, decide_eq_true_iff, decide_eq_true_iff]
  · rw [Bool.and_eq_true, decide_eq_true_iff, decide_eq_true_iff]
    rintro ⟨h1, h2⟩
    rw [hx, if_pos h1, if_pos h2]
  · rw [Bool.and_eq_true, Bool.and_eq_true, decide_eq_true_iff, decide_eq_true_iff, Bool.not_eq_true', beq_eq_false_iff_ne]
    constructor
    · rintro ⟨⟨h1, h2⟩, h3⟩
      rw [if_pos h1, if_pos h2] at h3
      refine ⟨h1, h2, ?_, ?_⟩ <;> intro h0 <;> rw [h0] at h3 <;> simp at h3
    · rintro ⟨h1, h2, h3, h4⟩
      refine ⟨⟨h1, h2⟩, ?_⟩
      rw [if_pos h1, if_pos h2, ne_eq, ← Nat.dvd_iff_mod_eq_zero, hpr.dvd_mul, not_or]
      exact ⟨Nat.not_dvd_of_pos_of_lt (Nat.pos_of_ne_zero h3) h1, Nat.not_dvd_of_pos_of_lt (Nat.pos_of_ne_zero h4) h2⟩
  · rw [Bool.and_eq_true, Bool.and_eq_true, decide_eq_true_iff, decide_eq_true_iff]
    rintro ⟨⟨h1, h2⟩, -⟩
    rw [hx, if_pos h1, if_pos h2]
  · rw [decide_eq_true_iff]
  · rw [decide_eq_true_iff]
    intro h
    refine ⟨num_neg ec.n (leVal priv), Nat.mod_lt _ hn0, by rw [hx, if_pos h], ?_⟩
    rw [num_neg, Nat.mod_add_mod, show ec.n - leVal priv + leVal priv = ec.n by omega, Nat.mod_self]
  · rw [decide_eq_true_iff]
  · rw [decide_eq_true_iff]
    intro h
    have : NeZero ec.n := ⟨hpr.ne_zero⟩
    have : Fact ec.n.Prime := ⟨hpr⟩
    refine ⟨(num_invert ec.n (leVal priv)).1, ZMod.val_lt _, by rw [hx, if_pos h], ?_⟩
    have hc : (((num_invert ec.n (leVal priv)).1 : Nat) : ZMod ec.n) = (leVal priv : ZMod ec.n)⁻¹ := ZMod.natCast_zmod_val _
    split
    · rename_i h0
      rw [h0]
      show ((0 : Nat) : ZMod ec.n)⁻¹.val = 0
      simp
    · rename_i h0
      have hne : (leVal priv : ZMod ec.n) ≠ 0 := by
        rw [Ne, ZMod.natCast_eq_zero_iff]
        exact Nat.not_dvd_of_pos_of_lt (Nat.pos_of_ne_zero h0) h
      have : (((num_invert ec.n (leVal priv)).1 * leVal priv : Nat) : ZMod ec.n) = (1 : Nat) := by
        rw [Nat.cast_mul, hc, inv_mul_cancel₀ hne, Nat.cast_one]
      rw [(ZMod.natCast_eq_natCast_iff' _ _ _).1 this, Nat.mod_eq_of_lt hpr.one_lt]

include hd ok in
/-- Private keys from bytes: of any length for `import`, as long as two scalars for `from_uniform`. -/
theorem ristretto_privkey_import_exact (bytes : List Byte) :
    ((ristretto_privkey_import ec bytes).2 = true ↔ leVal bytes < ec.n) ∧
    ((ristretto_privkey_import ec bytes).2 = true → (ristretto_privkey_import ec bytes).1 = leBytes (edScLen d) (leVal bytes)) ∧
    (bytes.length = 2 * edScLen d → ristretto_privkey_from_uniform ec bytes = .ok (leBytes (edScLen d) (leVal bytes % ec.n))) := by
  have hsc := Ecc.ed_sc_eq ok
  have hx : ∀ a, num_export_le ec.n a = leBytes (edScLen d) a := fun a => by rw [num_export_le, hsc]
  obtain ⟨h1, h2⟩ := Ecc.pad_skip_val (scSize ec.n) bytes.reverse
  have e : leVal (byte_pad_skip (scSize ec.n) bytes.reverse).reverse = leVal bytes := by
    rw [← beVal_eq, h1, beVal_eq, List.reverse_reverse]
  have hret : (byte_pad_skip (scSize ec.n) bytes.reverse).reverse.length ≤ scSize ec.n ∧ leVal bytes < ec.n ↔ leVal bytes < ec.n := by
    refine ⟨fun h => h.2, fun h => ⟨?_, h⟩⟩
    by_contra hc
    rw [List.length_reverse] at hc
    have := h2 (by omega)
    rw [beVal_eq, e] at this
    have := Ecc.scSize_pow ec.n
    omega
  have hi : ristretto_privkey_import ec bytes = (num_export_le ec.n (if leVal bytes < ec.n then leVal bytes else 0), decide (leVal bytes < ec.n)) := by
    rw [ristretto_privkey_import, num_import_pad_le]
    dsimp only
    rw [e]
    simp only [hret, decide_eq_true_eq]
  rw [hi]
  refine ⟨by rw [decide_eq_true_iff], ?_, ?_⟩
  · rw [decide_eq_true_iff]
    intro h
    dsimp only
    rw [if_pos h, hx]
  · intro hl
    have hc : bytes.length * 8 ≤ ((ec.n.size + 63) / 64 * 2 + 2) * 64 := by
      rw [hl, ← hsc, scSize]; omega
    rw [ristretto_privkey_from_uniform, Ecc.slice_take (by rw [hsc]; omega), C.ok_bind, List.take_of_length_le (by rw [hsc]; omega),
      num_import_wide_le, Ecc.check_true hc, C.ok_bind, C.pure_eq, C.ok_bind, hx]
    rfl

/-! ### Public keys -/

include hd ok hrs in
/-- The public key of a private key is the code of the class of the multiple of the generator. -/
theorem ristretto_pubkey_create_exact {priv : List Byte} (hl : priv.length = edScLen d) :
    ∃ b r, ristretto_pubkey_create ec rs priv = .ok (b, r) ∧ (r = true ↔ leVal priv < ec.n) ∧
      (r = true → RistOf ec.h (leVal priv • G) b) := by
  have hsc := Ecc.ed_sc_eq ok
  have i1 : num_import_le ec.n priv = .ok (if leVal priv < ec.n then leVal priv else 0, decide (leVal priv < ec.n)) := by
    rw [Ecc.imp_le (by rw [hsc]; exact hl.ge), hsc, List.take_of_length_le hl.le]
  obtain ⟨j, h1, h2⟩ := Ecc.xmul_g ok.toEdOk (if leVal priv < ec.n then leVal priv else 0)
  obtain ⟨b, h3, h4⟩ := Ecc.rist_out hd ok hrs j
  refine ⟨b, decide (leVal priv < ec.n), ?_, decide_eq_true_iff, ?_⟩
  · rw [ristretto_pubkey_create, i1, C.ok_bind]; dsimp only; rw [h1, C.ok_bind, h3]; rfl
  · rw [decide_eq_true_iff]
    intro h
    rw [if_pos h] at h2
    exact h4 _ _ h2 (Ecc.rist_gen_even hd ok _) (Ecc.rist_refl _)

include hd ok in
/-- The tests of public keys. -/
theorem ristretto_pubkey_verify_exact {pub : List Byte} (hl : pub.length = ristLen d.fe) :
    (∃ r, ristretto_pubkey_verify ec pub = .ok r ∧ (r = true ↔ ∃ k : Nat, RistOf ec.h (k • G) pub)) ∧
    (∃ z, ristretto_pubkey_is_infinity ec pub = .ok z ∧ (z = true ↔ RistOf ec.h (0 : EPt ec.a ec.d) pub)) := by
  obtain ⟨p, b, h1, h2, -⟩ := Ecc.rist_in hd ok hl
  have r := Ecc.rist_h hd ok
  refine ⟨⟨b, by rw [ristretto_pubkey_verify, h1]; rfl, h2⟩,
    ⟨_, by rw [ristretto_pubkey_is_infinity, Ecc.slice_take (show feSize d.fe ≤ pub.length from hl.ge), C.ok_bind]; rfl, ?_⟩⟩
  have hs : feSize d.fe = ristLen d.fe := rfl
  rw [hs, List.take_of_length_le hl.le, beq_iff_eq, ← Ecc.leBytes_zero]
  have hz : RistNum ec.h (0 : EPt ec.a ec.d) 0 := ⟨by simp, Or.inl ⟨Ecc.rist_refl 0, rfl⟩⟩
  constructor
  · intro h
    exact ⟨0, hz, by rw [h, ZMod.val_zero]⟩
  · rintro ⟨s, h3, h4⟩
    rw [h4, Ecc.rist_num_fun r (Ecc.rist_refl 0) h3 hz, ZMod.val_zero]

include hd ok hrs in
/-- Addition and negation of public keys. -/
theorem ristretto_pubkey_add_exact {p1 p2 : List Byte} (h1 : p1.length = ristLen d.fe) (h2 : p2.length = ristLen d.fe) :
    (∃ b r, ristretto_pubkey_add ec rs p1 p2 = .ok (b, r) ∧
      (r = true ↔ (∃ j : Nat, RistOf ec.h (j • G) p1) ∧ ∃ k : Nat, RistOf ec.h (k • G) p2) ∧
      ∀ j k : Nat, RistOf ec.h (j • G) p1 → RistOf ec.h (k • G) p2 → RistOf ec.h ((j + k) • G) b) ∧
    (∃ b r, ristretto_pubkey_negate ec rs p1 = .ok (b, r) ∧ (r = true ↔ ∃ j : Nat, RistOf ec.h (j • G) p1) ∧
      ∀ j k : Nat, RistOf ec.h (j • G) p1 → (j + k) % ec.n = 0 → RistOf ec.h (k • G) b) := by
  obtain ⟨x, r1, e1, f1, g1⟩ := Ecc.rist_in hd ok h1
  obtain ⟨y, r2, e2, f2, g2⟩ := Ecc.rist_in hd ok h2
  obtain ⟨b, o1, o2⟩ := Ecc.rist_out hd ok hrs (xge_mixed_add ec x y)
  obtain ⟨b', q1, q2⟩ := Ecc.rist_out hd ok hrs (xge_neg x)
  refine ⟨⟨b, r1 && r2, ?_, ?_, ?_⟩, ⟨b', r1, ?_, f1, ?_⟩⟩
  · rw [ristretto_pubkey_add, e1, C.ok_bind]; dsimp only; rw [e2, C.ok_bind]; dsimp only; rw [o1]; rfl
  · rw [Bool.and_eq_true, f1, f2]
  · intro j k hj hk
    obtain ⟨P, ev, c, hp⟩ := g1 j hj
    obtain ⟨Q, ev', c', hq⟩ := g2 k hk
    rw [hp, hq] at o2
    refine o2 _ _ (Ecc.xmadd ok.const (Ecc.ext_aff P) Q) (ev.add ev') ?_
    rw [add_nsmul]
    exact Ecc.rist_add c c'
  · rw [ristretto_pubkey_negate, e1, C.ok_bind]; dsimp only; rw [q1]; rfl
  · intro j k hj hk
    obtain ⟨P, ev, c, hp⟩ := g1 j hj
    rw [hp] at q2
    refine q2 _ _ (Ecc.xneg (Ecc.ext_aff P)) ev.neg ?_
    have : k • G = -(j • G) := by
      rw [eq_neg_iff_add_eq_zero, ← add_nsmul, ← Ecc.ed_smul_mod ok, add_comm, hk, zero_nsmul]
    rw [this]
    exact Ecc.rist_neg c

include hd ok hrs in
/-- The sum of any list of public keys. -/
theorem ristretto_pubkey_combine_exact {pubs : List (List Byte)} (hl : ∀ p ∈ pubs, p.length = ristLen d.fe) :
    ∃ b r, ristretto_pubkey_combine ec rs pubs = .ok (b, r) ∧ (r = true ↔ ∀ p ∈ pubs, ∃ k : Nat, RistOf ec.h (k • G) p) ∧
      ∀ ks : List Nat, List.Forall₂ (fun k p => RistOf ec.h (k • G) p) ks pubs → RistOf ec.h (ks.sum • G) b := by
  have main : ∃ y r, ristretto_pubkey_combine ec rs pubs = (do
        let out ← rge_export ec rs y
        return (out, r)) ∧ (r = true ↔ ∀ p ∈ pubs, ∃ k : Nat, RistOf ec.h (k • G) p) ∧
      ∀ ks : List Nat, List.Forall₂ (fun k p => RistOf ec.h (k • G) p) ks pubs →
        ∃ Y : EPt ec.a ec.d, Ext y Y ∧ Even Y ∧ RistEq ec.h Y (ks.sum • G) := by
    rcases pubs with _ | ⟨p, ps⟩
    · refine ⟨xge_zero, true, rfl, by simp, ?_⟩
      intro ks hks
      cases hks
      exact ⟨0, Ecc.ext_zero, ⟨0, (add_zero 0).symm⟩, by rw [List.sum_nil, zero_nsmul]; exact Ecc.rist_refl _⟩
    · obtain ⟨a, r, e1, f1, g1⟩ := Ecc.rist_in hd ok (hl p List.mem_cons_self)
      obtain ⟨y, b, h1, h2, h3⟩ := Ecc.rist_combine_loop hd ok ps (fun q hq => hl q (List.mem_cons_of_mem _ hq)) a r
      refine ⟨y, b, ?_, ?_, ?_⟩
      · rw [ristretto_pubkey_combine]
        dsimp only
        rw [e1, C.ok_bind]
        dsimp only
        rw [h1, C.ok_bind]
      · rw [h2, f1, List.forall_mem_cons]
      · intro ks hks
        cases hks with
        | @cons k _ ks _ hk hks =>
          obtain ⟨P, ev', c', hp⟩ := g1 k hk
          rw [List.sum_cons]
          exact h3 P k (by rw [hp]; exact Ecc.ext_aff P) ev' c' ks hks
  obtain ⟨y, r, e1, e2, e3⟩ := main
  obtain ⟨b, o1, o2⟩ := Ecc.rist_out hd ok hrs y
  refine ⟨b, r, ?_, e2, ?_⟩
  · rw [e1, o1]; rfl
  · intro ks hks
    obtain ⟨Y, y1, y2, y3⟩ := e3 ks hks
    exact o2 Y _ y1 y2 y3

include hd ok hrs in
/-- Adding a multiple of the generator, and multiplying. `tweak_mul` refuses to give the neutral element. `derive` is the multiple by
the private key. -/
theorem ristretto_pubkey_tweak_exact {pub t : List Byte} (hl : pub.length = ristLen d.fe) (ht : t.length = edScLen d) :
    (∃ b r, ristretto_pubkey_tweak_add ec rs pub t = .ok (b, r) ∧
      (r = true ↔ (∃ k : Nat, RistOf ec.h (k • G) pub) ∧ leVal t < ec.n) ∧
      (r = true → ∀ k : Nat, RistOf ec.h (k • G) pub → RistOf ec.h ((k + leVal t) • G) b)) ∧
    (∃ b r, ristretto_pubkey_tweak_mul ec rs pub t = .ok (b, r) ∧
      (r = true ↔ (∃ k : Nat, RistOf ec.h (k • G) pub ∧ k % ec.n ≠ 0) ∧ leVal t < ec.n ∧ leVal t ≠ 0) ∧
      (r = true → ∀ k : Nat, RistOf ec.h (k • G) pub → RistOf ec.h ((k * leVal t) • G) b)) ∧
    (∃ b r, ristretto_derive ec rs pub t = .ok (b, r) ∧
      (r = true ↔ (∃ k : Nat, RistOf ec.h (k • G) pub) ∧ leVal t < ec.n) ∧
      (r = true → ∀ k : Nat, RistOf ec.h (k • G) pub → RistOf ec.h ((k * leVal t) • G) b)) := by
  have hsc := Ecc.ed_sc_eq ok
  have hn0 : 0 < ec.n := ok.pos
  have hpr := Ecc.ed_prime (Ecc.rist_defs hd) ok
  have i1 : num_import_le ec.n t = .ok (if leVal t < ec.n then leVal t else 0, decide (leVal t < ec.n)) := by
    rw [Ecc.imp_le (by rw [hsc]; exact ht.ge), hsc, List.take_of_length_le ht.le]
  obtain ⟨p, r, e1, f1, g1⟩ := Ecc.rist_in hd ok hl
  obtain ⟨j, h1, h2⟩ := Ecc.xmul_g ok.toEdOk (if leVal t < ec.n then leVal t else 0)
  obtain ⟨b, o1, o2⟩ := Ecc.rist_out hd ok hrs (xge_add ec p j)
  obtain ⟨m, m1⟩ := Ecc.mul_total ec p (if leVal t < ec.n then leVal t else 0)
  obtain ⟨b', q1, q2⟩ := Ecc.rist_out hd ok hrs m
  have hm : ∀ k : Nat, RistOf ec.h (k • G) pub → ∃ P : EPt ec.a ec.d, Even P ∧ RistEq ec.h P ((k * (if leVal t < ec.n then leVal t else 0)) • G) ∧ Ext m P := by
    intro k hk
    obtain ⟨P, ev, c, hp⟩ := g1 k hk
    obtain ⟨m', m1', m2⟩ := edwards_mul_scalar_exact (Ecc.rist_defs hd) ok (Ecc.ext_aff P) (k := if leVal t < ec.n then leVal t else 0)
      (by split <;> omega)
    rw [hp, m1'] at m1
    have := C.ok.inj m1
    rw [this] at m2
    refine ⟨_, ?_, ?_, m2⟩
    · obtain ⟨Q, hQ⟩ := ev
      exact ⟨_ • Q, by rw [hQ, smul_add]⟩
    · rw [mul_comm, mul_nsmul']
      exact Ecc.rist_smul _ c
  refine ⟨⟨b, r && decide (leVal t < ec.n), ?_, ?_, ?_⟩, ⟨b', r && decide (leVal t < ec.n) && !rge_is_zero ec m, ?_, ?_, ?_⟩,
    ⟨b', decide (leVal t < ec.n) && r, ?_, ?_, ?_⟩⟩
  · rw [ristretto_pubkey_tweak_add, e1, C.ok_bind]; dsimp only; rw [i1, C.ok_bind]; dsimp only; rw [h1, C.ok_bind, o1]; rfl
  · rw [Bool.and_eq_true, f1, decide_eq_true_iff]
  · rw [Bool.and_eq_true, decide_eq_true_iff]
    rintro ⟨-, ht'⟩ k hk
    rw [if_pos ht'] at h2
    obtain ⟨P, ev, c, hp⟩ := g1 k hk
    rw [hp] at o2
    refine o2 _ _ (Ecc.xadd ok.const (Ecc.ext_aff P) h2) (ev.add (Ecc.rist_gen_even hd ok _)) ?_
    rw [add_nsmul]
    exact Ecc.rist_add c (Ecc.rist_refl _)
  · rw [ristretto_pubkey_tweak_mul, e1, C.ok_bind]; dsimp only; rw [i1, C.ok_bind]; dsimp only; rw [m1, C.ok_bind, q1]; rfl
  · rw [Bool.and_eq_true, Bool.and_eq_true, decide_eq_true_iff, f1, Bool.not_eq_true', Bool.eq_false_iff, ne_eq]
    have key : leVal t < ec.n → ∀ k : Nat, RistOf ec.h (k • G) pub → (rge_is_zero ec m = true ↔ k % ec.n = 0 ∨ leVal t = 0) := by
      intro ht' k hk
      obtain ⟨P, -, c, hp⟩ := hm k hk
      rw [if_pos ht'] at c
      rw [(rge_equal_exact hd ok hp hp).2]
      have : RistEq ec.h P 0 ↔ RistEq ec.h ((k * leVal t) • G) (0 • G) := by
        rw [zero_nsmul]
        exact ⟨fun h => Ecc.rist_trans (Ecc.rist_symm c) h, fun h => Ecc.rist_trans c h⟩
      rw [this, Ecc.rist_mul_iff hd ok, Nat.zero_mod, ← Nat.dvd_iff_mod_eq_zero, hpr.dvd_mul, Nat.dvd_iff_mod_eq_zero, Nat.dvd_iff_mod_eq_zero,
        Nat.mod_eq_of_lt ht']
    constructor
    · rintro ⟨⟨⟨k, hk⟩, ht'⟩, hz⟩
      rw [key ht' k hk, not_or] at hz
      exact ⟨⟨k, hk, hz.1⟩, ht', hz.2⟩
    · rintro ⟨⟨k, hk, h0⟩, ht', h0'⟩
      refine ⟨⟨⟨k, hk⟩, ht'⟩, ?_⟩
      rw [key ht' k hk, not_or]
      exact ⟨h0, h0'⟩
  · rw [Bool.and_eq_true, Bool.and_eq_true, decide_eq_true_iff]
    rintro ⟨⟨-, ht'⟩, -⟩ k hk
    obtain ⟨P, ev, c, hp⟩ := hm k hk
    rw [if_pos ht'] at c
    exact q2 _ _ hp ev c
  · rw [ristretto_derive, i1, C.ok_bind]; dsimp only; rw [e1, C.ok_bind]; dsimp only; rw [m1, C.ok_bind, q1]; rfl
  · rw [Bool.and_eq_true, f1, decide_eq_true_iff, and_comm]
  · rw [Bool.and_eq_true, decide_eq_true_iff]
    rintro ⟨ht', -⟩ k hk
    obtain ⟨P, ev, c, hp⟩ := hm k hk
    rw [if_pos ht'] at c
    exact q2 _ _ hp ev c

include hd ok hrs in
/-- Both sides derive the same secret, and it is the code of the class of the product. -/
theorem ristretto_derive_agree {a b : List Byte} (ha : a.length = edScLen d) (hb : b.length = edScLen d) (ha' : leVal a < ec.n)
    (hb' : leVal b < ec.n) : ∃ A B s, ristretto_pubkey_create ec rs a = .ok (A, true) ∧ ristretto_pubkey_create ec rs b = .ok (B, true) ∧
      ristretto_derive ec rs A b = .ok (s, true) ∧ ristretto_derive ec rs B a = .ok (s, true) ∧
      RistOf ec.h ((leVal a * leVal b) • G) s := by
  obtain ⟨A, r1, e1, f1, g1⟩ := ristretto_pubkey_create_exact hd ok hrs ha
  obtain ⟨B, r2, e2, f2, g2⟩ := ristretto_pubkey_create_exact hd ok hrs hb
  obtain rfl := f1.2 ha'
  obtain rfl := f2.2 hb'
  have hlen : ∀ (P : EPt ec.a ec.d) (x : List Byte), RistOf ec.h P x → x.length = ristLen d.fe := by
    rintro P x ⟨s, -, rfl⟩; exact Strm.leBytes_len _ _
  obtain ⟨-, -, s, r3, e3, f3, g3⟩ := ristretto_pubkey_tweak_exact hd ok hrs (hlen _ _ (g1 rfl)) hb
  obtain ⟨-, -, s', r4, e4, f4, g4⟩ := ristretto_pubkey_tweak_exact hd ok hrs (hlen _ _ (g2 rfl)) ha
  obtain rfl := f3.2 ⟨⟨_, g1 rfl⟩, hb'⟩
  obtain rfl := f4.2 ⟨⟨_, g2 rfl⟩, ha'⟩
  have h3 := g3 rfl _ (g1 rfl)
  have h4 := g4 rfl _ (g2 rfl)
  rw [mul_comm] at h4
  have hs : s' = s := by
    obtain ⟨x, hx, rfl⟩ := h3
    obtain ⟨y, hy, rfl⟩ := h4
    rw [Ecc.rist_num_fun (Ecc.rist_h hd ok) (Ecc.rist_refl _) hx hy]
  rw [hs] at e4
  exact ⟨A, B, s, e1, e2, e3, e4, h3⟩

/-! ### The search for a tweak -/

include hd ok hrs in
/-- `ristretto_pubkey_grind` gives no tweak for any input. When the first candidate passes the test, its behaviour is undefined. -/
theorem ristretto_pubkey_grind_undefined {pub : List Byte} (hl : pub.length = ristLen d.fe) (check : List Byte → Bool) (fuel : Nat) :
    (∀ out, ristretto_pubkey_grind ec rs fuel pub check ≠ .ok out) ∧
    (∀ k b, RistOf ec.h (k • G) pub → RistOf ec.h ((k + 1) • G) b → check b = true →
      ristretto_pubkey_grind ec rs (fuel + 1) pub check = .ub) := by
  obtain ⟨p, r, e1, f1, g1⟩ := Ecc.rist_in hd ok hl
  constructor
  · intro out h
    rw [ristretto_pubkey_grind, e1, R.lift_ok, R.ok_bind] at h
    dsimp only at h
    split at h
    · cases h
    · cases hg : ristretto_grind_loop ec rs check fuel p 0 none with
      | ok x =>
        have := Ecc.rist_grind_none check fuel p 0 x hg
        rw [hg, R.ok_bind] at h
        obtain ⟨c, t⟩ := x
        dsimp only at this h
        rw [this] at h
        cases h
      | _ => rw [hg] at h; cases h
  · intro k b hk hb hc
    obtain ⟨P, ev, c, hp⟩ := g1 k hk
    obtain ⟨b', o1, o2⟩ := Ecc.rist_out hd ok hrs (xge_mixed_add ec p ec.g)
    have hb' : RistOf ec.h ((k + 1) • G) b' := by
      refine o2 (P + G) _ (by rw [hp, ok.gen]; exact Ecc.xmadd ok.const (Ecc.ext_aff P) G) (ev.add ?_) ?_
      · have := Ecc.rist_gen_even hd ok 1
        rwa [one_nsmul] at this
      · rw [succ_nsmul]
        exact Ecc.rist_add c (Ecc.rist_refl G)
    have hbb : b' = b := by
      obtain ⟨x, hx, rfl⟩ := hb
      obtain ⟨y, hy, rfl⟩ := hb'
      rw [Ecc.rist_num_fun (Ecc.rist_h hd ok) (Ecc.rist_refl _) hx hy]
    rw [hbb] at o1
    have hr : r = true := f1.2 ⟨k, hk⟩
    rw [ristretto_pubkey_grind, e1, R.lift_ok, R.ok_bind, hr]
    simp only [Bool.not_true, Bool.false_eq_true, if_false]
    rw [ristretto_grind_loop]
    dsimp only
    rw [if_neg (by decide), R.ok_bind]
    dsimp only
    rw [o1, R.lift_ok, R.ok_bind, hc, if_pos rfl]
    rfl

/-! ### The hypotheses hold in concrete cases -/

/-- All of them hold on ed25519 after initialization; the keys 2 and 3 have a common secret. -/
example : ∃ (_ : Fact curve_ed25519.fe.p.Prime) (ec : Edwards (ZMod curve_ed25519.fe.p)) (rs : Ristretto (ZMod curve_ed25519.fe.p)) (A B s : List Byte),
    edwards_init curve_ed25519 = .ok ec ∧ ristretto_init curve_ed25519.fe ristretto_ed25519 = .ok rs ∧
    ristretto_pubkey_create ec rs (leBytes 32 2) = .ok (A, true) ∧ ristretto_pubkey_create ec rs (leBytes 32 3) = .ok (B, true) ∧
    ristretto_derive ec rs A (leBytes 32 3) = .ok (s, true) ∧ ristretto_derive ec rs B (leBytes 32 2) = .ok (s, true) ∧ A ≠ B ∧ s ≠ A := by
  have hm : (curve_ed25519, ristretto_ed25519) ∈ ristrettoDefs := by simp [ristrettoDefs]
  have := Ecc.edDefs_prime (Ecc.rist_defs hm)
  obtain ⟨ec, h1, g, G, ok⟩ := edwards_init_exact (d := curve_ed25519) (by simp [edDefs])
  obtain ⟨rs, h2⟩ := ristretto_init_exact hm
  have hn : 6 < ec.n := by rw [ok.nval]; decide +kernel
  have v2 : leVal (leBytes 32 2) = 2 := by decide +kernel
  have v3 : leVal (leBytes 32 3) = 3 := by decide +kernel
  obtain ⟨A, B, s, e1, e2, e3, e4, e5⟩ := ristretto_derive_agree hm ok h2 (a := leBytes 32 2) (b := leBytes 32 3) (by decide +kernel) (by decide +kernel)
    (by omega) (by omega)
  refine ⟨inferInstance, ec, rs, A, B, s, h1, h2, e1, e2, e3, e4, ?_, ?_⟩
  all_goals
    obtain ⟨A', r1, a1, -, a2⟩ := ristretto_pubkey_create_exact hm ok h2 (priv := leBytes 32 2) (by decide +kernel)
    obtain ⟨B', r2, b1, -, b2⟩ := ristretto_pubkey_create_exact hm ok h2 (priv := leBytes 32 3) (by decide +kernel)
    rw [e1] at a1
    rw [e2] at b1
    obtain ⟨rfl, rfl⟩ := Prod.mk.inj (C.ok.inj a1)
    obtain ⟨rfl, rfl⟩ := Prod.mk.inj (C.ok.inj b1)
    have a2 := a2 rfl
    have b2 := b2 rfl
    rw [v2] at a2 e5
    rw [v3] at b2 e5
  · rintro rfl
    have := (Ecc.rist_mul_iff hm ok 2 3).1 (Ecc.rist_of_inj hm ok a2 b2)
    rw [Nat.mod_eq_of_lt (by omega), Nat.mod_eq_of_lt (by omega)] at this
    omega
  · rintro rfl
    have := (Ecc.rist_mul_iff hm ok 2 (2 * 3)).1 (Ecc.rist_of_inj hm ok a2 e5)
    rw [Nat.mod_eq_of_lt (by omega), Nat.mod_eq_of_lt (by omega)] at this
    omega

/-- The code of the generator of ed25519 is the one in RFC 9496, appendix A.1. -/
example : ∀ (_ : Fact curve_ed25519.fe.p.Prime) (ec : Edwards (ZMod curve_ed25519.fe.p)) (_ : EdGood ec.a ec.d) (G : EPt ec.a ec.d),
    EdCurve curve_ed25519 ec G → RistOf ec.h (1 • G) (bigBytes 32 0xe2f2ae0a6abc4e71a884a961c500515f58e30b6aa582dd8db6a65945e08d2d76) := by
  intro _ ec _ G ok
  have hm : (curve_ed25519, ristretto_ed25519) ∈ ristrettoDefs := by simp [ristrettoDefs]
  have h8 : ec.h = 8 := by rw [ok.hval]; rfl
  have r := Ecc.rist_h hm ok
  rw [h8] at r
  have hz : ∀ {x y : Nat}, x % curve_ed25519.fe.p = y % curve_ed25519.fe.p → (x : ZMod curve_ed25519.fe.p) = y :=
    fun h => (ZMod.natCast_eq_natCast_iff' _ _ _).2 h
  have hi : ((38214883241950591754978413199355411911188925816896391856984770930832735035197 : Nat) : ZMod curve_ed25519.fe.p) ^ 2 = -1 := by
    rw [eq_neg_iff_add_eq_zero, ← Nat.cast_pow, ← Nat.cast_one, ← Nat.cast_add, ← Nat.cast_zero]
    exact hz (by decide +kernel)
  have hy : ((beVal curve_ed25519.a : Nat) : ZMod curve_ed25519.fe.p) = -1 := by
    rw [eq_neg_iff_add_eq_zero, ← Nat.cast_one, ← Nat.cast_add, ← Nat.cast_zero]
    exact hz (by decide +kernel)
  obtain ⟨Q, h1, h2, h3⟩ := Ecc.rist_rot r hi (1 • G)
  rw [one_nsmul, ok.gy, ← Nat.cast_mul] at h2
  rw [one_nsmul, ok.gx, ← Nat.cast_mul] at h3
  refine ⟨((53453403443306840533278073560698739391446669128918427283046925944918568268514 : Nat) : ZMod curve_ed25519.fe.p), ⟨by rw [ZMod.val_natCast]; decide +kernel, Or.inr ⟨?_, Q, ?_, ?_, ?_, ?_⟩⟩,
    by rw [ZMod.val_natCast]; decide +kernel⟩
  · rw [← zero_nsmul G, Ecc.rist_mul_iff hm ok, ok.nval]
    decide +kernel
  · rw [h8]; exact h1
  · rw [h2, ZMod.val_natCast]; decide +kernel
  · intro _; rw [h2, h3, ← Nat.cast_mul, ZMod.val_natCast]; decide +kernel
  · rw [h3, ok.aval, hy, neg_neg, one_mul, eq_sub_iff_add_eq, ← Nat.cast_one, ← Nat.cast_add, ← Nat.cast_pow, ← Nat.cast_mul, ← Nat.cast_add]
    exact hz (by decide +kernel)

end Torsion
