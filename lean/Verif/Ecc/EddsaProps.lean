import Verif.Ecc.EddsaKeyProps
import Verif.Ecc.EdBatchLemmas
import Verif.Ecc.SchnorrProps

/-! # Properties: EdDSA signatures (C79), their verification in batches (C80) and shared secrets (C81) -/
namespace Torsion

open Torsion.Spec

variable {d : EdwardsDef} (hd : d ∈ edDefs) [Fact d.fe.p.Prime] {ec : Edwards (ZMod d.fe.p)} [g : EdGood ec.a ec.d] {G : EPt ec.a ec.d}
  (ok : EdCurve d ec G)

/-! ### Signing -/

include hd ok in
/-- C79. Signatures are those of RFC 8032, for any scalar and prefix and for those of a private key; what the buffer held before
does not matter. -/
theorem eddsa_sign_exact (junk : Nat → Byte) {sig msg : List Byte} (hsig : sig.length = 2 * edLen d.fe) (hm : msg.length < 2 ^ 64)
    (ph : Int) (ctx : List Byte) :
    (∀ {scalar pre : List Byte}, scalar.length = edScLen d → pre.length = edLen d.fe →
      eddsa_sign_with_scalar junk ec sig msg scalar pre ph ctx = .ok (edSigned d G (edDom d ph ctx) (leVal scalar) pre msg)) ∧
    ∀ {priv : List Byte}, priv.length = edLen d.fe → eddsa_sign junk ec sig msg priv ph ctx =
      .ok (edSigned d G (edDom d ph ctx) (edSecret d priv) (edPrefix d priv) msg) := by
  constructor
  · intro scalar pre h1 h2
    rw [Ecc.eddsa_sign_ok hd ok junk hsig hm h1.ge h2.ge, List.take_of_length_le h1.le, List.take_of_length_le h2.le]
  · intro priv h
    rw [Ecc.eddsa_sign_priv hd ok junk hsig hm h.ge, List.take_of_length_le h.le]

include hd ok in
/-- C79. Signatures with a tweaked key: those of the tweaked scalar, with a prefix which depends on the tweak. -/
theorem eddsa_sign_tweak_exact (junk : Nat → Byte) {sig msg priv tweak : List Byte} (hsig : sig.length = 2 * edLen d.fe)
    (hm : msg.length < 2 ^ 64) (hp : priv.length = edLen d.fe) (ht : tweak.length = edScLen d) (ph : Int) (ctx : List Byte) :
    eddsa_sign_tweak_add junk ec sig msg priv tweak ph ctx =
      .ok (edSigned d G (edDom d ph ctx) (edSecret d priv + leVal tweak) (edTweakPrefix d (edPrefix d priv) tweak) msg) ∧
    eddsa_sign_tweak_mul junk ec sig msg priv tweak ph ctx =
      .ok (edSigned d G (edDom d ph ctx) (edSecret d priv * leVal tweak) (edTweakPrefix d (edPrefix d priv) tweak) msg) := by
  obtain ⟨s, h1, -, h3, h4, -⟩ := eddsa_privkey_exact hd ok junk hp
  obtain ⟨a1, a2, -⟩ := eddsa_scalar_ops_exact hd ok h3 ht
  have hpre : (edPrefix d priv).length = edLen d.fe := by
    rw [edPrefix, List.length_drop, edExpand, Ecc.ed_hash_len hd]; omega
  obtain ⟨out, t1, t2, t3⟩ := Ecc.tweak_prefix_ok hd ok junk hpre ht
  have hn0 : 0 < ec.n := ok.pos
  have hval : ∀ m, leVal ((leBytes (edScLen d) (m % ec.n)).take (edScLen d)) = m % ec.n := by
    intro m
    have hp := Ecc.scSize_pow ec.n
    rw [Ecc.ed_sc_eq ok] at hp
    rw [List.take_of_length_le (Strm.leBytes_len _ _).le, Strm.leVal_leBytes, Nat.mod_eq_of_lt ((Nat.mod_lt _ hn0).trans hp)]
  constructor
  · unfold eddsa_sign_tweak_add
    rw [h1, C.ok_bind]
    dsimp only
    rw [a1, C.ok_bind, t1, C.ok_bind, Ecc.eddsa_sign_ok hd ok junk hsig hm (Strm.leBytes_len _ _).ge t2, t3, hval, Ecc.edSigned_mod ok, h4]
  · unfold eddsa_sign_tweak_mul
    rw [h1, C.ok_bind]
    dsimp only
    rw [a2, C.ok_bind, t1, C.ok_bind, Ecc.eddsa_sign_ok hd ok junk hsig hm (Strm.leBytes_len _ _).ge t2, t3, hval, Ecc.edSigned_mod ok, h4]

/-! ### Verification -/

include hd ok in
/-- C79. Verification without the cofactor: accepted are exactly the canonical encodings with `s G = R + e A`. -/
theorem eddsa_verify_exact (junk : Nat → Byte) {msg sig pub : List Byte} (hm : msg.length < 2 ^ 64) (hsig : sig.length = 2 * edLen d.fe)
    (hpub : pub.length = edLen d.fe) (ph : Int) (ctx : List Byte) : ∃ b, eddsa_verify junk ec msg sig pub ph ctx = .ok b ∧
      (b = true ↔ EddsaValid d G (edDom d ph ctx) msg sig pub) := Ecc.eddsa_verify_ok hd ok junk hm hsig hpub ph ctx

include hd ok in
/-- C79. Verification with the cofactor. -/
theorem eddsa_verify_single_exact (junk : Nat → Byte) {msg sig pub : List Byte} (hm : msg.length < 2 ^ 64)
    (hsig : sig.length = 2 * edLen d.fe) (hpub : pub.length = edLen d.fe) (ph : Int) (ctx : List Byte) :
    ∃ b, eddsa_verify_single junk ec msg sig pub ph ctx = .ok b ∧ (b = true ↔ EddsaValidH d G (edDom d ph ctx) msg sig pub) :=
  Ecc.eddsa_verify_single_ok hd ok junk hm hsig hpub ph ctx

include ok in
/-- C79. What is signed with any scalar and any prefix is valid under the key of the scalar. -/
theorem eddsa_signed_valid (dom : List Byte) (k : Nat) (pre msg : List Byte) :
    EddsaValid d G dom msg (edSigned d G dom k pre msg) (edBytes (k • G)) := by
  refine ⟨k • G, edHashNum d (dom ++ pre ++ msg) • G, _, rfl, ?_, rfl, ?_⟩
  · rw [← ok.nval]; exact Nat.mod_lt _ ok.pos
  · rw [← ok.nval, Ecc.ed_smul_mod ok, add_nsmul, mul_nsmul']

include hd ok in
/-- C79. Signatures are accepted by both verifications under the key which `eddsa_pubkey_create` gives, for the same flag and
context. -/
theorem eddsa_sign_verify (junk junk' : Nat → Byte) {sig msg priv : List Byte} (hsig : sig.length = 2 * edLen d.fe)
    (hm : msg.length < 2 ^ 64) (hp : priv.length = edLen d.fe) (ph : Int) (ctx : List Byte) :
    ∃ s pub, eddsa_sign junk ec sig msg priv ph ctx = .ok s ∧ eddsa_pubkey_create junk ec priv = .ok pub ∧
      eddsa_verify junk' ec msg s pub ph ctx = .ok true ∧ eddsa_verify_single junk' ec msg s pub ph ctx = .ok true := by
  obtain ⟨-, -, -, -, -, h1⟩ := eddsa_privkey_exact hd ok junk hp
  have hv := eddsa_signed_valid ok (edDom d ph ctx) (edSecret d priv) (edPrefix d priv) msg
  have hl : (edSigned d G (edDom d ph ctx) (edSecret d priv) (edPrefix d priv) msg).length = 2 * edLen d.fe := by
    unfold edSigned; exact Ecc.edSig_len _ _
  obtain ⟨b, e1, e2⟩ := eddsa_verify_exact hd ok junk' hm hl (Ecc.edBytes_len (edSecret d priv • G)) ph ctx
  obtain ⟨c, f1, f2⟩ := eddsa_verify_single_exact hd ok junk' hm hl (Ecc.edBytes_len (edSecret d priv • G)) ph ctx
  refine ⟨_, _, (eddsa_sign_exact hd ok junk hsig hm ph ctx).2 hp, h1, by rw [e1, e2.2 hv], ?_⟩
  rw [f1, f2.2 (Ecc.ed_validH_defect.2 ⟨0, Ecc.ed_valid_defect.1 hv, smul_zero _⟩)]

include hd ok in
/-- C79. The two verifications: the first implies the second, and they agree when the key and the point of the signature are
multiples of the generator. -/
theorem eddsa_verify_agree {dom msg sig pub : List Byte} :
    (EddsaValid d G dom msg sig pub → EddsaValidH d G dom msg sig pub) ∧
    ((∀ A : EPt ec.a ec.d, pub = edBytes A → ∃ k : Nat, A = k • G) → (∀ (R : EPt ec.a ec.d) (s : Nat), sig = edSig d R s → ∃ k : Nat, R = k • G) →
      EddsaValidH d G dom msg sig pub → EddsaValid d G dom msg sig pub) := by
  constructor
  · intro h
    exact Ecc.ed_validH_defect.2 ⟨0, Ecc.ed_valid_defect.1 h, smul_zero _⟩
  · intro hA hR hv
    rw [Ecc.ed_validH_defect] at hv
    obtain ⟨D, hD, h0⟩ := hv
    refine Ecc.ed_valid_defect.2 ?_
    suffices D = 0 by rwa [this] at hD
    obtain ⟨A, R, s, h1, h2, h3, rfl⟩ := hD
    obtain ⟨a, rfl⟩ := hA A h1
    obtain ⟨r, rfl⟩ := hR R s h3
    generalize edHashNum d _ = e at h0 ⊢
    have hn : ec.n • (s • G - (r • G + e • a • G)) = 0 := by
      rw [nsmul_sub, nsmul_add, smul_comm ec.n s, smul_comm ec.n r, smul_comm ec.n e, smul_comm ec.n a, ok.order]
      simp
    obtain ⟨i, -, hh⟩ := (Ecc.ed_sizes d hd).2.2.2.2.2.1
    have hcop : Nat.Coprime ec.h ec.n := by
      rw [ok.hval, hh]
      exact Nat.Coprime.pow_left _ ((Nat.coprime_two_left).2 (Nat.odd_iff.2 (by rw [ok.nval]; exact (Ecc.edFacts hd).nodd)))
    have o1 := addOrderOf_dvd_of_nsmul_eq_zero hn
    have o2 := addOrderOf_dvd_of_nsmul_eq_zero h0
    rw [← ok.hval] at o2
    exact AddMonoid.addOrderOf_eq_one_iff.1 (Nat.eq_one_of_dvd_coprimes hcop o2 o1)

include hd ok in
/-- C79. A signature cannot be changed in its second half: for a message, a key and the first half, at most one second half is
accepted, with or without the cofactor. -/
theorem eddsa_signature_unique {dom msg sig sig' pub : List Byte} (hv : EddsaValidH d G dom msg sig pub)
    (hv' : EddsaValidH d G dom msg sig' pub) (hR : sig.take (edLen d.fe) = sig'.take (edLen d.fe)) : sig = sig' := by
  obtain ⟨A, R, s, h1, h2, h3, h4⟩ := hv
  obtain ⟨A', R', s', k1, k2, k3, k4⟩ := hv'
  obtain rfl := Ecc.edBytes_inj (h1.symm.trans k1)
  have e1 := ((Ecc.edSig_eq hd ok (by rw [h3, Ecc.edSig_len]) (by rw [ok.nval]; exact h2)).1 h3).1
  have e2 := ((Ecc.edSig_eq hd ok (by rw [k3, Ecc.edSig_len]) (by rw [ok.nval]; exact k2)).1 k3).1
  obtain rfl := Ecc.edBytes_inj (e1.symm.trans (hR.trans e2))
  rw [← k4, ← mul_nsmul', ← mul_nsmul'] at h4
  obtain ⟨i, -, hh⟩ := (Ecc.ed_sizes d hd).2.2.2.2.2.1
  have hcop : Nat.Coprime (beVal d.sc.n) d.h := by
    rw [hh]
    exact Nat.Coprime.pow_right _ ((Nat.coprime_two_right).2 (Nat.odd_iff.2 (Ecc.edFacts hd).nodd))
  have hmod : d.h * s ≡ d.h * s' [MOD beVal d.sc.n] := by
    rw [← ok.nval, ← ok.exact]
    exact nsmul_eq_nsmul_iff_modEq.1 h4
  have := Nat.ModEq.cancel_left_of_coprime (by rwa [Nat.coprime_iff_gcd_eq_one] at hcop) hmod
  rw [Nat.ModEq, Nat.mod_eq_of_lt h2, Nat.mod_eq_of_lt k2] at this
  rw [h3, k3, this]

/-! ### Batches -/

include hd ok in
/-- C80. A batch: it ends (unless the generator never gives a number in range) and accepts exactly if every signature is
well-formed and, in every chunk of `size / 2` signatures, the combination of the defects times the cofactor vanishes, with the
coefficients drawn from the generator seeded with all the messages, signatures and keys. -/
theorem eddsa_batch_exact {S : Type} (rng : Source S) {size : Nat} (hsz : 2 ≤ size) (fuel : Nat) (junk : Nat → Byte) (ph : Int)
    (ctx : List Byte) {ts : List (List Byte × List Byte × List Byte)}
    (hl : ∀ t ∈ ts, t.1.length < 2 ^ 64 ∧ t.2.1.length = 2 * edLen d.fe ∧ t.2.2.length = edLen d.fe) :
    (eddsa_verify_batch rng fuel junk ec size ts ph ctx = .spin ∧ 4 ≤ size) ∨
    ∃ b, eddsa_verify_batch rng fuel junk ec size ts ph ctx = .ok b ∧ (b = true ↔
      ∃ (as : List Nat) (Ds : List (EPt ec.a ec.d)), Coeffs rng.gen ec.n (size / 2) 0 (rng.init (batchSeed ts)) as ∧
        as.length = ts.length ∧ List.Forall₂ (fun t D => ∃ D', EddsaDefect d G (edDom d ph ctx) t.1 t.2.1 t.2.2 D' ∧ D = d.h • D') ts Ds ∧
        ChunksVanish (size / 2) as Ds) := by
  rcases Ecc.ed_batch_run hd ok rng hsz fuel junk ph ctx hl with ⟨h1, h2⟩ | ⟨b, h1, h2⟩
  · exact Or.inl ⟨h1, by omega⟩
  · refine Or.inr ⟨b, h1, ?_⟩
    rw [Ecc.run_exact (Ecc.edDt_unique hd ok _) h2 (show 0 < size / 2 by omega), Ecc.rest_start]
    rfl

include hd ok in
/-- C80. A batch of signatures which are valid in the weaker sense is not refused; with the smallest scratch the batch is the
conjunction of the verifications with the cofactor. -/
theorem eddsa_batch_complete {S : Type} (rng : Source S) {size : Nat} (hsz : 2 ≤ size) (fuel : Nat) (junk : Nat → Byte) (ph : Int)
    (ctx : List Byte) {ts : List (List Byte × List Byte × List Byte)}
    (hl : ∀ t ∈ ts, t.1.length < 2 ^ 64 ∧ t.2.1.length = 2 * edLen d.fe ∧ t.2.2.length = edLen d.fe) :
    ((∀ t ∈ ts, EddsaValidH d G (edDom d ph ctx) t.1 t.2.1 t.2.2) →
      (eddsa_verify_batch rng fuel junk ec size ts ph ctx = .spin ∧ 4 ≤ size) ∨
      eddsa_verify_batch rng fuel junk ec size ts ph ctx = .ok true) ∧
    (size < 4 → ∃ b, eddsa_verify_batch rng fuel junk ec size ts ph ctx = .ok b ∧
      (b = true ↔ ∀ t ∈ ts, EddsaValidH d G (edDom d ph ctx) t.1 t.2.1 t.2.2)) := by
  rcases Ecc.ed_batch_run hd ok rng hsz fuel junk ph ctx hl with ⟨h1, h2⟩ | ⟨b, h1, h2⟩
  · exact ⟨fun _ => Or.inl ⟨h1, by omega⟩, fun h => by omega⟩
  · have hc : (∀ t ∈ ts, EddsaValidH d G (edDom d ph ctx) t.1 t.2.1 t.2.2) → b = true := fun hv =>
      Ecc.run_complete (Ecc.edDt_unique hd ok _) h2 rfl fun t ht => (Ecc.edDt_zero _ t).2 (hv t ht)
    refine ⟨fun hv => Or.inr (by rw [h1, hc hv]), fun h4 => ⟨b, h1, fun hb t ht => ?_, hc⟩⟩
    rw [show size / 2 = 1 by omega] at h2
    exact (Ecc.edDt_zero _ t).1 (Ecc.run_single h2 rfl rfl hb t ht)

include hd ok in
/-- C80. A single signature in a chunk which is not valid in the weaker sense is always found. -/
theorem eddsa_batch_one_bad {S : Type} (rng : Source S) {size : Nat} (hsz : 2 ≤ size) (fuel : Nat) (junk : Nat → Byte) (ph : Int)
    (ctx : List Byte) {ts : List (List Byte × List Byte × List Byte)}
    (hl : ∀ t ∈ ts, t.1.length < 2 ^ 64 ∧ t.2.1.length = 2 * edLen d.fe ∧ t.2.2.length = edLen d.fe)
    {i : Nat} (hi : i < ts.length) (hbad : ¬ EddsaValidH d G (edDom d ph ctx) ts[i].1 ts[i].2.1 ts[i].2.2)
    (hrest : ∀ j (hj : j < ts.length), j ≠ i → j / (size / 2) = i / (size / 2) →
      EddsaValidH d G (edDom d ph ctx) ts[j].1 ts[j].2.1 ts[j].2.2) :
    eddsa_verify_batch rng fuel junk ec size ts ph ctx ≠ .ok true := by
  intro h
  have hpr := Ecc.ed_prime hd ok
  rcases eddsa_batch_exact hd ok rng hsz fuel junk ph ctx hl with ⟨h1, -⟩ | ⟨b, h1, h2⟩
  · rw [h1] at h; cases h
  · rw [h1] at h
    injection h with h
    obtain ⟨as, Ds, f1, f2, f3, f4⟩ := h2.1 h
    have hlen := f3.length_eq
    have hget := List.forall₂_iff_get.1 f3
    refine hbad ((Ecc.edDt_zero _ ts[i]).1 ?_)
    have := hget.2 i hi (by omega)
    simp only [List.get_eq_getElem] at this
    rw [Ecc.chunk_alone (n := ec.n) (by omega) ?_ (by omega) (Ecc.coeffs_range hpr.one_lt f1) f4 (i := i) (by omega)] at this
    · exact this
    · intro j hj hne hq
      have hj' := hget.2 j (by omega) hj
      simp only [List.get_eq_getElem] at hj'
      exact Ecc.edDt_unique hd ok _ _ _ _ hj' ((Ecc.edDt_zero _ ts[j]).2 (hrest j (by omega) hne hq))
    · intro D hD a h0 h1 hz
      obtain ⟨j, hj, rfl⟩ := List.getElem_of_mem hD
      obtain ⟨D', -, hD'⟩ := hget.2 j (by omega) hj
      simp only [List.get_eq_getElem] at hD'
      have hk : ec.n • Ds[j] = 0 := by rw [hD', ← ok.hval]; exact Ecc.ed_kill hd ok D'
      have o1 := addOrderOf_dvd_of_nsmul_eq_zero hk
      have o2 := addOrderOf_dvd_of_nsmul_eq_zero hz
      exact AddMonoid.addOrderOf_eq_one_iff.1 (Nat.eq_one_of_dvd_coprimes (Nat.coprime_of_lt_prime h0.ne' h1 hpr).symm o2 o1)

/-! ### Shared secrets -/

include hd ok in
/-- C81. The shared secret is the multiple of the other key by the clamped scalar. It is refused if the key is no point, or if its
order divides the cofactor. -/
theorem eddsa_derive_with_scalar_exact {pub scalar : List Byte} (hpub : pub.length = edLen d.fe) (hs : scalar.length = edScLen d) :
    ∃ out b, eddsa_derive_with_scalar ec pub scalar = .ok (out, b) ∧
      (b = true ↔ ∃ A : EPt ec.a ec.d, pub = edBytes A ∧ clamp d.fe.p.size d.h (leVal scalar) • A ≠ 0) ∧
      ∀ A : EPt ec.a ec.d, pub = edBytes A → out = edBytes (clamp d.fe.p.size d.h (leVal scalar) • A) := by
  obtain ⟨c, c1, c2, c3⟩ := Ecc.ed_clamp hd ok hs.ge
  rw [List.take_of_length_le hs.le] at c3
  obtain ⟨A, b, e1, e2, e3⟩ := Ecc.pub_import hd ok (raw := pub) hpub.ge
  rw [List.take_of_length_le hpub.le] at e2 e3
  have hsc := Ecc.ed_sc_eq ok
  have hlt : clamp d.fe.p.size d.h (leVal scalar) < 16 ^ ((ec.bits + 3) / 4) := by
    have hb := Ecc.clamp_lt (h := d.h) (v := leVal scalar) (Ecc.ed_bits_pos d hd)
    rw [ok.bits, show (16 : Nat) = 2 ^ 4 from rfl, ← Nat.pow_mul]
    exact hb.trans_le (Nat.pow_le_pow_right (by omega) (by rw [show feBits d.fe = d.fe.p.size from rfl]; omega))
  obtain ⟨j, f1, f2⟩ := Ecc.xmul ok.const (Ecc.ext_aff A) hlt
  refine ⟨edBytes (clamp d.fe.p.size d.h (leVal scalar) • A), b && !xge_is_zero j, ?_, ?_, ?_⟩
  · unfold eddsa_derive_with_scalar
    rw [c1, C.ok_bind, Ecc.raw_le (by rw [hsc]; exact c2.ge), C.ok_bind, hsc, List.take_of_length_le c2.le, c3, e1, C.ok_bind, f1, C.ok_bind, Ecc.xexport f2,
      C.ok_bind]
    rfl
  · rw [Bool.and_eq_true, e2, Bool.not_eq_true', Bool.eq_false_iff, ne_eq, Ecc.is_zero_iff f2]
    constructor
    · rintro ⟨h1, h2⟩; exact ⟨A, h1, h2⟩
    · rintro ⟨A', h1, h2⟩
      obtain rfl := e3 _ h1
      exact ⟨h1, h2⟩
  · intro A' h
    rw [e3 _ h]

include hd ok in
/-- C81. The same from a private key: its scalar is clamped already. -/
theorem eddsa_derive_exact (junk : Nat → Byte) {pub priv : List Byte} (hpub : pub.length = edLen d.fe) (hp : priv.length = edLen d.fe) :
    ∃ out b, eddsa_derive junk ec pub priv = .ok (out, b) ∧
      (b = true ↔ ∃ A : EPt ec.a ec.d, pub = edBytes A ∧ edSecret d priv • A ≠ 0) ∧
      ∀ A : EPt ec.a ec.d, pub = edBytes A → out = edBytes (edSecret d priv • A) := by
  obtain ⟨s, -, h2, h3, h4, -⟩ := eddsa_privkey_exact hd ok junk hp
  obtain ⟨out, b, e1, e2, e3⟩ := eddsa_derive_with_scalar_exact hd ok hpub h3
  rw [h4, edSecret, Ecc.clamp_clamp (Ecc.ed_sizes d hd).2.2.2.2.2.1, ← edSecret] at e2 e3
  exact ⟨out, b, by rw [eddsa_derive, h2, C.ok_bind, e1], e2, e3⟩

include hd ok in
/-- C81. The two sides of an exchange compute the same, and keys of small order are refused whatever the private key. -/
theorem eddsa_derive_agree (junk : Nat → Byte) {priv1 priv2 : List Byte} (h1 : priv1.length = edLen d.fe) (h2 : priv2.length = edLen d.fe) :
    (∃ pub1 pub2 r, eddsa_pubkey_create junk ec priv1 = .ok pub1 ∧ eddsa_pubkey_create junk ec priv2 = .ok pub2 ∧
      eddsa_derive junk ec pub2 priv1 = .ok r ∧ eddsa_derive junk ec pub1 priv2 = .ok r) ∧
    ∀ A : EPt ec.a ec.d, ec.h • A = 0 → ∃ out, eddsa_derive junk ec (edBytes A) priv1 = .ok (out, false) := by
  constructor
  · obtain ⟨-, -, -, -, -, p1⟩ := eddsa_privkey_exact hd ok junk h1
    obtain ⟨-, -, -, -, -, p2⟩ := eddsa_privkey_exact hd ok junk h2
    obtain ⟨o1, b1, e1, e2, e3⟩ := eddsa_derive_exact hd ok junk (pub := edBytes (edSecret d priv2 • G)) (Ecc.edBytes_len _) h1
    obtain ⟨o2, b2, f1, f2, f3⟩ := eddsa_derive_exact hd ok junk (pub := edBytes (edSecret d priv1 • G)) (Ecc.edBytes_len _) h2
    have hc : edSecret d priv1 • edSecret d priv2 • G = edSecret d priv2 • edSecret d priv1 • G := smul_comm _ _ _
    refine ⟨_, _, (o1, b1), p1, p2, e1, ?_⟩
    have hb : b2 = b1 := by
      rw [Bool.eq_iff_iff, f2, e2]
      constructor
      · rintro ⟨A, a1, a2⟩
        rw [← Ecc.edBytes_inj a1, ← hc] at a2
        exact ⟨_, rfl, a2⟩
      · rintro ⟨A, a1, a2⟩
        rw [← Ecc.edBytes_inj a1, hc] at a2
        exact ⟨_, rfl, a2⟩
    rw [f1, f3 _ rfl, e3 _ rfl, hc, hb]
  · intro A hA
    obtain ⟨o1, b1, e1, e2, e3⟩ := eddsa_derive_exact hd ok junk (pub := edBytes A) (Ecc.edBytes_len _) h1
    refine ⟨o1, ?_⟩
    rw [e1]
    have : b1 = false := by
      rw [Bool.eq_false_iff]
      intro h
      obtain ⟨A', a1, a2⟩ := e2.1 h
      rw [← Ecc.edBytes_inj a1] at a2
      obtain ⟨m, hm⟩ := Ecc.clamp_dvd (bits := d.fe.p.size) (v := leVal ((edExpand d priv1).take (edScLen d))) (Ecc.ed_h_dvd d hd)
      rw [edSecret, hm, mul_comm, mul_nsmul', ← ok.hval, hA, smul_zero] at a2
      exact a2 rfl
    rw [this]

/-! ### The hypotheses hold in concrete cases -/

/-- A signature on the empty message with a context, on ed448. -/
example [Fact curve_ed448.fe.p.Prime] (junk : Nat → Byte) : ∃ ec s pub, edwards_init curve_ed448 = .ok ec ∧
    eddsa_sign junk ec (List.replicate 114 0) [] (List.replicate 57 7) (-1) [1, 2, 3] = .ok s ∧
    eddsa_pubkey_create junk ec (List.replicate 57 7) = .ok pub ∧ eddsa_verify junk ec [] s pub (-1) [1, 2, 3] = .ok true := by
  have hd : curve_ed448 ∈ edDefs := by simp [edDefs]
  obtain ⟨ec, h, _, G, ok⟩ := edwards_init_exact hd
  obtain ⟨s, pub, h1, h2, h3, -⟩ := eddsa_sign_verify hd ok junk junk (sig := List.replicate 114 0) (msg := []) (priv := List.replicate 57 7)
    (by decide +kernel) (by simp) (by decide +kernel) (-1) [1, 2, 3]
  exact ⟨ec, s, pub, h, h1, h2, h3⟩

/-- A batch of two copies of a signature on ed25519 with a scratch for one signature. -/
example [Fact curve_ed25519.fe.p.Prime] {S : Type} (rng : Source S) (junk : Nat → Byte) : ∃ ec s pub, edwards_init curve_ed25519 = .ok ec ∧
    eddsa_sign junk ec (List.replicate 64 0) [1] (List.replicate 32 7) (-1) [] = .ok s ∧
    eddsa_pubkey_create junk ec (List.replicate 32 7) = .ok pub ∧
    eddsa_verify_batch rng 1 junk ec 2 [([1], s, pub), ([1], s, pub)] (-1) [] = .ok true := by
  have hd : curve_ed25519 ∈ edDefs := by simp [edDefs]
  obtain ⟨ec, h, _, G, ok⟩ := edwards_init_exact hd
  have hp : (List.replicate 32 (7 : Byte)).length = edLen curve_ed25519.fe := by decide +kernel
  obtain ⟨-, -, -, -, -, h1⟩ := eddsa_privkey_exact hd ok junk hp
  have hs := (eddsa_sign_exact hd ok junk (sig := List.replicate 64 0) (msg := [1]) (by decide +kernel) (by simp) (-1) []).2 hp
  have hv := eddsa_signed_valid ok (edDom curve_ed25519 (-1) []) (edSecret curve_ed25519 (List.replicate 32 7))
    (edPrefix curve_ed25519 (List.replicate 32 7)) [1]
  have key : ∀ s pub, s.length = 2 * edLen curve_ed25519.fe → pub.length = edLen curve_ed25519.fe →
      EddsaValid curve_ed25519 G (edDom curve_ed25519 (-1) []) [1] s pub →
      eddsa_verify_batch rng 1 junk ec 2 [([1], s, pub), ([1], s, pub)] (-1) [] = .ok true := by
    intro s pub l1 l2 hv
    have hl : ∀ t ∈ [(([1] : List Byte), s, pub), ([1], s, pub)], t.1.length < 2 ^ 64 ∧ t.2.1.length = 2 * edLen curve_ed25519.fe ∧
        t.2.2.length = edLen curve_ed25519.fe := by
      intro t ht
      simp only [List.mem_cons, List.not_mem_nil, or_false, or_self] at ht
      subst ht
      exact ⟨by simp, l1, l2⟩
    rcases (eddsa_batch_complete hd ok rng (size := 2) (by omega) 1 junk (-1) [] hl).1 (by
      intro t ht
      simp only [List.mem_cons, List.not_mem_nil, or_false, or_self] at ht
      subst ht
      exact (eddsa_verify_agree hd ok).1 hv) with ⟨-, h4⟩ | h4
    · omega
    · exact h4
  exact ⟨ec, _, _, h, hs, h1, key _ _ (by unfold edSigned; exact Ecc.edSig_len _ _) (Ecc.edBytes_len _) hv⟩

end Torsion
