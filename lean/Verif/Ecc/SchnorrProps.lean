import Verif.Ecc.BipschnorrLemmas
import Verif.Ecc.SchnorrKeyProps

/-!
# Schnorr signatures (C50) and their verification in batches (C71)

`EcOk ec G` holds for the struct of every short Weierstrass curve of the library (`wei_curve_exact`), and `XofOk xof n` for its hash
(`wei_xofs_ok`).
-/
namespace Torsion

open Spec Ecc
open WeierstrassCurve.Affine (Point)

/-- The hashes of the curves: src/ecc.c, the field `hash` and `xof` of the six definitions. -/
theorem wei_xofs_ok : XofOk .SHA256 (beVal curve_p192.sc.n) ∧ XofOk .SHA256 (beVal curve_p224.sc.n) ∧
    XofOk .SHA256 (beVal curve_p256.sc.n) ∧ XofOk .SHA384 (beVal curve_p384.sc.n) ∧ XofOk .SHAKE256 (beVal curve_p521.sc.n) ∧
    XofOk .SHA256 (beVal curve_secp256k1.sc.n) := by
  refine ⟨⟨by simp, fun _ => ?_, ?_⟩, ⟨by simp, fun _ => ?_, ?_⟩, ⟨by simp, fun _ => ?_, ?_⟩, ⟨by simp, fun _ => ?_, ?_⟩,
    ⟨by simp, fun h => absurd rfl h, ?_⟩, ⟨by simp, fun _ => ?_, ?_⟩⟩ <;> decide +kernel

section
variable {fe : FieldCode} [Fact fe.p.Prime] {ec : WeiT fe} {G : Pt ec.toCurve} {xof : HashId}

theorem sizes_small (ok : EcOk ec G) (hx : XofOk xof ec.n) : feSize fe + scSize ec.n + 1 < 2 ^ 64 := by
  have h1 : ∀ f ∈ fieldCodes, feSize f ≤ 66 := by decide +kernel
  have h2 := h1 fe ok.field
  have h3 := hx.short
  unfold scSize
  omega

/-! ### BIP 340 -/

/-- C50. The two hashes of BIP 340 with their tags (for SHA-256 the state after the tags is precomputed). -/
theorem bip340_hash_exact (ok : EcOk ec G) (hx : XofOk xof ec.n) (junk : Nat → Byte) {r pub msg : List Byte} (hr : r.length = feSize fe)
    (hp : pub.length = feSize fe) (hm : msg.length < 2 ^ 64) :
    bip340_hash_challenge junk xof ec r pub msg = .ok (bip340E xof ec.n r pub msg) := by
  have := challenge_ok (ec := ec) hx ok.prime.pos junk (msg := msg) hr.ge hp.ge (by have := sizes_small ok hx; omega) hm
  rwa [List.take_of_length_le hr.le, List.take_of_length_le hp.le] at this

/-- C50. Signing: exactly with a valid key (and a nonce which is not zero), and the result is the signature of BIP 340. -/
theorem bip340_sign_exact (ok : EcOk ec G) (hx : XofOk xof ec.n) (junk : Nat → Byte) {msg priv : List Byte}
    {aux : Option (List Byte)} (ha : ∀ a, aux = some a → a.length = 32) (hm : msg.length < 2 ^ 64)
    (hl : priv.length = scSize ec.n) : ∃ out ret, bip340_sign junk xof ec msg priv aux = .ok (out, ret) ∧
      (ret = true ↔ (0 < beVal priv ∧ beVal priv < ec.n) ∧
        bip340Nonce xof ec.n (evenKey G ec.n (beVal priv)) (xBytes (beVal priv • G)) msg aux ≠ 0) ∧
      (ret = true → out = bip340Sig xof G ec.n (beVal priv)
        (bip340Nonce xof ec.n (evenKey G ec.n (beVal priv)) (xBytes (beVal priv • G)) msg aux) msg) :=
  bip340_sign_ok ok hx (by have := sizes_small ok hx; omega) junk ha hm hl

/-- C50. Verification accepts exactly the valid signatures of BIP 340. -/
theorem bip340_verify_exact (ok : EcOk ec G) (hx : XofOk xof ec.n) (junk : Nat → Byte)
    {msg sig pub : List Byte} (hm : msg.length < 2 ^ 64) (hl : sig.length = feSize fe + scSize ec.n) (hp : pub.length = feSize fe) :
    ∃ ret, bip340_verify junk xof ec msg sig pub = .ok ret ∧ (ret = true ↔ Bip340Valid xof G ec.n msg sig pub) :=
  bip340_verify_ok ok hx (by have := sizes_small ok hx; omega) junk hm hl hp

/-- C50. Every signature which is made verifies under the public key, whatever the auxiliary bytes. -/
theorem bip340_sign_verify (ok : EcOk ec G) (hx : XofOk xof ec.n) (junk junk' : Nat → Byte) {msg priv sig : List Byte}
    {aux : Option (List Byte)} (ha : ∀ a, aux = some a → a.length = 32) (hm : msg.length < 2 ^ 64)
    (hl : priv.length = scSize ec.n) (h : bip340_sign junk xof ec msg priv aux = .ok (sig, true)) :
    sig.length = feSize fe + scSize ec.n ∧ ∃ pub, bip340_pubkey_create ec priv = .ok (pub, true) ∧
      bip340_verify junk' xof ec msg sig pub = .ok true := by
  obtain ⟨out, ret, e1, e2, e3⟩ := bip340_sign_exact ok hx junk ha hm hl
  rw [h] at e1
  injection e1 with e1
  injection e1 with h1 h2
  subst h1 h2
  obtain ⟨hv, hk⟩ := e2.1 rfl
  have hs := e3 rfl
  obtain ⟨pub, r, p1, p2, p3⟩ := bip340_pubkey_create_exact ok hl
  obtain rfl := p2.2 hv
  have hpub := (p3 rfl).1
  have hlt : bip340Nonce xof ec.n (evenKey G ec.n (beVal priv)) (xBytes (beVal priv • G)) msg aux < ec.n :=
    digestScalar_lt ok.prime.pos _
  have hval := bip340_signed_valid (xof := xof) ok hv ⟨Nat.pos_of_ne_zero hk, hlt⟩ msg
  rw [← hs, ← hpub] at hval
  have hlen : sig.length = feSize fe + scSize ec.n := by
    rw [hs, bip340Sig, schnorrSig, List.length_append, xBytes_len, Hsh.bigBytes_len]; rfl
  refine ⟨hlen, pub, p1, ?_⟩
  obtain ⟨ret, v1, v2⟩ := bip340_verify_exact ok hx junk' hm hlen (show pub.length = feSize fe by rw [hpub, xBytes_len])
  rw [v1, v2.2 hval]

/-! ### The older scheme -/

/-- C50. The curves which support the older scheme are those with `p ≡ 3` modulo 4, so that `-1` is not a square. -/
theorem bipschnorr_support_exact (fe : FieldCode) : bipschnorr_support fe = decide (fe.p % 4 = 3) := by
  unfold bipschnorr_support
  rw [Nat.mod_mod_of_dvd _ (by norm_num : 4 ∣ 2 ^ 64), Bool.eq_iff_iff, beq_iff_eq, decide_eq_true_iff]

/-- C50. Signing in the older scheme. -/
theorem bipschnorr_sign_exact (ok : EcOk ec G) (h4 : fe.p % 4 = 3) (hx : XofOk xof ec.n) (junk : Nat → Byte)
    {msg priv : List Byte} (hm : msg.length < 2 ^ 64) (hl : priv.length = scSize ec.n) :
    ∃ out ret, bipschnorr_sign junk xof ec msg priv = .ok (out, ret) ∧
      (ret = true ↔ (0 < beVal priv ∧ beVal priv < ec.n) ∧ schnorrNonce xof ec.n priv msg ≠ 0) ∧
      (ret = true → out = schnorrSigned xof G ec.n (beVal priv) (schnorrNonce xof ec.n priv msg) msg) :=
  bipschnorr_sign_ok ok h4 hx (by have := sizes_small ok hx; omega) junk hm hl

/-- C50. Verification in the older scheme: the key may be in any of its encodings. -/
theorem bipschnorr_verify_exact (ok : EcOk ec G) (hx : XofOk xof ec.n) (junk : Nat → Byte)
    {msg sig : List Byte} (pub : List Byte) (hm : msg.length < 2 ^ 64) (hl : sig.length = feSize fe + scSize ec.n) :
    ∃ ret, bipschnorr_verify junk xof ec msg sig pub = .ok ret ∧ (ret = true ↔ SchnorrValid xof G ec.n msg sig pub) :=
  bipschnorr_verify_ok ok hx (by have := sizes_small ok hx; omega) junk pub hm hl

/-- C50. Every signature of the older scheme which is made verifies, under every encoding of the public key. -/
theorem bipschnorr_sign_verify (ok : EcOk ec G) (h4 : fe.p % 4 = 3) (hx : XofOk xof ec.n) (junk junk' : Nat → Byte)
    {msg priv sig pub : List Byte} (hm : msg.length < 2 ^ 64) (hl : priv.length = scSize ec.n) (hp : Sec1 (beVal priv • G) pub)
    (h : bipschnorr_sign junk xof ec msg priv = .ok (sig, true)) :
    sig.length = feSize fe + scSize ec.n ∧ bipschnorr_verify junk' xof ec msg sig pub = .ok true := by
  obtain ⟨out, ret, e1, e2, e3⟩ := bipschnorr_sign_exact ok h4 hx junk hm hl
  rw [h] at e1
  injection e1 with e1
  injection e1 with h1 h2
  subst h1 h2
  obtain ⟨hv, hk⟩ := e2.1 rfl
  have hs := e3 rfl
  have hlt : schnorrNonce xof ec.n priv msg < ec.n := digestScalar_lt ok.prime.pos _
  have hval := schnorr_signed_valid (xof := xof) ok h4 hv ⟨Nat.pos_of_ne_zero hk, hlt⟩ msg hp
  rw [← hs] at hval
  have hlen : sig.length = feSize fe + scSize ec.n := by
    rw [hs, schnorrSigned, schnorrSig, List.length_append, xBytes_len, Hsh.bigBytes_len]; rfl
  refine ⟨hlen, ?_⟩
  obtain ⟨ret, v1, v2⟩ := bipschnorr_verify_exact ok hx junk' pub hm hlen
  rw [v1, v2.2 hval]

/-! ### Batches -/

/-- C71. The coefficients of a batch are determined by the seed. -/
theorem coeffs_deterministic {S : Type} {gen : S → Nat → List Byte × S} {n cap : Nat} : ∀ {m : Nat} {s : S} {as bs : List Nat},
    Coeffs gen n cap m s as → Coeffs gen n cap m s bs → as.length = bs.length → as = bs
  | _, _, [], [], _, _, _ => rfl
  | _, _, [], _ :: _, _, _, h => by simp at h
  | _, _, _ :: _, [], _, _, h => by simp at h
  | _, _, a :: as, b :: bs, h1, h2, hl => by
    obtain ⟨s1, c1, d1⟩ := coeffs_cons.1 h1
    obtain ⟨s2, c2, d2⟩ := coeffs_cons.1 h2
    obtain ⟨rfl, rfl⟩ := coef_unique c1 c2
    rw [coeffs_deterministic d1 d2 (by simpa using hl)]

/-- C71. A batch: it ends (unless the generator never gives a number in range) and accepts exactly if every signature is
well-formed and, in every chunk of `size / 2` signatures, the combination of the defects vanishes, with the coefficients drawn
from the generator seeded with all the messages, signatures and keys. -/
theorem bip340_batch_exact {S : Type} (rng : Source S) (ok : EcOk ec G) (hx : XofOk xof ec.n)
    (junk : Nat → Byte) {size : Nat} (hsz : 2 ≤ size) (fuel : Nat) {ts : List (List Byte × List Byte × List Byte)}
    (hl : ∀ t ∈ ts, t.1.length < 2 ^ 64 ∧ t.2.1.length = feSize fe + scSize ec.n ∧ t.2.2.length = feSize fe) :
    (bip340_verify_batch rng fuel junk xof ec size ts = .spin ∧ 4 ≤ size) ∨
    ∃ b, bip340_verify_batch rng fuel junk xof ec size ts = .ok b ∧ (b = true ↔
      ∃ (as : List Nat) (Ds : List (Pt ec.toCurve)), Coeffs rng.gen ec.n (size / 2) 0 (rng.init (batchSeed ts)) as ∧
        as.length = ts.length ∧ List.Forall₂ (fun t D => Bip340Defect xof G ec.n t.1 t.2.1 t.2.2 D) ts Ds ∧
        ChunksVanish (size / 2) as Ds) := by
  rcases bip340_batch_run rng ok hx (by have := sizes_small ok hx; omega) junk hsz fuel hl with ⟨h1, h2⟩ | ⟨b, h1, h2⟩
  · exact Or.inl ⟨h1, by omega⟩
  · refine Or.inr ⟨b, h1, ?_⟩
    rw [run_exact (Dt := fun (t : List Byte × List Byte × List Byte) D => Bip340Defect xof G ec.n t.1 t.2.1 t.2.2 D)
      (fun _ _ _ h h' => bip340_defect_unique ok h h') h2 (show 0 < size / 2 by omega), rest_start]

/-- C71. A batch of valid signatures is not refused. -/
theorem bip340_batch_complete {S : Type} (rng : Source S) (ok : EcOk ec G) (hx : XofOk xof ec.n)
    (junk : Nat → Byte) {size : Nat} (hsz : 2 ≤ size) (fuel : Nat) {ts : List (List Byte × List Byte × List Byte)}
    (hl : ∀ t ∈ ts, t.1.length < 2 ^ 64 ∧ t.2.1.length = feSize fe + scSize ec.n ∧ t.2.2.length = feSize fe)
    (hv : ∀ t ∈ ts, Bip340Valid xof G ec.n t.1 t.2.1 t.2.2) :
    (bip340_verify_batch rng fuel junk xof ec size ts = .spin ∧ 4 ≤ size) ∨
    bip340_verify_batch rng fuel junk xof ec size ts = .ok true := by
  rcases bip340_batch_run rng ok hx (by have := sizes_small ok hx; omega) junk hsz fuel hl with ⟨h1, h2⟩ | ⟨b, h1, h2⟩
  · exact Or.inl ⟨h1, by omega⟩
  · have hb : b = true := run_complete (Dt := fun (t : List Byte × List Byte × List Byte) D => Bip340Defect xof G ec.n t.1 t.2.1 t.2.2 D)
      (fun _ _ _ h h' => bip340_defect_unique ok h h') h2 rfl
      fun t ht => (bip340_valid_defect (xof := xof)).1 (hv t ht)
    exact Or.inr (by rw [h1, hb])

/-- C71. With the smallest scratch the batch is the conjunction of the single verifications. -/
theorem bip340_batch_single {S : Type} (rng : Source S) (ok : EcOk ec G) (hx : XofOk xof ec.n)
    (junk : Nat → Byte) {size : Nat} (hsz : size = 2 ∨ size = 3) (fuel : Nat) {ts : List (List Byte × List Byte × List Byte)}
    (hl : ∀ t ∈ ts, t.1.length < 2 ^ 64 ∧ t.2.1.length = feSize fe + scSize ec.n ∧ t.2.2.length = feSize fe) :
    ∃ b, bip340_verify_batch rng fuel junk xof ec size ts = .ok b ∧
      (b = true ↔ ∀ t ∈ ts, Bip340Valid xof G ec.n t.1 t.2.1 t.2.2) := by
  rcases bip340_batch_run rng ok hx (by have := sizes_small ok hx; omega) junk (show 2 ≤ size by omega) fuel hl with ⟨h1, h2⟩ | ⟨b, h1, h2⟩
  · omega
  · refine ⟨b, h1, fun hb t ht => ?_, fun hv => ?_⟩
    · rw [show size / 2 = 1 by omega] at h2
      exact bip340_valid_defect.2 (run_single h2 rfl rfl hb t ht)
    · exact run_complete
        (Dt := fun (t : List Byte × List Byte × List Byte) D => Bip340Defect xof G ec.n t.1 t.2.1 t.2.2 D)
        (fun _ _ _ h h' => bip340_defect_unique ok h h') h2 rfl fun t ht => (bip340_valid_defect (xof := xof)).1 (hv t ht)

/-- C71. A single invalid signature in a chunk is always found. -/
theorem bip340_batch_one_bad {S : Type} (rng : Source S) (ok : EcOk ec G) (hx : XofOk xof ec.n)
    (junk : Nat → Byte) {size : Nat} (hsz : 2 ≤ size) (fuel : Nat) {ts : List (List Byte × List Byte × List Byte)}
    (hl : ∀ t ∈ ts, t.1.length < 2 ^ 64 ∧ t.2.1.length = feSize fe + scSize ec.n ∧ t.2.2.length = feSize fe)
    {i : Nat} (hi : i < ts.length) (hbad : ¬ Bip340Valid xof G ec.n ts[i].1 ts[i].2.1 ts[i].2.2)
    (hrest : ∀ j (hj : j < ts.length), j ≠ i → j / (size / 2) = i / (size / 2) → Bip340Valid xof G ec.n ts[j].1 ts[j].2.1 ts[j].2.2) :
    bip340_verify_batch rng fuel junk xof ec size ts ≠ .ok true := by
  intro h
  rcases bip340_batch_exact rng ok hx junk hsz fuel hl with ⟨h1, -⟩ | ⟨b, h1, h2⟩
  · rw [h1] at h; cases h
  · rw [h1] at h
    injection h with h
    obtain ⟨as, Ds, f1, f2, f3, f4⟩ := h2.1 h
    have hlen := f3.length_eq
    have hget := List.forall₂_iff_get.1 f3
    refine hbad (bip340_valid_defect.2 ?_)
    have := hget.2 i hi (by omega)
    simp only [List.get_eq_getElem] at this
    rwa [chunk_single ok (by omega) (by omega) (coeffs_range ok.prime.one_lt f1) f4 (i := i) (by omega)] at this
    intro j hj hne hq
    have hj' := hget.2 j (by omega) hj
    simp only [List.get_eq_getElem] at hj'
    exact bip340_defect_unique ok hj' (bip340_valid_defect.1 (hrest j (by omega) hne hq))

/-- C71. For an invalid signature at most one value of its coefficient, given the others, lets the chunk pass. -/
theorem batch_coefficient_unique (ok : EcOk ec G) {D rest : Pt ec.toCurve} (hD : D ≠ 0) {a b : Nat} (ha : a < ec.n) (hb : b < ec.n)
    (h1 : a • D + rest = 0) (h2 : b • D + rest = 0) : a = b := by
  have h := add_right_cancel (h1.trans h2.symm)
  obtain ⟨m, rfl⟩ := ok.all D
  rcases Nat.le_total a b with hle | hle
  · have : (b - a) • (m • G) = 0 := by
      rw [← sub_eq_zero] at h
      rw [← neg_eq_zero, ← h, sub_nsmul _ hle]
      abel
    rw [smul_zero_iff ok hD, Nat.mod_eq_of_lt (by omega)] at this
    omega
  · have : (a - b) • (m • G) = 0 := by
      rw [sub_nsmul _ hle, h, add_neg_cancel]
    rw [smul_zero_iff ok hD, Nat.mod_eq_of_lt (by omega)] at this
    omega

/-- C71. Batches in the older scheme. -/
theorem bipschnorr_batch_exact {S : Type} (rng : Source S) (ok : EcOk ec G) (h4 : fe.p % 4 = 3) (hx : XofOk xof ec.n)
    (junk : Nat → Byte) {size : Nat} (hsz : 2 ≤ size) (fuel : Nat) {ts : List (List Byte × List Byte × List Byte)}
    (hl : ∀ t ∈ ts, t.1.length < 2 ^ 64 ∧ t.2.1.length = feSize fe + scSize ec.n) :
    (bipschnorr_verify_batch rng fuel junk xof ec size ts = .spin ∧ 4 ≤ size) ∨
    ∃ b, bipschnorr_verify_batch rng fuel junk xof ec size ts = .ok b ∧ (b = true ↔
      ∃ (as : List Nat) (Ds : List (Pt ec.toCurve)), Coeffs rng.gen ec.n (size / 2) 0 (rng.init (batchSeed (seedArgs fe ts))) as ∧
        as.length = ts.length ∧ List.Forall₂ (fun t D => SchnorrDefect xof G ec.n t.1 t.2.1 t.2.2 D) ts Ds ∧
        ChunksVanish (size / 2) as Ds) := by
  rcases bipschnorr_batch_run rng ok h4 hx (sizes_small ok hx) junk hsz fuel hl with ⟨h1, h2⟩ | ⟨b, h1, h2⟩
  · exact Or.inl ⟨h1, by omega⟩
  · refine Or.inr ⟨b, h1, ?_⟩
    rw [run_exact (Dt := fun (t : List Byte × List Byte × List Byte) D => SchnorrDefect xof G ec.n t.1 t.2.1 t.2.2 D)
      (fun _ _ _ h h' => schnorr_defect_unique ok h4 h h') h2 (show 0 < size / 2 by omega), rest_start]

/-- C71. A batch of valid signatures of the older scheme is not refused; with the smallest scratch it is the conjunction of the
single verifications. -/
theorem bipschnorr_batch_complete {S : Type} (rng : Source S) (ok : EcOk ec G) (h4 : fe.p % 4 = 3) (hx : XofOk xof ec.n)
    (junk : Nat → Byte) {size : Nat} (hsz : 2 ≤ size) (fuel : Nat) {ts : List (List Byte × List Byte × List Byte)}
    (hl : ∀ t ∈ ts, t.1.length < 2 ^ 64 ∧ t.2.1.length = feSize fe + scSize ec.n) :
    ((∀ t ∈ ts, SchnorrValid xof G ec.n t.1 t.2.1 t.2.2) →
      (bipschnorr_verify_batch rng fuel junk xof ec size ts = .spin ∧ 4 ≤ size) ∨
      bipschnorr_verify_batch rng fuel junk xof ec size ts = .ok true) ∧
    (size < 4 → ∃ b, bipschnorr_verify_batch rng fuel junk xof ec size ts = .ok b ∧
      (b = true ↔ ∀ t ∈ ts, SchnorrValid xof G ec.n t.1 t.2.1 t.2.2)) := by
  rcases bipschnorr_batch_run rng ok h4 hx (sizes_small ok hx) junk hsz fuel hl with ⟨h1, h2⟩ | ⟨b, h1, h2⟩
  · exact ⟨fun _ => Or.inl ⟨h1, by omega⟩, fun h => absurd h (by omega)⟩
  · have hc : (∀ t ∈ ts, SchnorrValid xof G ec.n t.1 t.2.1 t.2.2) → b = true := fun hv =>
      run_complete (Dt := fun (t : List Byte × List Byte × List Byte) D => SchnorrDefect xof G ec.n t.1 t.2.1 t.2.2 D)
      (fun _ _ _ h h' => schnorr_defect_unique ok h4 h h') h2 rfl fun t ht => (schnorr_valid_defect (xof := xof)).1 (hv t ht)
    refine ⟨fun hv => Or.inr (by rw [h1, hc hv]), fun hs => ⟨b, h1, fun hb t ht => ?_, hc⟩⟩
    rw [show size / 2 = 1 by omega] at h2
    exact schnorr_valid_defect.2 (run_single h2 rfl rfl hb t ht)

/-- C71. A single invalid signature in a chunk is always found, in the older scheme. -/
theorem bipschnorr_batch_one_bad {S : Type} (rng : Source S) (ok : EcOk ec G) (h4 : fe.p % 4 = 3) (hx : XofOk xof ec.n)
    (junk : Nat → Byte) {size : Nat} (hsz : 2 ≤ size) (fuel : Nat) {ts : List (List Byte × List Byte × List Byte)}
    (hl : ∀ t ∈ ts, t.1.length < 2 ^ 64 ∧ t.2.1.length = feSize fe + scSize ec.n)
    {i : Nat} (hi : i < ts.length) (hbad : ¬ SchnorrValid xof G ec.n ts[i].1 ts[i].2.1 ts[i].2.2)
    (hrest : ∀ j (hj : j < ts.length), j ≠ i → j / (size / 2) = i / (size / 2) → SchnorrValid xof G ec.n ts[j].1 ts[j].2.1 ts[j].2.2) :
    bipschnorr_verify_batch rng fuel junk xof ec size ts ≠ .ok true := by
  intro h
  rcases bipschnorr_batch_exact rng ok h4 hx junk hsz fuel hl with ⟨h1, -⟩ | ⟨b, h1, h2⟩
  · rw [h1] at h; cases h
  · rw [h1] at h
    injection h with h
    obtain ⟨as, Ds, f1, f2, f3, f4⟩ := h2.1 h
    have hlen := f3.length_eq
    have hget := List.forall₂_iff_get.1 f3
    refine hbad (schnorr_valid_defect.2 ?_)
    have := hget.2 i hi (by omega)
    simp only [List.get_eq_getElem] at this
    rwa [chunk_single ok (by omega) (by omega) (coeffs_range ok.prime.one_lt f1) f4 (i := i) (by omega)] at this
    intro j hj hne hq
    have hj' := hget.2 j (by omega) hj
    simp only [List.get_eq_getElem] at hj'
    exact schnorr_defect_unique ok h4 hj' (schnorr_valid_defect.1 (hrest j (by omega) hne hq))

end

/-- The hypotheses hold: on secp256k1 the empty message is signed with the key 1, the signature is accepted alone and twice in a
batch, whatever the generator. -/
example : letI := Fact.mk (weiDefs_field_prime (d := curve_secp256k1) (by simp [weiDefs]))
    ∃ ec G sig pub, wei_curve curve_secp256k1 = .ok ec ∧ EcOk ec G ∧
      bip340_sign (fun _ => 0) .SHA256 ec [] (bigBytes (scSize ec.n) 1) none = .ok (sig, true) ∧
      bip340_pubkey_create ec (bigBytes (scSize ec.n) 1) = .ok (pub, true) ∧
      bip340_verify (fun _ => 0) .SHA256 ec [] sig pub = .ok true ∧
      ∀ (S : Type) (rng : Source S), bip340_verify_batch rng 1 (fun _ => 0) .SHA256 ec 2 [([], sig, pub), ([], sig, pub)] = .ok true := by
  letI := Fact.mk (weiDefs_field_prime (d := curve_secp256k1) (by simp [weiDefs]))
  obtain ⟨ec, h1, h2, -, G, hG, ok⟩ := wei_curve_exact (d := curve_secp256k1) (by simp [weiDefs])
  have h3 : 3 < beVal curve_secp256k1.sc.n ∧ beVal curve_secp256k1.x < curve_secp256k1.fe.p ∧
      beVal curve_secp256k1.y < curve_secp256k1.fe.p ∧ beVal curve_secp256k1.y % 2 = 0 := by decide +kernel
  have h4 : bip340Nonce .SHA256 (beVal curve_secp256k1.sc.n) 1 (bigBytes ((curve_secp256k1.fe.p.size + 7) / 8)
      (beVal curve_secp256k1.x)) [] none ≠ 0 := by
    rw [show bip340Nonce .SHA256 = fun n d pub msg aux => digestScalar n ((fun m => Spec.sha256 (Spec.sha256 (ascii "BIP0340/nonce")
      ++ Spec.sha256 (ascii "BIP0340/nonce") ++ m)) (bip340Secret .SHA256 n d aux ++ pub ++ msg)) from rfl, Hsh.sha256_model]
    decide +kernel
  have hx := wei_xofs_ok.2.2.2.2.2
  rw [← h2] at h3 h4 hx
  have hl : (bigBytes (scSize ec.n) 1).length = scSize ec.n := Hsh.bigBytes_len _ _
  have hv : beVal (bigBytes (scSize ec.n) 1) = 1 := by
    rw [Drb.beVal_bigBytes, Nat.mod_eq_of_lt ((show 1 < ec.n by omega).trans (scSize_pow _))]
  have hev : evenKey G ec.n 1 = 1 := by
    unfold evenKey
    refine if_pos ⟨by rw [one_nsmul]; exact ok.nonzero, ?_⟩
    rw [one_nsmul, ordin, hG]
    dsimp only
    rw [ZMod.val_natCast_of_lt h3.2.2.1]
    exact h3.2.2.2
  have hxb : xBytes (1 • G) = bigBytes ((curve_secp256k1.fe.p.size + 7) / 8) (beVal curve_secp256k1.x) := by
    rw [one_nsmul, xBytes, absc, hG]
    dsimp only
    rw [ZMod.val_natCast_of_lt h3.2.1]
  obtain ⟨sig, ret, e1, e2, -⟩ := bip340_sign_exact ok hx (fun _ => 0) (msg := []) (aux := none) (by simp) (by simp) hl
  rw [hv, hev, hxb] at e2
  obtain rfl := e2.2 ⟨⟨by omega, by omega⟩, h4⟩
  obtain ⟨l1, pub, e3, e4⟩ := bip340_sign_verify ok hx (fun _ => 0) (fun _ => 0) (msg := []) (aux := none) (by simp) (by simp) hl e1
  obtain ⟨pub', r', p1, p2, p3⟩ := bip340_pubkey_create_exact ok hl
  rw [e3] at p1
  injection p1 with p1
  injection p1 with p1 p4
  subst p1 p4
  have lp : pub.length = feSize curve_secp256k1.fe := by rw [(p3 rfl).1, xBytes_len]
  obtain ⟨b, v1, v2⟩ := bip340_verify_exact ok hx (fun _ => 0) (msg := []) (sig := sig) (pub := pub) (by simp) l1 lp
  have hval := v2.1 (C.ok.inj (e4.symm.trans v1)).symm
  refine ⟨ec, G, sig, pub, h1, ok, e1, e3, e4, fun S rng => ?_⟩
  have hall : ∀ t ∈ [(([] : List Byte), sig, pub), ([], sig, pub)], t = ([], sig, pub) := fun t ht => by
    rcases List.mem_cons.1 ht with h | h
    · exact h
    · exact List.mem_singleton.1 h
  rcases bip340_batch_complete rng ok hx (fun _ => 0) (size := 2) (by omega) 1 (ts := [([], sig, pub), ([], sig, pub)])
    (fun t ht => by rw [hall t ht]; exact ⟨Nat.two_pow_pos _, l1, lp⟩) (fun t ht => by rw [hall t ht]; exact hval) with ⟨-, h⟩ | h
  · omega
  · exact h

end Torsion
