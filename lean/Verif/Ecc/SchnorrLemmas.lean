import Verif.Ecc.Schnorr
import Verif.Ecc.SchnorrSpec
import Verif.Ecc.EcdsaLemmas
import Verif.Hash.Props
import Verif.Mpi.JacobiLemmas

/-! Lemmas on the Schnorr signatures. -/
namespace Torsion.Ecc

open Torsion.Spec
open WeierstrassCurve.Affine (Point)

/-! ### Hashes -/

theorem xof_known {xof : HashId} {n : Nat} (h : XofOk xof n) : ∀ k, xof ≠ .other k := by
  rintro k rfl; rcases h.mem with h | h | h <;> cases h

theorem digest_len {xof : HashId} {n : Nat} (h : XofOk xof n) (m : List Byte) :
    (n.size + 7) / 8 ≤ (hash xof ((n.size + 7) / 8) m).length := by
  rw [hash_length _ _ _ (fun _ => h.short)]
  rcases h.mem with h1 | h1 | h1
  · rw [h1, if_neg (by simp)]; rw [← h1]; exact h.long (by rw [h1]; simp)
  · rw [h1, if_neg (by simp)]; rw [← h1]; exact h.long (by rw [h1]; simp)
  · rw [h1]; split <;> rename_i hc
    · exact le_rfl
    · push Not at hc; rw [hc (Or.inr rfl)]; omega

theorem upd {t : HashId} {h : HashCtx} {m : List Byte} (r : Hsh.HashRep t h m) {d : List Byte} (hd : d.length < 2 ^ 64) :
    ∃ h', hash_update h d = .ok h' ∧ Hsh.HashRep t h' (m ++ d) := Hsh.rep_update r d hd

theorem hash_scalar_ok {xof : HashId} {n : Nat} (hx : XofOk xof n) (hn : 0 < n) (junk : Nat → Byte) {h : HashCtx}
    {m : List Byte} (r : Hsh.HashRep xof h m) :
    hash_scalar junk n h = .ok (digestScalar n (hash xof ((n.size + 7) / 8) m)) := by
  have hlen := digest_len hx m
  have hs0 : 0 < n.size := Nat.size_pos.2 hn
  unfold hash_scalar
  have e : scSize n = (n.size + 7) / 8 := rfl
  rw [e, Hsh.rep_final r junk _ (fun _ => hx.short), C.ok_bind]
  generalize hash xof ((n.size + 7) / 8) m = d at *
  rcases d with _ | ⟨b, d⟩
  · simp at hlen; omega
  have hrd : C.rd (b :: d) 0 = .ok b := rfl
  have hwr : ∀ v, C.wr (b :: d) 0 v = .ok (v :: d) := fun v => rfl
  rw [hrd, C.ok_bind, hwr, C.ok_bind]
  obtain ⟨k, hk⟩ : ∃ k, (n.size + 7) / 8 = k + 1 := ⟨(n.size + 7) / 8 - 1, by omega⟩
  have hdk : k ≤ d.length := by rw [hk] at hlen; simpa using hlen
  -- masking the first byte
  have hrev : ∀ v : Byte, ((v :: d).take (k + 1)).reverse = (d.take k).reverse ++ [v] := by intro v; simp
  have hl : (((b :: d).take (k + 1)).reverse).length = k + 1 := by simp; omega
  obtain ⟨t, h1, ys, h2, h3⟩ := mask_val (xs := ((b :: d).take (k + 1)).reverse) (n := k) (bits := n.size) (m := scMask n)
    hl (by omega) (by omega) rfl
  have hkl : (d.take k).reverse.length = k := by simp; omega
  have ht : t = b := by
    rw [hrev, C.rd, List.getElem?_append_right (by omega)] at h1
    simp [hkl] at h1
    exact h1.symm
  have hys : ys = (d.take k).reverse ++ [b &&& scMask n] := by
    subst ht
    rw [hrev, C.wr, if_pos (by simp; omega)] at h2
    have := C.ok.inj h2
    rw [← this, List.set_append_right _ _ (by omega)]
    simp [hkl]
  have hval : beVal (((b &&& scMask n) :: d).take (k + 1)) = beVal ((b :: d).take (k + 1)) % 2 ^ n.size := by
    rw [beVal_eq, beVal_eq, ← h3, hrev, hys]
  unfold num_import_weak
  rw [slice_take (by rw [e, hk]; simp; omega), C.ok_bind, C.pure_eq, C.ok_bind, C.pure_eq]
  rw [e, hk, hval, digestScalar, hk]
  have h2n := two_size hn
  generalize hw : 2 ^ n.size = w at *
  have hlt := Nat.mod_lt (beVal ((b :: d).take (k + 1))) (show 0 < w by rw [← hw]; positivity)
  clear hval h3
  generalize beVal ((b :: d).take (k + 1)) % w = y at *
  congr 1
  split
  · rename_i hc; rw [Nat.mod_eq_of_lt hc]
  · rename_i hc
    rw [Nat.mod_eq_sub_mod (by omega), Nat.mod_eq_of_lt (a := _ - _) (by omega)]

theorem digestScalar_lt {n : Nat} (hn : 0 < n) (d : List Byte) : digestScalar n d < n := Nat.mod_lt _ hn

theorem tagDigest_len {xof : HashId} {n : Nat} (hx : XofOk xof n) (tag : List Byte) :
    (tagDigest xof tag).length = hash_block_size xof / 2 := by
  unfold tagDigest
  rcases hx.mem with h | h | h <;> subst h
  · rw [if_pos (by decide), hash_length _ _ _ (by simp), if_neg (by simp)]; rfl
  · rw [if_neg (by decide), hash_length _ _ _ (by intro _; decide), if_pos (by decide)]
  · rw [if_neg (by decide), hash_length _ _ _ (by intro _; decide), if_pos (by decide)]

theorem hash_init_ok {xof : HashId} {n : Nat} (hx : XofOk xof n) (junk : Nat → Byte) {tag : List Byte} (ht : tag.length < 2 ^ 64) :
    ∃ h, bip340_hash_init junk xof tag = .ok h ∧ Hsh.HashRep xof h (tagDigest xof tag ++ tagDigest xof tag) := by
  have hlen := tagDigest_len hx tag
  have key : ∃ h0, hash_init junk (if decide (hash_output_size xof ≠ hash_block_size xof / 2) = true then .SHAKE256
      else xof) = .ok h0 ∧ ∃ h1, hash_update h0 tag = .ok h1 ∧
      hash_final junk h1 (if decide (hash_output_size xof ≠ hash_block_size xof / 2) = true then hash_block_size xof / 2
        else hash_output_size xof) = .ok (tagDigest xof tag) := by
    unfold tagDigest
    by_cases hc : hash_output_size xof = hash_block_size xof / 2
    · rw [if_neg (by simp [hc]), if_neg (by simp [hc]), if_pos hc]
      obtain ⟨h0, e0, r0⟩ := Hsh.rep_init junk xof (xof_known hx)
      obtain ⟨h1, e1, r1⟩ := upd r0 ht
      refine ⟨h0, e0, h1, e1, ?_⟩
      rw [Hsh.rep_final r1 junk _ (by rcases hx.mem with h | h | h <;> rw [h] <;> decide), List.nil_append]
    · rw [if_pos (by simp [hc]), if_pos (by simp [hc]), if_neg hc]
      obtain ⟨h0, e0, r0⟩ := Hsh.rep_init junk .SHAKE256 (by simp)
      obtain ⟨h1, e1, r1⟩ := upd r0 ht
      refine ⟨h0, e0, h1, e1, ?_⟩
      rw [Hsh.rep_final r1 junk _ (by rcases hx.mem with h | h | h <;> rw [h] <;> decide), List.nil_append]
  have hsz : (if decide (hash_output_size xof ≠ hash_block_size xof / 2) = true then hash_block_size xof / 2
        else hash_output_size xof) = hash_block_size xof / 2 := by
    split <;> rename_i hc
    · rfl
    · simpa using hc
  obtain ⟨h0, e0, h1, e1, e2⟩ := key
  obtain ⟨h2, e3, r3⟩ := Hsh.rep_init junk xof (xof_known hx)
  have hb : (tagDigest xof tag).length < 2 ^ 64 := by
    rw [hlen]; rcases hx.mem with h | h | h <;> rw [h] <;> decide
  obtain ⟨h4, e4, r4⟩ := upd r3 hb
  obtain ⟨h5, e5, r5⟩ := upd r4 hb
  refine ⟨h5, ?_, by simpa using r5⟩
  unfold bip340_hash_init
  dsimp only
  rw [e0, C.ok_bind, e1, C.ok_bind, e2, C.ok_bind, hsz, slice_take hlen.ge, C.ok_bind, List.take_of_length_le hlen.le, e3, C.ok_bind,
    e4, C.ok_bind, e5]

theorem mid_rep {mid : Vector (BitVec 32) 8} {tag : List Byte} (junk : Nat → Byte) (v : Vector Byte 64)
    (hv : v.toList = Spec.sha256 tag ++ Spec.sha256 tag) (hm : sha256_transform Hsh.ivSha256 v = mid) :
    Hsh.MdRep Hsh.okSha256 Hsh.ivSha256 ⟨mid, rawBytes 64 junk, (64 : BitVec 64)⟩ (Spec.sha256 tag ++ Spec.sha256 tag) := by
  refine ⟨⟨[v], [], ?_, by decide, ?_, ?_, by simp [rawBytes, sha256Alg], ?_⟩, ?_⟩
  · rw [← hv, List.append_nil]; exact (List.append_nil _).symm
  · exact hm.symm
  · exact show sha256Alg.pos (64 : BitVec 64) = 0 by decide
  · show List.take (sha256Alg.pos (64 : BitVec 64)) _ = _
    rw [show sha256Alg.pos (64 : BitVec 64) = 0 by decide]; rfl
  · have := Hsh.okSha256.incr _ _ 64 Hsh.okSha256.zero (by decide)
    rw [List.length_append, Hsh.sha256_len]
    exact this

theorem hash_start_ok {xof : HashId} {n : Nat} (hx : XofOk xof n) (junk : Nat → Byte) {tag : List Byte} (ht : tag.length < 2 ^ 64)
    {mid : Vector (BitVec 32) 8} (v : Vector Byte 64)
    (hv : v.toList = Spec.sha256 tag ++ Spec.sha256 tag) (hm : sha256_transform Hsh.ivSha256 v = mid) :
    ∃ h, bip340_hash_start junk xof mid tag = .ok h ∧ Hsh.HashRep xof h (tagDigest xof tag ++ tagDigest xof tag) := by
  unfold bip340_hash_start
  by_cases h : xof = .SHA256
  · rw [if_pos h]
    subst h
    exact ⟨_, rfl, .sha256 _ _ (mid_rep junk v hv hm)⟩
  · rw [if_neg h]
    exact hash_init_ok hx junk ht

/-- Two copies of the digest of a tag, as a block. -/
def tagBlock (tag : List Byte) : Vector Byte 64 :=
  ⟨(Spec.sha256 tag ++ Spec.sha256 tag).toArray, by simp [Hsh.sha256_len]⟩

theorem tagBlock_list (tag : List Byte) : (tagBlock tag).toList = Spec.sha256 tag ++ Spec.sha256 tag := by
  simp [tagBlock]

/-- The same with the modelled transform, to compute with. -/
theorem tagBlock_model (tag : List Byte) :
    tagBlock tag = (let d := Spec.mdHash 64 56 Spec.bigBytes sha256_transform Hsh.ivSha256 Spec.be32Out tag
      Vector.ofFn fun i : Fin 64 => (d ++ d).getD i.val 0) := by
  rw [← Hsh.sha256_model]
  apply Vector.ext
  intro i hi
  have hl : (Spec.sha256 tag ++ Spec.sha256 tag).length = 64 := by simp [Hsh.sha256_len]
  simp [tagBlock, List.getElem?_eq_getElem (hl.symm ▸ hi)]

set_option maxRecDepth 100000 in
theorem mid_aux : sha256_transform Hsh.ivSha256 (tagBlock bip340_tag_aux) = bip340_mid_aux := by
  rw [tagBlock_model]
  decide +kernel
set_option maxRecDepth 100000 in
theorem mid_nonce : sha256_transform Hsh.ivSha256 (tagBlock bip340_tag_nonce) = bip340_mid_nonce := by
  rw [tagBlock_model]
  decide +kernel
set_option maxRecDepth 100000 in
theorem mid_challenge : sha256_transform Hsh.ivSha256 (tagBlock bip340_tag_challenge) = bip340_mid_challenge := by
  rw [tagBlock_model]
  decide +kernel

theorem tag_aux_eq : bip340_tag_aux = ascii "BIP0340/aux" := by decide +kernel
theorem tag_nonce_eq : bip340_tag_nonce = ascii "BIP0340/nonce" := by decide +kernel
theorem tag_challenge_eq : bip340_tag_challenge = ascii "BIP0340/challenge" := by decide +kernel

section
variable {fe : FieldCode} [Fact fe.p.Prime] {ec : WeiT fe} {G : Pt ec.toCurve} {xof : HashId}

theorem aux_ok (hx : XofOk xof ec.n) (junk : Nat → Byte) (sk : List Byte) {aux : List Byte} (ha : aux.length = 32) :
    bip340_hash_aux junk xof ec sk aux = .ok (List.zipWith (· ^^^ ·) sk
      ((taggedHash xof ((ec.n.size + 7) / 8) "BIP0340/aux" aux).take ((ec.n.size + 7) / 8))) := by
  obtain ⟨h, e1, r1⟩ := hash_start_ok hx junk (show bip340_tag_aux.length < 2 ^ 64 by decide) _ (tagBlock_list _) mid_aux
  obtain ⟨h2, e2, r2⟩ := upd r1 (d := aux) (by omega)
  unfold bip340_hash_aux
  rw [e1, C.ok_bind, slice_take ha.ge, C.ok_bind, List.take_of_length_le ha.le, e2, C.ok_bind]
  have e : scSize ec.n = (ec.n.size + 7) / 8 := rfl
  rw [e, Hsh.rep_final r2 junk _ (fun _ => hx.short), C.ok_bind, slice_take (digest_len hx _), C.ok_bind, taggedHash, tag_aux_eq]
  rfl

theorem nonce_ok (hx : XofOk xof ec.n) (hn : 0 < ec.n) (junk : Nat → Byte) (d : Nat) {pub msg : List Byte} {aux : Option (List Byte)}
    (ha : ∀ a, aux = some a → a.length = 32) (hp : pub.length < 2 ^ 64) (hm : msg.length < 2 ^ 64) :
    bip340_hash_nonce junk xof ec (num_export ec.n d) pub msg aux = .ok (bip340Nonce xof ec.n d pub msg aux) := by
  obtain ⟨h, e1, r1⟩ := hash_start_ok hx junk (show bip340_tag_nonce.length < 2 ^ 64 by decide) _ (tagBlock_list _) mid_nonce
  have hs : (match aux with
      | some aux => bip340_hash_aux junk xof ec (num_export ec.n d) aux
      | none => .ok (num_export ec.n d)) = .ok (bip340Secret xof ec.n d aux) ∧ (bip340Secret xof ec.n d aux).length < 2 ^ 64 := by
    have hl : (bigBytes ((ec.n.size + 7) / 8) d).length < 2 ^ 64 := by
      rw [Hsh.bigBytes_len]; have := hx.short; omega
    cases aux with
    | none => exact ⟨rfl, hl⟩
    | some a =>
      refine ⟨aux_ok hx junk _ (ha a rfl), ?_⟩
      rw [bip340Secret, List.length_zipWith]
      exact (min_le_left _ _).trans_lt hl
  obtain ⟨h2, e2, r2⟩ := upd r1 hs.2
  obtain ⟨h3, e3, r3⟩ := upd r2 hp
  obtain ⟨h4, e4, r4⟩ := upd r3 hm
  have key : ∀ x : C (List Byte), x = .ok (bip340Secret xof ec.n d aux) → (do
      let secret ← x
      let h ← bip340_hash_start junk xof bip340_mid_nonce bip340_tag_nonce
      let h ← hash_update h secret
      let h ← hash_update h pub
      let h ← hash_update h msg
      hash_scalar junk ec.n h) = .ok (bip340Nonce xof ec.n d pub msg aux) := by
    rintro x rfl
    rw [C.ok_bind, e1, C.ok_bind, e2, C.ok_bind, e3, C.ok_bind, e4, C.ok_bind, hash_scalar_ok hx hn junk r4, bip340Nonce, taggedHash,
      tag_nonce_eq]
    simp only [List.append_assoc]
  have := key _ hs.1
  unfold bip340_hash_nonce
  cases aux with
  | none => exact this
  | some a => exact this

theorem challenge_ok (hx : XofOk xof ec.n) (hn : 0 < ec.n) (junk : Nat → Byte) {r pub msg : List Byte}
    (hr : feSize fe ≤ r.length) (hp : feSize fe ≤ pub.length) (hz : feSize fe < 2 ^ 64) (hm : msg.length < 2 ^ 64) :
    bip340_hash_challenge junk xof ec r pub msg = .ok (bip340E xof ec.n (r.take (feSize fe)) (pub.take (feSize fe)) msg) := by
  obtain ⟨h, e1, r1⟩ := hash_start_ok hx junk (show bip340_tag_challenge.length < 2 ^ 64 by decide) _ (tagBlock_list _) mid_challenge
  obtain ⟨h2, e2, r2⟩ := upd r1 (d := r.take (feSize fe)) (by rw [List.length_take]; omega)
  obtain ⟨h3, e3, r3⟩ := upd r2 (d := pub.take (feSize fe)) (by rw [List.length_take]; omega)
  obtain ⟨h4, e4, r4⟩ := upd r3 hm
  unfold bip340_hash_challenge
  rw [e1, C.ok_bind, slice_take hr, C.ok_bind, slice_take hp, C.ok_bind, e2, C.ok_bind, e3, C.ok_bind, e4, C.ok_bind,
    hash_scalar_ok hx hn junk r4, bip340E, taggedHash, tag_challenge_eq]
  simp only [List.append_assoc]

/-! ### Points with an even ordinate -/

theorem onc {x y : ZMod fe.p} (h : (weier ec.a ec.b).Nonsingular x y) : y ^ 2 = x ^ 3 + ec.a * x + ec.b := by
  have := h.1
  rw [WeierstrassCurve.Affine.equation_iff] at this
  simpa [weier] using this

theorem is_even_iff (P : Pt ec.toCurve) : wge_is_even ec (affine P) = true ↔ EvenPt P := by
  rcases P with _ | ⟨x, y, h⟩
  · rw [← Point.zero_def, aff_zero]
    simp [wge_is_even, EvenPt]
  · rw [aff_some, wge_is_even, EvenPt]
    have hne : (Point.some x y h : Pt ec.toCurve) ≠ 0 := Point.some_ne_zero h
    have : ordin (Point.some x y h : Pt ec.toCurve) = y.val := rfl
    rw [this]
    simp [fe_is_odd, hne]

theorem export_x_out (P : Pt ec.toCurve) : wge_export_x ec (affine P) = (xBytes P, decide (P ≠ 0)) := by
  rcases P with _ | ⟨x, y, h⟩
  · rfl
  · have hne : (Point.some x y h : Pt ec.toCurve) ≠ 0 := Point.some_ne_zero h
    rw [decide_eq_true hne]; rfl

theorem xBytes_len (P : Pt ec.toCurve) : (xBytes P).length = feSize fe := Hsh.bigBytes_len _ _

theorem xBytes_inj {P Q : Pt ec.toCurve} (h : xBytes P = xBytes Q) : absc P = absc Q := by
  have := congrArg beVal h
  rwa [xBytes, xBytes, show (fe.p.size + 7) / 8 = feSize fe from rfl, absc, absc, big_val, big_val] at this

theorem even_inj (ok : EcOk ec G) {P Q : Pt ec.toCurve} (hP : EvenPt P) (hQ : EvenPt Q) (h : absc P = absc Q) : P = Q := by
  rcases P with _ | ⟨x, y, hx⟩
  · exact absurd rfl hP.1
  rcases Q with _ | ⟨x', y', hx'⟩
  · exact absurd rfl hQ.1
  have e : x = x' := ZMod.val_injective _ h
  subst e
  have e1 : y.val % 2 = 0 := hP.2
  have e2 : y'.val % 2 = 0 := hQ.2
  have := parity_inj ok (onc hx) (onc hx') (by omega)
  subst this
  rfl

theorem absc_neg (P : Pt ec.toCurve) : absc (-P) = absc P := by
  rcases P with _ | ⟨x, y, h⟩ <;> rfl

theorem xBytes_neg (P : Pt ec.toCurve) : xBytes (-P) = xBytes P := by rw [xBytes, xBytes, absc_neg]

theorem even_neg (ok : EcOk ec G) {P : Pt ec.toCurve} (h0 : P ≠ 0) : EvenPt (-P) ↔ ¬ EvenPt P := by
  rcases P with _ | ⟨x, y, h⟩
  · exact absurd rfl h0
  have e1 : ordin (-(Point.some x y h) : Pt ec.toCurve) = (-y).val := by
    show ((affine (-(Point.some x y h) : Pt ec.toCurve)).y).val = _
    rw [← (wge_neg_exact _ true).1]; rfl
  have e2 : ordin (Point.some x y h : Pt ec.toCurve) = y.val := rfl
  have hn : (-(Point.some x y h) : Pt ec.toCurve) ≠ 0 := neg_ne_zero.2 h0
  rw [EvenPt, EvenPt, e1, e2, Ecc.odd_neg fe (p_odd ok) (ord_ne ok (onc h))]
  simp only [ne_eq, h0, hn, not_false_eq_true, true_and]
  have := Nat.mod_two_eq_zero_or_one y.val
  omega

theorem neg_smul_n (ok : EcOk ec G) {a : Nat} (ha : a ≤ ec.n) (P : Pt ec.toCurve) : (ec.n - a) • P = -(a • P) := by
  rw [← sub_eq_zero, sub_neg_eq_add, ← add_nsmul, Nat.sub_add_cancel ha, ord_all ok]

theorem num_neg_smul (ok : EcOk ec G) {a : Nat} (ha : a < ec.n) (P : Pt ec.toCurve) : num_neg ec.n a • P = -(a • P) := by
  rw [← neg_smul_n ok ha.le]
  exact smul_cast ok (by rw [num_neg, ZMod.natCast_mod]) P

theorem key_ne (ok : EcOk ec G) {a : Nat} (h0 : 0 < a) (ha : a < ec.n) : a • G ≠ 0 := by
  intro h
  rw [smul_zero_iff ok ok.nonzero, Nat.mod_eq_of_lt ha] at h
  omega

theorem even_key (ok : EcOk ec G) {a : Nat} (h0 : 0 < a) (ha : a < ec.n) :
    num_neg_cond ec.n a (!wge_is_even ec (affine (a • G))) = evenKey G ec.n a ∧ 0 < evenKey G ec.n a ∧ evenKey G ec.n a < ec.n ∧
    EvenPt (evenKey G ec.n a • G) ∧ absc (evenKey G ec.n a • G) = absc (a • G) := by
  have hne := key_ne ok h0 ha
  unfold evenKey num_neg_cond num_neg
  by_cases h : EvenPt (a • G)
  · rw [if_pos h, (is_even_iff _).2 h]
    exact ⟨rfl, h0, ha, h, rfl⟩
  · rw [if_neg h, Bool.eq_false_iff.2 (fun hc => h ((is_even_iff _).1 hc))]
    refine ⟨?_, by omega, by omega, ?_, ?_⟩
    · simp only [Bool.not_false, if_true]
      exact Nat.mod_eq_of_lt (by omega)
    · rw [neg_smul_n ok ha.le]; exact (even_neg ok hne).2 h
    · rw [neg_smul_n ok ha.le, absc_neg]

theorem import_even_ok (ok : EcOk ec G) {raw : List Byte} (h : feSize fe ≤ raw.length) :
    (∃ Q : Pt ec.toCurve, XOnly Q (raw.take (feSize fe)) ∧ wge_import_even ec raw = .ok (affine Q, true) ∧
      ∀ P : Pt ec.toCurve, XOnly P (raw.take (feSize fe)) → P = Q) ∨
    ∃ Q : Pt ec.toCurve, wge_import_even ec raw = .ok (affine Q, false) ∧ ∀ P : Pt ec.toCurve, ¬ XOnly P (raw.take (feSize fe)) := by
  obtain ⟨x, b, h1, h2, h3⟩ := fe_import_iff fe h
  obtain ⟨Q, c, g1, g2, g3, g4⟩ := set_x_ok ok x (some false)
  unfold wge_import_even
  rw [h1, C.ok_bind]
  dsimp only
  rw [g1, C.ok_bind]
  have back : ∀ P : Pt ec.toCurve, XOnly P (raw.take (feSize fe)) → b = true ∧ c = true := by
    rintro (_ | ⟨u, v, hp⟩) ⟨hP, hr⟩
    · exact absurd rfl hP.1
    · obtain ⟨e1, rfl⟩ := h3 u hr
      exact ⟨e1, g2.2 ⟨v, by rw [← onc hp, pow_two]⟩⟩
  cases b with
  | false => exact Or.inr ⟨Q, rfl, fun P hP => by have := (back P hP).1; cases this⟩
  | true =>
  cases c with
  | false => exact Or.inr ⟨Q, rfl, fun P hP => by have := (back P hP).2; cases this⟩
  | true =>
    obtain ⟨y, hy, rfl, hs⟩ := g3 rfl
    have he := hs false rfl
    have hE : EvenPt (Point.some x y hy : Pt ec.toCurve) := by
      refine ⟨Point.some_ne_zero hy, ?_⟩
      show y.val % 2 = 0
      have := Nat.mod_two_eq_zero_or_one y.val
      simp at he
      omega
    refine Or.inl ⟨_, ⟨hE, h2.1 rfl⟩, rfl, fun P hP => ?_⟩
    refine even_inj ok hP.1 hE (xBytes_inj ?_)
    rw [← hP.2]
    exact h2.1 rfl

/-- A field element read from the abscissa of a point. -/
theorem import_x_ok {sig : List Byte} (h : feSize fe ≤ sig.length) : ∃ x b, fe_import fe sig = .ok (x, b) ∧
    ∀ P : Pt ec.toCurve, P ≠ 0 → (b = true ∧ (affine P).x = x ↔ sig.take (feSize fe) = xBytes P) := by
  obtain ⟨x, b, h1, h2, h3⟩ := fe_import_iff fe h
  refine ⟨x, b, h1, ?_⟩
  rintro (_ | ⟨u, v, hp⟩) h0
  · exact absurd rfl h0
  · constructor
    · rintro ⟨rfl, rfl⟩
      exact h2.1 rfl
    · intro hc
      obtain ⟨e1, e2⟩ := h3 u hc
      exact ⟨e1, e2.symm⟩

/-! ### Signing and verifying -/

theorem bip340_sign_ok (ok : EcOk ec G) (hx : XofOk xof ec.n) (hz : feSize fe < 2 ^ 64) (junk : Nat → Byte) {msg priv : List Byte}
    {aux : Option (List Byte)} (ha : ∀ a, aux = some a → a.length = 32) (hm : msg.length < 2 ^ 64)
    (hl : priv.length = scSize ec.n) : ∃ out ret, bip340_sign junk xof ec msg priv aux = .ok (out, ret) ∧
      (ret = true ↔ (0 < beVal priv ∧ beVal priv < ec.n) ∧
        bip340Nonce xof ec.n (evenKey G ec.n (beVal priv)) (xBytes (beVal priv • G)) msg aux ≠ 0) ∧
      (ret = true → out = bip340Sig xof G ec.n (beVal priv)
        (bip340Nonce xof ec.n (evenKey G ec.n (beVal priv)) (xBytes (beVal priv • G)) msg aux) msg) := by
  have hn := ok.prime.pos
  obtain ⟨a, b, h1, h2, h3, h4, h5⟩ := key_ok ok hl.ge
  rw [List.take_of_length_le hl.le] at h3 h4 h5
  have hxl : ∀ P : Pt ec.toCurve, (xBytes P).length < 2 ^ 64 := fun P => by rw [xBytes_len]; exact hz
  unfold bip340_sign
  rw [h1, C.ok_bind]
  dsimp only
  rw [(wei_mul_g_exact ok.wei a).2, C.ok_bind, export_x_out]
  dsimp only
  rw [nonce_ok hx hn junk _ ha (hxl _) hm, C.ok_bind, (wei_mul_g_exact ok.wei _).2, C.ok_bind, export_x_out]
  dsimp only
  rw [challenge_ok hx hn junk (xBytes_len _).ge (xBytes_len _).ge hz hm, C.ok_bind]
  rw [List.take_of_length_le (xBytes_len _).le, List.take_of_length_le (xBytes_len _).le]
  refine ⟨_, _, rfl, ?_⟩
  cases b with
  | false =>
    simp only [Bool.false_and, Bool.false_eq_true, false_iff, IsEmpty.forall_iff, and_true]
    rintro ⟨hc, -⟩
    exact absurd (h3.2 hc) (by simp)
  | true =>
    obtain ⟨p1, p2⟩ := h3.1 rfl
    obtain rfl := h4 p2
    obtain ⟨k1, k2, k3, k4, k5⟩ := even_key ok p1 p2
    rw [k1]
    have hlt : bip340Nonce xof ec.n (evenKey G ec.n (beVal priv)) (xBytes (beVal priv • G)) msg aux < ec.n := digestScalar_lt hn _
    generalize bip340Nonce xof ec.n (evenKey G ec.n (beVal priv)) (xBytes (beVal priv • G)) msg aux = k at *
    have hne := key_ne ok p1 p2
    simp only [Bool.true_and, Bool.and_eq_true, decide_eq_true_iff, bne_iff_ne]
    refine ⟨⟨fun h => ⟨⟨p1, p2⟩, h.1.2⟩, fun h => ⟨⟨hne, h.2⟩, key_ne ok (by omega) hlt⟩⟩, fun h => ?_⟩
    obtain ⟨r1, -⟩ := even_key ok (show 0 < k by omega) hlt
    rw [r1, bip340Sig, schnorrSig]
    congr 1
    rw [num_export, show scSize ec.n = (ec.n.size + 7) / 8 from rfl]
    congr 1
    rw [Nat.mod_add_mod, Nat.add_comm]

theorem sum_iff {A B C : Pt ec.toCurve} : A = B + C ↔ A + -C = B := by
  rw [← sub_eq_add_neg, sub_eq_iff_eq_add]

theorem sig_num {s : Nat} (hs : s < ec.n) {t : List Byte} (ht : t.length = scSize ec.n) :
    t = bigBytes ((ec.n.size + 7) / 8) s ↔ beVal t = s := by
  rw [show (ec.n.size + 7) / 8 = scSize ec.n from rfl]
  constructor
  · rintro rfl
    rw [Drb.beVal_bigBytes, Nat.mod_eq_of_lt (hs.trans (scSize_pow _))]
  · rintro rfl
    exact (Drb.bigBytes_beVal ht).symm

theorem sig_split {R : Pt ec.toCurve} {s : Nat} {sig : List Byte} (hl : sig.length = feSize fe + scSize ec.n) (hs : s < ec.n) :
    sig = schnorrSig ec.n R s ↔ sig.take (feSize fe) = xBytes R ∧ beVal (sig.drop (feSize fe)) = s := by
  rw [← sig_num hs (by rw [List.length_drop]; omega), schnorrSig]
  constructor
  · rintro rfl
    exact ⟨List.take_left' (xBytes_len R), List.drop_left' (xBytes_len R)⟩
  · rintro ⟨h1, h2⟩
    rw [← h1, ← h2, List.take_append_drop]

theorem bip340_verify_ok (ok : EcOk ec G) (hx : XofOk xof ec.n) (hz : feSize fe < 2 ^ 64) (junk : Nat → Byte)
    {msg sig pub : List Byte} (hm : msg.length < 2 ^ 64) (hl : sig.length = feSize fe + scSize ec.n) (hp : pub.length = feSize fe) :
    ∃ ret, bip340_verify junk xof ec msg sig pub = .ok ret ∧ (ret = true ↔ Bip340Valid xof G ec.n msg sig pub) := by
  have hn := ok.prime.pos
  obtain ⟨r, b1, e1, i1⟩ := import_x_ok (ec := ec) (sig := sig) (by omega)
  have hdl : (sig.drop (feSize fe)).length = scSize ec.n := by rw [List.length_drop]; omega
  obtain ⟨s, b2, e2, l2, i2, j2, -⟩ := num_import_lt (xp := sig.drop (feSize fe)) hn hdl.ge
  rw [List.take_of_length_le hdl.le] at i2 j2
  have hpt : pub.take (feSize fe) = pub := List.take_of_length_le hp.le
  unfold bip340_verify
  rw [e1, C.ok_bind]
  dsimp only
  cases b1 with
  | false =>
    refine ⟨false, rfl, ?_⟩
    simp only [Bool.false_eq_true, false_iff]
    rintro ⟨A, R, s', -, hR, hs, he, -⟩
    have := (i1 R hR.1).2 ((sig_split hl hs).1 he).1
    exact absurd this.1 (by simp)
  | true =>
  simp only [Bool.not_true, Bool.false_eq_true, if_false]
  rw [e2, C.ok_bind]
  dsimp only
  cases b2 with
  | false =>
    refine ⟨false, rfl, ?_⟩
    simp only [Bool.false_eq_true, false_iff]
    rintro ⟨A, R, s', -, hR, hs, he, -⟩
    have := ((sig_split hl hs).1 he).2
    exact absurd (i2.2 (this ▸ hs)) (by simp)
  | true =>
  simp only [Bool.not_true, Bool.false_eq_true, if_false]
  obtain rfl := j2 rfl
  rcases import_even_ok ok hp.ge with ⟨A, q1, q2, q3⟩ | ⟨A, q1, q2⟩
  swap
  · rw [q1, C.ok_bind]
    refine ⟨false, rfl, ?_⟩
    simp only [Bool.false_eq_true, false_iff]
    rintro ⟨A', R, s', hA, -⟩
    exact q2 A' (hpt.symm ▸ hA)
  rw [hpt] at q1 q3
  rw [q2, C.ok_bind]
  simp only [Bool.not_true, Bool.false_eq_true, if_false]
  rw [challenge_ok hx hn junk (by omega) hp.ge hz hm, C.ok_bind, hpt]
  have he : bip340E xof ec.n (sig.take (feSize fe)) pub msg < ec.n := digestScalar_lt hn _
  have hne : num_neg ec.n (bip340E xof ec.n (sig.take (feSize fe)) pub msg) < ec.n := Nat.mod_lt _ hn
  rw [(wei_mul_double_exact ok.wei A (Or.inr (ok.all A)) l2 hne).2, C.ok_bind, num_neg_smul ok he]
  generalize hR : beVal (sig.drop (feSize fe)) • G + -(bip340E xof ec.n (sig.take (feSize fe)) pub msg • A) = R
  have hval : Bip340Valid xof G ec.n msg sig pub ↔ EvenPt R ∧ (affine R).x = r := by
    constructor
    · rintro ⟨A', R', s', hA, hR', hs, hsig, heq⟩
      obtain rfl := q3 A' hA
      obtain ⟨u1, u2⟩ := (sig_split hl hs).1 hsig
      rw [← u2, ← u1, sum_iff, hR] at heq
      subst heq
      exact ⟨hR', ((i1 R hR'.1).2 u1).2⟩
    · rintro ⟨hE, hr⟩
      have hr' := (i1 R hE.1).1 ⟨rfl, hr⟩
      refine ⟨A, R, _, q1, hE, l2, (sig_split hl l2).2 ⟨hr', rfl⟩, ?_⟩
      rw [← hr', sum_iff, hR]
  rw [hval]
  cases hev : wge_is_even ec (affine R) with
  | false =>
    refine ⟨false, rfl, ?_⟩
    simp only [Bool.false_eq_true, false_iff]
    rintro ⟨hc, -⟩
    rw [(is_even_iff R).2 hc] at hev
    cases hev
  | true =>
  have hE := (is_even_iff R).1 hev
  have hx : wge_equal_x (affine R) r = decide ((affine R).x = r) := by
    rcases R with _ | ⟨x, y, h⟩
    · exact absurd rfl hE.1
    · rw [aff_some, wge_equal_x, fe_equal]; simp
  rw [hx]
  by_cases hc : (affine R).x = r
  · rw [decide_eq_true hc]
    exact ⟨true, rfl, by simp [hE, hc]⟩
  · rw [decide_eq_false hc]
    exact ⟨false, rfl, by simp [hc]⟩

theorem bip340_signed_valid (ok : EcOk ec G) {d k : Nat} (hd : 0 < d ∧ d < ec.n) (hk : 0 < k ∧ k < ec.n) (msg : List Byte) :
    Bip340Valid xof G ec.n msg (bip340Sig xof G ec.n d k msg) (xBytes (d • G)) := by
  obtain ⟨-, d1, d2, d3, d4⟩ := even_key ok hd.1 hd.2
  obtain ⟨-, k1, k2, k3, k4⟩ := even_key ok hk.1 hk.2
  have ex : xBytes (evenKey G ec.n k • G) = xBytes (k • G) := by rw [xBytes, xBytes, k4]
  refine ⟨evenKey G ec.n d • G, evenKey G ec.n k • G,
    (evenKey G ec.n k + bip340E xof ec.n (xBytes (k • G)) (xBytes (d • G)) msg * evenKey G ec.n d) % ec.n, ⟨d3, by rw [xBytes, xBytes, d4]⟩, k3, Nat.mod_lt _ ok.prime.pos, ?_, ?_⟩
  · exact congrArg₂ (· ++ ·) ex.symm rfl
  · rw [ex, ← mul_nsmul', ← add_nsmul]
    exact smul_cast ok (by rw [ZMod.natCast_mod]) G

end

end Torsion.Ecc
