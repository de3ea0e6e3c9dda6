import Verif.Ecc.SchnorrLemmas
import Verif.Ecc.EncodeProps

/-!
# The keys of BIP 340 (C70)

`XOnly P pub`: `pub` is the abscissa of `P`, whose ordinate is even. `evenKey G n d` is `d` or `n - d`, whichever belongs to such a
point.
-/
namespace Torsion

open Spec Ecc
open WeierstrassCurve.Affine (Point)

section
variable {fe : FieldCode} [Fact fe.p.Prime] {ec : WeiT fe} {G : Pt ec.toCurve}

/-- C70. A string is the key of at most one point, and what is read is that point. -/
theorem xonly_import_exact (ok : EcOk ec G) {pub : List Byte} (hl : pub.length = feSize fe) :
    (∃ Q : Pt ec.toCurve, XOnly Q pub ∧ wge_import_even ec pub = .ok (affine Q, true) ∧ ∀ P : Pt ec.toCurve, XOnly P pub → P = Q) ∨
    ∃ Q : Pt ec.toCurve, wge_import_even ec pub = .ok (affine Q, false) ∧ ∀ P : Pt ec.toCurve, ¬ XOnly P pub := by
  have := import_even_ok ok hl.ge
  rwa [List.take_of_length_le hl.le] at this

/-- C70. A string is a key exactly if it is a reduced abscissa of a point of the curve; every finite point has a key, which it
shares with its negative only. -/
theorem xonly_iff (ok : EcOk ec G) {pub : List Byte} (hl : pub.length = feSize fe) :
    ((∃ Q : Pt ec.toCurve, XOnly Q pub) ↔ ∃ P : Pt ec.toCurve, P ≠ 0 ∧ beVal pub = absc P) ∧
    (∀ P : Pt ec.toCurve, P ≠ 0 → XOnly P (xBytes P) ∨ XOnly (-P) (xBytes P)) := by
  have half : ∀ P : Pt ec.toCurve, P ≠ 0 → XOnly P (xBytes P) ∨ XOnly (-P) (xBytes P) := by
    intro P hP
    by_cases h : EvenPt P
    · exact Or.inl ⟨h, rfl⟩
    · exact Or.inr ⟨(even_neg ok hP).2 h, (xBytes_neg P).symm⟩
  refine ⟨⟨?_, ?_⟩, half⟩
  · rintro ⟨Q, h1, h2⟩
    refine ⟨Q, h1.1, ?_⟩
    rw [h2, xBytes, show (fe.p.size + 7) / 8 = feSize fe from rfl, absc, big_val]
  · rintro ⟨P, h1, h2⟩
    have e : pub = xBytes P := by
      rw [xBytes, ← h2, show (fe.p.size + 7) / 8 = feSize fe from rfl, Drb.bigBytes_beVal hl]
    rw [e]
    rcases half P h1 with h | h
    · exact ⟨_, h⟩
    · exact ⟨_, h⟩

/-- The point of a private key. -/
theorem even_smul (ok : EcOk ec G) {a : Nat} (h0 : 0 < a) (ha : a < ec.n) :
    XOnly (evenKey G ec.n a • G) (xBytes (a • G)) ∧ (evenKey G ec.n a • G = a • G ∨ evenKey G ec.n a • G = -(a • G)) := by
  obtain ⟨-, -, -, h3, h4⟩ := even_key ok h0 ha
  refine ⟨⟨h3, by rw [xBytes, xBytes, h4]⟩, ?_⟩
  unfold evenKey
  split
  · exact Or.inl rfl
  · exact Or.inr (neg_smul_n ok ha.le G)

/-- C70. The public key: exactly for the valid private keys, and it is the key of the even one of `d G` and `-d G`. -/
theorem bip340_pubkey_create_exact (ok : EcOk ec G) {priv : List Byte} (hl : priv.length = scSize ec.n) :
    ∃ out ret, bip340_pubkey_create ec priv = .ok (out, ret) ∧ (ret = true ↔ 0 < beVal priv ∧ beVal priv < ec.n) ∧
      (ret = true → out = xBytes (beVal priv • G) ∧ XOnly (evenKey G ec.n (beVal priv) • G) out) := by
  obtain ⟨a, b, h1, h2, h3, h4, h5⟩ := key_ok ok hl.ge
  rw [List.take_of_length_le hl.le] at h3 h4 h5
  refine ⟨xBytes (a • G), b && decide (a • G ≠ 0), ?_, ?_, ?_⟩
  · rw [bip340_pubkey_create, h1, C.ok_bind, (wei_mul_g_exact ok.wei _).2, C.ok_bind, export_x_out]; rfl
  · rw [Bool.and_eq_true, h3, decide_eq_true_iff]
    refine ⟨fun h => h.1, fun h => ⟨h, ?_⟩⟩
    rw [h4 h.2]; exact key_ne ok h.1 h.2
  · intro h
    rw [Bool.and_eq_true, h3, decide_eq_true_iff] at h
    rw [h4 h.1.2]
    exact ⟨rfl, (even_smul ok h.1.1 h.1.2).1⟩

/-- C70. The exported private key and coordinates are those of the even point. -/
theorem bip340_privkey_export_exact (ok : EcOk ec G) {priv : List Byte} (hl : priv.length = scSize ec.n) :
    ∃ d x y ret, bip340_privkey_export ec priv = .ok (d, x, y, ret) ∧ (ret = true ↔ 0 < beVal priv ∧ beVal priv < ec.n) ∧
      (ret = true → d = bigBytes (scSize ec.n) (evenKey G ec.n (beVal priv)) ∧
        x = bigBytes (feSize fe) (absc (evenKey G ec.n (beVal priv) • G)) ∧
        y = bigBytes (feSize fe) (ordin (evenKey G ec.n (beVal priv) • G))) := by
  obtain ⟨a, b, h1, h2, h3, h4, h5⟩ := key_ok ok hl.ge
  rw [List.take_of_length_le hl.le] at h3 h4 h5
  unfold bip340_privkey_export
  rw [h1, C.ok_bind, (wei_mul_g_exact ok.wei _).2, C.ok_bind]
  refine ⟨_, _, _, _, rfl, ?_, ?_⟩
  · dsimp only
    rw [Bool.and_eq_true, h3]
    refine ⟨fun h => h.1, fun h => ⟨h, ?_⟩⟩
    have hne := key_ne ok h.1 h.2
    rw [← h4 h.2] at hne
    generalize a • G = P at *
    rcases P with _ | ⟨x, y, hp⟩
    · exact absurd rfl hne
    · rw [aff_some]; rfl
  · dsimp only
    intro h
    rw [Bool.and_eq_true, h3] at h
    obtain ⟨⟨p1, p2⟩, -⟩ := h
    obtain rfl := h4 p2
    obtain ⟨k1, -⟩ := even_key ok p1 p2
    rw [k1, (wge_neg_exact _ _).2]
    have : (if (!wge_is_even ec (affine (beVal priv • G))) = true then -(beVal priv • G) else beVal priv • G) =
        evenKey G ec.n (beVal priv) • G := by
      unfold evenKey
      by_cases he : EvenPt (beVal priv • G)
      · rw [if_pos he, (is_even_iff _).2 he]; rfl
      · rw [if_neg he, neg_smul_n ok p2.le, Bool.eq_false_iff.2 (fun hc => he ((is_even_iff _).1 hc))]; rfl
    rw [this]
    exact ⟨rfl, rfl, rfl⟩

/-- C70. Tweaking a private key starts from the key of the even point. -/
theorem bip340_privkey_tweak_add_exact (ok : EcOk ec G) {priv tweak : List Byte} (hl : priv.length = scSize ec.n)
    (ht : tweak.length = scSize ec.n) :
    ∃ out ret, bip340_privkey_tweak_add ec priv tweak = .ok (out, ret) ∧
      (ret = true ↔ 0 < beVal priv ∧ beVal priv < ec.n ∧ beVal tweak < ec.n ∧
        (evenKey G ec.n (beVal priv) + beVal tweak) % ec.n ≠ 0) ∧
      (ret = true → out = bigBytes (scSize ec.n) ((evenKey G ec.n (beVal priv) + beVal tweak) % ec.n)) := by
  obtain ⟨a, b, h1, h2, h3, h4, h5⟩ := key_ok ok hl.ge
  rw [List.take_of_length_le hl.le] at h3 h4 h5
  obtain ⟨t, c, t1, t2, t3, t4, -⟩ := num_import_lt ok.prime.pos ht.ge
  rw [List.take_of_length_le ht.le] at t3 t4
  unfold bip340_privkey_tweak_add
  rw [h1, C.ok_bind, t1, C.ok_bind, (wei_mul_g_exact ok.wei _).2, C.ok_bind]
  refine ⟨_, _, rfl, ?_, ?_⟩
  · dsimp only
    rw [Bool.and_eq_true, Bool.and_eq_true, h3, t3, bne_iff_ne]
    constructor
    · rintro ⟨⟨⟨p1, p2⟩, p3⟩, p4⟩
      rw [h4 p2, t4 (t3.2 p3), (even_key ok p1 p2).1] at p4
      exact ⟨p1, p2, p3, p4⟩
    · rintro ⟨p1, p2, p3, p4⟩
      rw [h4 p2, t4 (t3.2 p3), (even_key ok p1 p2).1]
      exact ⟨⟨⟨p1, p2⟩, p3⟩, p4⟩
  · dsimp only
    intro h
    rw [Bool.and_eq_true, Bool.and_eq_true, h3, t3] at h
    obtain ⟨⟨⟨p1, p2⟩, p3⟩, -⟩ := h
    rw [h4 p2, t4 (t3.2 p3), (even_key ok p1 p2).1]
    rfl

/-- C70. Checking a public key and exporting its coordinates. -/
theorem bip340_pubkey_export_exact (ok : EcOk ec G) {pub : List Byte} (hl : pub.length = feSize fe) :
    (∃ ret, bip340_pubkey_verify ec pub = .ok ret ∧ (ret = true ↔ ∃ Q : Pt ec.toCurve, XOnly Q pub)) ∧
    ∃ x y ret, bip340_pubkey_export ec pub = .ok (x, y, ret) ∧ (ret = true ↔ ∃ Q : Pt ec.toCurve, XOnly Q pub) ∧
      ∀ Q : Pt ec.toCurve, XOnly Q pub → x = pub ∧ x = bigBytes (feSize fe) (absc Q) ∧ y = bigBytes (feSize fe) (ordin Q) := by
  unfold bip340_pubkey_verify bip340_pubkey_export
  rcases xonly_import_exact ok hl with ⟨Q, q1, q2, q3⟩ | ⟨Q, q1, q2⟩
  · rw [q2, C.ok_bind, C.ok_bind]
    refine ⟨⟨_, rfl, by simp; exact ⟨Q, q1⟩⟩, _, _, _, rfl, by simp; exact ⟨Q, q1⟩, ?_⟩
    intro P hP; rw [q3 P hP]; exact ⟨q1.2.symm, rfl, rfl⟩
  · rw [q1, C.ok_bind, C.ok_bind]
    refine ⟨⟨_, rfl, ?_⟩, _, _, _, rfl, ?_, fun P hP => absurd hP (q2 P)⟩
    all_goals simp only [Bool.false_eq_true, false_iff]; rintro ⟨P, hP⟩; exact q2 P hP

/-- C70. Importing coordinates: the abscissa must belong to a point, and the ordinate, if it is given, to the same one (its sign
is forgotten). -/
theorem bip340_pubkey_import_exact (ok : EcOk ec G) (x y : List Byte) :
    ∃ out ret, bip340_pubkey_import ec x y = .ok (out, ret) ∧
      (ret = true ↔ x ≠ [] ∧ ∃ P : Pt ec.toCurve, P ≠ 0 ∧ absc P = beVal x ∧ (y ≠ [] → ordin P = beVal y)) ∧
      (ret = true → out = bigBytes (feSize fe) (beVal x) ∧ ∃ Q : Pt ec.toCurve, XOnly Q out) := by
  obtain ⟨o, r, e1, e2, e3⟩ := ecdsa_pubkey_import_exact ok x y none true
  have key : ∃ P : Pt ec.toCurve, ∃ b, (∀ compact, ecdsa_pubkey_import ec x y none compact = .ok (sec1Out P compact, b && decide (P ≠ 0))) ∧
      bip340_pubkey_import ec x y = .ok (xBytes P, b && decide (P ≠ 0)) := by
    unfold ecdsa_pubkey_import bip340_pubkey_import
    obtain ⟨X, b1, x1, -⟩ := import_pad_ok (fe := fe) x
    obtain ⟨Y, b2, y1, -⟩ := import_pad_ok (fe := fe) y
    rw [x1, C.ok_bind, y1, C.ok_bind]
    dsimp only
    split
    · obtain ⟨Q, b, s1, -⟩ := set_xy_ok ok X Y
      rw [s1, C.pure_eq, C.ok_bind]
      dsimp only
      rw [export_x_out]
      refine ⟨Q, decide (x.length > 0) && b1 && b2 && b, fun compact => ?_, rfl⟩
      simp only [C.ok_bind, C.pure_eq]
      rw [s1]
      dsimp only
      rw [export_out]
    · obtain ⟨Q, b, s1, -⟩ := set_x_ok ok X none
      rw [s1, C.ok_bind]
      dsimp only
      rw [export_x_out]
      refine ⟨Q, decide (x.length > 0) && b1 && b2 && b, fun compact => ?_, rfl⟩
      simp only [C.ok_bind, C.pure_eq]
      rw [s1, C.ok_bind]
      dsimp only
      rw [export_out]
  obtain ⟨P, b, k1, k2⟩ := key
  rw [k1] at e1
  injection e1 with e1
  injection e1 with f1 f2
  refine ⟨_, _, k2, ?_, ?_⟩
  · rw [f2, e2]
    refine and_congr_right fun _ => exists_congr fun Q => and_congr_right fun _ => and_congr_right fun _ => ?_
    by_cases hy : y = [] <;> simp [hy]
  · intro h
    have h0 : P ≠ 0 := by rw [Bool.and_eq_true, decide_eq_true_iff] at h; exact h.2
    rw [f2] at h
    obtain ⟨Q, g1, g2, g3, -⟩ := e3 h
    have hPQ : P = Q := by
      have s1 := out_sec1 h0 true
      have s2 := out_sec1 g2 true
      rw [f1] at s1
      rw [← g1] at s2
      exact sec1_unique ok s1 s2
    subst hPQ
    refine ⟨by rw [xBytes, g3]; rfl, ?_⟩
    rcases (xonly_iff ok (xBytes_len P)).2 P h0 with h | h
    · exact ⟨_, h⟩
    · exact ⟨_, h⟩

/-- C70. Tweaking a public key: the abscissa of the sum or the multiple; `negated` tells that its ordinate is odd. -/
theorem bip340_pubkey_tweak_exact (ok : EcOk ec G) {pub tweak : List Byte} (hl : pub.length = feSize fe) (ht : tweak.length = scSize ec.n) :
    (∃ out neg ret, bip340_pubkey_tweak_add ec pub tweak = .ok (out, neg, ret) ∧
      (ret = true ↔ ∃ Q : Pt ec.toCurve, XOnly Q pub ∧ beVal tweak < ec.n ∧ Q + beVal tweak • G ≠ 0) ∧
      ∀ Q : Pt ec.toCurve, XOnly Q pub → beVal tweak < ec.n →
        out = xBytes (Q + beVal tweak • G) ∧ (neg = true ↔ ¬ EvenPt (Q + beVal tweak • G))) ∧
    (∃ out neg ret, bip340_pubkey_tweak_mul ec pub tweak = .ok (out, neg, ret) ∧
      (ret = true ↔ ∃ Q : Pt ec.toCurve, XOnly Q pub ∧ beVal tweak < ec.n ∧ beVal tweak • Q ≠ 0) ∧
      ∀ Q : Pt ec.toCurve, XOnly Q pub → beVal tweak < ec.n →
        out = xBytes (beVal tweak • Q) ∧ (neg = true ↔ ¬ EvenPt (beVal tweak • Q))) := by
  obtain ⟨t, c, t1, t2, t3, t4, -⟩ := num_import_lt ok.prime.pos ht.ge
  rw [List.take_of_length_le ht.le] at t3 t4
  obtain ⟨j, j1, j2⟩ := (wei_mul_g_exact ok.wei t).1
  have hneg : ∀ P : Pt ec.toCurve, (!wge_is_even ec (affine P)) = true ↔ ¬ EvenPt P := by
    intro P
    rw [Bool.not_eq_true', ← is_even_iff, Bool.eq_false_iff]
  unfold bip340_pubkey_tweak_add bip340_pubkey_tweak_mul
  rcases xonly_import_exact ok hl with ⟨Q, q1, q2, q3⟩ | ⟨Q, q1, q2⟩
  · rw [q2, t1]
    simp only [C.ok_bind]
    rw [j1, (wei_mul_exact ok.wei Q (Or.inr (ok.all Q)) t2).2, C.ok_bind, C.ok_bind]
    rw [((jge_convert_exact _).2.2 _ (jge_mixed_add_exact ok.wei.good Q j2).2).1, export_x_out, export_x_out, add_comm (t • G)]
    have hex : ∀ p : Pt ec.toCurve → Prop, (∃ Q', XOnly Q' pub ∧ beVal tweak < ec.n ∧ p Q') ↔ c = true ∧ p Q := by
      intro p
      rw [t3]
      exact ⟨fun ⟨Q', a1, a2, a3⟩ => ⟨a2, by rw [← q3 Q' a1]; exact a3⟩, fun ⟨a1, a2⟩ => ⟨Q, q1, a1, a2⟩⟩
    refine ⟨⟨_, _, _, rfl, ?_, ?_⟩, ⟨_, _, _, rfl, ?_, ?_⟩⟩
    · rw [hex]
      simp only [Bool.true_and, Bool.and_eq_true, decide_eq_true_iff]
      exact and_congr_right fun h => by rw [t4 h]
    · intro P hP h
      rw [q3 P hP, ← t4 (t3.2 h)]
      exact ⟨rfl, hneg _⟩
    · rw [hex]
      simp only [Bool.true_and, Bool.and_eq_true, decide_eq_true_iff]
      exact and_congr_right fun h => by rw [t4 h]
    · intro P hP h
      rw [q3 P hP, ← t4 (t3.2 h)]
      exact ⟨rfl, hneg _⟩
  · rw [q1, t1]
    simp only [C.ok_bind]
    rw [j1, (wei_mul_exact ok.wei Q (Or.inr (ok.all Q)) t2).2, C.ok_bind, C.ok_bind]
    refine ⟨⟨_, _, _, rfl, ?_, fun P hP => absurd hP (q2 P)⟩, ⟨_, _, _, rfl, ?_, fun P hP => absurd hP (q2 P)⟩⟩
    all_goals simp only [Bool.false_and, Bool.false_eq_true, false_iff]; rintro ⟨P, hP, -⟩; exact q2 P hP

/-- C70. The checks accept exactly the result and the sign which the tweak gives: `±expect` is the tweaked point. -/
theorem bip340_tweak_check_exact (ok : EcOk ec G) {pub tweak expect : List Byte} (hl : pub.length = feSize fe)
    (ht : tweak.length = scSize ec.n) (he : expect.length = feSize fe) (negated : Bool) :
    (∃ ret, bip340_pubkey_tweak_add_check ec pub tweak expect negated = .ok ret ∧
      (ret = true ↔ ∃ Q P : Pt ec.toCurve, XOnly Q pub ∧ XOnly P expect ∧ beVal tweak < ec.n ∧
        Q + beVal tweak • G = if negated then -P else P)) ∧
    (∃ ret, bip340_pubkey_tweak_mul_check ec pub tweak expect negated = .ok ret ∧
      (ret = true ↔ ∃ Q P : Pt ec.toCurve, XOnly Q pub ∧ XOnly P expect ∧ beVal tweak < ec.n ∧
        beVal tweak • Q = if negated then -P else P)) := by
  have gen : ∀ (f : Pt ec.toCurve → Pt ec.toCurve) (out : List Byte) (neg ret : Bool),
      (ret = true ↔ ∃ Q : Pt ec.toCurve, XOnly Q pub ∧ beVal tweak < ec.n ∧ f Q ≠ 0) →
      (∀ Q : Pt ec.toCurve, XOnly Q pub → beVal tweak < ec.n → out = xBytes (f Q) ∧ (neg = true ↔ ¬ EvenPt (f Q))) →
      ((ret && out == expect && neg == negated) = true ↔ ∃ Q P : Pt ec.toCurve, XOnly Q pub ∧ XOnly P expect ∧ beVal tweak < ec.n ∧
        f Q = if negated then -P else P) := by
    intro f out neg ret hr ho
    simp only [Bool.and_eq_true, beq_iff_eq]
    rw [hr]
    constructor
    · rintro ⟨⟨⟨Q, q1, q2, q3⟩, rfl⟩, rfl⟩
      obtain ⟨o1, o2⟩ := ho Q q1 q2
      cases neg with
      | false =>
        have h : EvenPt (f Q) := by by_contra hc; exact absurd (o2.2 hc) (by simp)
        exact ⟨Q, f Q, q1, ⟨h, o1⟩, q2, rfl⟩
      | true =>
        refine ⟨Q, -f Q, q1, ⟨(even_neg ok q3).2 (o2.1 rfl), by rw [xBytes_neg]; exact o1⟩, q2, ?_⟩
        rw [if_pos rfl, neg_neg]
    · rintro ⟨Q, P, q1, ⟨p1, p2⟩, q2, hf⟩
      obtain ⟨o1, o2⟩ := ho Q q1 q2
      cases negated with
      | false =>
        rw [if_neg (by simp)] at hf
        rw [hf] at o1 o2
        refine ⟨⟨⟨Q, q1, q2, by rw [hf]; exact p1.1⟩, by rw [o1, p2]⟩, ?_⟩
        rw [Bool.eq_false_iff]
        exact fun h => o2.1 h p1
      | true =>
        rw [if_pos rfl] at hf
        rw [hf] at o1 o2
        refine ⟨⟨⟨Q, q1, q2, by rw [hf]; exact neg_ne_zero.2 p1.1⟩, by rw [o1, xBytes_neg, p2]⟩, o2.2 ?_⟩
        rw [even_neg ok p1.1]
        exact fun h => h p1
  obtain ⟨⟨o1, n1, r1, e1, e2, e3⟩, ⟨o2, n2, r2, f1, f2, f3⟩⟩ := bip340_pubkey_tweak_exact ok hl ht
  unfold bip340_pubkey_tweak_add_check bip340_pubkey_tweak_mul_check
  rw [e1, C.ok_bind, f1, C.ok_bind, slice_take he.ge, C.ok_bind, C.ok_bind, List.take_of_length_le he.le]
  exact ⟨⟨_, rfl, gen _ _ _ _ e2 e3⟩, ⟨_, rfl, gen _ _ _ _ f2 f3⟩⟩

/-- C70. Sums of public keys, of the even points. -/
theorem bip340_pubkey_sum_exact (ok : EcOk ec G) {pub1 pub2 : List Byte} {pubs : List (List Byte)} (h1 : pub1.length = feSize fe)
    (h2 : pub2.length = feSize fe) (h3 : ∀ p ∈ pubs, p.length = feSize fe) :
    (∃ out ret, bip340_pubkey_add ec pub1 pub2 = .ok (out, ret) ∧
      (ret = true ↔ ∃ P Q : Pt ec.toCurve, XOnly P pub1 ∧ XOnly Q pub2 ∧ P + Q ≠ 0) ∧
      ∀ P Q : Pt ec.toCurve, XOnly P pub1 → XOnly Q pub2 → out = xBytes (P + Q)) ∧
    (∃ out ret, bip340_pubkey_combine ec pubs = .ok (out, ret) ∧
      (ret = true ↔ ∃ Qs : List (Pt ec.toCurve), List.Forall₂ XOnly Qs pubs ∧ Qs.sum ≠ 0) ∧
      ∀ Qs : List (Pt ec.toCurve), List.Forall₂ XOnly Qs pubs → out = xBytes Qs.sum) := by
  refine ⟨?_, ?_⟩
  · unfold bip340_pubkey_add
    rcases xonly_import_exact ok h1 with ⟨P, p1, p2, p3⟩ | ⟨P, p1, p2⟩ <;>
      rcases xonly_import_exact ok h2 with ⟨Q, q1, q2, q3⟩ | ⟨Q, q1, q2⟩
    · rw [p2, C.ok_bind, q2, C.ok_bind]
      dsimp only
      rw [(wge_add_exact ok.wei.good P Q).2, export_x_out]
      refine ⟨_, _, rfl, ?_, ?_⟩
      · simp only [Bool.true_and, decide_eq_true_iff]
        exact ⟨fun h => ⟨P, Q, p1, q1, h⟩, fun ⟨P', Q', a1, a2, a3⟩ => by rw [← p3 P' a1, ← q3 Q' a2]; exact a3⟩
      · intro P' Q' a1 a2
        rw [p3 P' a1, q3 Q' a2]
    · rw [p2, C.ok_bind, q1, C.ok_bind]
      refine ⟨_, _, rfl, ?_, fun _ Q _ h => absurd h (q2 Q)⟩
      simp only [Bool.true_and, Bool.false_and, Bool.false_eq_true, false_iff]
      rintro ⟨_, Q', -, a2, -⟩; exact q2 Q' a2
    · rw [p1, C.ok_bind, q2, C.ok_bind]
      refine ⟨_, _, rfl, ?_, fun P _ h => absurd h (p2 P)⟩
      simp only [Bool.false_and, Bool.false_eq_true, false_iff]
      rintro ⟨P', _, a1, -⟩; exact p2 P' a1
    · rw [p1, C.ok_bind, q1, C.ok_bind]
      refine ⟨_, _, rfl, ?_, fun P _ h => absurd h (p2 P)⟩
      simp only [Bool.false_and, Bool.false_eq_true, false_iff]
      rintro ⟨P', _, a1, -⟩; exact p2 P' a1
  · have loop : ∀ (pubs : List (List Byte)), (∀ p ∈ pubs, p.length = feSize fe) →
        ∀ (j : Jge (ZMod fe.p)) (P : Pt ec.toCurve) (ret : Bool), Jac j P →
        ∃ j' P' b, bip340_combine_loop ec pubs j ret = .ok (j', b) ∧ Jac j' P' ∧
          (b = true ↔ ret = true ∧ ∃ Qs : List (Pt ec.toCurve), List.Forall₂ XOnly Qs pubs) ∧
          ∀ Qs : List (Pt ec.toCurve), List.Forall₂ XOnly Qs pubs → P' = P + Qs.sum := by
      intro pubs
      induction pubs with
      | nil =>
        intro _ j P ret h
        refine ⟨j, P, ret, rfl, h, ⟨fun h => ⟨h, [], .nil⟩, fun h => h.1⟩, ?_⟩
        rintro Qs (_ | _)
        simp
      | cons pub pubs ih =>
        intro hl j P ret h
        have ih := ih fun p hp => hl p (List.mem_cons_of_mem _ hp)
        rw [bip340_combine_loop]
        rcases xonly_import_exact ok (hl pub List.mem_cons_self) with ⟨Q, q1, q2, q3⟩ | ⟨Q, q1, q2⟩
        · rw [q2, C.ok_bind]
          obtain ⟨j', P', b, h1, h2, h3, h4⟩ := ih _ (P + Q) (ret && true) (jge_mixed_add_exact ok.wei.good Q h).2
          refine ⟨j', P', b, h1, h2, ?_, ?_⟩
          · rw [h3, Bool.and_true]
            constructor
            · rintro ⟨a1, Qs, a2⟩
              exact ⟨a1, Q :: Qs, .cons q1 a2⟩
            · rintro ⟨a1, Qs, a2⟩
              cases a2 with
              | cons a3 a4 => exact ⟨a1, _, a4⟩
          · intro Qs hQs
            cases hQs with
            | cons a3 a4 => rw [h4 _ a4, q3 _ a3, List.sum_cons, add_assoc]
        · rw [q1, C.ok_bind]
          obtain ⟨j', P', b, h1, h2, h3, h4⟩ := ih _ (P + Q) (ret && false) (jge_mixed_add_exact ok.wei.good Q h).2
          refine ⟨j', P', b, h1, h2, ?_, ?_⟩
          · rw [h3, Bool.and_false]
            simp only [Bool.false_eq_true, false_and, false_iff]
            rintro ⟨-, Qs, a2⟩
            cases a2 with
            | cons a3 a4 => exact q2 _ a3
          · intro Qs hQs
            cases hQs with
            | cons a3 a4 => exact absurd a3 (q2 _)
    unfold bip340_pubkey_combine
    have key : ∃ j P' b, bip340_combine_sum ec pubs = .ok (j, b) ∧ Jac j P' ∧
        (b = true ↔ ∃ Qs : List (Pt ec.toCurve), List.Forall₂ XOnly Qs pubs) ∧
        ∀ Qs : List (Pt ec.toCurve), List.Forall₂ XOnly Qs pubs → P' = Qs.sum := by
      rcases pubs with _ | ⟨pub, pubs⟩
      · refine ⟨jge_zero, 0, true, rfl, (jge_convert_exact 0).2.1, by simp, ?_⟩
        rintro Qs (_ | _); rfl
      · rw [bip340_combine_sum]
        have h3' := fun p hp => h3 p (List.mem_cons_of_mem _ hp)
        rcases xonly_import_exact ok (h3 pub List.mem_cons_self) with ⟨Q, q1, q2, q3⟩ | ⟨Q, q1, q2⟩
        · rw [q2, C.ok_bind]
          obtain ⟨j', P', b, h1, h2, h3, h4⟩ := loop pubs h3' _ Q true (jge_convert_exact Q).1
          refine ⟨j', P', b, h1, h2, ?_, ?_⟩
          · rw [h3]
            constructor
            · rintro ⟨-, Qs, a2⟩; exact ⟨Q :: Qs, .cons q1 a2⟩
            · rintro ⟨Qs, a2⟩
              cases a2 with
              | cons a3 a4 => exact ⟨rfl, _, a4⟩
          · intro Qs hQs
            cases hQs with
            | cons a3 a4 => rw [h4 _ a4, q3 _ a3, List.sum_cons]
        · rw [q1, C.ok_bind]
          obtain ⟨j', P', b, h1, h2, h3, h4⟩ := loop pubs h3' _ Q false (jge_convert_exact Q).1
          refine ⟨j', P', b, h1, h2, ?_, ?_⟩
          · rw [h3]
            simp only [Bool.false_eq_true, false_and, false_iff]
            rintro ⟨Qs, a2⟩
            cases a2 with
            | cons a3 a4 => exact q2 _ a3
          · intro Qs hQs
            cases hQs with
            | cons a3 a4 => exact absurd a3 (q2 _)
    obtain ⟨j, P, b, h1, h2, h3, h4⟩ := key
    rw [h1, C.ok_bind]
    dsimp only
    rw [((jge_convert_exact _).2.2 _ h2).1, export_x_out]
    refine ⟨_, _, rfl, ?_, ?_⟩
    · rw [Bool.and_eq_true, decide_eq_true_iff, h3]
      constructor
      · rintro ⟨⟨Qs, a1⟩, a2⟩; exact ⟨Qs, a1, by rw [← h4 Qs a1]; exact a2⟩
      · rintro ⟨Qs, a1, a2⟩; exact ⟨⟨Qs, a1⟩, by rw [h4 Qs a1]; exact a2⟩
    · intro Qs a1; rw [h4 Qs a1]

/-- C70. The shared secret is the abscissa of the multiple. -/
theorem bip340_derive_exact (ok : EcOk ec G) {pub priv : List Byte} (hp : pub.length = feSize fe) (hl : priv.length = scSize ec.n) :
    ∃ out ret, bip340_derive ec pub priv = .ok (out, ret) ∧
      (ret = true ↔ 0 < beVal priv ∧ beVal priv < ec.n ∧ ∃ Q : Pt ec.toCurve, XOnly Q pub) ∧
      ∀ Q : Pt ec.toCurve, XOnly Q pub → beVal priv < ec.n → out = xBytes (beVal priv • Q) := by
  obtain ⟨a, b, h1, h2, h3, h4, h5⟩ := key_ok ok hl.ge
  rw [List.take_of_length_le hl.le] at h3 h4 h5
  unfold bip340_derive
  rw [h1, C.ok_bind]
  rcases xonly_import_exact ok hp with ⟨Q, q1, q2, q3⟩ | ⟨Q, q1, q2⟩
  · rw [q2, C.ok_bind, (wei_mul_exact ok.wei Q (Or.inr (ok.all Q)) h2).2, C.ok_bind]
    dsimp only
    rw [export_x_out]
    refine ⟨_, _, rfl, ?_, ?_⟩
    · simp only [Bool.and_true, Bool.and_eq_true, decide_eq_true_iff, h3]
      constructor
      · rintro ⟨⟨p1, p2⟩, -⟩; exact ⟨p1, p2, Q, q1⟩
      · rintro ⟨p1, p2, -⟩
        refine ⟨⟨p1, p2⟩, ?_⟩
        rw [h4 p2, ne_eq, smul_zero_iff ok q1.1.1, Nat.mod_eq_of_lt p2]
        omega
    · intro P hP hp
      rw [q3 P hP, h4 hp]
  · rw [q1, C.ok_bind, (wei_mul_exact ok.wei Q (Or.inr (ok.all Q)) h2).2, C.ok_bind]
    refine ⟨_, _, rfl, ?_, fun P hP => absurd hP (q2 P)⟩
    simp only [Bool.and_false, Bool.false_and, Bool.false_eq_true, false_iff]
    rintro ⟨-, -, P, hP⟩; exact q2 P hP

/-- C70. Both parties derive the same secret, although the keys have lost their signs. -/
theorem bip340_derive_agree (ok : EcOk ec G) {a b : List Byte} (ha : a.length = scSize ec.n) (hb : b.length = scSize ec.n)
    (ha' : 0 < beVal a ∧ beVal a < ec.n) (hb' : 0 < beVal b ∧ beVal b < ec.n) :
    ∃ A B s, bip340_pubkey_create ec a = .ok (A, true) ∧ bip340_pubkey_create ec b = .ok (B, true) ∧
      bip340_derive ec B a = .ok (s, true) ∧ bip340_derive ec A b = .ok (s, true) := by
  obtain ⟨A, r1, e1, e2, e3⟩ := bip340_pubkey_create_exact ok ha
  obtain ⟨B, r2, f1, f2, f3⟩ := bip340_pubkey_create_exact ok hb
  obtain rfl := e2.2 ha'
  obtain rfl := f2.2 hb'
  obtain ⟨e3, e4⟩ := e3 rfl
  obtain ⟨f3, f4⟩ := f3 rfl
  obtain ⟨s, r3, g1, g2, g3⟩ := bip340_derive_exact ok (pub := B) (by rw [f3, xBytes_len]) ha
  obtain ⟨s', r4, k1, k2, k3⟩ := bip340_derive_exact ok (pub := A) (by rw [e3, xBytes_len]) hb
  obtain rfl := g2.2 ⟨ha'.1, ha'.2, _, f4⟩
  obtain rfl := k2.2 ⟨hb'.1, hb'.2, _, e4⟩
  refine ⟨A, B, s, e1, f1, g1, ?_⟩
  have red : ∀ u v : Nat, 0 < v → v < ec.n → xBytes (u • (evenKey G ec.n v • G)) = xBytes (u • (v • G)) := by
    intro u v h0 hv
    rcases (even_smul ok h0 hv).2 with h | h
    · rw [h]
    · rw [h, smul_neg, xBytes_neg]
  rw [k1, g3 _ f4 ha'.2, k3 _ e4 hb'.2, red _ _ ha'.1 ha'.2, red _ _ hb'.1 hb'.2, smul_comm]

/-- C70. Tweaking commutes with taking the public key, and `negated` is the sign of the tweaked private key. -/
theorem bip340_tweak_commutes (ok : EcOk ec G) {priv tweak : List Byte} (hl : priv.length = scSize ec.n)
    (ht : tweak.length = scSize ec.n) (hp : 0 < beVal priv ∧ beVal priv < ec.n) :
    ∃ pub, bip340_pubkey_create ec priv = .ok (pub, true) ∧
    (∃ k r1 o neg r2, bip340_privkey_tweak_add ec priv tweak = .ok (k, r1) ∧ bip340_pubkey_tweak_add ec pub tweak = .ok (o, neg, r2) ∧
      r1 = r2 ∧ (r1 = true → bip340_pubkey_create ec k = .ok (o, true) ∧
        bip340_pubkey_tweak_add_check ec pub tweak o neg = .ok true ∧
        bip340_pubkey_tweak_add_check ec pub tweak o (!neg) = .ok false ∧
        (neg = true ↔ ¬ EvenPt (beVal k • G)))) ∧
    (∃ k r1 o neg r2, bip340_privkey_tweak_mul ec priv tweak = .ok (k, r1) ∧ bip340_pubkey_tweak_mul ec pub tweak = .ok (o, neg, r2) ∧
      r1 = r2 ∧ (r1 = true → bip340_pubkey_create ec k = .ok (o, true))) := by
  have hn := ok.prime.pos
  obtain ⟨pub, r0, e1, e2, e3⟩ := bip340_pubkey_create_exact ok hl
  obtain rfl := e2.2 hp
  obtain ⟨hpub, hS⟩ := e3 rfl
  have hlp : pub.length = feSize fe := by rw [hpub, xBytes_len]
  have uniq : ∀ P : Pt ec.toCurve, XOnly P pub → P = evenKey G ec.n (beVal priv) • G := by
    intro P hP
    rcases xonly_import_exact ok hlp with ⟨Q, q1, q2, q3⟩ | ⟨Q, q1, q2⟩
    · rw [q3 P hP, q3 _ hS]
    · exact absurd hP (q2 P)
  obtain ⟨k1, b1, f1, f2, f3⟩ := bip340_privkey_tweak_add_exact ok hl ht
  obtain ⟨-, ⟨k2, b2, g1, g2, g3⟩, -, -⟩ := ecdsa_privkey_ops_exact ok hl ht
  obtain ⟨⟨o1, n1, d1, j1, j2, j3⟩, ⟨o2, n2, d2, l1, l2, l3⟩⟩ := bip340_pubkey_tweak_exact ok hlp ht
  have cr : ∀ v, v ≠ 0 → v < ec.n → bip340_pubkey_create ec (bigBytes (scSize ec.n) v) = .ok (xBytes (v • G), true) := by
    intro v h0 hv
    have hv' : beVal (bigBytes (scSize ec.n) v) = v := by
      rw [Drb.beVal_bigBytes, Nat.mod_eq_of_lt (hv.trans (scSize_pow _))]
    obtain ⟨o, r, a1, a2, a3⟩ := bip340_pubkey_create_exact ok (priv := bigBytes (scSize ec.n) v) (Hsh.bigBytes_len _ _)
    rw [hv'] at a2 a3
    obtain rfl := a2.2 ⟨by omega, hv⟩
    rw [a1, (a3 rfl).1]
  have sm : ∀ v : Nat, v % ec.n = 0 ↔ v • G = 0 := fun v => (smul_zero_iff ok ok.nonzero).symm
  have md : ∀ v : Nat, (v % ec.n) • G = v • G := fun v => smul_cast ok (ZMod.natCast_mod _ _) G
  have heq : b1 = d1 := by
    rw [Bool.eq_iff_iff, f2, j2, ne_eq, sm, add_nsmul]
    constructor
    · rintro ⟨-, -, p3, p4⟩; exact ⟨_, hS, p3, p4⟩
    · rintro ⟨Q, p1, p2, p3⟩
      rw [uniq _ p1] at p3
      exact ⟨hp.1, hp.2, p2, p3⟩
  refine ⟨pub, e1, ⟨k1, b1, o1, n1, d1, f1, j1, heq, ?_⟩, ⟨k2, b2, o2, n2, d2, g1, l1, ?_, ?_⟩⟩
  · intro hb
    obtain ⟨-, -, p3, p4⟩ := f2.1 hb
    obtain ⟨o1e, n1e⟩ := j3 _ hS p3
    have hk : beVal k1 • G = evenKey G ec.n (beVal priv) • G + beVal tweak • G := by
      rw [f3 hb, Drb.beVal_bigBytes, Nat.mod_eq_of_lt ((Nat.mod_lt _ hn).trans (scSize_pow _)), md, add_nsmul]
    refine ⟨?_, ?_, ?_, ?_⟩
    · rw [f3 hb, cr _ p4 (Nat.mod_lt _ hn), md, o1e, add_nsmul]
    · unfold bip340_pubkey_tweak_add_check
      rw [j1, C.ok_bind, slice_take (by rw [o1e, xBytes_len]), C.ok_bind, List.take_of_length_le (by rw [o1e, xBytes_len])]
      simp [← heq, hb]
    · unfold bip340_pubkey_tweak_add_check
      rw [j1, C.ok_bind, slice_take (by rw [o1e, xBytes_len]), C.ok_bind, List.take_of_length_le (by rw [o1e, xBytes_len])]
      simp
    · rw [n1e, hk]
  · rw [Bool.eq_iff_iff, g2, l2, ne_eq, sm]
    have sw : ∀ t : Nat, (beVal priv * t) • G = 0 ↔ t • (evenKey G ec.n (beVal priv) • G) = 0 := by
      intro t
      rw [mul_comm, mul_nsmul']
      rcases (even_smul ok hp.1 hp.2).2 with h | h
      · rw [h]
      · rw [h, smul_neg, neg_eq_zero]
    rw [sw]
    constructor
    · rintro ⟨-, -, p3, p4⟩
      exact ⟨_, hS, p3, p4⟩
    · rintro ⟨Q, p1, p2, p3⟩
      rw [uniq _ p1] at p3
      exact ⟨hp.1, hp.2, p2, p3⟩
  · intro hb
    obtain ⟨-, -, p3, p4⟩ := g2.1 hb
    rw [g3 hp.2 p3, cr _ p4 (Nat.mod_lt _ hn), md, (l3 _ hS p3).1, mul_comm, mul_nsmul']
    rcases (even_smul ok hp.1 hp.2).2 with h | h
    · rw [h]
    · rw [h, smul_neg, xBytes_neg]

end

/-- The hypotheses hold: on secp256k1 the key 1 tweaked by 2 is the key 3. -/
example : letI := Fact.mk (weiDefs_field_prime (d := curve_secp256k1) (by simp [weiDefs]))
    ∃ ec G, wei_curve curve_secp256k1 = .ok ec ∧ EcOk ec G ∧
      ∃ pub o neg, bip340_pubkey_create ec (bigBytes (scSize ec.n) 1) = .ok (pub, true) ∧
        bip340_pubkey_tweak_add ec pub (bigBytes (scSize ec.n) 2) = .ok (o, neg, true) ∧
        ∃ k, bip340_privkey_tweak_add ec (bigBytes (scSize ec.n) 1) (bigBytes (scSize ec.n) 2) = .ok (k, true) ∧
          bip340_pubkey_create ec k = .ok (o, true) := by
  letI := Fact.mk (weiDefs_field_prime (d := curve_secp256k1) (by simp [weiDefs]))
  obtain ⟨ec, h1, h2, -, G, hG, ok⟩ := wei_curve_exact (d := curve_secp256k1) (by simp [weiDefs])
  have h3 : 3 < beVal curve_secp256k1.sc.n ∧ beVal curve_secp256k1.y < curve_secp256k1.fe.p ∧ beVal curve_secp256k1.y % 2 = 0 := by
    decide +kernel
  rw [← h2] at h3
  have hv : ∀ v, v < 3 → beVal (bigBytes (scSize ec.n) v) = v := fun v h => by
    rw [Drb.beVal_bigBytes, Nat.mod_eq_of_lt ((show v < ec.n by omega).trans (scSize_pow _))]
  have hev : evenKey G ec.n 1 = 1 := by
    unfold evenKey
    refine if_pos ⟨by rw [one_nsmul]; exact ok.nonzero, ?_⟩
    rw [one_nsmul, ordin, hG]
    dsimp only
    rw [ZMod.val_natCast_of_lt h3.2.1]
    exact h3.2.2
  obtain ⟨pub, e1, ⟨k, r1, o, neg, r2, e2, e3, rfl, e5⟩, -⟩ := bip340_tweak_commutes ok (priv := bigBytes (scSize ec.n) 1)
    (tweak := bigBytes (scSize ec.n) 2) (Hsh.bigBytes_len _ _) (Hsh.bigBytes_len _ _) (by rw [hv 1 (by omega)]; omega)
  obtain ⟨k', r', f1, f2, -⟩ := bip340_privkey_tweak_add_exact ok (priv := bigBytes (scSize ec.n) 1)
    (tweak := bigBytes (scSize ec.n) 2) (Hsh.bigBytes_len _ _) (Hsh.bigBytes_len _ _)
  rw [hv 1 (by omega), hv 2 (by omega), hev] at f2
  obtain rfl := f2.2 ⟨by omega, by omega, by omega, by rw [Nat.mod_eq_of_lt (by omega)]; omega⟩
  rw [f1] at e2
  injection e2 with e2
  injection e2 with e2 e4
  subst e2 e4
  exact ⟨ec, G, h1, ok, pub, o, neg, e1, e3, k', f1, (e5 rfl).1⟩

end Torsion
