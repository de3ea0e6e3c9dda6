import Verif.Ecc.DerLemmas
import Verif.Ecc.EncodeProps

/-!
# ECDSA (C49, C69)

`EcOk ec G` holds for the struct of every short Weierstrass curve of the library (`wei_curve_exact`).
-/
namespace Torsion

open Spec Ecc
open WeierstrassCurve.Affine (Point)

section
variable {fe : FieldCode} [Fact fe.p.Prime] {ec : WeiT fe} {G : Pt ec.toCurve}

/-- A signature as the library writes it. -/
theorem sig_halves {n r s : Nat} (hr : r < n) (hs : s < n) (sig : List Byte)
    (h : sig = bigBytes (scSize n) r ++ bigBytes (scSize n) s) :
    sig.length = 2 * scSize n ∧ beVal (sig.take (scSize n)) = r ∧ beVal (sig.drop (scSize n)) = s := by
  have l : ∀ v, (bigBytes (scSize n) v).length = scSize n := Hsh.bigBytes_len _
  subst h
  refine ⟨by rw [List.length_append, l, l]; omega, ?_, ?_⟩
  · rw [List.take_left' (l r), Drb.beVal_bigBytes, Nat.mod_eq_of_lt (hr.trans (scSize_pow _))]
  · rw [List.drop_left' (l r), Drb.beVal_bigBytes, Nat.mod_eq_of_lt (hs.trans (scSize_pow _))]

theorem take_half {n : Nat} {sig : List Byte} (h : sig.length = 2 * scSize n) :
    (sig.drop (scSize n)).take (scSize n) = sig.drop (scSize n) :=
  List.take_of_length_le (by rw [List.length_drop]; omega)

/-- C49. Verification: accepts exactly the low-S signatures which satisfy the equation of the standard under a valid public
key. -/
theorem ecdsa_verify_exact (ok : EcOk ec G) (msg pub : List Byte) {sig : List Byte} (hl : sig.length = 2 * scSize ec.n) :
    ∃ ret, ecdsa_verify ec msg sig pub = .ok ret ∧ (ret = true ↔ ∃ Q : Pt ec.toCurve, Sec1 Q pub ∧
      beVal (sig.drop (scSize ec.n)) ≤ ec.n / 2 ∧
      EcdsaValid G Q ec.n (leftBits ec.n msg) (beVal (sig.take (scSize ec.n))) (beVal (sig.drop (scSize ec.n)))) := by
  have := verify_ok ok msg pub hl.ge
  rwa [take_half hl] at this

/-- C49. Signing: the nonce is the first candidate of the generator (seeded with key and message) which is in range and
whose point has an abscissa other than zero modulo the order; the signature is that of the standard with the smaller of
`s` and `n - s`; the parameter tells parity and overflow of the nonce point. The loop goes on while there is no such
candidate. -/
theorem ecdsa_sign_exact {S : Type} (rng : Source S) (ok : EcOk ec G) (fuel : Nat) (msg : List Byte) {priv : List Byte}
    (hl : priv.length = scSize ec.n) :
    let a := if beVal priv < ec.n then beVal priv else 0
    let m := leftBits ec.n msg
    let nonce := ecNonce rng.gen ec.n (rng.init (bigBytes (scSize ec.n) a ++ bigBytes (scSize ec.n) (m % ec.n)))
    (ecdsa_sign rng fuel ec msg priv = .spin ∧ ∀ j < fuel, ¬ EcNonceOk G ec.n (nonce j)) ∨
    ∃ i < fuel, ∃ r s, (∀ j < i, ¬ EcNonceOk G ec.n (nonce j)) ∧ EcNonceOk G ec.n (nonce i) ∧
      EcdsaSigned G ec.n a m (nonce i) r s ∧
      ecdsa_sign rng fuel ec msg priv = .ok
        (bigBytes (scSize ec.n) r ++ bigBytes (scSize ec.n) (if ec.n / 2 < s then ec.n - s else s),
        2 * (decide (ec.n ≤ absc (nonce i • G))).toNat +
          (decide (ordin (nonce i • G) % 2 = 1) ^^ decide (ec.n / 2 < s)).toNat,
        decide (0 < beVal priv ∧ beVal priv < ec.n)) := by
  dsimp only
  obtain ⟨a, b, h1, h2, h3, h4, h5⟩ := key_ok ok hl.ge
  rw [List.take_of_length_le hl.le] at h3 h4 h5
  have ha : a = if beVal priv < ec.n then beVal priv else 0 := by
    split
    · rename_i h; exact h4 h
    · rename_i h; exact h5 h
  have hb : b = decide (0 < beVal priv ∧ beVal priv < ec.n) := by
    rw [Bool.eq_iff_iff, h3, decide_eq_true_iff]
  rw [← ha, ← hb]
  exact sign_ok rng ok fuel msg hl.ge h1 h2

/-- C49. The signature is a function of key and message: whatever the number of rounds allowed, no result is different. -/
theorem ecdsa_sign_deterministic {S : Type} (rng : Source S) (ok : EcOk ec G) (msg : List Byte) {priv : List Byte}
    (hl : priv.length = scSize ec.n) {f1 f2 : Nat} {x y : List Byte × Nat × Bool}
    (h1 : ecdsa_sign rng f1 ec msg priv = .ok x) (h2 : ecdsa_sign rng f2 ec msg priv = .ok y) : x = y := by
  have := Fact.mk ok.prime
  rcases ecdsa_sign_exact rng ok f1 msg hl with ⟨e, -⟩ | ⟨i, -, r, s, a1, a2, a3, a4⟩
  · rw [e] at h1; cases h1
  rcases ecdsa_sign_exact rng ok f2 msg hl with ⟨e, -⟩ | ⟨j, -, r', s', b1, b2, b3, b4⟩
  · rw [e] at h2; cases h2
  have hij : i = j := by
    rcases Nat.lt_trichotomy i j with h | h | h
    · exact absurd a2 (b1 i h)
    · exact h
    · exact absurd b2 (a1 j h)
  subst hij
  obtain ⟨c1, c2, c3⟩ := a3
  obtain ⟨d1, d2, d3⟩ := b3
  have hr : r = r' := c1.trans d1.symm
  subst hr
  have hs : s = s' := by
    have hk := cast_ne a2.1.ne' a2.2.1
    have h : ((s * _ : Nat) : ZMod ec.n) = ((s' * _ : Nat) : ZMod ec.n) :=
      (ZMod.natCast_eq_natCast_iff' _ _ _).2 (c3.trans d3.symm)
    rw [Nat.cast_mul, Nat.cast_mul] at h
    have h := (ZMod.natCast_eq_natCast_iff' _ _ _).1 (mul_right_cancel₀ hk h)
    rwa [Nat.mod_eq_of_lt c2, Nat.mod_eq_of_lt d2] at h
  subst hs
  rw [h1] at a4
  rw [h2] at b4
  injection a4 with a4
  injection b4 with b4
  rw [a4, b4]

/-- The nonce point of a signature, after `s` has been made small. -/
theorem signed_point (ok : EcOk ec G) {a m k r s : Nat} (hk : EcNonceOk G ec.n k) (h : EcdsaSigned G ec.n a m k r s) :
    ∃ R : Pt ec.toCurve, R ≠ 0 ∧ absc R = absc (k • G) ∧
      ordin R % 2 = (decide (ordin (k • G) % 2 = 1) ^^ decide (ec.n / 2 < s)).toNat ∧
      r • (a • G) + m • G = (if ec.n / 2 < s then ec.n - s else s) • R := by
  obtain ⟨h1, h2, h3⟩ := h
  have hs : s • (k • G) = r • (a • G) + m • G := by
    rw [← mul_nsmul', ← mul_nsmul', ← add_nsmul]
    refine smul_cast ok ?_ _
    rw [ZMod.natCast_eq_natCast_iff', h3]
    congr 1; ring
  have hne := hk.2.2.1
  by_cases hh : ec.n / 2 < s
  · refine ⟨-(k • G), neg_ne_zero.2 hne, ?_, ?_, ?_⟩
    · generalize k • G = P
      rcases P with _ | ⟨x, y, h⟩
      · rfl
      · rfl
    · rw [decide_eq_true hh]
      generalize k • G = P at *
      rcases P with _ | ⟨x, y, h⟩
      · exact absurd rfl hne
      · have hy : y ^ 2 = x ^ 3 + ec.a * x + ec.b := by
          have := h.1
          rw [WeierstrassCurve.Affine.equation_iff] at this
          simpa [weier] using this
        have h0 := ord_ne ok hy
        have e1 : ordin (-(Point.some x y h) : Pt ec.toCurve) = (-y).val := by
          show ((affine (-(Point.some x y h) : Pt ec.toCurve)).y).val = _
          rw [← (wge_neg_exact _ true).1]; rfl
        have e2 : ordin (Point.some x y h : Pt ec.toCurve) = y.val := rfl
        rw [e1, e2, Ecc.odd_neg fe (p_odd ok) h0]
        rcases Nat.mod_two_eq_zero_or_one y.val with h | h <;> rw [h] <;> rfl
    · rw [if_pos hh, ← hs, smul_neg, ← sub_eq_zero, sub_neg_eq_add, ← add_nsmul, Nat.add_sub_cancel' h2.le, ord_all ok]
  · refine ⟨k • G, hne, rfl, ?_, ?_⟩
    · rw [decide_eq_false hh]
      rcases Nat.mod_two_eq_zero_or_one (ordin (k • G)) with h | h <;> rw [h] <;> rfl
    · rw [if_neg hh, hs]

/-- C49. Every signature with `s ≠ 0` which a valid key makes has a small `s`, is accepted under any encoding of the public
key, and the returned parameter recovers the public key. (For `s = 0` see `ecdsa_sign_zero`.) -/
theorem ecdsa_sign_verify {S : Type} (rng : Source S) (ok : EcOk ec G) {fuel : Nat} {msg priv pub sig : List Byte} {param : Nat}
    {ret : Bool} (hl : priv.length = scSize ec.n) (hv : 0 < beVal priv ∧ beVal priv < ec.n) (hp : Sec1 (beVal priv • G) pub)
    (h : ecdsa_sign rng fuel ec msg priv = .ok (sig, param, ret)) :
    ret = true ∧ sig.length = 2 * scSize ec.n ∧ beVal (sig.drop (scSize ec.n)) ≤ ec.n / 2 ∧ param < 4 ∧
    (beVal (sig.drop (scSize ec.n)) ≠ 0 → ecdsa_verify ec msg sig pub = .ok true ∧
      ∀ compact, ecdsa_recover ec msg sig param compact = .ok (sec1Out (beVal priv • G) compact, true)) := by
  have hn := ok.prime.pos
  have hgap := ok.gap
  rcases ecdsa_sign_exact rng ok fuel msg hl with ⟨e, -⟩ | ⟨i, -, r, s, -, a2, a3, a4⟩
  · rw [e] at h; cases h
  rw [if_pos hv.2] at a2 a3 a4
  generalize ecNonce rng.gen ec.n _ i = k at *
  rw [h] at a4
  injection a4 with a4
  injection a4 with e1 a4
  injection a4 with e2 e3
  have hr : r < ec.n := by rw [a3.1]; exact Nat.mod_lt _ hn
  have hs := a3.2.1
  have hlow : (if ec.n / 2 < s then ec.n - s else s) ≤ ec.n / 2 := by split <;> omega
  have hlt : (if ec.n / 2 < s then ec.n - s else s) < ec.n := by split <;> omega
  obtain ⟨R, R0, Rx, Ry, Re⟩ := signed_point ok a2 a3
  generalize ht : (if ec.n / 2 < s then ec.n - s else s) = t at *
  obtain ⟨l1, l2, l3⟩ := sig_halves hr hlt sig e1
  have hbit : ∀ b : Bool, b.toNat ≤ 1 := by decide
  have b1 := hbit (decide (ec.n ≤ absc (k • G)))
  have b2 := hbit (decide (ordin (k • G) % 2 = 1) ^^ decide (ec.n / 2 < s))
  refine ⟨by rw [e3, decide_eq_true hv], l1, by rw [l3]; exact hlow, by omega, fun h0 => ?_⟩
  rw [l3] at h0
  have hr0 : 0 < r := by
    have := a2.2.2.2
    rw [← a3.1] at this
    omega
  have habs : absc R < fe.p := ZMod.val_lt _
  refine ⟨?_, fun compact => ?_⟩
  · obtain ⟨b, v1, v2⟩ := ecdsa_verify_exact ok msg pub l1
    rw [v1]
    congr 1
    rw [v2, l2, l3]
    refine ⟨_, hp, hlow, (valid_point ok _ _ _ _).2 ⟨hr0, hr, by omega, hlt, R, R0, ?_, Re⟩⟩
    rw [Rx, ← a3.1]
  · obtain ⟨A, v1, v2⟩ := recover_ok ok msg param (by omega) l1.ge
    rw [take_half l1, l2, l3] at v2
    have hA := (v2 (beVal priv • G) (sec1_ne hp)).2 ⟨hlow, hr0, hr, by omega, hlt, R, R0, ?_, ?_, Re⟩
    · rw [ecdsa_recover, v1, C.ok_bind, hA, export_out, decide_eq_true (sec1_ne hp)]
      rfl
    · rw [Rx, a3.1, e2]
      rw [Rx] at habs
      by_cases hc : ec.n ≤ absc (k • G)
      · rw [decide_eq_true hc, if_pos (by simp), Nat.mod_eq_sub_mod hc, Nat.mod_eq_of_lt (by omega)]
        omega
      · rw [decide_eq_false hc, if_neg (by simp; omega), Nat.mod_eq_of_lt (by omega), Nat.add_zero]
    · rw [Ry, e2]; omega

/-- C49, the exception: the code does not test `s` (src/ecc.c, `ecdsa_sign_internal`). If the message is `-r d` modulo the
order, the result is a signature with `s = 0`, reported as a success, which the verifier refuses. -/
theorem ecdsa_sign_zero {S : Type} (rng : Source S) (ok : EcOk ec G) {fuel : Nat} {msg priv pub sig : List Byte} {param : Nat}
    {ret : Bool} (hl : priv.length = scSize ec.n) (hv : 0 < beVal priv ∧ beVal priv < ec.n)
    (h : ecdsa_sign rng fuel ec msg priv = .ok (sig, param, ret))
    (hm : (leftBits ec.n msg + beVal priv * beVal (sig.take (scSize ec.n))) % ec.n = 0) :
    ret = true ∧ beVal (sig.drop (scSize ec.n)) = 0 ∧ ecdsa_verify ec msg sig pub = .ok false := by
  have hn := ok.prime.pos
  rcases ecdsa_sign_exact rng ok fuel msg hl with ⟨e, -⟩ | ⟨i, -, r, s, -, a2, a3, a4⟩
  · rw [e] at h; cases h
  rw [if_pos hv.2] at a2 a3 a4
  generalize ecNonce rng.gen ec.n _ i = k at *
  rw [h] at a4
  injection a4 with a4
  injection a4 with e1 a4
  injection a4 with e2 e3
  have hr : r < ec.n := by rw [a3.1]; exact Nat.mod_lt _ hn
  have hs := a3.2.1
  have hlt : (if ec.n / 2 < s then ec.n - s else s) < ec.n := by split <;> omega
  obtain ⟨l1, l2, l3⟩ := sig_halves hr hlt sig e1
  have h0 : s = 0 := by
    have h3 := a3.2.2
    rw [l2] at hm
    rw [hm] at h3
    have hd := Nat.dvd_of_mod_eq_zero h3
    rcases (Nat.Prime.dvd_mul ok.prime).1 hd with hd | hd
    · exact Nat.eq_zero_of_dvd_of_lt hd hs
    · have := Nat.eq_zero_of_dvd_of_lt hd a2.2.1
      exact absurd this a2.1.ne'
  rw [if_neg (by omega), h0] at l3
  refine ⟨by rw [e3, decide_eq_true hv], l3, ?_⟩
  obtain ⟨b, v1, v2⟩ := ecdsa_verify_exact ok msg pub l1
  rw [v1]
  congr 1
  rw [Bool.eq_false_iff, ne_eq, v2, l3]
  rintro ⟨Q, -, -, -, -, h, -⟩
  omega

/-- C49. Recovery: the returned key is the solution of the equation of the standard; there is a failure exactly if there is
none (or it is infinity). -/
theorem ecdsa_recover_exact (ok : EcOk ec G) (msg : List Byte) {sig : List Byte} {param : Nat} (hp : param < 4)
    (hl : sig.length = 2 * scSize ec.n) (compact : Bool) :
    ∃ out ret, ecdsa_recover ec msg sig param compact = .ok (out, ret) ∧
      (ret = true ↔ ∃ A : Pt ec.toCurve, A ≠ 0 ∧ beVal (sig.drop (scSize ec.n)) ≤ ec.n / 2 ∧
        EcdsaRecovered G ec.n (leftBits ec.n msg) (beVal (sig.take (scSize ec.n))) (beVal (sig.drop (scSize ec.n))) param A) ∧
      ∀ A : Pt ec.toCurve, A ≠ 0 → beVal (sig.drop (scSize ec.n)) ≤ ec.n / 2 →
        EcdsaRecovered G ec.n (leftBits ec.n msg) (beVal (sig.take (scSize ec.n))) (beVal (sig.drop (scSize ec.n))) param A →
        out = sec1Out A compact := by
  obtain ⟨A, v1, v2⟩ := recover_ok ok msg param hp hl.ge
  rw [take_half hl] at v2
  rw [ecdsa_recover, v1, C.ok_bind, export_out]
  refine ⟨_, _, rfl, ?_, ?_⟩
  · rw [decide_eq_true_iff]
    exact ⟨fun h => ⟨A, h, (v2 A h).1 rfl⟩, fun ⟨B, h1, h2⟩ => by rw [(v2 B h1).2 h2]; exact h1⟩
  · intro B h1 h2 h3
    rw [(v2 B h1).2 ⟨h2, h3⟩]

/-- C49. The signature is valid under the key recovered from it. -/
theorem ecdsa_recover_verifies (ok : EcOk ec G) (msg : List Byte) {sig out : List Byte} {param : Nat} (hp : param < 4)
    (hl : sig.length = 2 * scSize ec.n) {compact : Bool} (h : ecdsa_recover ec msg sig param compact = .ok (out, true)) :
    ecdsa_verify ec msg sig out = .ok true := by
  obtain ⟨out', ret', v1, v2, v3⟩ := ecdsa_recover_exact ok msg hp hl compact
  rw [v1] at h
  injection h with h
  injection h with h1 h2
  subst h1 h2
  obtain ⟨A, a1, a2, a3⟩ := v2.1 rfl
  have hS : Sec1 A out' := by rw [v3 A a1 a2 a3]; exact out_sec1 a1 _
  obtain ⟨b, w1, w2⟩ := ecdsa_verify_exact ok msg out' hl
  rw [w1]
  congr 1
  rw [w2]
  obtain ⟨c1, c2, c3, c4, R, R0, Rx, Ry, Re⟩ := a3
  refine ⟨A, hS, a2, (valid_point ok _ _ _ _).2 ⟨c1, c2, c3, c4, R, R0, ?_, Re⟩⟩
  rw [Rx]
  split
  · rw [Nat.add_mod_right, Nat.mod_eq_of_lt c2]
  · rw [Nat.add_zero, Nat.mod_eq_of_lt c2]

/-- C49. From every accepted signature one of the four parameters recovers the key. -/
theorem ecdsa_recover_complete (ok : EcOk ec G) (msg pub : List Byte) {sig : List Byte} (hl : sig.length = 2 * scSize ec.n)
    (h : ecdsa_verify ec msg sig pub = .ok true) :
    ∃ Q : Pt ec.toCurve, Sec1 Q pub ∧ ∃ param < 4, ∀ compact, ecdsa_recover ec msg sig param compact = .ok (sec1Out Q compact, true) := by
  obtain ⟨b, w1, w2⟩ := ecdsa_verify_exact ok msg pub hl
  rw [w1] at h
  injection h with h
  obtain ⟨Q, q1, q2, q3⟩ := w2.1 h
  obtain ⟨c1, c2, c3, c4, R, R0, Rx, Re⟩ := (valid_point ok _ _ _ _).1 q3
  have habs : absc R < fe.p := ZMod.val_lt _
  have hgap := ok.gap
  have hp : (if ec.n ≤ absc R then 2 else 0) + ordin R % 2 < 4 := by split <;> omega
  refine ⟨Q, q1, _, hp, fun compact => ?_⟩
  obtain ⟨out, ret, v1, v2, v3⟩ := ecdsa_recover_exact ok msg hp hl compact
  have hrec : EcdsaRecovered G ec.n (leftBits ec.n msg) (beVal (sig.take (scSize ec.n))) (beVal (sig.drop (scSize ec.n)))
      ((if ec.n ≤ absc R then 2 else 0) + ordin R % 2) Q := by
    refine ⟨c1, c2, c3, c4, R, R0, ?_, ?_, Re⟩
    · rw [← Rx]
      by_cases hc : ec.n ≤ absc R
      · rw [if_pos hc, if_pos (by omega), Nat.mod_eq_sub_mod hc, Nat.mod_eq_of_lt (by omega)]; omega
      · rw [if_neg hc, if_neg (by omega), Nat.mod_eq_of_lt (by omega), Nat.add_zero]
    · split <;> omega
  rw [v1, v3 Q (sec1_ne q1) q2 hrec, v2.2 ⟨Q, sec1_ne q1, q2, hrec⟩]

/-! ### The other functions on signatures -/

/-- C69. Both `s` and `n - s` are valid: a signature can be changed without the key, which is why only the small one is
accepted. -/
theorem ecdsa_malleable (ok : EcOk ec G) (Q : Pt ec.toCurve) {m r s : Nat} (h : EcdsaValid G Q ec.n m r s) :
    EcdsaValid G Q ec.n m r (ec.n - s) := by
  obtain ⟨c1, c2, c3, c4, R, R0, Rx, Re⟩ := (valid_point ok _ _ _ _).1 h
  refine (valid_point ok _ _ _ _).2 ⟨c1, c2, by omega, by omega, -R, neg_ne_zero.2 R0, ?_, ?_⟩
  · rw [← Rx]
    congr 1
    rcases R with _ | ⟨x, y, h⟩ <;> rfl
  · rw [Re, smul_neg, ← sub_eq_zero, sub_neg_eq_add, ← add_nsmul, Nat.add_sub_cancel' c4.le, ord_all ok]

/-- C69. Making `s` small, and testing it; both refuse unreduced numbers. -/
theorem ecdsa_normalize_exact (ok : EcOk ec G) {sig : List Byte} (hl : sig.length = 2 * scSize ec.n) :
    (∃ out ret, ecdsa_sig_normalize ec sig = .ok (out, ret) ∧
      (ret = true ↔ beVal (sig.take (scSize ec.n)) < ec.n ∧ beVal (sig.drop (scSize ec.n)) < ec.n) ∧
      (ret = true → out = bigBytes (scSize ec.n) (beVal (sig.take (scSize ec.n))) ++ bigBytes (scSize ec.n)
        (if ec.n / 2 < beVal (sig.drop (scSize ec.n)) then ec.n - beVal (sig.drop (scSize ec.n)) else beVal (sig.drop (scSize ec.n))))) ∧
    ecdsa_is_low_s ec sig = .ok (decide (beVal (sig.take (scSize ec.n)) < ec.n ∧ beVal (sig.drop (scSize ec.n)) ≤ ec.n / 2)) := by
  have hn := ok.prime.pos
  have hl2 : scSize ec.n ≤ (sig.drop (scSize ec.n)).length := by rw [List.length_drop]; omega
  unfold ecdsa_sig_normalize ecdsa_is_low_s ecdsa_rs
  rw [num_import_ok (by omega), num_import_ok hl2, take_half hl]
  simp only [C.ok_bind, C.pure_eq]
  generalize beVal (sig.take (scSize ec.n)) = r
  generalize beVal (sig.drop (scSize ec.n)) = s
  refine ⟨⟨_, _, rfl, by simp, fun h => ?_⟩, ?_⟩
  · simp only [Bool.and_eq_true, decide_eq_true_iff] at h
    rw [if_pos h.1, if_pos h.2, sc_minimize_var]
    by_cases hh : ec.n / 2 < s
    · rw [if_pos hh, if_pos hh, if_neg (show ¬ s = 0 by omega)]; rfl
    · rw [if_neg hh, if_neg hh]; rfl
  · congr 1
    by_cases hr : r < ec.n
    · by_cases hs : s < ec.n
      · by_cases hh : s ≤ ec.n / 2
        · simp [hr, hs, hh]
        · simp [hr, hs, hh]
          omega
      · have : ¬ s ≤ ec.n / 2 := by omega
        simp [hr, hs, this]
    · simp [hr]

/-- C69. A signature verifies after normalisation exactly if it is valid, small or not. -/
theorem ecdsa_normalize_verify (ok : EcOk ec G) (msg pub : List Byte) {sig out : List Byte} (hl : sig.length = 2 * scSize ec.n)
    (h : ecdsa_sig_normalize ec sig = .ok (out, true)) :
    ∃ ret, ecdsa_verify ec msg out pub = .ok ret ∧ (ret = true ↔ ∃ Q : Pt ec.toCurve, Sec1 Q pub ∧
      EcdsaValid G Q ec.n (leftBits ec.n msg) (beVal (sig.take (scSize ec.n))) (beVal (sig.drop (scSize ec.n)))) := by
  obtain ⟨⟨out', ret', e1, e2, e3⟩, -⟩ := ecdsa_normalize_exact ok hl
  rw [e1] at h
  injection h with h
  injection h with h1 h2
  subst h1 h2
  have e3 := e3 rfl
  obtain ⟨hr, hs⟩ := e2.1 rfl
  generalize beVal (sig.take (scSize ec.n)) = r at *
  generalize beVal (sig.drop (scSize ec.n)) = s at *
  have hlow : (if ec.n / 2 < s then ec.n - s else s) ≤ ec.n / 2 := by split <;> omega
  have hlt : (if ec.n / 2 < s then ec.n - s else s) < ec.n := by split <;> omega
  obtain ⟨l1, l2, l3⟩ := sig_halves hr hlt out' e3
  obtain ⟨b, w1, w2⟩ := ecdsa_verify_exact ok msg pub l1
  rw [l2, l3] at w2
  refine ⟨b, w1, w2.trans ?_⟩
  by_cases hh : ec.n / 2 < s
  · rw [if_pos hh]
    constructor
    · rintro ⟨Q, q1, -, q3⟩
      have := ecdsa_malleable ok Q q3
      rw [Nat.sub_sub_self hs.le] at this
      exact ⟨Q, q1, this⟩
    · rintro ⟨Q, q1, q3⟩
      exact ⟨Q, q1, by omega, ecdsa_malleable ok Q q3⟩
  · rw [if_neg hh]
    exact ⟨fun ⟨Q, q1, _, q3⟩ => ⟨Q, q1, q3⟩, fun ⟨Q, q1, q3⟩ => ⟨Q, q1, by omega, q3⟩⟩

/-- C69. The DER form of a signature: the encoding of the standard if both numbers are reduced, that of two zeroes (and a
failure) otherwise. -/
theorem ecdsa_sig_export_exact (ok : EcOk ec G) (hz : scSize ec.n ≤ 1000) {sig : List Byte} (hl : sig.length = 2 * scSize ec.n) :
    ecdsa_sig_export ec sig = .ok (if beVal (sig.take (scSize ec.n)) < ec.n ∧ beVal (sig.drop (scSize ec.n)) < ec.n then
      (ecdsaDer (beVal (sig.take (scSize ec.n))) (beVal (sig.drop (scSize ec.n))), true) else (ecdsaDer 0 0, false)) := by
  have hn := ok.prime.pos
  have hl2 : scSize ec.n ≤ (sig.drop (scSize ec.n)).length := by rw [List.length_drop]; omega
  unfold ecdsa_sig_export ecdsa_rs
  rw [num_import_ok (by omega), num_import_ok hl2, take_half hl]
  simp only [C.ok_bind, C.pure_eq]
  generalize beVal (sig.take (scSize ec.n)) = r
  generalize beVal (sig.drop (scSize ec.n)) = s
  by_cases h : r < ec.n ∧ s < ec.n
  · rw [if_pos h.1, if_pos h.2, if_pos h, decide_eq_true h.1, decide_eq_true h.2]
    simp only [Bool.and_self, Bool.not_true, Bool.false_eq_true, if_false]
    rw [encode_der_ok hz h.1 h.2, C.ok_bind]
  · have hb : (decide (r < ec.n) && decide (s < ec.n)) = false := by
      rw [Bool.eq_false_iff, ne_eq, Bool.and_eq_true, decide_eq_true_iff, decide_eq_true_iff]; exact h
    rw [hb, if_neg h]
    simp only [Bool.not_false, if_true]
    rw [encode_der_ok hz hn hn, C.ok_bind]

/-- C69. The strict parser accepts exactly the DER of two reduced numbers, the lax one exactly the BER; both give the two
numbers. Neither aborts nor reads outside the string. -/
theorem ecdsa_sig_import_exact (ok : EcOk ec G) (hz : scSize ec.n ≤ 1000) (der : List Byte) :
    (∃ out ret, ecdsa_sig_import ec der = .ok (out, ret) ∧ out.length = 2 * scSize ec.n ∧
      (ret = true ↔ ∃ r s, r < ec.n ∧ s < ec.n ∧ der = ecdsaDer r s) ∧
      ∀ r s, r < ec.n → s < ec.n → der = ecdsaDer r s → out = bigBytes (scSize ec.n) r ++ bigBytes (scSize ec.n) s) ∧
    (∃ out ret, ecdsa_sig_import_lax ec der = .ok (out, ret) ∧ out.length = 2 * scSize ec.n ∧
      (ret = true ↔ ∃ r s, r < ec.n ∧ s < ec.n ∧ EcdsaBer r s der) ∧
      ∀ r s, r < ec.n → s < ec.n → EcdsaBer r s der → out = bigBytes (scSize ec.n) r ++ bigBytes (scSize ec.n) s) := by
  have hn := ok.prime.pos
  have len : ∀ r s, (num_export ec.n r ++ num_export ec.n s).length = 2 * scSize ec.n := by
    intro r s; rw [List.length_append, num_export_len, num_export_len]; omega
  obtain ⟨r1, s1, b1, a1, a2, a3, a4, a5⟩ := decode_der_ok hn der true
  obtain ⟨r2, s2, b2, c1, c2, c3, c4, c5⟩ := decode_der_ok hn der false
  unfold ecdsa_sig_import ecdsa_sig_import_lax
  rw [a1, c1, C.ok_bind, C.ok_bind]
  refine ⟨⟨_, _, rfl, len _ _, ?_, ?_⟩, ⟨_, _, rfl, len _ _, ?_, ?_⟩⟩
  · refine a4.trans ⟨?_, ?_⟩
    · rintro ⟨r, s, h1, h2, h3⟩; exact ⟨r, s, h1, h2, (sig_strict h1 h2 hz der).1 h3⟩
    · rintro ⟨r, s, h1, h2, h3⟩; exact ⟨r, s, h1, h2, (sig_strict h1 h2 hz der).2 h3⟩
  · intro r s h1 h2 h3
    obtain ⟨rfl, rfl⟩ := a5 r s h1 h2 ((sig_strict h1 h2 hz der).2 h3)
    rfl
  · refine c4.trans ⟨?_, ?_⟩
    · rintro ⟨r, s, h1, h2, h3⟩; exact ⟨r, s, h1, h2, (sig_lax _ _ _).1 h3⟩
    · rintro ⟨r, s, h1, h2, h3⟩; exact ⟨r, s, h1, h2, (sig_lax _ _ _).2 h3⟩
  · intro r s h1 h2 h3
    obtain ⟨rfl, rfl⟩ := c5 r s h1 h2 ((sig_lax _ _ _).2 h3)
    rfl

/-- C69. Export and import are inverse. -/
theorem ecdsa_der_roundtrip (ok : EcOk ec G) (hz : scSize ec.n ≤ 1000) {sig der : List Byte} (hl : sig.length = 2 * scSize ec.n)
    (h : ecdsa_sig_export ec sig = .ok (der, true)) : ecdsa_sig_import ec der = .ok (sig, true) := by
  rw [ecdsa_sig_export_exact ok hz hl] at h
  injection h with h
  split at h
  · rename_i hc
    injection h with h1 _
    obtain ⟨⟨out, ret, e1, -, e2, e3⟩, -⟩ := ecdsa_sig_import_exact ok hz der
    rw [e1, e2.2 ⟨_, _, hc.1, hc.2, h1.symm⟩, e3 _ _ hc.1 hc.2 h1.symm,
      Drb.bigBytes_beVal (by rw [List.length_take]; omega), Drb.bigBytes_beVal (by rw [List.length_drop]; omega),
      List.take_append_drop]
  · injection h with _ h
    cases h

end

/-! ### Concrete cases -/

/-- A generator which always returns the number 1. -/
def oneSource : Source Unit where
  gen := fun _ n => (bigBytes n 1, ())
  len := fun _ _ => Hsh.bigBytes_len _ _
  init := fun _ => ()

/-- On secp256k1, with this generator the first nonce is accepted, for every message; `r` is the abscissa of the
generator. -/
theorem k1_one_signs : letI := Fact.mk (weiDefs_field_prime (d := curve_secp256k1) (by simp [weiDefs]))
    ∃ ec G, wei_curve curve_secp256k1 = .ok ec ∧ EcOk ec G ∧ scSize ec.n = 32 ∧ 8 * 32 = ec.n.size ∧
      ∀ msg, ∃ sig param, ecdsa_sign oneSource 1 ec msg (bigBytes (scSize ec.n) 1) = .ok (sig, param, true) ∧
        beVal (sig.take (scSize ec.n)) = beVal curve_secp256k1.x ∧ beVal curve_secp256k1.x < ec.n ∧
        beVal curve_secp256k1.x ≠ 0 := by
  letI := Fact.mk (weiDefs_field_prime (d := curve_secp256k1) (by simp [weiDefs]))
  obtain ⟨ec, h1, h2, -, G, hG, ok⟩ := wei_curve_exact (d := curve_secp256k1) (by simp [weiDefs])
  have h1n := ok.prime.one_lt
  have hx : beVal curve_secp256k1.x < curve_secp256k1.fe.p ∧ beVal curve_secp256k1.x < beVal curve_secp256k1.sc.n ∧
    beVal curve_secp256k1.x ≠ 0 ∧ scSize (beVal curve_secp256k1.sc.n) = 32 ∧ 8 * 32 = (beVal curve_secp256k1.sc.n).size := by
    decide +kernel
  obtain ⟨x1, x2, x3, x4, x5⟩ := hx
  rw [← h2] at x2 x4 x5
  have hv : beVal (bigBytes (scSize ec.n) 1) = 1 := by
    rw [Drb.beVal_bigBytes, Nat.mod_eq_of_lt (h1n.trans (scSize_pow _))]
  have hnon : ∀ st i, ecNonce oneSource.gen ec.n st i = 1 := by
    intro st i
    have hl : (bigBytes (scSize ec.n) 1).length = scSize ec.n := Hsh.bigBytes_len _ _
    show leftBits ec.n (bigBytes (scSize ec.n) 1) = 1
    rw [Dsa.leftBits_eq (by rw [hl, x4]; exact x5.le), hv]
  have habs : absc G = beVal curve_secp256k1.x := by
    rw [absc, hG]
    exact ZMod.val_natCast_of_lt x1
  have hok : EcNonceOk G ec.n 1 := by
    refine ⟨by omega, h1n, by rw [one_nsmul]; exact ok.nonzero, ?_⟩
    rw [one_nsmul, habs, Nat.mod_eq_of_lt x2]; exact x3
  refine ⟨ec, G, h1, ok, x4, x5, fun msg => ?_⟩
  rcases ecdsa_sign_exact oneSource ok 1 msg (priv := bigBytes (scSize ec.n) 1) (Hsh.bigBytes_len _ _) with
    ⟨-, e⟩ | ⟨i, -, r, s, -, -, a3, a4⟩
  · exact absurd (hnon _ _ ▸ hok) (e 0 (by omega))
  · rw [hnon] at a3
    have hr : r = beVal curve_secp256k1.x := by rw [a3.1, one_nsmul, habs, Nat.mod_eq_of_lt x2]
    have hd : decide (0 < beVal (bigBytes (scSize ec.n) 1) ∧ beVal (bigBytes (scSize ec.n) 1) < ec.n) = true := by
      rw [hv]; exact decide_eq_true ⟨by omega, h1n⟩
    rw [hd] at a4
    refine ⟨_, _, a4, ?_, x2, x3⟩
    rw [List.take_left' (Hsh.bigBytes_len _ _), hr, Drb.beVal_bigBytes, Nat.mod_eq_of_lt (x2.trans (scSize_pow _))]

/-- C49, the exception happens: on secp256k1, with the key and the nonce 1 and the message `n - r`. -/
theorem ecdsa_sign_zero_happens : letI := Fact.mk (weiDefs_field_prime (d := curve_secp256k1) (by simp [weiDefs]))
    ∃ ec msg priv sig param, wei_curve curve_secp256k1 = .ok ec ∧ ecdsa_privkey_verify ec priv = .ok true ∧
      ecdsa_sign oneSource 1 ec msg priv = .ok (sig, param, true) ∧ ∀ pub, ecdsa_verify ec msg sig pub = .ok false := by
  letI := Fact.mk (weiDefs_field_prime (d := curve_secp256k1) (by simp [weiDefs]))
  obtain ⟨ec, G, h1, ok, h2, h3, h4⟩ := k1_one_signs
  have h1n := ok.prime.one_lt
  have hl : (bigBytes (scSize ec.n) 1).length = scSize ec.n := Hsh.bigBytes_len _ _
  have hl' : (bigBytes (scSize ec.n) (ec.n - beVal curve_secp256k1.x)).length = scSize ec.n := Hsh.bigBytes_len _ _
  have hv : beVal (bigBytes (scSize ec.n) 1) = 1 := by
    rw [Drb.beVal_bigBytes, Nat.mod_eq_of_lt (h1n.trans (scSize_pow _))]
  obtain ⟨sig, param, e1, e2, e3, e4⟩ := h4 (bigBytes (scSize ec.n) (ec.n - beVal curve_secp256k1.x))
  have hp := (ecdsa_privkey_exact ok hl []).1
  rw [hv, decide_eq_true ⟨by omega, h1n⟩] at hp
  refine ⟨ec, _, _, sig, param, h1, hp, e1, fun pub => ?_⟩
  refine (ecdsa_sign_zero oneSource ok (Hsh.bigBytes_len _ _) (by rw [hv]; exact ⟨by omega, h1n⟩) e1 ?_).2.2
  rw [e2, hv, one_mul, Dsa.leftBits_eq (by rw [hl', h2]; exact h3.le), Drb.beVal_bigBytes,
    Nat.mod_eq_of_lt ((Nat.sub_le _ _).trans_lt (scSize_pow _)), Nat.sub_add_cancel e3.le, Nat.mod_self]

/-- The hypotheses of `ecdsa_sign_verify` are met: the signature of the empty message (`s = r` or `n - r`) is accepted. -/
example : letI := Fact.mk (weiDefs_field_prime (d := curve_secp256k1) (by simp [weiDefs]))
    ∃ ec priv pub sig param, wei_curve curve_secp256k1 = .ok ec ∧ ecdsa_pubkey_create ec priv true = .ok (pub, true) ∧
      ecdsa_sign oneSource 1 ec [] priv = .ok (sig, param, true) ∧ ecdsa_verify ec [] sig pub = .ok true ∧
      ecdsa_recover ec [] sig param true = .ok (pub, true) := by
  letI := Fact.mk (weiDefs_field_prime (d := curve_secp256k1) (by simp [weiDefs]))
  obtain ⟨ec, G, h1, ok, h2, h3, h4⟩ := k1_one_signs
  have h1n := ok.prime.one_lt
  have hl : (bigBytes (scSize ec.n) 1).length = scSize ec.n := Hsh.bigBytes_len _ _
  have hv : beVal (bigBytes (scSize ec.n) 1) = 1 := by
    rw [Drb.beVal_bigBytes, Nat.mod_eq_of_lt (h1n.trans (scSize_pow _))]
  obtain ⟨sig, param, e1, e2, e3, e4⟩ := h4 []
  obtain ⟨pub, ret, p1, p2, p3⟩ := ecdsa_pubkey_create_exact ok hl true
  rw [hv] at p2 p3
  obtain rfl := p2.2 ⟨by omega, h1n⟩
  obtain ⟨-, l1, -, -, hfin⟩ := ecdsa_sign_verify oneSource ok hl (by rw [hv]; exact ⟨by omega, h1n⟩) (by rw [hv]; exact (p3 rfl).2) e1
  have h0 : beVal (sig.drop (scSize ec.n)) ≠ 0 := by
    intro h0
    rcases ecdsa_sign_exact oneSource ok 1 [] hl with ⟨e, -⟩ | ⟨i, -, r, s, -, a2, a3, a4⟩
    · rw [e] at e1; cases e1
    generalize ecNonce oneSource.gen ec.n _ i = k at *
    rw [e1, hv, if_pos h1n] at *
    injection a4 with a4
    injection a4 with a4 _
    obtain ⟨s1, s2, s3⟩ := a3
    have hn := ok.prime.pos
    obtain ⟨-, l2, l3⟩ := sig_halves (by rw [s1]; exact Nat.mod_lt _ hn)
      (show (if ec.n / 2 < s then ec.n - s else s) < ec.n by split <;> omega) sig a4
    rw [h0] at l3
    have hs : s = 0 := by split at l3 <;> omega
    rw [hs, ← l2, e2, show leftBits ec.n [] = 0 from by simp [leftBits, beVal_eq, leVal_nil], Nat.zero_mul, Nat.zero_mod, Nat.zero_add,
      one_mul, Nat.mod_eq_of_lt e3] at s3
    exact e4 s3.symm
  obtain ⟨f1, f2⟩ := hfin h0
  refine ⟨ec, _, pub, sig, param, h1, p1, e1, f1, ?_⟩
  rw [f2 true, hv, (p3 rfl).1]

end Torsion
