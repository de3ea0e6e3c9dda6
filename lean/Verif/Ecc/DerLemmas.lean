import Verif.Ecc.EcdsaLemmas
import Verif.Asn1.Props

/-! Lemmas on the DER form of signatures. -/
namespace Torsion.Ecc

open Torsion.Spec Torsion.Asn1

/-- A number with the length and contents octets of the mode. -/
def SigInt (strict : Bool) (v : Nat) (e c : List Byte) : Prop :=
  LenEnc strict c.length e ∧ (strict = true → c = derContent (beVal c)) ∧ beVal c = v

/-- What `ecdsa_decode_der` accepts. -/
def SigDer (strict : Bool) (r s : Nat) (der : List Byte) : Prop :=
  ∃ m enc e1 c1 e2 c2 rest, der = 0x30 :: (enc ++ (2 :: (e1 ++ c1 ++ (2 :: (e2 ++ c2 ++ rest))))) ∧ LenEnc strict m enc ∧
    SigInt strict r e1 c1 ∧ SigInt strict s e2 c2 ∧
    (strict = true → m = (2 :: (e1 ++ c1 ++ (2 :: (e2 ++ c2 ++ rest)))).length ∧ rest = [])

section
variable {fe : FieldCode} [Fact fe.p.Prime] {ec : WeiT fe} {G : Pt ec.toCurve}

theorem decode_der_ok (hn : 0 < ec.n) (der : List Byte) (strict : Bool) :
    ∃ r s b, ecdsa_decode_der ec der strict = .ok (r, s, b) ∧ r < ec.n ∧ s < ec.n ∧
      (b = true ↔ ∃ r s, r < ec.n ∧ s < ec.n ∧ SigDer strict r s der) ∧
      ∀ r' s', r' < ec.n → s' < ec.n → SigDer strict r' s' der → r' = r ∧ s' = s := by
  have fail : ∀ x : C (Nat × Nat × Bool), x = .ok (0, 0, false) →
      (∀ r s, r < ec.n → s < ec.n → SigDer strict r s der → False) →
      ∃ r s b, x = .ok (r, s, b) ∧ r < ec.n ∧ s < ec.n ∧ (b = true ↔ ∃ r s, r < ec.n ∧ s < ec.n ∧ SigDer strict r s der) ∧
        ∀ r' s', r' < ec.n → s' < ec.n → SigDer strict r' s' der → r' = r ∧ s' = s := by
    intro x hx hf
    refine ⟨0, 0, false, hx, hn, hn, ?_, fun r s h1 h2 h3 => (hf r s h1 h2 h3).elim⟩
    simp only [Bool.false_eq_true, false_iff]
    rintro ⟨r, s, h1, h2, h3⟩
    exact hf r s h1 h2 h3
  have fit : ∀ {v : Nat}, v < ec.n → ∃ o : List Byte, o.length = scSize ec.n ∧ beVal o = v := by
    intro v hv
    exact ⟨bigBytes (scSize ec.n) v, Hsh.bigBytes_len _ _, by
      rw [Drb.beVal_bigBytes, Nat.mod_eq_of_lt (hv.trans (scSize_pow _))]⟩
  unfold ecdsa_decode_der
  obtain ⟨⟨st, b0⟩, a1, ⟨d0, a2, -⟩, a3⟩ := read_seq_all strict der
  dsimp only at a2
  subst a2
  rw [show (⟨der, der.length⟩ : Asn1St) = exact der from rfl, a1, C.ok_bind]
  dsimp only
  have seq : ∀ m enc body, der = 0x30 :: (enc ++ body) → LenEnc strict m enc → (strict = true → m = body.length) →
      b0 = true ∧ exact d0 = exact body := by
    intro m enc body h1 h2 h3
    have := (a3 body).2 ⟨m, enc, h1, h2, h3⟩
    injection this with h4 h5
    exact ⟨h5, h4⟩
  have ex : ∀ {x y : List Byte}, exact x = exact y → x = y := fun h => congrArg Asn1St.data h
  cases b0 with
  | false =>
    refine fail _ rfl ?_
    rintro r s - - ⟨m, enc, e1, c1, e2, c2, rest, h1, h2, -, -, h3⟩
    exact absurd (seq _ _ _ h1 h2 fun h => (h3 h).1).1 (by simp)
  | true =>
  obtain ⟨m0, enc0, s1, s2, s3⟩ := (a3 d0).1 rfl
  simp only [Bool.not_true, Bool.false_eq_true, if_false]
  obtain ⟨⟨o1, st1, b1⟩, i1, ⟨d1, i2, -⟩, -, i3⟩ := read_int_all (scSize ec.n) strict d0
  dsimp only at i2
  subst i2
  rw [i1, C.ok_bind]
  dsimp only
  have int1 : ∀ r s, r < ec.n → SigDer strict r s der → b1 = true ∧ beVal o1 = r ∧
      ∃ e2 c2 rest, d1 = 2 :: (e2 ++ c2 ++ rest) ∧ SigInt strict s e2 c2 ∧ (strict = true → rest = []) := by
    rintro r s hr ⟨m, enc, e1, c1, e2, c2, rest, h1, h2, h3, h4, h5⟩
    have hd := ex (seq _ _ _ h1 h2 fun h => (h5 h).1).2
    obtain ⟨o, ho1, ho2⟩ := fit hr
    have := (i3 o (2 :: (e2 ++ c2 ++ rest))).2 ⟨e1, c1, hd, h3.1, h3.2.1, ho1, by rw [ho2, h3.2.2]⟩
    injection this with g1 g2 g3
    exact ⟨g3, by rw [g1, ho2], e2, c2, rest, ex g2, h4, fun h => (h5 h).2⟩
  cases b1 with
  | false =>
    refine fail _ rfl ?_
    intro r s hr hs h
    exact absurd (int1 r s hr h).1 (by simp)
  | true =>
  obtain ⟨e1, c1, t1, t2, t3, t4, t5⟩ := (i3 o1 d1).1 rfl
  simp only [Bool.not_true, Bool.false_eq_true, if_false]
  obtain ⟨⟨o2, st2, b2⟩, j1, ⟨d2, j2, -⟩, -, j3⟩ := read_int_all (scSize ec.n) strict d1
  dsimp only at j2
  subst j2
  rw [j1, C.ok_bind]
  dsimp only
  have int2 : ∀ r s, r < ec.n → s < ec.n → SigDer strict r s der → b2 = true ∧ beVal o1 = r ∧ beVal o2 = s ∧ (strict = true → d2 = []) := by
    intro r s hr hs h
    obtain ⟨-, g1, e2, c2, rest, g2, g3, g4⟩ := int1 r s hr h
    obtain ⟨o, ho1, ho2⟩ := fit hs
    have := (j3 o rest).2 ⟨e2, c2, g2, g3.1, g3.2.1, ho1, by rw [ho2, g3.2.2]⟩
    injection this with k1 k2 k3
    exact ⟨k3, g1, by rw [k1, ho2], fun h => by rw [ex k2, g4 h]⟩
  cases b2 with
  | false =>
    refine fail _ rfl ?_
    intro r s hr hs h
    exact absurd (int2 r s hr hs h).1 (by simp)
  | true =>
  obtain ⟨e2, c2, u1, u2, u3, u4, u5⟩ := (j3 o2 d2).1 rfl
  simp only [Bool.not_true, Bool.false_eq_true, if_false]
  by_cases hst : strict = true ∧ (exact d2).len ≠ 0
  · rw [if_pos hst]
    refine fail _ rfl ?_
    intro r s hr hs h
    apply hst.2
    rw [(int2 r s hr hs h).2.2.2 hst.1]; rfl
  rw [if_neg hst]
  have hnil : strict = true → d2 = [] := by
    intro h
    by_contra hc
    exact hst ⟨h, by rw [show (exact d2).len = d2.length from rfl]; exact fun h => hc (List.length_eq_zero_iff.1 h)⟩
  have all : SigDer strict (beVal o1) (beVal o2) der := by
    refine ⟨m0, enc0, e1, c1, e2, c2, d2, by rw [s1, t1, u1], s2, ⟨t2, t3, t5.symm⟩, ⟨u2, u3, u5.symm⟩, fun h => ⟨?_, hnil h⟩⟩
    rw [s3 h, t1, u1]
  rw [num_import_ok t4.ge, C.ok_bind, List.take_of_length_le t4.le]
  dsimp only
  by_cases hr : beVal o1 < ec.n
  swap
  · rw [decide_eq_false hr]
    refine fail _ rfl ?_
    intro r s h1 h2 h
    exact hr ((int2 r s h1 h2 h).2.1 ▸ h1)
  rw [decide_eq_true hr, if_pos hr, num_import_ok u4.ge, List.take_of_length_le u4.le]
  simp only [Bool.not_true, Bool.false_eq_true, if_false, C.ok_bind]
  by_cases hs : beVal o2 < ec.n
  swap
  · rw [decide_eq_false hs]
    refine fail _ rfl ?_
    intro r s h1 h2 h
    exact hs ((int2 r s h1 h2 h).2.2.1 ▸ h2)
  rw [decide_eq_true hs, if_pos hs]
  refine ⟨_, _, true, rfl, hr, hs, by simp only [true_iff]; exact ⟨_, _, hr, hs, all⟩, ?_⟩
  intro r s h1 h2 h
  obtain ⟨-, q1, q2, -⟩ := int2 r s h1 h2 h
  exact ⟨q1.symm, q2.symm⟩

theorem derContent_len {n v : Nat} (h : v < n) : (derContent v).length ≤ scSize n + 1 := by
  have : (beBytes v).length ≤ scSize n := (beBytes_len_le _ _).2 (h.trans (scSize_pow n))
  unfold derContent
  split
  · simp
  · rename_i c b hb
    rw [hb] at this
    split
    · omega
    · rw [List.length_cons]; omega

theorem derLen_len (n : Nat) (h : n < 2 ^ 32) : (derLen n).length ≤ 5 := by
  unfold derLen
  split
  · simp
  · have : (beBytes n).length ≤ 4 := (beBytes_len_le _ _).2 (by norm_num; omega)
    rw [List.length_cons]; omega

theorem derInt_len {n v : Nat} (h : v < n) (hn : scSize n ≤ 1000) : (derInt v).length ≤ 1100 := by
  have h1 := derContent_len h
  have h2 := derLen_len (derContent v).length (by omega)
  rw [derInt, List.length_cons, List.length_append]
  omega

theorem sig_strict {n r s : Nat} (hr : r < n) (hs : s < n) (hn : scSize n ≤ 1000) (der : List Byte) :
    SigDer true r s der ↔ der = ecdsaDer r s := by
  have l1 := derInt_len hr hn
  have l2 := derInt_len hs hn
  have m1 := derContent_len hr
  have m2 := derContent_len hs
  unfold ecdsaDer
  constructor
  · rintro ⟨m, enc, e1, c1, e2, c2, rest, h1, h2, ⟨h3, h4, h5⟩, ⟨h6, h7, h8⟩, h9⟩
    obtain ⟨g1, rfl⟩ := h9 rfl
    have k1 := h4 rfl
    have k2 := h7 rfl
    rw [h5] at k1
    rw [h8] at k2
    have g2 : enc = derLen m := (by simpa [LenEnc] using h2 : m < 2 ^ 32 ∧ enc = derLen m).2
    have g3 : e1 = derLen c1.length := (by simpa [LenEnc] using h3 : c1.length < 2 ^ 32 ∧ e1 = derLen c1.length).2
    have g4 : e2 = derLen c2.length := (by simpa [LenEnc] using h6 : c2.length < 2 ^ 32 ∧ e2 = derLen c2.length).2
    have body : 2 :: (e1 ++ c1 ++ (2 :: (e2 ++ c2 ++ []))) = derInt r ++ derInt s := by
      rw [g3, g4, k1, k2, derInt, derInt]; simp
    rw [h1, body, g2, g1, body]
  · intro h
    refine ⟨(derInt r ++ derInt s).length, derLen (derInt r ++ derInt s).length, derLen (derContent r).length, derContent r,
      derLen (derContent s).length, derContent s, [], ?_, ?_, ⟨?_, ?_, beVal_derContent _⟩, ⟨?_, ?_, beVal_derContent _⟩, ?_⟩
    · rw [h]; conv_lhs => rw [derInt, derInt]
      conv_rhs => rw [derInt, derInt]
      simp
    · rw [LenEnc, if_pos rfl]
      exact ⟨by rw [List.length_append]; omega, rfl⟩
    · rw [LenEnc, if_pos rfl]
      exact ⟨by omega, rfl⟩
    · intro _; rw [beVal_derContent]
    · rw [LenEnc, if_pos rfl]
      exact ⟨by omega, rfl⟩
    · intro _; rw [beVal_derContent]
    · intro _
      refine ⟨?_, rfl⟩
      congr 1
      rw [derInt, derInt]; simp

theorem sig_lax (r s : Nat) (der : List Byte) : SigDer false r s der ↔ EcdsaBer r s der := by
  simp only [SigDer, SigInt, LenEnc, EcdsaBer, Bool.false_eq_true, if_false, false_imp_iff, true_and, and_true]
  constructor
  · rintro ⟨m, enc, e1, c1, e2, c2, rest, h1, h2, ⟨h3, h4⟩, ⟨h5, h6⟩⟩
    exact ⟨m, enc, e1, c1, e2, c2, rest, h1, h2, h3, h5, h4, h6⟩
  · rintro ⟨m, enc, e1, c1, e2, c2, rest, h1, h2, h3, h5, h4, h6⟩
    exact ⟨m, enc, e1, c1, e2, c2, rest, h1, h2, ⟨h3, h4⟩, ⟨h5, h6⟩⟩

theorem encode_der_ok (hn : scSize ec.n ≤ 1000) {r s : Nat} (hr : r < ec.n) (hs : s < ec.n) :
    ecdsa_encode_der ec r s = .ok (ecdsaDer r s) := by
  have l1 := derInt_len hr hn
  have l2 := derInt_len hs hn
  have m1 := derContent_len hr
  have m2 := derContent_len hs
  have v : ∀ v, v < ec.n → beVal (num_export ec.n v) = v := by
    intro v hv
    rw [num_export, Drb.beVal_bigBytes, Nat.mod_eq_of_lt (hv.trans (scSize_pow _))]
  unfold ecdsa_encode_der
  dsimp only
  rw [size_int_eq (by rw [v r hr]; omega), size_int_eq (by rw [v s hs]; omega), v r hr, v s hs, asn1_write_seq_spec,
    if_pos (by omega), C.ok_bind, asn1_write_int_spec, if_pos (by rw [v r hr]; omega), C.ok_bind, asn1_write_int_spec,
    if_pos (by rw [v s hs]; omega), C.ok_bind, v r hr, v s hs, ecdsaDer, List.length_append]
  rfl

end

end Torsion.Ecc
