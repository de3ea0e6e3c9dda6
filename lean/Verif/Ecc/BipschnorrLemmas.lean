import Verif.Ecc.BatchLemmas

/-! Lemmas on the older Schnorr signatures. -/
namespace Torsion.Ecc

open Torsion.Spec
open WeierstrassCurve.Affine (Point)

/-! ### Squares -/

/-- The root which is computed is a square itself if the prime is three modulo four. -/
theorem sqrt_square {F : Type} [Field F] [DecidableEq F] [Fintype F] (fe : FieldCode) (hfe : fe ∈ fieldCodes)
    (h4 : fe.p % 4 = 3) (a : F) : ∃ r ok, fe_sqrt fe 0 0 a = .ok (r, ok) ∧ (IsSquare a → IsSquare r) := by
  have h : ∀ q ∈ [(field_p192.p, p192_fe_sqrt), (field_p256.p, p256_fe_sqrt), (field_p384.p, p384_fe_sqrt),
      (field_p521.p, p521_fe_sqrt), (field_secp256k1.p, secp256k1_fe_sqrt), (field_p448.p, p448_fe_sqrt),
      (field_p251.p, p251_fe_sqrt)],
      sqrtExp q.2 0 0 = (some ((q.1 + 1) / 4), some ((q.1 + 1) / 4 * 2), some 1) := by
    decide +kernel
  have k : ∀ q ∈ [(field_p192.p, p192_fe_sqrt), (field_p256.p, p256_fe_sqrt), (field_p384.p, p384_fe_sqrt),
      (field_p521.p, p521_fe_sqrt), (field_secp256k1.p, secp256k1_fe_sqrt), (field_p448.p, p448_fe_sqrt),
      (field_p251.p, p251_fe_sqrt)], ∃ r ok, runSqrt q.2 0 0 a = .ok (r, ok) ∧ (IsSquare a → IsSquare r) := by
    intro q hq
    exact ⟨_, _, runSqrt_pow (h q hq) a, fun hs => hs.pow _⟩
  simp only [fieldCodes, List.mem_cons, List.not_mem_nil, or_false] at hfe
  rcases hfe with rfl | rfl | rfl | rfl | rfl | rfl | rfl | rfl | rfl
  · exact k _ (List.mem_cons_self ..)
  · exact absurd h4 (by decide +kernel)
  · exact k (field_p256.p, p256_fe_sqrt) (by simp)
  · exact k (field_p384.p, p384_fe_sqrt) (by simp)
  · exact k (field_p521.p, p521_fe_sqrt) (by simp)
  · exact k (field_secp256k1.p, secp256k1_fe_sqrt) (by simp)
  · exact absurd h4 (by decide +kernel)
  · exact k (field_p448.p, p448_fe_sqrt) (by simp)
  · exact k (field_p251.p, p251_fe_sqrt) (by simp)

theorem limbsOf_len : ∀ k v, (limbsOf k v).length = k
  | 0, _ => rfl
  | k + 1, v => by rw [limbsOf, List.length_cons, limbsOf_len k]

theorem limbsOf_val : ∀ k v, Spec.val (limbsOf k v) = v % (2 ^ 64) ^ k
  | 0, v => by simp [limbsOf, Spec.val, Nat.mod_one]
  | k + 1, v => by
    rw [limbsOf, Mpi.val_cons, limbsOf_val k, BitVec.toNat_ofNat, pow_succ' (2 ^ 64) k, Nat.mod_mul]

section
variable {fe : FieldCode} [Fact fe.p.Prime] {ec : WeiT fe} {G : Pt ec.toCurve} {xof : HashId}

theorem limbs_pow : fe.p < (2 ^ 64) ^ ((feBits fe + 63) / 64) := by
  refine (Nat.lt_size_self _).trans_le ?_
  rw [← Nat.pow_mul]
  exact Nat.pow_le_pow_right (by norm_num) (by unfold feBits; omega)

theorem is_square_var_ok (ok : EcOk ec G) {x : ZMod fe.p} (hx : x ≠ 0) :
    ∃ b, fe_is_square_var fe x = .ok b ∧ (b = true ↔ IsSquare x) := by
  have hp0 : 0 < fe.p.size := Nat.size_pos.2 (Nat.Prime.pos Fact.out)
  have hv : ∀ v < fe.p + 1, Spec.val (limbsOf ((feBits fe + 63) / 64) v) = v := fun v h => by
    rw [limbsOf_val, Nat.mod_eq_of_lt (by have := limbs_pow (fe := fe); omega)]
  have hnorm : Mpi.Norm (limbsOf ((feBits fe + 63) / 64) fe.p) := by
    intro hc
    obtain ⟨k, hk⟩ : ∃ k, (feBits fe + 63) / 64 = k + 1 := ⟨(feBits fe + 63) / 64 - 1, by unfold feBits; omega⟩
    have hl := limbsOf_len ((feBits fe + 63) / 64) fe.p
    have hval := hv fe.p (by omega)
    generalize limbsOf ((feBits fe + 63) / 64) fe.p = l at *
    have hne : l ≠ [] := by rintro rfl; simp at hc
    rw [← List.dropLast_append_getLast hne, List.getLast?_concat, Option.some.injEq] at hc
    rw [← List.dropLast_append_getLast hne, Mpi.val_append, hc] at hval
    have hlt := Mpi.val_lt l.dropLast
    rw [List.length_dropLast, hl, hk, Nat.add_sub_cancel] at hlt
    have h2 : 2 ^ (fe.p.size - 1) ≤ fe.p := by
      by_contra h
      have := Nat.size_le.2 (not_le.1 h)
      omega
    have h3 : 2 ^ (64 * k) ≤ 2 ^ (fe.p.size - 1) := by
      exact Nat.pow_le_pow_right (by norm_num) (by unfold feBits at hk; omega)
    rw [show Spec.val [(0 : Limb)] = 0 from rfl, Nat.mul_zero, Nat.add_zero] at hval
    omega
  unfold fe_is_square_var mpn_jacobi_n
  have hj := Mpi.jacobi_val (Mpi.strip_norm (fe_get_limbs fe x)) hnorm (by rw [hv _ (by omega)]; exact p_odd ok)
    ((Mpi.strip_len _).trans (by rw [fe_get_limbs, limbsOf_len, limbsOf_len]))
  rw [Mpi.strip_val, hv _ (by omega), fe_get_limbs, hv _ (by have := x.val_lt; omega)] at hj
  rw [fe_get_limbs, hj, C.ok_bind]
  refine ⟨_, rfl, ?_⟩
  rw [decide_eq_true_iff, ← jacobiSym.legendreSym.to_jacobiSym]
  have hx' : (((x.val : Nat) : Int) : ZMod fe.p) ≠ 0 := by
    rw [Int.cast_natCast, ZMod.natCast_val, ZMod.cast_id', id]; exact hx
  have key := legendreSym.eq_one_iff fe.p hx'
  rw [show (((x.val : Nat) : Int) : ZMod fe.p) = x by rw [Int.cast_natCast, ZMod.natCast_val, ZMod.cast_id', id]] at key
  rw [← key]
  rcases legendreSym.eq_one_or_neg_one fe.p hx' with h | h <;> rw [h] <;> decide

/-! ### Points with a square ordinate -/

theorem is_square_ok (ok : EcOk ec G) (P : Pt ec.toCurve) : ∃ b, wge_is_square ec (affine P) = .ok b ∧ (b = true ↔ SquarePt P) := by
  obtain ⟨b, e, h⟩ := fe_is_square_exact fe ok.field (ZMod.card fe.p) (affine P).y
  unfold wge_is_square
  rw [e, C.ok_bind]
  refine ⟨_, rfl, ?_⟩
  rw [Bool.and_eq_true, h, SquarePt]
  rcases P with _ | ⟨x, y, hp⟩
  · rw [← Point.zero_def, aff_zero]; simp
  · rw [aff_some]
    simp

theorem jge_is_square_ok (ok : EcOk ec G) {P : Pt ec.toCurve} {j : Jge (ZMod fe.p)} (hj : Jac j P) :
    ∃ b, jge_is_square_var ec j = .ok b ∧ (b = true ↔ SquarePt P) := by
  unfold jge_is_square_var
  rcases P with _ | ⟨x, y, hp⟩
  · rw [show j = ⟨1, 1, 0, true, false⟩ from hj]
    refine ⟨false, rfl, ?_⟩
    simp [SquarePt, Point.zero_def]
  · obtain ⟨h1, h2, h3, h4, -⟩ := hj
    rw [h1, if_neg (by simp), h4]
    have hy := ord_ne ok (onc hp)
    have hne : (Point.some x y hp : Pt ec.toCurve) ≠ 0 := Point.some_ne_zero hp
    obtain ⟨b, e1, e2⟩ := is_square_var_ok ok (x := y * j.z ^ 3 * j.z) (mul_ne_zero (mul_ne_zero hy (pow_ne_zero _ h2)) h2)
    refine ⟨b, e1, ?_⟩
    rw [e2, SquarePt, aff_some]
    simp only [ne_eq, hne, not_false_eq_true, true_and]
    have hz : j.z ^ 2 ≠ 0 := pow_ne_zero _ h2
    constructor
    · rintro ⟨w, hw⟩
      refine ⟨w / j.z ^ 2, ?_⟩
      field_simp
      linear_combination hw
    · rintro ⟨w, hw⟩
      exact ⟨w * j.z ^ 2, by rw [hw]; ring⟩

theorem jge_equal_x_ok {P : Pt ec.toCurve} (h0 : P ≠ 0) {j : Jge (ZMod fe.p)} (hj : Jac j P) (r : ZMod fe.p) :
    jge_equal_x j r = decide ((affine P).x = r) := by
  rcases P with _ | ⟨x, y, hp⟩
  · exact absurd rfl h0
  · obtain ⟨h1, h2, h3, h4, -⟩ := hj
    rw [jge_equal_x, h1, h3, aff_some, fe_equal]
    simp only [Bool.not_false, Bool.and_true, decide_eq_decide]
    rw [← pow_two, mul_comm (j.z ^ 2)]
    exact mul_left_inj' (pow_ne_zero _ h2)

theorem neg_one_nonsquare (h4 : fe.p % 4 = 3) {y : ZMod fe.p} (hy : y ≠ 0) : IsSquare (-y) ↔ ¬ IsSquare y := by
  have hm : ¬ IsSquare (-1 : ZMod fe.p) := by
    rw [ZMod.exists_sq_eq_neg_one_iff]; omega
  constructor
  · intro h1 h2
    apply hm
    have := h1.div h2
    rwa [neg_div, div_self hy] at this
  · intro h
    have hc : ringChar (ZMod fe.p) ≠ 2 := by
      rw [ZMod.ringChar_zmod_n]; omega
    have q1 := quadraticChar_neg_one_iff_not_isSquare.2 h
    have q2 := quadraticChar_neg_one_iff_not_isSquare.2 hm
    rw [← quadraticChar_one_iff_isSquare (neg_ne_zero.2 hy), neg_eq_neg_one_mul, map_mul, q1, q2]
    rfl

theorem square_neg (ok : EcOk ec G) (h4 : fe.p % 4 = 3) {P : Pt ec.toCurve} (h0 : P ≠ 0) : SquarePt (-P) ↔ ¬ SquarePt P := by
  rcases P with _ | ⟨x, y, h⟩
  · exact absurd rfl h0
  have e1 : (affine (-(Point.some x y h) : Pt ec.toCurve)).y = -y := by
    rw [← (wge_neg_exact _ true).1]; rfl
  have hn : (-(Point.some x y h) : Pt ec.toCurve) ≠ 0 := neg_ne_zero.2 h0
  rw [SquarePt, SquarePt, e1, aff_some]
  simp only [ne_eq, h0, hn, not_false_eq_true, true_and]
  exact neg_one_nonsquare h4 (ord_ne ok (onc h))

theorem square_inj (ok : EcOk ec G) (h4 : fe.p % 4 = 3) {P Q : Pt ec.toCurve} (hP : SquarePt P) (hQ : SquarePt Q)
    (h : absc P = absc Q) : P = Q := by
  rcases P with _ | ⟨x, y, hx⟩
  · exact absurd rfl hP.1
  rcases Q with _ | ⟨x', y', hx'⟩
  · exact absurd rfl hQ.1
  have e : x = x' := ZMod.val_injective _ h
  subst e
  have hf : (y - y') * (y + y') = 0 := by linear_combination onc hx - onc hx'
  rcases mul_eq_zero.1 hf with hc | hc
  · have := sub_eq_zero.1 hc
    subst this
    rfl
  · exfalso
    have hy : y' = -y := by linear_combination hc
    subst hy
    exact (neg_one_nonsquare h4 (ord_ne ok (onc hx))).1 hQ.2 hP.2

theorem square_key (ok : EcOk ec G) (h4 : fe.p % 4 = 3) {a : Nat} (h0 : 0 < a) (ha : a < ec.n) {b : Bool}
    (hb : b = true ↔ SquarePt (a • G)) :
    num_neg_cond ec.n a (!b) = squareKey G ec.n a ∧ squareKey G ec.n a < ec.n ∧
    SquarePt (squareKey G ec.n a • G) ∧ absc (squareKey G ec.n a • G) = absc (a • G) := by
  have hne := key_ne ok h0 ha
  unfold squareKey num_neg_cond num_neg
  by_cases h : SquarePt (a • G)
  · rw [if_pos h, hb.2 h]
    exact ⟨rfl, ha, h, rfl⟩
  · rw [if_neg h, Bool.eq_false_iff.2 (fun hc => h (hb.1 hc))]
    refine ⟨?_, by omega, ?_, ?_⟩
    · simp only [Bool.not_false, if_true]
      exact Nat.mod_eq_of_lt (by omega)
    · rw [neg_smul_n ok ha.le]; exact (square_neg ok h4 hne).2 h
    · rw [neg_smul_n ok ha.le, absc_neg]

theorem import_square_ok (ok : EcOk ec G) (h4 : fe.p % 4 = 3) {raw : List Byte} (h : feSize fe ≤ raw.length) :
    (∃ Q : Pt ec.toCurve, SquarePt Q ∧ raw.take (feSize fe) = xBytes Q ∧ wge_import_square ec raw = .ok (affine Q, true)) ∨
    ∃ Q : Pt ec.toCurve, wge_import_square ec raw = .ok (affine Q, false) ∧
      ∀ P : Pt ec.toCurve, P ≠ 0 → raw.take (feSize fe) ≠ xBytes P := by
  obtain ⟨x, b, h1, h2, h3⟩ := fe_import_iff fe h
  obtain ⟨Q, c, g1, g2, g3, g4⟩ := set_x_ok ok x none
  obtain ⟨r, o, s1, s2⟩ := sqrt_square fe ok.field h4 (wei_solve_y2 ec.toCurve x)
  have hroot : c = true → (affine Q).y = r := by
    rintro rfl
    have := g1
    unfold wge_set_x at this
    dsimp only at this
    rw [s1, C.ok_bind] at this
    dsimp only at this
    rw [C.pure_eq] at this
    injection this with this
    injection this with t1 t2
    subst t2
    rw [← t1]
    rfl
  unfold wge_import_square
  rw [h1, C.ok_bind]
  dsimp only
  rw [g1, C.ok_bind]
  have back : ∀ P : Pt ec.toCurve, P ≠ 0 → raw.take (feSize fe) = xBytes P → b = true ∧ c = true := by
    rintro (_ | ⟨u, v, hp⟩) hP hr
    · exact absurd rfl hP
    · obtain ⟨e1, rfl⟩ := h3 u hr
      exact ⟨e1, g2.2 ⟨v, by rw [← onc hp, pow_two]⟩⟩
  cases b with
  | false => exact Or.inr ⟨Q, rfl, fun P h0 hP => by have := (back P h0 hP).1; cases this⟩
  | true =>
  cases c with
  | false => exact Or.inr ⟨Q, rfl, fun P h0 hP => by have := (back P h0 hP).2; cases this⟩
  | true =>
    obtain ⟨y, hy, rfl, -⟩ := g3 rfl
    refine Or.inl ⟨_, ⟨Point.some_ne_zero hy, ?_⟩, h2.1 rfl, rfl⟩
    rw [hroot rfl]
    apply s2
    rw [solve_y2]
    exact g2.1 rfl

/-! ### Hashes -/

theorem sec1_short_len (A : Pt ec.toCurve) : (sec1Out A true).length = feSize fe + 1 := by
  rcases A with _ | ⟨x, y, h⟩
  · simp only [sec1Out, if_true, sec1Short, List.length_cons, Hsh.bigBytes_len]; rfl
  · simp only [sec1Out, if_true, sec1Short, List.length_cons, Hsh.bigBytes_len]; rfl

theorem bip_nonce_ok (hx : XofOk xof ec.n) (hn : 0 < ec.n) (junk : Nat → Byte) {priv msg : List Byte} (hl : priv.length = scSize ec.n)
    (hm : msg.length < 2 ^ 64) : bipschnorr_hash_nonce junk xof ec priv msg = .ok (schnorrNonce xof ec.n priv msg) := by
  obtain ⟨h, e1, r1⟩ := Hsh.rep_init junk xof (xof_known hx)
  have hs : scSize ec.n < 2 ^ 64 := by have := hx.short; unfold scSize; omega
  obtain ⟨h2, e2, r2⟩ := upd r1 (d := priv) (by omega)
  obtain ⟨h3, e3, r3⟩ := upd r2 hm
  unfold bipschnorr_hash_nonce
  rw [e1, C.ok_bind, slice_take hl.ge, C.ok_bind, List.take_of_length_le hl.le, e2, C.ok_bind, e3, C.ok_bind,
    hash_scalar_ok hx hn junk r3, schnorrNonce]
  simp only [List.nil_append]

theorem bip_challenge_ok (hx : XofOk xof ec.n) (hn : 0 < ec.n) (junk : Nat → Byte) {r pub msg : List Byte}
    (hr : feSize fe ≤ r.length) (hp : pub.length = feSize fe + 1) (hz : feSize fe + 1 < 2 ^ 64) (hm : msg.length < 2 ^ 64) :
    bipschnorr_hash_challenge junk xof ec r pub msg = .ok (schnorrE xof ec.n (r.take (feSize fe)) pub msg) := by
  obtain ⟨h, e1, r1⟩ := Hsh.rep_init junk xof (xof_known hx)
  obtain ⟨h2, e2, r2⟩ := upd r1 (d := r.take (feSize fe)) (by rw [List.length_take]; omega)
  obtain ⟨h3, e3, r3⟩ := upd r2 (d := pub) (by omega)
  obtain ⟨h4, e4, r4⟩ := upd r3 hm
  unfold bipschnorr_hash_challenge
  rw [e1, C.ok_bind, slice_take hr, C.ok_bind, slice_take hp.ge, C.ok_bind, List.take_of_length_le hp.le, e2, C.ok_bind, e3, C.ok_bind,
    e4, C.ok_bind, hash_scalar_ok hx hn junk r4, schnorrE]
  simp only [List.nil_append]

/-! ### Signing and verifying -/

theorem bipschnorr_sign_ok (ok : EcOk ec G) (h4 : fe.p % 4 = 3) (hx : XofOk xof ec.n) (hz : feSize fe + 1 < 2 ^ 64) (junk : Nat → Byte)
    {msg priv : List Byte} (hm : msg.length < 2 ^ 64) (hl : priv.length = scSize ec.n) :
    ∃ out ret, bipschnorr_sign junk xof ec msg priv = .ok (out, ret) ∧
      (ret = true ↔ (0 < beVal priv ∧ beVal priv < ec.n) ∧ schnorrNonce xof ec.n priv msg ≠ 0) ∧
      (ret = true → out = schnorrSigned xof G ec.n (beVal priv) (schnorrNonce xof ec.n priv msg) msg) := by
  have hn := ok.prime.pos
  obtain ⟨a, b, h1, h2, h3, h4', h5⟩ := key_ok ok hl.ge
  rw [List.take_of_length_le hl.le] at h3 h4' h5
  unfold bipschnorr_sign
  rw [h1, C.ok_bind]
  dsimp only
  rw [(wei_mul_g_exact ok.wei a).2, C.ok_bind, bip_nonce_ok hx hn junk hl hm, C.ok_bind, (wei_mul_g_exact ok.wei _).2, C.ok_bind]
  obtain ⟨q, q1, q2⟩ := is_square_ok ok (schnorrNonce xof ec.n priv msg • G)
  rw [q1, C.ok_bind, export_x_out, export_out]
  dsimp only
  rw [bip_challenge_ok hx hn junk (xBytes_len _).ge (sec1_short_len _) hz hm, C.ok_bind, List.take_of_length_le (xBytes_len _).le]
  refine ⟨_, _, rfl, ?_⟩
  cases b with
  | false =>
    simp only [Bool.false_and, Bool.false_eq_true, false_iff, IsEmpty.forall_iff, and_true]
    rintro ⟨hc, -⟩
    exact absurd (h3.2 hc) (by simp)
  | true =>
    obtain ⟨p1, p2⟩ := h3.1 rfl
    obtain rfl := h4' p2
    have hlt : schnorrNonce xof ec.n priv msg < ec.n := digestScalar_lt hn _
    generalize schnorrNonce xof ec.n priv msg = k at *
    have hne := key_ne ok p1 p2
    simp only [Bool.true_and, Bool.and_eq_true, decide_eq_true_iff, bne_iff_ne]
    refine ⟨⟨fun h => ⟨⟨p1, p2⟩, h.1.1⟩, fun h => ⟨⟨h.2, key_ne ok (by omega) hlt⟩, hne⟩⟩, fun h => ?_⟩
    obtain ⟨r1, -⟩ := square_key ok h4 (show 0 < k by omega) hlt q2
    rw [r1, schnorrSigned, schnorrSig]
    congr 1
    rw [num_export, show scSize ec.n = (ec.n.size + 7) / 8 from rfl]
    congr 1
    rw [Nat.mod_add_mod, Nat.add_comm]

theorem bipschnorr_verify_ok (ok : EcOk ec G) (hx : XofOk xof ec.n) (hz : feSize fe + 1 < 2 ^ 64) (junk : Nat → Byte)
    {msg sig : List Byte} (pub : List Byte) (hm : msg.length < 2 ^ 64) (hl : sig.length = feSize fe + scSize ec.n) :
    ∃ ret, bipschnorr_verify junk xof ec msg sig pub = .ok ret ∧ (ret = true ↔ SchnorrValid xof G ec.n msg sig pub) := by
  have hn := ok.prime.pos
  obtain ⟨r, b1, e1, i1⟩ := import_x_ok (ec := ec) (sig := sig) (by omega)
  have hdl : (sig.drop (feSize fe)).length = scSize ec.n := by rw [List.length_drop]; omega
  obtain ⟨s, b2, e2, l2, i2, j2, -⟩ := num_import_lt (xp := sig.drop (feSize fe)) hn hdl.ge
  rw [List.take_of_length_le hdl.le] at i2 j2
  unfold bipschnorr_verify
  rw [e1, C.ok_bind]
  dsimp only
  cases b1 with
  | false =>
    refine ⟨false, rfl, ?_⟩
    simp only [Bool.false_eq_true, false_iff]
    rintro ⟨A, R, s', -, hR, hs, he, -⟩
    have := (i1 R hR.1).2 ((sig_split hl hs).1 he).1
    exact absurd this.1 (by simp)
  | true =>
  simp only [Bool.not_true, Bool.false_eq_true, if_false]
  rw [e2, C.ok_bind]
  dsimp only
  cases b2 with
  | false =>
    refine ⟨false, rfl, ?_⟩
    simp only [Bool.false_eq_true, false_iff]
    rintro ⟨A, R, s', -, hR, hs, he, -⟩
    have := ((sig_split hl hs).1 he).2
    exact absurd (i2.2 (this ▸ hs)) (by simp)
  | true =>
  simp only [Bool.not_true, Bool.false_eq_true, if_false]
  obtain rfl := j2 rfl
  rcases import_cases ok pub with ⟨A, q1, q2, q3⟩ | ⟨A, q1, q2⟩
  swap
  · rw [q1, C.ok_bind]
    refine ⟨false, rfl, ?_⟩
    simp only [Bool.false_eq_true, false_iff]
    rintro ⟨A', R, s', hA, -⟩
    exact q2 A' hA
  rw [q2, C.ok_bind]
  simp only [Bool.not_true, Bool.false_eq_true, if_false]
  rw [export_out, decide_eq_true (sec1_ne q1)]
  dsimp only
  rw [show C.check true = .ok () from rfl, C.ok_bind, bip_challenge_ok hx hn junk (by omega) (sec1_short_len _) hz hm, C.ok_bind]
  have he : schnorrE xof ec.n (sig.take (feSize fe)) (sec1Out A true) msg < ec.n := digestScalar_lt hn _
  have hne : num_neg ec.n (schnorrE xof ec.n (sig.take (feSize fe)) (sec1Out A true) msg) < ec.n := Nat.mod_lt _ hn
  obtain ⟨j, g1, g2⟩ := (wei_mul_double_exact ok.wei A (Or.inr (ok.all A)) l2 hne).1
  rw [g1, C.ok_bind]
  rw [num_neg_smul ok he] at g2
  generalize hR : beVal (sig.drop (feSize fe)) • G + -(schnorrE xof ec.n (sig.take (feSize fe)) (sec1Out A true) msg • A) = R at *
  have hval : SchnorrValid xof G ec.n msg sig pub ↔ SquarePt R ∧ (affine R).x = r := by
    constructor
    · rintro ⟨A', R', s', hA, hR', hs, hsig, heq⟩
      obtain rfl := q3 A' hA
      obtain ⟨u1, u2⟩ := (sig_split hl hs).1 hsig
      rw [← u2, ← u1, sum_iff, hR] at heq
      subst heq
      exact ⟨hR', ((i1 R hR'.1).2 u1).2⟩
    · rintro ⟨hE, hr⟩
      have hr' := (i1 R hE.1).1 ⟨rfl, hr⟩
      refine ⟨A, R, _, q1, hE, l2, (sig_split hl l2).2 ⟨hr', rfl⟩, ?_⟩
      rw [← hr', sum_iff, hR]
  rw [hval]
  obtain ⟨b, w1, w2⟩ := jge_is_square_ok ok g2
  rw [w1, C.ok_bind]
  cases b with
  | false =>
    refine ⟨false, rfl, ?_⟩
    simp only [Bool.false_eq_true, false_iff]
    rintro ⟨hc, -⟩
    exact absurd (w2.2 hc) (by simp)
  | true =>
  have hE := w2.1 rfl
  rw [jge_equal_x_ok hE.1 g2]
  by_cases hc : (affine R).x = r
  · rw [decide_eq_true hc]
    exact ⟨true, rfl, by simp [hE, hc]⟩
  · rw [decide_eq_false hc]
    exact ⟨false, rfl, by simp [hc]⟩

theorem schnorr_signed_valid (ok : EcOk ec G) (h4 : fe.p % 4 = 3) {d k : Nat} (hd : 0 < d ∧ d < ec.n) (hk : 0 < k ∧ k < ec.n)
    (msg : List Byte) {pub : List Byte} (hp : Sec1 (d • G) pub) :
    SchnorrValid xof G ec.n msg (schnorrSigned xof G ec.n d k msg) pub := by
  obtain ⟨b, -, hb⟩ := is_square_ok ok (k • G)
  obtain ⟨-, k2, k3, k4⟩ := square_key ok h4 hk.1 hk.2 hb
  have ex : xBytes (squareKey G ec.n k • G) = xBytes (k • G) := by rw [xBytes, xBytes, k4]
  refine ⟨d • G, squareKey G ec.n k • G,
    (squareKey G ec.n k + schnorrE xof ec.n (xBytes (k • G)) (sec1Out (d • G) true) msg * d) % ec.n, hp, k3,
    Nat.mod_lt _ ok.prime.pos, ?_, ?_⟩
  · exact congrArg₂ (· ++ ·) ex.symm rfl
  · rw [ex, ← mul_nsmul', ← add_nsmul]
    exact smul_cast ok (by rw [ZMod.natCast_mod]) G

/-! ### Batches -/

theorem schnorr_valid_defect {msg sig pub : List Byte} :
    SchnorrValid xof G ec.n msg sig pub ↔ SchnorrDefect xof G ec.n msg sig pub 0 := by
  unfold SchnorrValid SchnorrDefect
  simp only [eq_comm (a := (0 : Pt ec.toCurve)), sub_eq_zero]

theorem sec1_uniq (ok : EcOk ec G) {P Q : Pt ec.toCurve} {raw : List Byte} (h1 : Sec1 P raw) (h2 : Sec1 Q raw) : P = Q := by
  rcases import_cases ok raw with ⟨R, -, -, h⟩ | ⟨-, -, h⟩
  · rw [h P h1, h Q h2]
  · exact absurd h1 (h P)

theorem schnorr_defect_unique (ok : EcOk ec G) (h4 : fe.p % 4 = 3) {msg sig pub : List Byte} {D D' : Pt ec.toCurve}
    (h : SchnorrDefect xof G ec.n msg sig pub D) (h' : SchnorrDefect xof G ec.n msg sig pub D') : D = D' := by
  obtain ⟨A, R, s, a1, a2, a3, a4, rfl⟩ := h
  obtain ⟨A', R', s', b1, b2, b3, b4, rfl⟩ := h'
  obtain ⟨e1, rfl⟩ := schnorrSig_inj a3 b3 (a4.symm.trans b4)
  obtain rfl := square_inj ok h4 a2 b2 (xBytes_inj e1)
  obtain rfl := sec1_uniq ok a1 b1
  rfl

theorem bipschnorr_item_ok (ok : EcOk ec G) (h4 : fe.p % 4 = 3) (hx : XofOk xof ec.n) (hz : feSize fe + 1 < 2 ^ 64) (junk : Nat → Byte)
    {msg sig : List Byte} (pub : List Byte) (hm : msg.length < 2 ^ 64) (hl : sig.length = feSize fe + scSize ec.n) :
    (bipschnorr_item junk xof ec (msg, sig, pub) = .ok none ∧ ∀ D, ¬ SchnorrDefect xof G ec.n msg sig pub D) ∨
    ∃ s e, ∃ R A : Pt ec.toCurve, bipschnorr_item junk xof ec (msg, sig, pub) = .ok (some ⟨s, affine R, affine A, e⟩) ∧
      s < ec.n ∧ e < ec.n ∧ SchnorrDefect xof G ec.n msg sig pub (s • G - (R + e • A)) := by
  have hn := ok.prime.pos
  have hdl : (sig.drop (feSize fe)).length = scSize ec.n := by rw [List.length_drop]; omega
  obtain ⟨s, b2, e2, l2, i2, j2, -⟩ := num_import_lt (xp := sig.drop (feSize fe)) hn hdl.ge
  rw [List.take_of_length_le hdl.le] at i2 j2
  unfold bipschnorr_item
  dsimp only
  rw [e2, C.ok_bind]
  dsimp only
  cases b2 with
  | false =>
    refine Or.inl ⟨rfl, ?_⟩
    rintro D ⟨A, R, s', -, hR, hs, he, -⟩
    have := ((sig_split hl hs).1 he).2
    exact absurd (i2.2 (this ▸ hs)) (by simp)
  | true =>
  obtain rfl := j2 rfl
  simp only [Bool.not_true, Bool.false_eq_true, if_false]
  rcases import_square_ok ok h4 (raw := sig) (by omega) with ⟨R, r1, r2, r3⟩ | ⟨R, r1, r2⟩
  swap
  · rw [r1, C.ok_bind]
    refine Or.inl ⟨rfl, ?_⟩
    rintro D ⟨A', R', s', -, hR, hs, he, -⟩
    exact r2 R' hR.1 ((sig_split hl hs).1 he).1
  rw [r3, C.ok_bind]
  simp only [Bool.not_true, Bool.false_eq_true, if_false]
  rcases import_cases ok pub with ⟨A, q1, q2, q3⟩ | ⟨A, q1, q2⟩
  swap
  · rw [q1, C.ok_bind]
    refine Or.inl ⟨rfl, ?_⟩
    rintro D ⟨A', R', s', hA, -⟩
    exact q2 A' hA
  rw [q2, C.ok_bind]
  simp only [Bool.not_true, Bool.false_eq_true, if_false]
  rw [export_out, decide_eq_true (sec1_ne q1)]
  dsimp only
  rw [show C.check true = .ok () from rfl, C.ok_bind, bip_challenge_ok hx hn junk (by omega) (sec1_short_len _) hz hm, C.ok_bind]
  refine Or.inr ⟨_, _, R, A, rfl, l2, digestScalar_lt hn _, A, R, _, q1, r1, l2, (sig_split hl l2).2 ⟨r2, rfl⟩, ?_⟩
  rw [r2]

theorem quick_ok (pub : List Byte) : bipschnorr_quick fe pub = .ok (quickKey fe pub) ∧ (quickKey fe pub).length = feSize fe + 1 := by
  have hpos := feSize_pos fe
  unfold bipschnorr_quick quickKey
  rw [show (fe.p.size + 7) / 8 = feSize fe from rfl]
  split
  · rename_i h; exact ⟨rfl, h⟩
  · split
    · rename_i h
      have h1 : pub.length - 1 < pub.length := by omega
      rw [C.rd, List.getElem?_eq_getElem h1]
      simp only [C.ok_bind]
      rw [C.slice, if_pos (by omega), C.ok_bind]
      refine ⟨?_, ?_⟩
      · rw [List.getLastD_eq_getLast?, List.getLast?_eq_getElem?, List.getElem?_eq_getElem h1]
        rfl
      · rw [List.length_cons, List.length_take, List.length_drop]; omega
    · exact ⟨rfl, by simp⟩

theorem bipschnorr_seed_args_ok : ∀ ts : List (List Byte × List Byte × List Byte),
    (∀ t ∈ ts, t.2.1.length = feSize fe + scSize ec.n) → bipschnorr_seed_args ec ts = .ok (seedArgs fe ts)
  | [], _ => rfl
  | (msg, sig, pub) :: ts, h => by
    have h2 := h _ List.mem_cons_self
    dsimp only at h2
    rw [bipschnorr_seed_args]
    dsimp only
    rw [(quick_ok pub).1, C.ok_bind, slice_take (by rw [bipschnorr_sig_size]; omega), C.ok_bind,
      bipschnorr_seed_args_ok ts (fun t ht => h t (List.mem_cons_of_mem _ ht)), C.ok_bind,
      List.take_of_length_le (by rw [bipschnorr_sig_size]; omega)]
    rfl

theorem bipschnorr_batch_run {S : Type} (rng : Source S) (ok : EcOk ec G) (h4 : fe.p % 4 = 3) (hx : XofOk xof ec.n)
    (hz : feSize fe + scSize ec.n + 1 < 2 ^ 64)
    (junk : Nat → Byte) {size : Nat} (hsz : 2 ≤ size) (fuel : Nat) {ts : List (List Byte × List Byte × List Byte)}
    (hl : ∀ t ∈ ts, t.1.length < 2 ^ 64 ∧ t.2.1.length = feSize fe + scSize ec.n) :
    (bipschnorr_verify_batch rng fuel junk xof ec size ts = .spin ∧ size / 2 ≠ 1) ∨
    ∃ b, bipschnorr_verify_batch rng fuel junk xof ec size ts = .ok b ∧
      BatchRun rng.gen (fun t D => SchnorrDefect xof G ec.n t.1 t.2.1 t.2.2 D) ec.n (size / 2) 0 (rng.init (batchSeed (seedArgs fe ts)))
        (0 : Pt ec.toCurve) ts b := by
  unfold bipschnorr_verify_batch
  have hargs : ∀ t ∈ seedArgs fe ts, t.1.length < 2 ^ 64 ∧ t.2.1.length < 2 ^ 64 ∧ t.2.2.length < 2 ^ 64 := by
    intro t ht
    obtain ⟨u, hu, rfl⟩ := List.mem_map.1 ht
    obtain ⟨h1, h2⟩ := hl u hu
    refine ⟨h1, ?_, ?_⟩
    · show u.2.1.length < _
      omega
    · show (quickKey fe u.2.2).length < _
      rw [(quick_ok u.2.2).2]
      omega
  rw [show C.check (size ≥ 2) = .ok () by rw [decide_eq_true (show size ≥ 2 by omega)]; rfl, R.lift_ok, R.ok_bind,
    bipschnorr_seed_args_ok ts (fun t ht => (hl t ht).2), R.lift_ok, R.ok_bind, batch_seed_ok junk hargs, R.lift_ok, R.ok_bind]
  have := batch_loop_ok rng.toByteGen ok hsz fuel (parse := bipschnorr_item junk xof ec)
    (Dt := fun t D => SchnorrDefect xof G ec.n t.1 t.2.1 t.2.2 D) ts
    (fun t ht => by obtain ⟨h1, h2⟩ := hl t ht; exact bipschnorr_item_ok ok h4 hx (by omega) junk _ h1 h2) 0 []
    (rng.init (batchSeed (seedArgs fe ts))) 0 ok.prime.pos (by simp) rfl (by omega)
    (fun _ => rfl)
  simpa [termSum, batchSeed] using this

end

end Torsion.Ecc
