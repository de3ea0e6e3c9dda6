import Verif.Rsa.PrivLemmas
import Verif.Util.Props

/-!
# Lemmas: PKCS#1 v1.5 encodings
-/
namespace Torsion.Rsa
open Torsion.Spec Mpi

/-! ### Buffers as concatenations -/

theorem blit_at {p old s src : List Byte} {pos : Nat} (hp : pos = p.length) (h : src.length = old.length) :
    C.blit (p ++ (old ++ s)) pos src = .ok (p ++ (src ++ s)) := by
  subst hp
  rw [C.blit, if_pos (by simp only [List.length_append]; omega), List.take_left, ← List.drop_drop, List.drop_left, h,
    List.drop_left, List.append_assoc]

theorem slice_at {p m s : List Byte} {pos n : Nat} (hp : pos = p.length) (hn : n = m.length) :
    C.slice (p ++ (m ++ s)) pos n = .ok m := by
  subst hp hn
  rw [C.slice, if_pos (by simp only [List.length_append]; omega), List.drop_left, List.take_left]

theorem wr_at {p s : List Byte} {x y : Byte} {pos : Nat} (hp : pos = p.length) :
    C.wr (p ++ x :: s) pos y = .ok (p ++ y :: s) := by
  subst hp; exact wr_mid p x y s

theorem rd_at {p s : List Byte} {x : Byte} {pos : Nat} (hp : pos = p.length) : C.rd (p ++ x :: s) pos = .ok x := by
  subst hp; exact rd_mid p x s

theorem cut {l : List Byte} {n : Nat} (h : n ≤ l.length) : ∃ a b, l = a ++ b ∧ a.length = n :=
  ⟨l.take n, l.drop n, (List.take_append_drop n l).symm, by rw [List.length_take]; omega⟩

theorem cut1 {l : List Byte} (h : 0 < l.length) : ∃ a b, l = a :: b := by
  cases l with
  | nil => simp at h
  | cons a b => exact ⟨a, b, rfl⟩

/-! ### Constant time comparisons -/

/-- A truth value as 1 or 0. -/
def bit (b : Bool) : BitVec 32 := if b then 1 else 0

@[simp] theorem bit_and (a b : Bool) : bit a &&& bit b = bit (a && b) := by cases a <;> cases b <;> decide
@[simp] theorem one_and_bit (a : Bool) : (1 : BitVec 32) &&& bit a = bit a := by cases a <;> decide
@[simp] theorem bit_not (a : Bool) : bit a ^^^ 1 = bit (!a) := by cases a <;> decide
@[simp] theorem bit_eq_one (a : Bool) : bit a = 1 ↔ a = true := by cases a <;> decide
@[simp] theorem bit_ne_zero (a : Bool) : bit a ≠ 0 ↔ a = true := by cases a <;> decide

theorem sec_equal_bit {x y : BitVec 32} (hx : x.toNat < 2 ^ 31) (hy : y.toNat < 2 ^ 31) :
    sec_equal x y = bit (decide (x = y)) := by
  unfold sec_equal
  by_cases h : x = y
  · rw [h, BitVec.xor_self]; simp only [decide_true]; decide
  · rw [decide_eq_false h]
    have h1 : (x ^^^ y).toNat < 2 ^ 31 := by
      rw [BitVec.toNat_xor]; exact Nat.xor_lt_two_pow hx hy
    have h2 : (x ^^^ y).toNat ≠ 0 := by
      intro h0
      apply h
      have : x ^^^ y = 0#32 := BitVec.eq_of_toNat_eq h0
      exact BitVec.xor_eq_zero_iff.1 this
    apply BitVec.eq_of_toNat_eq
    rw [BitVec.toNat_ushiftRight, Nat.shiftRight_eq_div_pow, BitVec.toNat_sub]
    generalize (x ^^^ y).toNat = v at h1 h2
    have : BitVec.toNat (1 : BitVec 32) = 1 := rfl
    have h3 : (bit false).toNat = 0 := rfl
    rw [this, h3]
    omega

theorem sec_byte (x : Byte) (y : Byte) : sec_equal (x.setWidth 32) (y.setWidth 32) = bit (decide (x = y)) := by
  rw [sec_equal_bit (by simp; omega) (by simp; omega)]
  congr 1
  rw [decide_eq_decide]
  constructor
  · intro h
    have := congrArg BitVec.toNat h
    simp only [BitVec.toNat_setWidth] at this
    apply BitVec.eq_of_toNat_eq
    omega
  · rintro rfl; rfl

theorem sec_00 (x : Byte) : sec_equal (x.setWidth 32) 0x00 = bit (decide (x = 0)) := sec_byte x 0
theorem sec_01 (x : Byte) : sec_equal (x.setWidth 32) 0x01 = bit (decide (x = 1)) := sec_byte x 1
theorem sec_02 (x : Byte) : sec_equal (x.setWidth 32) 0x02 = bit (decide (x = 2)) := sec_byte x 2
theorem sec_ff (x : Byte) : sec_equal (x.setWidth 32) 0xff = bit (decide (x = 0xff)) := sec_byte x 0xff

theorem sec_lte_bit {x y : BitVec 32} (hx : x.toNat < 2 ^ 31) (hy : y.toNat < 2 ^ 31) :
    sec_lte x y = bit (decide (x.toNat ≤ y.toNat)) := by
  unfold sec_lte
  apply BitVec.eq_of_toNat_eq
  rw [BitVec.toNat_ushiftRight, Nat.shiftRight_eq_div_pow, BitVec.toNat_sub, BitVec.toNat_sub]
  generalize x.toNat = a at *
  generalize y.toNat = b at *
  have h1 : BitVec.toNat (1 : BitVec 32) = 1 := rfl
  rw [h1]
  by_cases h : a ≤ b
  · rw [decide_eq_true h]
    show _ = 1
    omega
  · rw [decide_eq_false h]
    show _ = 0
    omega

theorem memequal_bit {x y : List Byte} (h : x.length = y.length) : sec_memequal x y = bit (decide (x = y)) := by
  unfold sec_memequal
  rw [torsion_memequal_spec x y h]
  by_cases he : x = y
  · rw [if_pos he, decide_eq_true he]; rfl
  · rw [if_neg he, decide_eq_false he]; rfl

theorem select_bit (x y : BitVec 32) (b : Bool) : cnd_select x y (bit b) = if b then y else x := by
  unfold cnd_select
  cases b
  · simp only [bit, Bool.false_eq_true, if_false, ne_eq, not_true, BitVec.neg_zero]
    simpa using BitVec.and_allOnes (x := x)
  · simp only [bit, if_true, ne_eq]
    rw [if_pos (by decide)]
    simpa using BitVec.and_allOnes (x := y)

theorem memcpy_bit {z x : List Byte} (h : z.length = x.length) (b : Bool) : cnd_memcpy z x (bit b) = if b then x else z := by
  unfold cnd_memcpy
  induction z generalizing x with
  | nil =>
    cases x with
    | nil => cases b <;> rfl
    | cons => simp at h
  | cons a z ih =>
    cases x with
    | nil => simp at h
    | cons c x =>
      have := ih (x := x) (by simpa using h)
      dsimp only at this ⊢
      rw [List.zipWith_cons_cons, this]
      cases b
      · simpa [bit] using BitVec.and_allOnes (x := a)
      · simpa [bit] using BitVec.and_allOnes (x := c)

/-! ### The table of prefixes -/

/-- What precedes a digest of `n` bytes. -/
def diPrefix (oid : List Nat) (n : Nat) : List Byte :=
  0x30 :: (derLen ((derSeq (derTlv 6 (oidBytes oid) ++ [5, 0])).length + (1 + ((derLen n).length + n))) ++
    (derSeq (derTlv 6 (oidBytes oid) ++ [5, 0]) ++ 4 :: derLen n))

theorem digestInfo_prefix (oid : List Nat) (d : List Byte) : digestInfo oid d = diPrefix oid d.length ++ d := by
  unfold digestInfo diPrefix
  generalize derSeq (derTlv 6 (oidBytes oid) ++ [5, 0]) = a
  unfold derSeq derTlv
  simp only [List.length_append, List.length_cons, List.cons_append, List.append_assoc]
  rw [show (derLen d.length).length + d.length + 1 = 1 + ((derLen d.length).length + d.length) by omega]

theorem table (t : HashId) : (∃ i, t = .other i ∧ get_digest_info t = .fail) ∨
    ((∀ i, t ≠ .other i) ∧ get_digest_info t =
      .ok (match hashOid t with | some oid => diPrefix oid (hash_output_size t) | none => [])) := by
  cases t
  case other i => exact Or.inl ⟨i, rfl, rfl⟩
  all_goals
    right
    refine ⟨fun i h => by simp at h, ?_⟩
    simp only [hashOid]
    decide +kernel

theorem info_ok {t : HashId} {d : List Byte} (h : RsaDigest t d) :
    ∃ pre, get_digest_info t = .ok pre ∧ pre ++ d = rsaT t d ∧ (if t = .NONE then d.length else hash_output_size t) = d.length := by
  rcases table t with ⟨i, h1, -⟩ | ⟨-, h1⟩
  · exact absurd h1 (h.1 i)
  refine ⟨_, h1, ?_, ?_⟩
  · unfold rsaT
    rcases h.2 with rfl | hl
    · rfl
    · cases ho : hashOid t with
      | none => rfl
      | some oid => dsimp only; rw [digestInfo_prefix, hl]
  · rcases h.2 with rfl | hl
    · rfl
    · split
      · rfl
      · exact hl.symm

theorem info_bad {t : HashId} {d : List Byte} (h : ¬ RsaDigest t d) :
    get_digest_info t = .fail ∨ ∃ pre, get_digest_info t = .ok pre ∧ d.length ≠ (if t = .NONE then d.length else hash_output_size t) := by
  rcases table t with ⟨i, h1, h2⟩ | ⟨h0, h1⟩
  · exact Or.inl h2
  refine Or.inr ⟨_, h1, ?_⟩
  split
  · rename_i ht
    exact absurd ⟨h0, Or.inl ht⟩ h
  · intro hl
    exact h ⟨h0, Or.inr hl⟩

/-! ### Signatures -/

theorem emsa_len {k : Nat} {T : List Byte} (h : T.length + 11 ≤ k) : (emsaPkcs1 k T).length = k := by
  unfold emsaPkcs1
  simp only [List.length_append, List.length_cons, List.length_nil, List.length_replicate]
  omega

theorem beVal_zero_cons (xs : List Byte) : beVal ((0 : Byte) :: xs) = beVal xs := by
  rw [Asn1.beVal_cons]; simp

/-- Encodings which start with a zero byte are below the modulus. -/
theorem lt_modulus {n : Nat} {xs : List Byte} (h0 : 0 < rsaLen n) (hl : xs.length + 1 = rsaLen n) :
    beVal ((0 : Byte) :: xs) < n := by
  rw [beVal_zero_cons]
  refine lt_of_lt_of_le (Asn1.beVal_lt xs) ?_
  rw [show xs.length = rsaLen n - 1 by omega]
  exact rsaLen_le h0

theorem sign_eq {S : Type} (rng : Source S) (fuel : Nat) {out : List Byte} {t : HashId} {msg key : List Byte}
    (entropy : List Byte) {k : RsaKey} (hd : RsaDigest t msg) (hkey : key = rsaPrivDer k) (hs : Small k)
    (hk : RsaKeyOk k) (ho : rsaLen k.n ≤ out.length) :
    rsa_sign rng fuel out t msg key entropy = (R.need (decide ¬ rsaLen k.n < (rsaT t msg).length + 11) >>= fun _ =>
      rsa_priv_decrypt rng fuel (ofKey k) (emsaPkcs1 (rsaLen k.n) (rsaT t msg)) true entropy) := by
  obtain ⟨pre, h1, h2, h3⟩ := info_ok hd
  unfold rsa_sign
  rw [h1, R.ok_bind]
  dsimp only
  rw [h3, decide_eq_true rfl, R.need_true, R.ok_bind, hkey, priv_import_ok hs, R.ok_bind, (priv_verify_det k).1 hk,
    R.ok_bind]
  rw [show (ofKey k).n = mpz_of k.n from rfl, R.liftM_eq, bytelen_of, R.lift_ok, R.ok_bind, Int.natAbs_natCast,
    show (k.n.size + 7) / 8 = rsaLen k.n from rfl]
  have hT : (rsaT t msg).length = pre.length + msg.length := by rw [← h2, List.length_append]
  rw [hT]
  by_cases hlt : rsaLen k.n < pre.length + msg.length + 11
  · rw [decide_eq_false (by omega)]; rfl
  rw [decide_eq_true (by omega : ¬ rsaLen k.n < pre.length + msg.length + 11), R.need_true, R.ok_bind, R.ok_bind]
  obtain ⟨o0, out1, rfl⟩ := cut1 (l := out) (by omega)
  obtain ⟨o1, out2, rfl⟩ := cut1 (l := out1) (by simp at ho; omega)
  obtain ⟨A, out3, rfl, hA⟩ := cut (l := out2) (n := rsaLen k.n - (pre.length + msg.length) - 1 - 2)
    (by simp at ho; omega)
  obtain ⟨o2, out4, rfl⟩ := cut1 (l := out3) (by simp [hA] at ho; omega)
  obtain ⟨P, out5, rfl, hP⟩ := cut (l := out4) (n := pre.length) (by simp [hA] at ho; omega)
  obtain ⟨M, rest, rfl, hM⟩ := cut (l := out5) (n := msg.length) (by simp [hA, hP] at ho; omega)
  have hl : (List.replicate (rsaLen k.n - (pre.length + msg.length) - 1 - 2) (0xff : Byte)).length = A.length := by
    rw [List.length_replicate, hA]
  generalize hF : List.replicate (rsaLen k.n - (pre.length + msg.length) - 1 - 2) (0xff : Byte) = F at hl ⊢
  have e1 : C.wr (o0 :: o1 :: (A ++ o2 :: (P ++ (M ++ rest)))) 0 0x00 =
      .ok (0x00 :: o1 :: (A ++ o2 :: (P ++ (M ++ rest)))) := rfl
  have e2 : C.wr ((0x00 : Byte) :: o1 :: (A ++ o2 :: (P ++ (M ++ rest)))) 1 0x01 =
      .ok (0x00 :: 0x01 :: (A ++ o2 :: (P ++ (M ++ rest)))) := rfl
  have e3 : C.blit ((0x00 : Byte) :: 0x01 :: (A ++ o2 :: (P ++ (M ++ rest)))) 2 F =
      .ok (0x00 :: 0x01 :: (F ++ o2 :: (P ++ (M ++ rest)))) :=
    blit_at (p := [0x00, 0x01]) rfl hl
  have e4 : C.wr ((0x00 : Byte) :: 0x01 :: (F ++ o2 :: (P ++ (M ++ rest)))) (rsaLen k.n - (pre.length + msg.length) - 1)
      0x00 = .ok (0x00 :: 0x01 :: (F ++ 0x00 :: (P ++ (M ++ rest)))) :=
    wr_at (p := 0x00 :: 0x01 :: F) (by rw [List.length_cons, List.length_cons, hl, hA]; omega)
  have e5 : C.blit ((0x00 : Byte) :: 0x01 :: (F ++ 0x00 :: (P ++ (M ++ rest)))) (rsaLen k.n - (pre.length + msg.length))
      pre = .ok (0x00 :: 0x01 :: (F ++ 0x00 :: (pre ++ (M ++ rest)))) := by
    have := blit_at (p := 0x00 :: 0x01 :: (F ++ [0x00])) (old := P) (s := M ++ rest) (src := pre)
      (pos := rsaLen k.n - (pre.length + msg.length))
      (by simp only [List.length_cons, List.length_append, hl, hA, List.length_nil]; omega) hP.symm
    simpa using this
  have e6 : C.blit ((0x00 : Byte) :: 0x01 :: (F ++ 0x00 :: (pre ++ (M ++ rest)))) (rsaLen k.n - msg.length) msg =
      .ok (0x00 :: 0x01 :: (F ++ 0x00 :: (pre ++ (msg ++ rest)))) := by
    have := blit_at (p := 0x00 :: 0x01 :: (F ++ 0x00 :: pre)) (old := M) (s := rest) (src := msg)
      (pos := rsaLen k.n - msg.length)
      (by simp only [List.length_cons, List.length_append, hl, hA]; omega) hM.symm
    simpa using this
  have e7 : C.slice ((0x00 : Byte) :: 0x01 :: (F ++ 0x00 :: (pre ++ (msg ++ rest)))) 0 (rsaLen k.n) =
      .ok (emsaPkcs1 (rsaLen k.n) (rsaT t msg)) := by
    have hem : emsaPkcs1 (rsaLen k.n) (rsaT t msg) = 0x00 :: 0x01 :: (F ++ 0x00 :: (pre ++ msg)) := by
      unfold emsaPkcs1
      rw [hT, ← h2, show rsaLen k.n - (pre.length + msg.length) - 3 = rsaLen k.n - (pre.length + msg.length) - 1 - 2 by omega,
        hF]
      simp
    have := slice_at (p := []) (m := emsaPkcs1 (rsaLen k.n) (rsaT t msg)) (s := rest) (pos := 0) (n := rsaLen k.n) rfl
      (emsa_len (by omega)).symm
    rw [List.nil_append] at this
    rw [← this, hem]
    simp
  have e5' : (if pre.length > 0 then (liftM (C.blit ((0x00 : Byte) :: 0x01 :: (F ++ 0x00 :: (P ++ (M ++ rest))))
      (rsaLen k.n - (pre.length + msg.length)) pre) : R (List Byte)) else .ok (0x00 :: 0x01 :: (F ++ 0x00 :: (P ++ (M ++ rest))))) =
      .ok (0x00 :: 0x01 :: (F ++ 0x00 :: (pre ++ (M ++ rest)))) := by
    split
    · rw [e5]; rfl
    · have hp0 : pre = [] := List.length_eq_zero_iff.1 (by omega)
      have hP0 : P = [] := List.length_eq_zero_iff.1 (by omega)
      rw [hp0, hP0]
  have e6' : (if msg.length > 0 then (liftM (C.blit ((0x00 : Byte) :: 0x01 :: (F ++ 0x00 :: (pre ++ (M ++ rest))))
      (rsaLen k.n - msg.length) msg) : R (List Byte)) else .ok (0x00 :: 0x01 :: (F ++ 0x00 :: (pre ++ (M ++ rest))))) =
      .ok (0x00 :: 0x01 :: (F ++ 0x00 :: (pre ++ (msg ++ rest)))) := by
    split
    · rw [e6]; rfl
    · have hp0 : msg = [] := List.length_eq_zero_iff.1 (by omega)
      have hP0 : M = [] := List.length_eq_zero_iff.1 (by omega)
      rw [hp0, hP0]
  simp only [R.liftM_eq] at e5' e6'
  simp only [R.liftM_eq, e1, R.lift_ok, R.ok_bind, e2, e3, e4, e5', e6', e7]

theorem verify_ff (em : List Byte) : ∀ (k i : Nat) (b : Bool), i + k ≤ em.length →
    rsa_verify_ff em k i (bit b) = .ok (bit (b && decide ((em.drop i).take k = List.replicate k 0xff)))
  | 0, i, b, _ => by simp [rsa_verify_ff]
  | k + 1, i, b, h => by
    have hi : i < em.length := by omega
    unfold rsa_verify_ff
    rw [show C.rd em i = .ok em[i] by simp [C.rd, hi], C.ok_bind, sec_ff, bit_and, verify_ff em k (i + 1) _ (by omega),
      List.drop_eq_getElem_cons hi, List.take_succ_cons, List.replicate_succ]
    congr 2
    rw [Bool.and_assoc]
    congr 1
    rw [← Bool.decide_and, decide_eq_decide, List.cons.injEq]

theorem nat_le_small {n : Nat} (h : n < 2 ^ 16384) : n < 256 ^ 2048 := by
  have : (256 : Nat) ^ 2048 = 2 ^ 16384 := by
    rw [show (256 : Nat) = 2 ^ 8 from rfl, ← Nat.pow_mul]
  rw [this]; exact h

theorem pub_small {n e : Nat} (h : RsaPubOk n e) : n < 256 ^ 2048 ∧ e < 256 ^ 2048 :=
  ⟨nat_le_small h.hi, lt_of_lt_of_le h.ehi (by
    rw [show (256 : Nat) = 2 ^ 8 from rfl, ← Nat.pow_mul]
    exact Nat.pow_le_pow_right (by norm_num) (by norm_num))⟩

theorem pub_der_inj {n e n' e' : Nat} (h : RsaPubOk n e) (h' : RsaPubOk n' e') (hd : rsaPubDer n e = rsaPubDer n' e') :
    n = n' ∧ e = e' := by
  have h1 := pub_import_ok (pub_small h).1 (pub_small h).2
  have h2 := pub_import_ok (pub_small h').1 (pub_small h').2
  rw [hd, h2] at h1
  have h3 := R.ok.inj h1
  rw [RsaPub.mk.injEq, of_inj, of_inj] at h3
  omega

/-- Reading and checking a public key: the two numbers or a failure. -/
theorem pub_read (key : List Byte) : (∃ n e, key = rsaPubDer n e ∧ RsaPubOk n e ∧
      rsa_pub_import key = .ok ⟨mpz_of n, mpz_of e⟩ ∧ rsa_pub_verify ⟨mpz_of n, mpz_of e⟩ = .ok ()) ∨
    ((¬ ∃ n e, key = rsaPubDer n e ∧ RsaPubOk n e) ∧
      ∀ {α : Type} (f : RsaPub → R α), (rsa_pub_import key >>= fun k => rsa_pub_verify k >>= fun _ => f k) = .fail) := by
  rcases pub_import_cases key with h | ⟨n, e, h1, h2, h3, h4⟩
  · right
    constructor
    · rintro ⟨n, e, hk, ho⟩
      rw [hk, pub_import_ok (pub_small ho).1 (pub_small ho).2] at h
      simp at h
    · intro α f
      rw [h]; rfl
  · by_cases ho : RsaPubOk n e
    · exact Or.inl ⟨n, e, h1, ho, h4, (pub_verify_det n e).1 ho⟩
    · right
      constructor
      · rintro ⟨n', e', hk, ho'⟩
        have h5 := pub_import_ok (pub_small ho').1 (pub_small ho').2
        rw [← hk, h4] at h5
        have h6 := R.ok.inj h5
        rw [RsaPub.mk.injEq, of_inj, of_inj] at h6
        apply ho
        rw [show n = n' by omega, show e = e' by omega]
        exact ho'
      · intro α f
        rw [h4, R.ok_bind, (pub_verify_det n e).2 ho]; rfl

theorem priv_small {k : RsaKey} (h : RsaKeyOk k) : Small k := by
  have h1 := h.pub.hi
  have hpn : k.p ≤ k.n := by rw [h.prod]; exact Nat.le_mul_of_pos_right _ (by have := h.qgt; omega)
  have hqn : k.q ≤ k.n := by rw [h.prod]; exact Nat.le_mul_of_pos_left _ (by have := h.pgt; omega)
  have hdn : k.d < k.n := by
    rw [h.prod]
    exact lt_of_lt_of_le h.dlt (Nat.mul_le_mul (Nat.sub_le _ _) (Nat.sub_le _ _))
  have hdp : k.dp ≤ k.p := by
    rw [h.hdp]; exact le_trans (Nat.mod_lt _ (by have := h.pgt; omega)).le (Nat.sub_le _ _)
  have hdq : k.dq ≤ k.q := by
    rw [h.hdq]; exact le_trans (Nat.mod_lt _ (by have := h.qgt; omega)).le (Nat.sub_le _ _)
  have hn := nat_le_small h1
  exact ⟨hn, (pub_small h.pub).2, lt_trans hdn hn, lt_of_le_of_lt hpn hn, lt_of_le_of_lt hqn hn,
    lt_of_le_of_lt (hdp.trans hpn) hn, lt_of_le_of_lt (hdq.trans hqn) hn, lt_trans h.qilt (lt_of_le_of_lt hpn hn)⟩

theorem ofKey_inj {k k' : RsaKey} (h : ofKey k = ofKey k') : k = k' := by
  unfold ofKey at h
  simp only [RsaPriv.mk.injEq, of_inj, Int.natCast_inj] at h
  cases k; cases k'
  simp_all

theorem priv_der_inj {k k' : RsaKey} (h : RsaKeyOk k) (h' : RsaKeyOk k') (hd : rsaPrivDer k = rsaPrivDer k') : k = k' := by
  have h1 := priv_import_ok (priv_small h)
  have h2 := priv_import_ok (priv_small h')
  rw [hd, h2] at h1
  exact (ofKey_inj (R.ok.inj h1)).symm

/-- Reading and checking a private key: the numbers or a failure. -/
theorem priv_read (key : List Byte) : (∃ k, key = rsaPrivDer k ∧ RsaKeyOk k ∧
      rsa_priv_import key = .ok (ofKey k) ∧ rsa_priv_verify (ofKey k) = .ok ()) ∨
    ((¬ ∃ k, key = rsaPrivDer k ∧ RsaKeyOk k) ∧
      ∀ {α : Type} (f : RsaPriv → R α), (rsa_priv_import key >>= fun k => rsa_priv_verify k >>= fun _ => f k) = .fail) := by
  rcases priv_import_cases key with h | ⟨k, h1, h2, h4⟩
  · right
    constructor
    · rintro ⟨k, hk, ho⟩
      rw [hk, priv_import_ok (priv_small ho)] at h
      simp at h
    · intro α f
      rw [h]; rfl
  · by_cases ho : RsaKeyOk k
    · exact Or.inl ⟨k, h1, ho, h4, (priv_verify_det k).1 ho⟩
    · right
      constructor
      · rintro ⟨k', hk, ho'⟩
        have h5 := priv_import_ok (priv_small ho')
        rw [← hk, h4] at h5
        exact ho (by rw [ofKey_inj (R.ok.inj h5)]; exact ho')
      · intro α f
        rw [h4, R.ok_bind, (priv_verify_det k).2 ho]; rfl

/-- When a PKCS#1 v1.5 signature is valid. -/
def SigOk (t : HashId) (msg sig : List Byte) (n e : Nat) : Prop :=
  RsaDigest t msg ∧ RsaPubOk n e ∧ sig.length = rsaLen n ∧ (rsaT t msg).length + 11 ≤ rsaLen n ∧ beVal sig < n ∧
    beVal sig ^ e % n = beVal (emsaPkcs1 (rsaLen n) (rsaT t msg))

theorem emsa_check {em pre msg : List Byte} {k : Nat} (hl : em.length = k) (hk : pre.length + msg.length + 11 ≤ k) :
    (do
      let b ← C.rd em 0
      let ok : BitVec 32 := 1 &&& sec_equal (b.setWidth 32) 0x00
      let b ← C.rd em 1
      let ok := ok &&& sec_equal (b.setWidth 32) 0x01
      let ok ← rsa_verify_ff em (k - (pre.length + msg.length) - 1 - 2) 2 ok
      let b ← C.rd em (k - (pre.length + msg.length) - 1)
      let ok := ok &&& sec_equal (b.setWidth 32) 0x00
      let t ← C.slice em (k - (pre.length + msg.length)) pre.length
      let ok := ok &&& sec_memequal t pre
      let t ← C.slice em (k - msg.length) msg.length
      let ok := ok &&& sec_memequal t msg
      C.ok ok) = C.ok (bit (decide (em = emsaPkcs1 k (pre ++ msg)))) := by
  obtain ⟨o0, out1, rfl⟩ := cut1 (l := em) (by omega)
  obtain ⟨o1, out2, rfl⟩ := cut1 (l := out1) (by simp at hl; omega)
  obtain ⟨A, out3, rfl, hA⟩ := cut (l := out2) (n := k - (pre.length + msg.length) - 1 - 2) (by simp at hl; omega)
  obtain ⟨o2, out4, rfl⟩ := cut1 (l := out3) (by simp [hA] at hl; omega)
  obtain ⟨P, M, rfl, hP⟩ := cut (l := out4) (n := pre.length) (by simp [hA] at hl; omega)
  have hM : M.length = msg.length := by simp [hA, hP] at hl; omega
  have e0 : C.rd (o0 :: o1 :: (A ++ o2 :: (P ++ M))) 0 = .ok o0 := rfl
  have e1 : C.rd (o0 :: o1 :: (A ++ o2 :: (P ++ M))) 1 = .ok o1 := rfl
  have e2 : C.rd (o0 :: o1 :: (A ++ o2 :: (P ++ M))) (k - (pre.length + msg.length) - 1) = .ok o2 :=
    rd_at (p := o0 :: o1 :: A) (by simp only [List.length_cons, hA]; omega)
  have e3 : C.slice (o0 :: o1 :: (A ++ o2 :: (P ++ M))) (k - (pre.length + msg.length)) pre.length = .ok P := by
    have := slice_at (p := o0 :: o1 :: (A ++ [o2])) (m := P) (s := M) (pos := k - (pre.length + msg.length))
      (n := pre.length) (by simp only [List.length_cons, List.length_append, List.length_nil, hA]; omega) hP.symm
    simpa using this
  have e4 : C.slice (o0 :: o1 :: (A ++ o2 :: (P ++ M))) (k - msg.length) msg.length = .ok M := by
    have := slice_at (p := o0 :: o1 :: (A ++ o2 :: P)) (m := M) (s := []) (pos := k - msg.length)
      (n := msg.length) (by simp only [List.length_cons, List.length_append, hA, hP]; omega) hM.symm
    simpa using this
  have e5 : ((o0 :: o1 :: (A ++ o2 :: (P ++ M))).drop 2).take (k - (pre.length + msg.length) - 1 - 2) = A := by
    show (A ++ o2 :: (P ++ M)).take _ = A
    rw [← hA, List.take_left]
  rw [e0, C.ok_bind, e1, C.ok_bind, sec_00, sec_01, one_and_bit, bit_and]
  dsimp only
  rw [verify_ff _ _ _ _ (by omega), C.ok_bind, e2, C.ok_bind, e3, C.ok_bind, e4, C.ok_bind, sec_00, memequal_bit hP,
    memequal_bit hM, bit_and, bit_and, bit_and, e5]
  congr 2
  simp only [← Bool.decide_and]
  rw [decide_eq_decide]
  unfold emsaPkcs1
  rw [List.length_append, show k - (pre.length + msg.length) - 3 = k - (pre.length + msg.length) - 1 - 2 by omega]
  generalize hF : List.replicate (k - (pre.length + msg.length) - 1 - 2) (255 : Byte) = F
  have hFl : A.length = F.length := by rw [← hF, List.length_replicate, hA]
  constructor
  · rintro ⟨⟨⟨⟨⟨rfl, rfl⟩, rfl⟩, rfl⟩, rfl⟩, rfl⟩
    simp
  · intro h
    simp only [List.cons_append, List.nil_append, List.cons.injEq] at h
    obtain ⟨h1, h2, h3⟩ := h
    obtain ⟨h4, h5⟩ := List.append_inj h3 hFl
    obtain ⟨h6, h7⟩ := List.cons.inj h5
    obtain ⟨h8, h9⟩ := List.append_inj h7 hP
    exact ⟨⟨⟨⟨⟨h1, h2⟩, h4⟩, h6⟩, h8⟩, h9⟩

theorem lift_seq {α β : Type} (x : C α) (f : α → R β) (g : α → C β) (h : ∀ a, f a = R.lift (g a)) :
    (R.lift x >>= f) = R.lift (x >>= g) := by
  cases x
  · exact h _
  · rfl
  · rfl

theorem verify_det (t : HashId) (msg sig key : List Byte) :
    Det (rsa_verify t msg sig key) (∃ n e, key = rsaPubDer n e ∧ SigOk t msg sig n e) () := by
  unfold rsa_verify
  by_cases hd : RsaDigest t msg
  swap
  · refine ⟨fun ⟨n, e, _, h⟩ => absurd h.1 hd, fun _ => ?_⟩
    rcases info_bad hd with h | ⟨pre, h, h'⟩
    · rw [h]; rfl
    · rw [h, R.ok_bind]
      dsimp only
      rw [decide_eq_false h']; rfl
  obtain ⟨pre, h1, h2, h3⟩ := info_ok hd
  rw [h1, R.ok_bind]
  dsimp only
  rw [h3, decide_eq_true rfl, R.need_true, R.ok_bind]
  have hT : (rsaT t msg).length = pre.length + msg.length := by rw [← h2, List.length_append]
  rcases pub_read key with ⟨n, e, hk, ho, hi, hv⟩ | ⟨hno, hf⟩
  swap
  · exact ⟨fun ⟨n, e, h, h'⟩ => absurd ⟨n, e, h, h'.2.1⟩ hno, fun _ => hf _⟩
  rw [hi, R.ok_bind, hv, R.ok_bind, R.liftM_eq, bytelen_of, R.lift_ok, R.ok_bind, Int.natAbs_natCast,
    show (n.size + 7) / 8 = rsaLen n from rfl]
  have red : (∃ n e, key = rsaPubDer n e ∧ SigOk t msg sig n e) ↔ SigOk t msg sig n e := by
    constructor
    · rintro ⟨n', e', hk', h'⟩
      obtain ⟨rfl, rfl⟩ := pub_der_inj ho h'.2.1 (hk ▸ hk')
      exact h'
    · exact fun h => ⟨n, e, hk, h⟩
  refine Det.congr ?_ red.symm
  refine (Det.need fun hs => Det.need (P := beVal sig < n ∧ beVal sig ^ e % n = beVal (emsaPkcs1 (rsaLen n) (rsaT t msg))) fun hw => ?_).congr ?_
  swap
  · unfold SigOk
    simp only [decide_eq_true_eq, hT, not_lt]
    constructor
    · rintro ⟨a, b, c, d⟩
      exact ⟨hd, ho, a, b, c, d⟩
    · rintro ⟨_, _, a, b, c, d⟩
      exact ⟨a, b, c, d⟩
  rw [decide_eq_true_eq] at hs hw
  by_cases hsn : beVal sig < n
  swap
  · exact ⟨fun h => absurd h.1 hsn, fun _ => by rw [(pub_encrypt_det ho sig).1 (by omega)]; rfl⟩
  obtain ⟨em, hem, hel, hev⟩ := (pub_encrypt_det ho sig).2 hsn
  rw [hem, R.ok_bind]
  have hchk := emsa_check (em := em) (pre := pre) (msg := msg) hel (by omega)
  generalize hX : (decide (em = emsaPkcs1 (rsaLen n) (pre ++ msg))) = X at hchk
  have hprog : (do
      let b ← (liftM (C.rd em 0) : R Byte)
      let ok : BitVec 32 := 1 &&& sec_equal (b.setWidth 32) 0x00
      let b ← C.rd em 1
      let ok := ok &&& sec_equal (b.setWidth 32) 0x01
      let ok ← rsa_verify_ff em (rsaLen n - (pre.length + msg.length) - 1 - 2) 2 ok
      let b ← C.rd em (rsaLen n - (pre.length + msg.length) - 1)
      let ok := ok &&& sec_equal (b.setWidth 32) 0x00
      let t ← C.slice em (rsaLen n - (pre.length + msg.length)) pre.length
      let ok := ok &&& sec_memequal t pre
      let t ← C.slice em (rsaLen n - msg.length) msg.length
      let ok := ok &&& sec_memequal t msg
      R.need (ok = 1)) = R.need X := by
    have hL := congrArg (fun x => R.lift x >>= fun (ok : BitVec 32) => R.need (ok = 1)) hchk
    dsimp only at hL
    rw [R.lift_ok, R.ok_bind] at hL
    simp only [bit_eq_one, Bool.decide_eq_true] at hL
    rw [← hL]
    simp only [R.liftM_eq]
    cases C.rd em 0 <;> [skip; rfl; rfl]
    cases C.rd em 1 <;> [skip; rfl; rfl]
    simp only [R.lift_ok, R.ok_bind, C.ok_bind]
    generalize rsa_verify_ff em _ _ _ = x
    cases x <;> [skip; rfl; rfl]
    generalize C.rd em _ = x
    cases x <;> [skip; rfl; rfl]
    generalize C.slice em _ pre.length = x
    cases x <;> [skip; rfl; rfl]
    generalize C.slice em _ msg.length = x
    cases x <;> rfl
  rw [hprog]
  refine Det.last.congr ?_
  rw [← hX, decide_eq_true_eq, h2]
  constructor
  · intro h
    exact ⟨hsn, by rw [← hev, ← h]⟩
  · rintro ⟨-, h⟩
    refine Asn1.beVal_inj ?_ (by rw [hev, h])
    rw [hel, emsa_len (by omega)]

/-! ### Unpadding -/

theorem unpad_done (em : List Byte) (off : BitVec 32) : ∀ (k i : Nat), i + k = em.length →
    unpad_loop em k i off (bit false) = .ok (off, bit false)
  | 0, i, _ => rfl
  | k + 1, i, h => by
    have hi : i < em.length := by omega
    unfold unpad_loop
    rw [show C.rd em i = .ok em[i] by simp [C.rd, hi], C.ok_bind]
    dsimp only
    rw [sec_00, bit_and, select_bit, Bool.false_and, if_neg (by simp), select_bit,
      show (if decide (em[i] = 0) = true then 0 else bit false) = bit false by split <;> rfl]
    exact unpad_done em off k (i + 1) (by omega)

theorem unpad_none (off : BitVec 32) : ∀ (ps p : List Byte), 0 ∉ ps →
    unpad_loop (p ++ ps) ps.length p.length off (bit true) = .ok (off, bit true)
  | [], p, _ => rfl
  | b :: ps, p, h => by
    have hb : b ≠ 0 := fun hb => h (by rw [hb]; exact List.mem_cons_self)
    rw [List.length_cons]
    unfold unpad_loop
    rw [rd_mid, C.ok_bind]
    dsimp only
    rw [sec_00, decide_eq_false hb, bit_and, Bool.and_false, select_bit, if_neg (by simp), select_bit, if_neg (by simp)]
    have := unpad_none off ps (p ++ [b]) (fun hm => h (List.mem_cons_of_mem _ hm))
    rw [List.length_append, List.append_assoc] at this
    exact this

theorem unpad_some (off : BitVec 32) (m : List Byte) : ∀ (ps p : List Byte), 0 ∉ ps →
    unpad_loop (p ++ (ps ++ 0 :: m)) (ps.length + 1 + m.length) p.length off (bit true) =
      .ok (BitVec.ofNat 32 (p.length + ps.length), bit false)
  | [], p, _ => by
    rw [List.length_nil, show 0 + 1 + m.length = m.length + 1 by omega]
    unfold unpad_loop
    rw [List.nil_append, rd_mid, C.ok_bind]
    dsimp only
    rw [sec_00, decide_eq_true rfl, bit_and, Bool.and_true, select_bit, if_pos rfl, select_bit, if_pos rfl]
    have := unpad_done (p ++ 0 :: m) (BitVec.ofNat 32 p.length) m.length (p.length + 1)
      (by simp only [List.length_append, List.length_cons]; omega)
    exact this
  | b :: ps, p, h => by
    have hb : b ≠ 0 := fun hb => h (by rw [hb]; exact List.mem_cons_self)
    rw [List.length_cons, show ps.length + 1 + 1 + m.length = ps.length + 1 + m.length + 1 by omega]
    unfold unpad_loop
    rw [List.cons_append, rd_mid, C.ok_bind]
    dsimp only
    rw [sec_00, decide_eq_false hb, bit_and, Bool.and_false, select_bit, if_neg (by simp), select_bit, if_neg (by simp)]
    have := unpad_some off m ps (p ++ [b]) (fun hm => h (List.mem_cons_of_mem _ hm))
    rw [List.length_append, List.append_assoc, List.length_singleton, show p.length + 1 + ps.length = p.length + (ps.length + 1) by omega] at this
    exact this

theorem first_zero (xs : List Byte) : 0 ∉ xs ∨ ∃ ps m, xs = ps ++ 0 :: m ∧ 0 ∉ ps := by
  by_cases h : (0 : Byte) ∈ xs
  · right
    obtain ⟨ps, m, h1, h2⟩ := List.eq_append_cons_of_mem h
    exact ⟨ps, m, h1, h2⟩
  · exact Or.inl h

theorem first_zero_inj {ps m ps' m' : List Byte} (h : ps ++ (0 : Byte) :: m = ps' ++ 0 :: m') (h1 : (0 : Byte) ∉ ps)
    (h2 : (0 : Byte) ∉ ps') : ps = ps' ∧ m = m' := by
  induction ps generalizing ps' with
  | nil =>
    cases ps' with
    | nil => simpa using h
    | cons b ps' =>
      rw [List.nil_append, List.cons_append] at h
      exact absurd (by rw [(List.cons.inj h).1]; exact List.mem_cons_self) h2
  | cons b ps ih =>
    cases ps' with
    | nil =>
      rw [List.nil_append, List.cons_append] at h
      exact absurd (by rw [← (List.cons.inj h).1]; exact List.mem_cons_self) h1
    | cons c ps' =>
      rw [List.cons_append, List.cons_append] at h
      obtain ⟨h3, h4⟩ := List.cons.inj h
      obtain ⟨h5, h6⟩ := ih h4 (fun hm => h1 (List.mem_cons_of_mem _ hm)) (fun hm => h2 (List.mem_cons_of_mem _ hm))
      exact ⟨by rw [h3, h5], h6⟩

/-- A correctly padded message. -/
def Padded (em ps m : List Byte) : Prop := em = emePkcs1 ps m ∧ 8 ≤ ps.length ∧ 0 ∉ ps

theorem padded_inj {em ps m ps' m' : List Byte} (h : Padded em ps m) (h' : Padded em ps' m') : ps = ps' ∧ m = m' := by
  have := h.1.symm.trans h'.1
  unfold emePkcs1 at this
  simp only [List.cons_append, List.nil_append, List.cons.injEq, true_and] at this
  exact first_zero_inj this h.2.2 h'.2.2

theorem unpad_cases {em : List Byte} (h2 : 2 ≤ em.length) (hlt : em.length < 2 ^ 31) :
    (∃ ps m, Padded em ps m ∧ pkcs1v15_unpad em em.length = .ok (BitVec.ofNat 32 (em.length - m.length), bit true)) ∨
    ((¬ ∃ ps m, Padded em ps m) ∧ pkcs1v15_unpad em em.length = .ok (0, bit false)) := by
  obtain ⟨o0, out1, rfl⟩ := cut1 (l := em) (by omega)
  obtain ⟨o1, xs, rfl⟩ := cut1 (l := out1) (by simp at h2; omega)
  have hlen : (BitVec.ofNat 32 (o0 :: o1 :: xs).length).toNat - 2 = xs.length := by
    rw [BitVec.toNat_ofNat, Nat.mod_eq_of_lt (by omega)]; simp
  unfold pkcs1v15_unpad
  dsimp only
  rw [hlen, show C.rd (o0 :: o1 :: xs) 0 = .ok o0 from rfl, C.ok_bind, show C.rd (o0 :: o1 :: xs) 1 = .ok o1 from rfl,
    C.ok_bind, sec_00, sec_02, one_and_bit, bit_and, show (1 : BitVec 32) = bit true from rfl]
  rcases first_zero xs with hz | ⟨ps, m, rfl, hz⟩
  · right
    have h3 := unpad_none 0 xs [o0, o1] hz
    constructor
    · rintro ⟨ps, m, hp, -, -⟩
      unfold emePkcs1 at hp
      simp only [List.cons_append, List.nil_append, List.cons.injEq] at hp
      exact hz (by rw [hp.2.2]; simp)
    · rw [show unpad_loop (o0 :: o1 :: xs) xs.length 2 0 (bit true) = .ok (0, bit true) from h3, C.ok_bind]
      dsimp only
      rw [sec_lte_bit (by decide) (by decide)]
      have hd : decide (BitVec.toNat (2 + 8 : BitVec 32) ≤ BitVec.toNat (0 : BitVec 32)) = false := by decide
      rw [hd, show (bit true ^^^ bit true) = bit false from rfl, bit_and, bit_and, Bool.and_false, select_bit]
      rfl
  · have h3 := unpad_some 0 m ps [o0, o1] hz
    have hl2 : 2 + ps.length < 2 ^ 31 := by simp only [List.length_cons, List.length_append] at hlt; omega
    rw [show (ps ++ 0 :: m).length = ps.length + 1 + m.length by rw [List.length_append, List.length_cons]; omega,
      show unpad_loop (o0 :: o1 :: (ps ++ 0 :: m)) (ps.length + 1 + m.length) 2 0 (bit true) =
        .ok (BitVec.ofNat 32 (2 + ps.length), bit false) from h3, C.ok_bind]
    dsimp only
    have hn : (BitVec.ofNat 32 (2 + ps.length)).toNat = 2 + ps.length := by
      rw [BitVec.toNat_ofNat, Nat.mod_eq_of_lt (by omega)]
    have h10 : BitVec.toNat (2 + 8 : BitVec 32) = 10 := by decide
    rw [sec_lte_bit (by decide) (by omega), hn, h10, show (bit false ^^^ bit true) = bit true from rfl, bit_and, bit_and,
      Bool.and_true, select_bit]
    have hiff : (decide (o0 = 0) && decide (o1 = 2) && decide (10 ≤ 2 + ps.length)) = true ↔
        ∃ ps' m', Padded (o0 :: o1 :: (ps ++ 0 :: m)) ps' m' := by
      simp only [Bool.and_eq_true, decide_eq_true_eq]
      constructor
      · rintro ⟨⟨rfl, rfl⟩, h8⟩
        exact ⟨ps, m, rfl, by omega, hz⟩
      · rintro ⟨ps', m', hp, h8, hz'⟩
        unfold emePkcs1 at hp
        simp only [List.cons_append, List.nil_append, List.cons.injEq] at hp
        obtain ⟨rfl, rfl, hp⟩ := hp
        obtain ⟨rfl, rfl⟩ := first_zero_inj hp hz hz'
        exact ⟨⟨rfl, rfl⟩, by omega⟩
    cases hb : (decide (o0 = 0) && decide (o1 = 2) && decide (10 ≤ 2 + ps.length)) with
    | false =>
      right
      rw [hb] at hiff
      exact ⟨fun h => absurd (hiff.2 h) (by simp), rfl⟩
    | true =>
      left
      simp only [Bool.and_eq_true, decide_eq_true_eq] at hb
      obtain ⟨⟨rfl, rfl⟩, h8⟩ := hb
      refine ⟨ps, m, ⟨rfl, by omega, hz⟩, ?_⟩
      rw [if_pos rfl]
      congr 2
      apply BitVec.eq_of_toNat_eq
      have hone : (bit true).toNat = 1 := rfl
      rw [BitVec.toNat_add, hn, hone, BitVec.toNat_ofNat]
      simp only [List.length_cons, List.length_append] at hlt ⊢
      omega

end Torsion.Rsa
