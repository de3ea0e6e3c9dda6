import Verif.Rsa.Model
import Verif.Rsa.Spec
import Verif.Asn1.Props
import Verif.Mpi.IntEq

/-!
# Lemmas: RSA keys
-/
namespace Torsion.Rsa
open Torsion.Spec Mpi

/-! ### Calls which succeed under a condition -/

/-- The call succeeds with `a` if `P` holds and fails otherwise. -/
def Det {α : Type} (x : R α) (P : Prop) (a : α) : Prop := (P → x = .ok a) ∧ (¬ P → x = .fail)

theorem Det.congr {α : Type} {x : R α} {P Q : Prop} {a : α} (h : Det x P a) (hpq : P ↔ Q) : Det x Q a :=
  ⟨fun q => h.1 (hpq.2 q), fun q => h.2 (mt hpq.1 q)⟩

theorem Det.iff {α : Type} {x : R α} {P : Prop} {a : α} (h : Det x P a) : x = .ok a ↔ P := by
  by_cases hp : P
  · exact ⟨fun _ => hp, fun _ => h.1 hp⟩
  · rw [h.2 hp]
    exact ⟨fun h => by simp at h, fun h => absurd h hp⟩

theorem Det.need {α : Type} {b : Bool} {f : Unit → R α} {P : Prop} {a : α} (h : b = true → Det (f ()) P a) :
    Det (R.need b >>= f) (b = true ∧ P) a := by
  cases b with
  | false => exact ⟨fun h => by simp at h, fun _ => rfl⟩
  | true => exact (h rfl).congr ⟨fun p => ⟨rfl, p⟩, fun p => p.2⟩

theorem Det.last {b : Bool} : Det (R.need b) (b = true) () := by
  cases b with
  | false => exact ⟨fun h => by simp at h, fun _ => rfl⟩
  | true => exact ⟨fun _ => rfl, fun h => absurd rfl h⟩

theorem Det.seq {α β : Type} {x : R α} {f : α → R β} {P Q : Prop} {a : α} {b : β} (hx : Det x P a)
    (h : P → Det (f a) Q b) : Det (x >>= f) (P ∧ Q) b := by
  by_cases hp : P
  · rw [hx.1 hp, R.ok_bind]
    exact (h hp).congr ⟨fun q => ⟨hp, q⟩, fun q => q.2⟩
  · rw [hx.2 hp, R.fail_bind]
    exact ⟨fun q => absurd q.1 hp, fun _ => rfl⟩

theorem Det.ok {α : Type} (a : α) : Det (.ok a) True a := ⟨fun _ => rfl, fun h => absurd trivial h⟩

/-! ### Comparisons -/

@[simp] theorem cmp_lt0 (i j : Int) : (mpz_cmp (mpz_of i) (mpz_of j) < 0) ↔ i < j := by
  rw [cmp_of]; split <;> [skip; split] <;> simp_all
theorem cmp_ge0 (i j : Int) : (mpz_cmp (mpz_of i) (mpz_of j) ≥ 0) ↔ j ≤ i := by
  rw [ge_iff_le, ← not_lt, cmp_lt0, not_lt]
@[simp] theorem cmp_eq0 (i j : Int) : (mpz_cmp (mpz_of i) (mpz_of j) = 0) ↔ i = j := by
  rw [cmp_of]; split <;> [skip; split] <;> simp_all
  omega
@[simp] theorem cmp_ui_lt0 (i : Int) (w : Limb) : (mpz_cmp_ui (mpz_of i) w < 0) ↔ i < w.toNat := by
  rw [cmp_ui_of]; split <;> [skip; split] <;> simp_all
@[simp] theorem cmp_ui_eq0 (i : Int) (w : Limb) : (mpz_cmp_ui (mpz_of i) w = 0) ↔ i = w.toNat := by
  rw [cmp_ui_of]; split <;> [skip; split] <;> simp_all
  omega
theorem sgn_pos (i : Int) : (mpz_sgn (mpz_of i) > 0) ↔ 0 < i := by rw [sgn_of]; exact Int.sign_pos_iff
theorem sgn_le (i : Int) : (mpz_sgn (mpz_of i) ≤ 0) ↔ i ≤ 0 := by
  have := sgn_pos i
  omega
theorem sgn_lt (i : Int) : (mpz_sgn (mpz_of i) < 0) ↔ i < 0 := by rw [sgn_of]; exact Int.sign_neg_iff
theorem sgn_zero (i : Int) : (mpz_sgn (mpz_of i) = 0) ↔ i = 0 := by rw [sgn_of]; exact Int.sign_eq_zero_iff_zero

theorem nat_of (n : Nat) : mpz_nat (mpz_of n) = n := by
  have h := rep_abs (of_rep (n : Int))
  rw [Int.natAbs_natCast] at h
  unfold mpz_nat
  refine Eq.trans ?_ h
  generalize (mpz_of n).mag = a
  clear h
  induction a with
  | nil => rfl
  | cons x a ih => rw [List.foldr_cons, ih, val_cons]

/-! ### The encoding of keys -/

theorem derLen_len {n : Nat} (h : n < 2 ^ 16) : (derLen n).length ≤ 3 := by
  unfold derLen
  split
  · simp
  · have := (Asn1.beBytes_len_le n 2).2 (by omega)
    simp only [List.length_cons]; omega

theorem derContent_len {n k : Nat} (h : n < 256 ^ k) : (derContent n).length ≤ k + 1 := by
  have := (Asn1.beBytes_len_le n k).2 h
  unfold derContent
  split
  · simp
  · rename_i hb
    rw [hb] at this
    split <;> simp at this ⊢ <;> omega

theorem derInt_len {n : Nat} (h : n < 256 ^ 2048) : (derInt n).length ≤ 2053 := by
  have h1 := derContent_len h
  have h2 := derLen_len (n := (derContent n).length) (by omega)
  unfold derInt
  simp only [List.length_cons, List.length_append]
  omega

theorem read_mpz_ok (n : Nat) (r : List Byte) (h : n < 256 ^ 2048) :
    need_mpz (Asn1.exact (derInt n ++ r)) = .ok (mpz_of n, Asn1.exact r) := by
  have := (asn1_read_mpz_strict_iff (derInt n ++ r) n r).2 ⟨rfl, h⟩
  unfold need_mpz
  rw [R.liftM_eq, this]
  rfl

theorem read_mpz_cases (d : List Byte) : need_mpz (Asn1.exact d) = .fail ∨
    ∃ n r, need_mpz (Asn1.exact d) = .ok (mpz_of (n : Nat), Asn1.exact r) ∧ d = derInt n ++ r ∧ n < 256 ^ 2048 := by
  obtain ⟨out, h1, ⟨d', h2, -⟩, -, -⟩ := Asn1.read_mpz_all true d
  have h3 : need_mpz (Asn1.exact d) = (R.need out.ret >>= fun _ => .ok (mpz_of out.n, out.st)) := by
    unfold need_mpz
    rw [R.liftM_eq, h1]
    rfl
  rw [h3]
  cases hr : out.ret with
  | false => exact Or.inl rfl
  | true =>
    obtain ⟨n, st, ret⟩ := out
    dsimp only at h2 hr
    subst h2 hr
    exact Or.inr ⟨n, d', rfl, (asn1_read_mpz_strict_iff d n d').1 h1⟩

theorem read_seq_cases (d : List Byte) : (∃ s, asn1_read_seq (Asn1.exact d) true = .ok (s, false)) ∨
    ∃ r, asn1_read_seq (Asn1.exact d) true = .ok (Asn1.exact r, true) ∧ d = derSeq r := by
  obtain ⟨⟨s, b⟩, h1, ⟨d', h2, -⟩⟩ := (asn1_readers_safe d true).2.1
  cases b with
  | false => exact Or.inl ⟨_, h1⟩
  | true =>
    dsimp only at h2
    subst h2
    exact Or.inr ⟨d', h1, ((asn1_read_seq_strict_iff d d').1 h1).1⟩

theorem read_version_cases (d : List Byte) : (∃ s, asn1_read_version (Asn1.exact d) 0 true = .ok (s, false)) ∨
    ∃ r, asn1_read_version (Asn1.exact d) 0 true = .ok (Asn1.exact r, true) ∧ d = [2, 1, 0] ++ r := by
  obtain ⟨⟨s, b⟩, h1, ⟨d', h2, -⟩⟩ := (asn1_readers_safe d true).2.2.2.2.1 0
  cases b with
  | false => exact Or.inl ⟨_, h1⟩
  | true =>
    dsimp only at h2
    subst h2
    obtain ⟨c, hc, hd⟩ := (asn1_read_version_strict_iff d d' 0).1 h1
    have : c = 0 := BitVec.eq_of_toNat_eq hc
    exact Or.inr ⟨d', h1, by rw [hd, this]; rfl⟩

theorem pub_import_ok {n e : Nat} (hn : n < 256 ^ 2048) (he : e < 256 ^ 2048) :
    rsa_pub_import (rsaPubDer n e) = .ok ⟨mpz_of n, mpz_of e⟩ := by
  have h1 := derInt_len hn
  have h2 := derInt_len he
  have hs := (asn1_read_seq_strict_iff (rsaPubDer n e) (derInt n ++ derInt e)).2
    ⟨rfl, by rw [List.length_append]; omega⟩
  unfold rsa_pub_import
  rw [R.liftM_eq, hs, R.lift_ok, R.ok_bind, R.need_true, R.ok_bind, read_mpz_ok n _ hn, R.ok_bind]
  have := read_mpz_ok e [] he
  rw [List.append_nil] at this
  rw [this]
  rfl

theorem pub_import_cases (key : List Byte) : rsa_pub_import key = .fail ∨
    ∃ n e, key = rsaPubDer n e ∧ n < 256 ^ 2048 ∧ e < 256 ^ 2048 ∧
      rsa_pub_import key = .ok ⟨mpz_of (n : Nat), mpz_of (e : Nat)⟩ := by
  unfold rsa_pub_import
  rw [R.liftM_eq]
  rcases read_seq_cases key with ⟨s, h⟩ | ⟨r, h, hk⟩
  · rw [h]; exact Or.inl rfl
  rw [h, R.lift_ok, R.ok_bind, R.need_true, R.ok_bind]
  rcases read_mpz_cases r with h | ⟨n, r1, h, hr, hn⟩
  · rw [h]; exact Or.inl rfl
  rw [h, R.ok_bind]
  rcases read_mpz_cases r1 with h | ⟨e, r2, h, hr1, he⟩
  · rw [h]; exact Or.inl rfl
  rw [h, R.ok_bind]
  cases r2 with
  | cons a b => exact Or.inl rfl
  | nil => exact Or.inr ⟨n, e, by rw [hk, hr, hr1, List.append_nil]; rfl, hn, he, rfl⟩

/-- The private key as the code holds it. -/
def ofKey (k : RsaKey) : RsaPriv :=
  ⟨mpz_of k.n, mpz_of k.e, mpz_of k.d, mpz_of k.p, mpz_of k.q, mpz_of k.dp, mpz_of k.dq, mpz_of k.qi⟩

/-- Every number can be read back. -/
structure Small (k : RsaKey) : Prop where
  n : k.n < 256 ^ 2048
  e : k.e < 256 ^ 2048
  d : k.d < 256 ^ 2048
  p : k.p < 256 ^ 2048
  q : k.q < 256 ^ 2048
  dp : k.dp < 256 ^ 2048
  dq : k.dq < 256 ^ 2048
  qi : k.qi < 256 ^ 2048

theorem priv_import_ok {k : RsaKey} (h : Small k) : rsa_priv_import (rsaPrivDer k) = .ok (ofKey k) := by
  have l1 := derInt_len h.n
  have l2 := derInt_len h.e
  have l3 := derInt_len h.d
  have l4 := derInt_len h.p
  have l5 := derInt_len h.q
  have l6 := derInt_len h.dp
  have l7 := derInt_len h.dq
  have l8 := derInt_len h.qi
  unfold rsaPrivDer
  generalize hr : ([2, 1, 0] ++ (derInt k.n ++ (derInt k.e ++ (derInt k.d ++ (derInt k.p ++ (derInt k.q ++
    (derInt k.dp ++ (derInt k.dq ++ derInt k.qi)))))))) = r
  have hs := (asn1_read_seq_strict_iff (derSeq r) r).2
    ⟨rfl, by rw [← hr]; simp only [List.length_append, List.length_cons, List.length_nil]; omega⟩
  have hv := (asn1_read_version_strict_iff r (derInt k.n ++ (derInt k.e ++ (derInt k.d ++ (derInt k.p ++ (derInt k.q ++
    (derInt k.dp ++ (derInt k.dq ++ derInt k.qi))))))) 0).2 ⟨0, rfl, hr.symm⟩
  have hq := read_mpz_ok k.qi [] h.qi
  rw [List.append_nil] at hq
  unfold rsa_priv_import
  rw [R.liftM_eq, hs, R.lift_ok, R.ok_bind, R.need_true, R.ok_bind, R.liftM_eq, hv, R.lift_ok, R.ok_bind, R.need_true,
    R.ok_bind, read_mpz_ok _ _ h.n, R.ok_bind, read_mpz_ok _ _ h.e, R.ok_bind, read_mpz_ok _ _ h.d, R.ok_bind,
    read_mpz_ok _ _ h.p, R.ok_bind, read_mpz_ok _ _ h.q, R.ok_bind, read_mpz_ok _ _ h.dp, R.ok_bind,
    read_mpz_ok _ _ h.dq, R.ok_bind, hq]
  rfl

theorem priv_import_cases (key : List Byte) : rsa_priv_import key = .fail ∨
    ∃ k, key = rsaPrivDer k ∧ Small k ∧ rsa_priv_import key = .ok (ofKey k) := by
  unfold rsa_priv_import
  rw [R.liftM_eq]
  rcases read_seq_cases key with ⟨s, h⟩ | ⟨r, h, hk⟩
  · rw [h]; exact Or.inl rfl
  rw [h, R.lift_ok, R.ok_bind, R.need_true, R.ok_bind, R.liftM_eq]
  rcases read_version_cases r with ⟨s, h⟩ | ⟨r0, h, hv⟩
  · rw [h]; exact Or.inl rfl
  rw [h, R.lift_ok, R.ok_bind, R.need_true, R.ok_bind]
  rcases read_mpz_cases r0 with h | ⟨n, r1, h, h1, b1⟩
  · rw [h]; exact Or.inl rfl
  rw [h, R.ok_bind]
  rcases read_mpz_cases r1 with h | ⟨e, r2, h, h2, b2⟩
  · rw [h]; exact Or.inl rfl
  rw [h, R.ok_bind]
  rcases read_mpz_cases r2 with h | ⟨d, r3, h, h3, b3⟩
  · rw [h]; exact Or.inl rfl
  rw [h, R.ok_bind]
  rcases read_mpz_cases r3 with h | ⟨p, r4, h, h4, b4⟩
  · rw [h]; exact Or.inl rfl
  rw [h, R.ok_bind]
  rcases read_mpz_cases r4 with h | ⟨q, r5, h, h5, b5⟩
  · rw [h]; exact Or.inl rfl
  rw [h, R.ok_bind]
  rcases read_mpz_cases r5 with h | ⟨dp, r6, h, h6, b6⟩
  · rw [h]; exact Or.inl rfl
  rw [h, R.ok_bind]
  rcases read_mpz_cases r6 with h | ⟨dq, r7, h, h7, b7⟩
  · rw [h]; exact Or.inl rfl
  rw [h, R.ok_bind]
  rcases read_mpz_cases r7 with h | ⟨qi, r8, h, h8, b8⟩
  · rw [h]; exact Or.inl rfl
  rw [h, R.ok_bind]
  cases r8 with
  | cons a b => exact Or.inl rfl
  | nil =>
    refine Or.inr ⟨⟨n, e, d, p, q, dp, dq, qi⟩, ?_, ⟨b1, b2, b3, b4, b5, b6, b7, b8⟩, rfl⟩
    rw [hk, hv, h1, h2, h3, h4, h5, h6, h7, h8, List.append_nil]
    rfl

/-! ### The checks -/

theorem pub_verify_det (n e : Nat) : Det (rsa_pub_verify ⟨mpz_of n, mpz_of e⟩) (RsaPubOk n e) () := by
  unfold rsa_pub_verify
  simp only [R.liftM_eq, bitlen_of, odd_of, R.lift_ok, R.ok_bind, Int.natAbs_natCast]
  refine (Det.need fun _ => Det.need fun _ => Det.need fun _ => Det.need fun _ => Det.need fun _ => Det.need fun _ =>
    Det.last).congr ?_
  simp only [decide_eq_true_eq, sgn_lt, cmp_ui_lt0, not_lt, gt_iff_lt, RSA_MIN_MOD_BITS, RSA_MAX_MOD_BITS, RSA_MIN_EXP,
    RSA_MAX_EXP_BITS, Nat.size_le]
  have h1 : 512 ≤ Nat.size n ↔ 2 ^ 511 ≤ n := by
    rw [← not_lt, ← not_lt, ← Nat.size_le]; omega
  rw [h1]
  constructor
  · rintro ⟨-, a, b, c, d, e, f⟩
    exact ⟨a, b, by omega, by simpa using c, d, by omega⟩
  · rintro ⟨a, b, c, d, e, f⟩
    exact ⟨by omega, a, b, by simpa using d, e, by omega, by omega⟩

/-- What `rsa_priv_is_sane` checks. -/
structure Sane (k : RsaKey) : Prop where
  n : 0 < k.n ∧ k.n < 2 ^ 16384
  e : 0 < k.e ∧ k.e < 2 ^ 33
  d : 0 < k.d ∧ k.d < 2 ^ 16384
  p : 0 < k.p ∧ k.p < 2 ^ 16384
  q : 0 < k.q ∧ k.q < 2 ^ 16384
  dp : 0 < k.dp ∧ k.dp < 2 ^ 16384
  dq : 0 < k.dq ∧ k.dq < 2 ^ 16384
  qi : 0 < k.qi ∧ k.qi < 2 ^ 16384

theorem is_sane_det (k : RsaKey) : Det (rsa_priv_is_sane (ofKey k)) (Sane k) () := by
  unfold rsa_priv_is_sane ofKey
  simp only [R.liftM_eq, bitlen_of, R.lift_ok, R.ok_bind, Int.natAbs_natCast]
  refine (Det.need fun _ => Det.need fun _ => Det.need fun _ => Det.need fun _ => Det.need fun _ => Det.need fun _ =>
    Det.need fun _ => Det.need fun _ => Det.need fun _ => Det.need fun _ => Det.need fun _ => Det.need fun _ =>
    Det.need fun _ => Det.need fun _ => Det.need fun _ => Det.last).congr ?_
  simp only [decide_eq_true_eq, sgn_pos, RSA_MAX_MOD_BITS, RSA_MAX_EXP_BITS, Nat.size_le, Int.natCast_pos]
  constructor
  · rintro ⟨a1, a2, a3, a4, a5, a6, a7, a8, b1, b2, b3, b4, b5, b6, b7, b8⟩
    exact ⟨⟨a1, b1⟩, ⟨a2, b2⟩, ⟨a3, b3⟩, ⟨a4, b4⟩, ⟨a5, b5⟩, ⟨a6, b6⟩, ⟨a7, b7⟩, ⟨a8, b8⟩⟩
  · rintro ⟨⟨a1, b1⟩, ⟨a2, b2⟩, ⟨a3, b3⟩, ⟨a4, b4⟩, ⟨a5, b5⟩, ⟨a6, b6⟩, ⟨a7, b7⟩, ⟨a8, b8⟩⟩
    exact ⟨a1, a2, a3, a4, a5, a6, a7, a8, b1, b2, b3, b4, b5, b6, b7, b8⟩

theorem pred_cast {p : Nat} (h : 3 ≤ p) : ((p : Nat) : Int) - 1 = ((p - 1 : Nat) : Int) := by omega

theorem size_ge {n b : Nat} : b + 1 ≤ Nat.size n ↔ 2 ^ b ≤ n := by
  rw [← not_lt, ← not_lt, ← Nat.size_le]; omega

theorem priv_verify_det (k : RsaKey) : Det (rsa_priv_verify (ofKey k)) (RsaKeyOk k) () := by
  unfold rsa_priv_verify
  have hsane := is_sane_det k
  generalize rsa_priv_is_sane (ofKey k) = sane at hsane ⊢
  unfold ofKey
  simp only [R.liftM_eq, bitlen_of, odd_of, R.lift_ok, R.ok_bind, Int.natAbs_natCast]
  apply Det.congr
  case h =>
    apply hsane.seq
    intro hs
    apply Det.need
    intro _
    apply Det.need
    intro _
    apply Det.need
    intro _
    apply Det.need
    intro _
    apply Det.need
    intro hp
    apply Det.need
    intro _
    apply Det.need
    intro hq
    apply Det.need
    intro _
    have hp' : 3 ≤ k.p := by
      rw [decide_eq_true_eq, cmp_ui_lt0, not_lt] at hp
      exact_mod_cast hp
    have hq' : 3 ≤ k.q := by
      rw [decide_eq_true_eq, cmp_ui_lt0, not_lt] at hq
      exact_mod_cast hq
    have hg : (((k.p - 1).gcd (k.q - 1) : Nat) : Int) ≠ 0 := by
      have : (k.p - 1).gcd (k.q - 1) ≠ 0 := by
        intro h
        have := (Nat.gcd_eq_zero_iff.1 h).1
        omega
      exact_mod_cast this
    have hl : (Nat.lcm (k.p - 1) (k.q - 1) : Nat) ≠ 0 := Nat.lcm_ne_zero (by omega) (by omega)
    have hp1 : ((k.p - 1 : Nat) : Int) ≠ 0 := by omega
    have hq1 : ((k.q - 1 : Nat) : Int) ≠ 0 := by omega
    have hp0 : (k.p : Int) ≠ 0 := by omega
    simp only [sub_1_of, mul_of, gcd_of, R.lift_ok, R.ok_bind, mod_of _ hp1, pred_cast hp', pred_cast hq', mod_of _ hq1,
      mod_of _ hp0, ← Nat.cast_mul, Int.gcd_natCast_natCast]
    rw [divexact_of hg (by exact_mod_cast (Nat.gcd_dvd_left _ _).mul_right _)]
    rw [← Int.natCast_div, show (k.p - 1) * (k.q - 1) / (k.p - 1).gcd (k.q - 1) = (k.p - 1).lcm (k.q - 1) from rfl]
    simp only [R.lift_ok, R.ok_bind, mod_of _ (Nat.cast_ne_zero.2 hl : (((k.p - 1).lcm (k.q - 1) : Nat) : Int) ≠ 0)]
    exact (Det.need fun _ => Det.need fun _ => Det.need fun _ => Det.need fun _ => Det.need fun _ => Det.need fun _ =>
      Det.need fun _ => Det.need fun _ => Det.need fun _ => Det.need fun _ => Det.need fun _ => Det.need fun _ =>
      Det.need fun _ => Det.last)
  case hpq =>
    simp only [decide_eq_true_eq, cmp_ui_lt0, cmp_ge0, cmp_eq0, cmp_ui_eq0, sgn_zero, not_lt, not_le,
      RSA_MIN_MOD_BITS, RSA_MIN_EXP]
    rw [show (512 : Nat) = 511 + 1 from rfl, size_ge]
    norm_cast
    have e1 : BitVec.toNat (1 : Limb) = 1 := rfl
    have e2 : BitVec.toNat (2 : Limb) = 2 := rfl
    have e3 : BitVec.toNat (3 : Limb) = 3 := rfl
    rw [e1, e2, e3]
    constructor
    · rintro ⟨hs, h1, h2, h3, h4, h5, h6, h7, h8, h9, h10, h11, h12, h13, h14, h15, h16, h17, h18, h19, h20, h21, h22⟩
      exact ⟨⟨h1, hs.n.2, h2, h3, hs.e.2, h4⟩, h6, h8, h5, h7, h17, h18.symm, h9, h10, h19, h20.symm, h21.symm, h11, h13,
        h15, h16, h22⟩
    · rintro ⟨⟨a1, a2, a3, a4, a5, a6⟩, h6, h8, h5, h7, h17, h18, h9, h10, h19, h20, h21, h11, h13, h15, h16, h22⟩
      have hpn : k.p ≤ k.n := by rw [h18]; exact Nat.le_mul_of_pos_right _ (by omega)
      have hqn : k.q ≤ k.n := by rw [h18]; exact Nat.le_mul_of_pos_left _ (by omega)
      have hdn : k.d < k.n := by
        rw [h18]
        exact lt_of_lt_of_le h10 (Nat.mul_le_mul (Nat.sub_le _ _) (Nat.sub_le _ _))
      have hdp : k.dp < k.p - 1 := by rw [h20]; exact Nat.mod_lt _ (by omega)
      have hdq : k.dq < k.q - 1 := by rw [h21]; exact Nat.mod_lt _ (by omega)
      exact ⟨⟨⟨by omega, a2⟩, ⟨by omega, a5⟩, ⟨by omega, lt_trans hdn a2⟩, ⟨by omega, lt_of_le_of_lt hpn a2⟩,
        ⟨by omega, lt_of_le_of_lt hqn a2⟩, ⟨by omega, lt_of_lt_of_le (lt_of_lt_of_le hdp (Nat.sub_le _ _)) (le_trans hpn a2.le)⟩,
        ⟨by omega, lt_of_lt_of_le (lt_of_lt_of_le hdq (Nat.sub_le _ _)) (le_trans hqn a2.le)⟩,
        ⟨by omega, lt_trans h16 (lt_of_le_of_lt hpn a2)⟩⟩,
        a1, a3, a4, a6, h5, h6, h7, h8, h9, h10, h11, hdp, h13, hdq, h15, h16, h17, h18.symm, h19, h20.symm, h21.symm, h22⟩

end Torsion.Rsa
