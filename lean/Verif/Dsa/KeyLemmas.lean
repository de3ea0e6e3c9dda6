import Verif.Dsa.Model
import Verif.Dsa.Spec
import Verif.Rsa.ImportLemmas

/-!
# Lemmas: DSA keys
-/
namespace Torsion.Dsa
open Torsion.Spec Mpi Torsion.Rsa

/-- The group as the code holds it. -/
def ofGroup (p q g : Nat) : DsaGroup := ⟨mpz_of p, mpz_of q, mpz_of g⟩
/-- The public key as the code holds it. -/
def ofPub (p q g y : Nat) : DsaPub := ⟨ofGroup p q g, mpz_of y⟩
/-- The private key as the code holds it. -/
def ofKey (k : DsaKey) : DsaPriv := ⟨ofPub k.p k.q k.g k.y, mpz_of k.x⟩
/-- The signature as the code holds it. -/
def ofSig (r s : Nat) : DsaSig := ⟨mpz_of r, mpz_of s⟩

/-! ### Import -/

theorem group_import_ok {p q g : Nat} (hp : p < 256 ^ 2048) (hq : q < 256 ^ 2048) (hg : g < 256 ^ 2048) :
    dsa_group_import (dsaParamsDer p q g) = .ok (ofGroup p q g) := by
  have h1 := derInt_len hp
  have h2 := derInt_len hq
  have h3 := derInt_len hg
  have hs := (asn1_read_seq_strict_iff (dsaParamsDer p q g) (derInt p ++ (derInt q ++ derInt g))).2
    ⟨rfl, by simp only [List.length_append]; omega⟩
  have hz := read_mpz_ok g [] hg
  rw [List.append_nil] at hz
  unfold dsa_group_import
  rw [R.liftM_eq, hs, R.lift_ok, R.ok_bind, R.need_true, R.ok_bind, read_mpz_ok p _ hp, R.ok_bind, read_mpz_ok q _ hq,
    R.ok_bind, hz]
  rfl

theorem group_import_cases (key : List Byte) : dsa_group_import key = .fail ∨
    ∃ p q g, key = dsaParamsDer p q g ∧ p < 256 ^ 2048 ∧ q < 256 ^ 2048 ∧ g < 256 ^ 2048 ∧
      dsa_group_import key = .ok (ofGroup p q g) := by
  unfold dsa_group_import
  rw [R.liftM_eq]
  rcases read_seq_cases key with ⟨s, h⟩ | ⟨r, h, hk⟩
  · rw [h]; exact Or.inl rfl
  rw [h, R.lift_ok, R.ok_bind, R.need_true, R.ok_bind]
  rcases read_mpz_cases r with h | ⟨n1, r1, h, h1, b1⟩
  · rw [h]; exact Or.inl rfl
  rw [h, R.ok_bind]
  rcases read_mpz_cases r1 with h | ⟨n2, r2, h, h2, b2⟩
  · rw [h]; exact Or.inl rfl
  rw [h, R.ok_bind]
  rcases read_mpz_cases r2 with h | ⟨n3, r3, h, h3, b3⟩
  · rw [h]; exact Or.inl rfl
  rw [h, R.ok_bind]
  cases r3 with
  | cons a b => exact Or.inl rfl
  | nil => exact Or.inr ⟨n1, n2, n3, by rw [hk, h1, h2, h3, List.append_nil]; rfl, b1, b2, b3, rfl⟩

theorem pub_import_ok {p q g y : Nat} (hp : p < 256 ^ 2048) (hq : q < 256 ^ 2048) (hg : g < 256 ^ 2048)
    (hy : y < 256 ^ 2048) : dsa_pub_import (dsaPubDer p q g y) = .ok (ofPub p q g y) := by
  have h1 := derInt_len hp
  have h2 := derInt_len hq
  have h3 := derInt_len hg
  have h4 := derInt_len hy
  have hs := (asn1_read_seq_strict_iff (dsaPubDer p q g y) (derInt y ++ (derInt p ++ (derInt q ++ derInt g)))).2
    ⟨rfl, by simp only [List.length_append]; omega⟩
  have hz := read_mpz_ok g [] hg
  rw [List.append_nil] at hz
  unfold dsa_pub_import
  rw [R.liftM_eq, hs, R.lift_ok, R.ok_bind, R.need_true, R.ok_bind, read_mpz_ok y _ hy, R.ok_bind, read_mpz_ok p _ hp,
    R.ok_bind, read_mpz_ok q _ hq, R.ok_bind, hz]
  rfl

theorem pub_import_cases (key : List Byte) : dsa_pub_import key = .fail ∨
    ∃ p q g y, key = dsaPubDer p q g y ∧ p < 256 ^ 2048 ∧ q < 256 ^ 2048 ∧ g < 256 ^ 2048 ∧ y < 256 ^ 2048 ∧
      dsa_pub_import key = .ok (ofPub p q g y) := by
  unfold dsa_pub_import
  rw [R.liftM_eq]
  rcases read_seq_cases key with ⟨s, h⟩ | ⟨r, h, hk⟩
  · rw [h]; exact Or.inl rfl
  rw [h, R.lift_ok, R.ok_bind, R.need_true, R.ok_bind]
  rcases read_mpz_cases r with h | ⟨n1, r1, h, h1, b1⟩
  · rw [h]; exact Or.inl rfl
  rw [h, R.ok_bind]
  rcases read_mpz_cases r1 with h | ⟨n2, r2, h, h2, b2⟩
  · rw [h]; exact Or.inl rfl
  rw [h, R.ok_bind]
  rcases read_mpz_cases r2 with h | ⟨n3, r3, h, h3, b3⟩
  · rw [h]; exact Or.inl rfl
  rw [h, R.ok_bind]
  rcases read_mpz_cases r3 with h | ⟨n4, r4, h, h4, b4⟩
  · rw [h]; exact Or.inl rfl
  rw [h, R.ok_bind]
  cases r4 with
  | cons a b => exact Or.inl rfl
  | nil => exact Or.inr ⟨n2, n3, n4, n1, by rw [hk, h1, h2, h3, h4, List.append_nil]; rfl, b2, b3, b4, b1, rfl⟩

/-- Every number can be read back. -/
structure Small (k : DsaKey) : Prop where
  p : k.p < 256 ^ 2048
  q : k.q < 256 ^ 2048
  g : k.g < 256 ^ 2048
  y : k.y < 256 ^ 2048
  x : k.x < 256 ^ 2048

theorem priv_import_ok {k : DsaKey} (h : Small k) : dsa_priv_import (dsaPrivDer k) = .ok (ofKey k) := by
  have l1 := derInt_len h.p
  have l2 := derInt_len h.q
  have l3 := derInt_len h.g
  have l4 := derInt_len h.y
  have l5 := derInt_len h.x
  unfold dsaPrivDer
  generalize hr : ([2, 1, 0] ++ (derInt k.p ++ (derInt k.q ++ (derInt k.g ++ (derInt k.y ++ derInt k.x))))) = r
  have hs := (asn1_read_seq_strict_iff (derSeq r) r).2
    ⟨rfl, by rw [← hr]; simp only [List.length_append, List.length_cons, List.length_nil]; omega⟩
  have hv := (asn1_read_version_strict_iff r (derInt k.p ++ (derInt k.q ++ (derInt k.g ++ (derInt k.y ++ derInt k.x)))) 0).2
    ⟨0, rfl, hr.symm⟩
  have hq := read_mpz_ok k.x [] h.x
  rw [List.append_nil] at hq
  unfold dsa_priv_import
  rw [R.liftM_eq, hs, R.lift_ok, R.ok_bind, R.need_true, R.ok_bind, R.liftM_eq, hv, R.lift_ok, R.ok_bind, R.need_true,
    R.ok_bind, read_mpz_ok _ _ h.p, R.ok_bind, read_mpz_ok _ _ h.q, R.ok_bind, read_mpz_ok _ _ h.g, R.ok_bind,
    read_mpz_ok _ _ h.y, R.ok_bind, hq]
  rfl

theorem priv_import_cases (key : List Byte) : dsa_priv_import key = .fail ∨
    ∃ k, key = dsaPrivDer k ∧ Small k ∧ dsa_priv_import key = .ok (ofKey k) := by
  unfold dsa_priv_import
  rw [R.liftM_eq]
  rcases read_seq_cases key with ⟨s, h⟩ | ⟨r, h, hk⟩
  · rw [h]; exact Or.inl rfl
  rw [h, R.lift_ok, R.ok_bind, R.need_true, R.ok_bind, R.liftM_eq]
  rcases read_version_cases r with ⟨s, h⟩ | ⟨r0, h, hv⟩
  · rw [h]; exact Or.inl rfl
  rw [h, R.lift_ok, R.ok_bind, R.need_true, R.ok_bind]
  rcases read_mpz_cases r0 with h | ⟨n1, r1, h, h1, b1⟩
  · rw [h]; exact Or.inl rfl
  rw [h, R.ok_bind]
  rcases read_mpz_cases r1 with h | ⟨n2, r2, h, h2, b2⟩
  · rw [h]; exact Or.inl rfl
  rw [h, R.ok_bind]
  rcases read_mpz_cases r2 with h | ⟨n3, r3, h, h3, b3⟩
  · rw [h]; exact Or.inl rfl
  rw [h, R.ok_bind]
  rcases read_mpz_cases r3 with h | ⟨n4, r4, h, h4, b4⟩
  · rw [h]; exact Or.inl rfl
  rw [h, R.ok_bind]
  rcases read_mpz_cases r4 with h | ⟨n5, r5, h, h5, b5⟩
  · rw [h]; exact Or.inl rfl
  rw [h, R.ok_bind]
  cases r5 with
  | cons a b => exact Or.inl rfl
  | nil =>
    refine Or.inr ⟨⟨n1, n2, n3, n4, n5⟩, ?_, ⟨b1, b2, b3, b4, b5⟩, rfl⟩
    rw [hk, hv, h1, h2, h3, h4, h5, List.append_nil]
    rfl

/-! ### The checks -/

theorem group_sane_det (p q g : Nat) : Det (dsa_group_is_sane (ofGroup p q g)) (DsaGroupSane p q g) () := by
  unfold dsa_group_is_sane ofGroup
  simp only [R.liftM_eq, bitlen_of, odd_of, R.lift_ok, R.ok_bind, Int.natAbs_natCast, sub_1_of]
  refine (Det.need fun _ => Det.need fun _ => Det.need fun _ => Det.need fun _ => Det.need fun _ => Det.last).congr ?_
  simp only [decide_eq_true_eq, cmp_ui_lt0, cmp_ge0, not_or, not_and, not_lt, gt_iff_lt, DSA_MIN_BITS, DSA_MAX_BITS]
  have h1 : 512 ≤ Nat.size p ↔ 2 ^ 511 ≤ p := size_ge
  rw [h1, Nat.size_le]
  have h2 : ((2 : Limb).toNat : Int) = 2 := by decide
  rw [h2]
  constructor
  · rintro ⟨⟨a, b⟩, c, d, e, f, g⟩
    exact ⟨a, b, by omega, by omega, by omega, by omega, by omega⟩
  · rintro ⟨a, b, c, d, e, f, g⟩
    exact ⟨⟨a, b⟩, by omega, by omega, by omega, by omega, by omega⟩

theorem group_pos {p q g : Nat} (h : DsaGroupSane p q g) : 2 < p ∧ 2 < q ∧ q < 2 ^ 256 ∧ 2 ^ 159 ≤ q := by
  have h1 : 2 ^ 2 ≤ p := le_trans (Nat.pow_le_pow_right (by norm_num) (by norm_num)) h.plo
  have h2 : 2 ^ 159 ≤ q := size_ge.1 (by have := h.qbits; omega)
  have h3 : q < 2 ^ 256 := Nat.size_le.1 (by have := h.qbits; omega)
  have h4 : 2 ^ 2 ≤ q := le_trans (Nat.pow_le_pow_right (by norm_num) (by norm_num)) h2
  exact ⟨by omega, by omega, h3, h2⟩

theorem powm_nat {b e m : Nat} (hm : 0 < m) :
    mpz_powm .heap (mpz_of b) (mpz_of e) (mpz_of m) = .ok (mpz_of ((b ^ e % m : Nat) : Int)) := by
  rw [powm_of _ (by omega) (by omega)]
  push_cast
  rfl

theorem powm_sec_nat {b e m : Nat} (hm : m % 2 = 1) :
    mpz_powm_sec .heap (mpz_of b) (mpz_of e) (mpz_of m) = .ok (mpz_of ((b ^ e % m : Nat) : Int)) := by
  rw [powm_sec_of _ (by omega) (by omega)]
  push_cast
  rfl

theorem one_iff (n : Nat) : (mpz_cmp_ui (mpz_of (n : Int)) 1 = 0) ↔ n = 1 := by
  rw [cmp_ui_eq0, show ((1 : Limb).toNat : Int) = 1 by decide]
  omega

theorem group_ok_det (p q g : Nat) : Det (dsa_group_verify (ofGroup p q g)) (DsaGroupOk p q g) () := by
  unfold dsa_group_verify
  refine ((group_sane_det p q g).seq (Q := g ^ q % p = 1) fun hs => ?_).congr
    ⟨fun h => ⟨h.1, h.2⟩, fun h => ⟨h.toDsaGroupSane, h.order⟩⟩
  have := group_pos hs
  rw [R.liftM_eq, show (ofGroup p q g).g = mpz_of g from rfl, show (ofGroup p q g).q = mpz_of q from rfl,
    show (ofGroup p q g).p = mpz_of p from rfl, powm_nat (by omega), R.lift_ok, R.ok_bind]
  exact Det.last.congr (by rw [decide_eq_true_eq, one_iff])

theorem pub_sane_det (p q g y : Nat) : Det (dsa_pub_is_sane (ofPub p q g y)) (DsaPubSane p q g y) () := by
  unfold dsa_pub_is_sane
  refine ((group_sane_det p q g).seq (Q := 2 ≤ y ∧ y < p - 1) fun hs => ?_).congr
    ⟨fun h => ⟨h.1, h.2.1, h.2.2⟩, fun h => ⟨h.toDsaGroupSane, h.ylo, h.yhi⟩⟩
  have := group_pos hs
  rw [R.liftM_eq, show (ofPub p q g y).p = mpz_of p from rfl, show (ofPub p q g y).y = mpz_of y from rfl, sub_1_of,
    R.lift_ok, R.ok_bind]
  refine Det.last.congr ?_
  have h2 : ((2 : Limb).toNat : Int) = 2 := by decide
  rw [decide_eq_true_eq, cmp_ui_lt0, cmp_ge0, h2]
  omega

theorem pub_ok_det (p q g y : Nat) : Det (dsa_pub_verify (ofPub p q g y)) (DsaPubOk p q g y) () := by
  unfold dsa_pub_verify
  refine ((group_ok_det p q g).seq (Q := DsaPubSane p q g y ∧ y ^ q % p = 1) fun hs => ?_).congr
    ⟨fun h => ⟨h.2.1, h.1.order, h.2.2⟩, fun h => ⟨⟨h.toDsaGroupSane, h.gorder⟩, h.toDsaPubSane, h.yorder⟩⟩
  refine (pub_sane_det p q g y).seq fun _ => ?_
  have := group_pos hs.toDsaGroupSane
  rw [R.liftM_eq, show (ofPub p q g y).p = mpz_of p from rfl, show (ofPub p q g y).y = mpz_of y from rfl,
    show (ofPub p q g y).q = mpz_of q from rfl, powm_nat (by omega), R.lift_ok, R.ok_bind]
  exact Det.last.congr (by rw [decide_eq_true_eq, one_iff])

theorem priv_sane_det (k : DsaKey) : Det (dsa_priv_is_sane (ofKey k)) (DsaKeySane k) () := by
  unfold dsa_priv_is_sane
  refine ((pub_sane_det k.p k.q k.g k.y).seq (Q := 0 < k.x ∧ k.x < k.q) fun hs => ?_).congr
    ⟨fun h => ⟨h.1, h.2.1, h.2.2⟩, fun h => ⟨h.toDsaPubSane, h.xlo, h.xhi⟩⟩
  rw [show (ofKey k).x = mpz_of k.x from rfl, show (ofKey k).q = mpz_of k.q from rfl]
  refine (Det.need fun _ => Det.last).congr ?_
  rw [decide_eq_true_eq, decide_eq_true_eq, sgn_zero, cmp_lt0]
  omega

theorem pow_order {g q p x : Nat} (h : g ^ q % p = 1) : (g ^ x % p) ^ q % p = 1 := by
  have hp : 1 % p = 1 := by
    conv_rhs => rw [← h]
    rw [← h, Nat.mod_mod]
  rw [← Nat.pow_mod, ← pow_mul, mul_comm, pow_mul, Nat.pow_mod, h, one_pow, hp]

theorem priv_ok_det (k : DsaKey) : Det (dsa_priv_verify (ofKey k)) (DsaKeyOk k) () := by
  unfold dsa_priv_verify
  refine ((priv_sane_det k).seq (Q := DsaPubOk k.p k.q k.g k.y ∧ k.g ^ k.x % k.p = k.y) fun hs => ?_).congr
    ⟨fun h => ⟨h.1, h.2.1.gorder, h.2.2⟩, fun h => ⟨h.toDsaKeySane, ⟨h.toDsaPubSane, h.gorder, ?_⟩, h.pub⟩⟩
  · refine (pub_ok_det k.p k.q k.g k.y).seq fun _ => ?_
    rw [R.liftM_eq, show (ofKey k).g = mpz_of k.g from rfl, show (ofKey k).x = mpz_of k.x from rfl,
      show (ofKey k).p = mpz_of k.p from rfl, show (ofKey k).y = mpz_of k.y from rfl, powm_sec_nat hs.podd, R.lift_ok,
      R.ok_bind]
    exact Det.last.congr (by rw [decide_eq_true_eq, cmp_eq0, Nat.cast_inj])
  · rw [← h.pub]; exact pow_order h.gorder

/-! ### Reading a key -/

theorem small_of {n : Nat} {b : Nat} (h : n < 2 ^ b) (hb : b ≤ 16384) : n < 256 ^ 2048 := by
  rw [show (256 : Nat) = 2 ^ 8 by norm_num, ← Nat.pow_mul]
  exact lt_of_lt_of_le h (Nat.pow_le_pow_right (by norm_num) (by omega))

theorem group_small {p q g : Nat} (h : DsaGroupSane p q g) : p < 256 ^ 2048 ∧ q < 256 ^ 2048 ∧ g < 256 ^ 2048 := by
  have hp := small_of h.phi (by norm_num)
  exact ⟨hp, small_of (group_pos h).2.2.1 (by norm_num), by have := h.ghi; omega⟩

theorem pub_small {p q g y : Nat} (h : DsaPubSane p q g y) :
    p < 256 ^ 2048 ∧ q < 256 ^ 2048 ∧ g < 256 ^ 2048 ∧ y < 256 ^ 2048 := by
  have h1 := group_small h.toDsaGroupSane
  exact ⟨h1.1, h1.2.1, h1.2.2, by have := h.yhi; omega⟩

theorem priv_small {k : DsaKey} (h : DsaKeySane k) : Small k := by
  have h1 := pub_small h.toDsaPubSane
  exact ⟨h1.1, h1.2.1, h1.2.2.1, h1.2.2.2, by have := h.xhi; omega⟩

theorem pub_der_inj {p q g y p' q' g' y' : Nat} (h : DsaPubSane p q g y) (h' : DsaPubSane p' q' g' y')
    (e : dsaPubDer p q g y = dsaPubDer p' q' g' y') : p = p' ∧ q = q' ∧ g = g' ∧ y = y' := by
  have h1 := pub_small h
  have h2 := pub_small h'
  have a := pub_import_ok h1.1 h1.2.1 h1.2.2.1 h1.2.2.2
  rw [e, pub_import_ok h2.1 h2.2.1 h2.2.2.1 h2.2.2.2] at a
  have a := R.ok.inj a
  simp only [ofPub, ofGroup, DsaPub.mk.injEq, DsaGroup.mk.injEq, of_inj, Nat.cast_inj] at a
  exact ⟨a.1.1.symm, a.1.2.1.symm, a.1.2.2.symm, a.2.symm⟩

theorem priv_der_inj {k k' : DsaKey} (h : DsaKeySane k) (h' : DsaKeySane k') (e : dsaPrivDer k = dsaPrivDer k') : k = k' := by
  have a := priv_import_ok (priv_small h)
  rw [e, priv_import_ok (priv_small h')] at a
  have a := R.ok.inj a
  cases k
  cases k'
  simp only [ofKey, ofPub, ofGroup, DsaPriv.mk.injEq, DsaPub.mk.injEq, DsaGroup.mk.injEq, of_inj, Nat.cast_inj] at a
  simp only [DsaKey.mk.injEq]
  exact ⟨a.1.1.1.symm, a.1.1.2.1.symm, a.1.1.2.2.symm, a.1.2.symm, a.2.symm⟩

theorem group_der_inj {p q g p' q' g' : Nat} (h : DsaGroupSane p q g) (h' : DsaGroupSane p' q' g')
    (e : dsaParamsDer p q g = dsaParamsDer p' q' g') : p = p' ∧ q = q' ∧ g = g' := by
  have h1 := group_small h
  have h2 := group_small h'
  have a := group_import_ok h1.1 h1.2.1 h1.2.2
  rw [e, group_import_ok h2.1 h2.2.1 h2.2.2] at a
  have a := R.ok.inj a
  simp only [ofGroup, DsaGroup.mk.injEq, of_inj, Nat.cast_inj] at a
  exact ⟨a.1.symm, a.2.1.symm, a.2.2.symm⟩

/-- A call which reads parameters and checks them. -/
theorem group_read {α : Type} {chk : DsaGroup → R Unit} {P : Nat → Nat → Nat → Prop}
    (hc : ∀ p q g, Det (chk (ofGroup p q g)) (P p q g) ()) (hP : ∀ {p q g}, P p q g → DsaGroupSane p q g) (key : List Byte)
    (f : DsaGroup → R α) :
    (∀ p q g, key = dsaParamsDer p q g → P p q g →
      (dsa_group_import key >>= fun k => chk k >>= fun _ => f k) = f (ofGroup p q g)) ∧
    ((¬ ∃ p q g, key = dsaParamsDer p q g ∧ P p q g) →
      (dsa_group_import key >>= fun k => chk k >>= fun _ => f k) = .fail) := by
  constructor
  · intro p q g hk hp
    have h := group_small (hP hp)
    rw [hk, group_import_ok h.1 h.2.1 h.2.2, R.ok_bind, (hc p q g).1 hp, R.ok_bind]
  · intro hno
    rcases group_import_cases key with h | ⟨p, q, g, hk, -, -, -, h⟩
    · rw [h]; rfl
    · rw [h, R.ok_bind, (hc p q g).2 fun hp => hno ⟨p, q, g, hk, hp⟩]; rfl

/-- A call which reads a public key and checks it. -/
theorem pub_read {α : Type} {chk : DsaPub → R Unit} {P : Nat → Nat → Nat → Nat → Prop}
    (hc : ∀ p q g y, Det (chk (ofPub p q g y)) (P p q g y) ()) (hP : ∀ {p q g y}, P p q g y → DsaPubSane p q g y)
    (key : List Byte) (f : DsaPub → R α) :
    (∀ p q g y, key = dsaPubDer p q g y → P p q g y →
      (dsa_pub_import key >>= fun k => chk k >>= fun _ => f k) = f (ofPub p q g y)) ∧
    ((¬ ∃ p q g y, key = dsaPubDer p q g y ∧ P p q g y) →
      (dsa_pub_import key >>= fun k => chk k >>= fun _ => f k) = .fail) := by
  constructor
  · intro p q g y hk hp
    have h := pub_small (hP hp)
    rw [hk, pub_import_ok h.1 h.2.1 h.2.2.1 h.2.2.2, R.ok_bind, (hc p q g y).1 hp, R.ok_bind]
  · intro hno
    rcases pub_import_cases key with h | ⟨p, q, g, y, hk, -, -, -, -, h⟩
    · rw [h]; rfl
    · rw [h, R.ok_bind, (hc p q g y).2 fun hp => hno ⟨p, q, g, y, hk, hp⟩]; rfl

/-- A call which reads a private key and checks it. -/
theorem priv_read {α : Type} {chk : DsaPriv → R Unit} {P : DsaKey → Prop}
    (hc : ∀ k, Det (chk (ofKey k)) (P k) ()) (hP : ∀ {k}, P k → DsaKeySane k) (key : List Byte) (f : DsaPriv → R α) :
    (∀ k, key = dsaPrivDer k → P k →
      (dsa_priv_import key >>= fun k => chk k >>= fun _ => f k) = f (ofKey k)) ∧
    ((¬ ∃ k, key = dsaPrivDer k ∧ P k) →
      (dsa_priv_import key >>= fun k => chk k >>= fun _ => f k) = .fail) := by
  constructor
  · intro k hk hp
    rw [hk, priv_import_ok (priv_small (hP hp)), R.ok_bind, (hc k).1 hp, R.ok_bind]
  · intro hno
    rcases priv_import_cases key with h | ⟨k, hk, -, h⟩
    · rw [h]; rfl
    · rw [h, R.ok_bind, (hc k).2 fun hp => hno ⟨k, hk, hp⟩]; rfl

/-! ### Export -/

theorem group_export_ok {p q g : Nat} (h : DsaGroupSane p q g) :
    dsa_group_export (ofGroup p q g) = .ok (dsaParamsDer p q g) := by
  obtain ⟨b1, b2, b3⟩ := group_small h
  obtain ⟨w1, s1⟩ := write_mpz_ok b1
  obtain ⟨w2, s2⟩ := write_mpz_ok b2
  obtain ⟨w3, s3⟩ := write_mpz_ok b3
  have l1 := derInt_len b1
  have l2 := derInt_len b2
  have l3 := derInt_len b3
  unfold dsa_group_export ofGroup dsaParamsDer derSeq
  simp only [nat_of, w1, w2, w3, s1, s2, s3, C.ok_bind]
  rw [asn1_write_seq_spec, if_pos (by omega), C.ok_bind, List.length_append, List.length_append, Nat.add_assoc]
  rfl

theorem pub_export_ok {p q g y : Nat} (h : DsaPubSane p q g y) :
    dsa_pub_export (ofPub p q g y) = .ok (dsaPubDer p q g y) := by
  obtain ⟨b1, b2, b3, b4⟩ := pub_small h
  obtain ⟨w1, s1⟩ := write_mpz_ok b1
  obtain ⟨w2, s2⟩ := write_mpz_ok b2
  obtain ⟨w3, s3⟩ := write_mpz_ok b3
  obtain ⟨w4, s4⟩ := write_mpz_ok b4
  have l1 := derInt_len b1
  have l2 := derInt_len b2
  have l3 := derInt_len b3
  have l4 := derInt_len b4
  unfold dsa_pub_export ofPub ofGroup dsaPubDer derSeq
  simp only [nat_of, w1, w2, w3, w4, s1, s2, s3, s4, C.ok_bind]
  rw [asn1_write_seq_spec, if_pos (by omega), C.ok_bind, List.length_append, List.length_append, List.length_append,
    Nat.add_assoc, Nat.add_assoc]
  rfl

theorem priv_export_ok {k : DsaKey} (h : Small k) : dsa_priv_export (ofKey k) = .ok (dsaPrivDer k) := by
  obtain ⟨w1, s1⟩ := write_mpz_ok h.p
  obtain ⟨w2, s2⟩ := write_mpz_ok h.q
  obtain ⟨w3, s3⟩ := write_mpz_ok h.g
  obtain ⟨w4, s4⟩ := write_mpz_ok h.y
  obtain ⟨w5, s5⟩ := write_mpz_ok h.x
  have l1 := derInt_len h.p
  have l2 := derInt_len h.q
  have l3 := derInt_len h.g
  have l4 := derInt_len h.y
  have l5 := derInt_len h.x
  have hv : asn1_write_version 0 = .ok [2, 1, 0] := rfl
  have hsv : asn1_size_version 0 = 3 := asn1_sizes.2.2.2 0 _ hv
  unfold dsa_priv_export ofKey ofPub ofGroup dsaPrivDer derSeq
  simp only [nat_of]
  rw [w1, w2, w3, w4, w5, s1, s2, s3, s4, s5, hv, hsv]
  clear w1 w2 w3 w4 w5 s1 s2 s3 s4 s5 h
  generalize derInt k.p = x1 at *
  generalize derInt k.q = x2 at *
  generalize derInt k.g = x3 at *
  generalize derInt k.y = x4 at *
  generalize derInt k.x = x5 at *
  have hl : 3 + x1.length + x2.length + x3.length + x4.length + x5.length =
      ([2, 1, 0] ++ (x1 ++ (x2 ++ (x3 ++ (x4 ++ x5))))).length := by
    simp only [List.length_append, List.length_cons, List.length_nil]
    omega
  rw [asn1_write_seq_spec, if_pos (by omega), hl]
  rfl

/-! ### The compact form -/

theorem group_dumb_ok {p q g : Nat} (h : DsaGroupSane p q g) (rest : List Byte) :
    dsa_group_import_dumb (dsaParamsDumb p q g ++ rest) = .ok (ofGroup p q g) ∧
    dsa_group_export_dumb (ofGroup p q g) = .ok (dsaParamsDumb p q g) := by
  obtain ⟨b1, b2, b3⟩ := group_small h
  constructor
  · unfold dsa_group_import_dumb dsaParamsDumb
    rw [List.append_assoc, List.append_assoc]
    rw [show ∀ d : List Byte, (⟨d, d.length⟩ : Asn1St) = Asn1.exact d from fun _ => rfl]
    rw [read_dumb_ok _ _ b1, R.ok_bind, read_dumb_ok _ _ b2, R.ok_bind, read_dumb_ok _ _ b3, R.ok_bind]
    rfl
  · unfold dsa_group_export_dumb ofGroup
    simp only [nat_of, write_dumb_ok b1, write_dumb_ok b2, write_dumb_ok b3, C.ok_bind]
    rfl

theorem pub_dumb_ok {p q g y : Nat} (h : DsaPubSane p q g y) (rest : List Byte) :
    dsa_pub_import_dumb (dsaPubDumb p q g y ++ rest) = .ok (ofPub p q g y) ∧
    dsa_pub_export_dumb (ofPub p q g y) = .ok (dsaPubDumb p q g y) := by
  obtain ⟨b1, b2, b3, b4⟩ := pub_small h
  constructor
  · unfold dsa_pub_import_dumb dsaPubDumb
    rw [List.append_assoc, List.append_assoc, List.append_assoc]
    rw [show ∀ d : List Byte, (⟨d, d.length⟩ : Asn1St) = Asn1.exact d from fun _ => rfl]
    rw [read_dumb_ok _ _ b1, R.ok_bind, read_dumb_ok _ _ b2, R.ok_bind, read_dumb_ok _ _ b3, R.ok_bind,
      read_dumb_ok _ _ b4, R.ok_bind]
    rfl
  · unfold dsa_pub_export_dumb ofPub ofGroup
    simp only [nat_of, write_dumb_ok b1, write_dumb_ok b2, write_dumb_ok b3, write_dumb_ok b4, C.ok_bind]
    rfl

theorem priv_dumb_ok {k : DsaKey} (h : Small k) (rest : List Byte) :
    dsa_priv_import_dumb (dsaDumb k ++ rest) = .ok (ofKey k) ∧
    dsa_priv_export_dumb (ofKey k) = .ok (dsaDumb k) := by
  constructor
  · unfold dsa_priv_import_dumb dsaDumb
    rw [List.append_assoc, List.append_assoc, List.append_assoc, List.append_assoc]
    rw [show ∀ d : List Byte, (⟨d, d.length⟩ : Asn1St) = Asn1.exact d from fun _ => rfl]
    rw [read_dumb_ok _ _ h.p, R.ok_bind, read_dumb_ok _ _ h.q, R.ok_bind, read_dumb_ok _ _ h.g, R.ok_bind,
      read_dumb_ok _ _ h.y, R.ok_bind, read_dumb_ok _ _ h.x, R.ok_bind]
    rfl
  · unfold dsa_priv_export_dumb ofKey ofPub ofGroup
    simp only [nat_of, write_dumb_ok h.p, write_dumb_ok h.q, write_dumb_ok h.g, write_dumb_ok h.y, write_dumb_ok h.x,
      C.ok_bind]
    rfl

theorem priv_dumb_cases (d : List Byte) : dsa_priv_import_dumb d = .fail ∨
    ∃ k, dsa_priv_import_dumb d = .ok (ofKey k) := by
  unfold dsa_priv_import_dumb
  rw [show (⟨d, d.length⟩ : Asn1St) = Asn1.exact d from rfl]
  rcases read_dumb_cases d with h | ⟨n1, r1, h⟩
  · rw [h]; exact Or.inl rfl
  rw [h, R.ok_bind]
  rcases read_dumb_cases r1 with h | ⟨n2, r2, h⟩
  · rw [h]; exact Or.inl rfl
  rw [h, R.ok_bind]
  rcases read_dumb_cases r2 with h | ⟨n3, r3, h⟩
  · rw [h]; exact Or.inl rfl
  rw [h, R.ok_bind]
  rcases read_dumb_cases r3 with h | ⟨n4, r4, h⟩
  · rw [h]; exact Or.inl rfl
  rw [h, R.ok_bind]
  rcases read_dumb_cases r4 with h | ⟨n5, r5, h⟩
  · rw [h]; exact Or.inl rfl
  rw [h, R.ok_bind]
  exact Or.inr ⟨⟨n1, n2, n3, n4, n5⟩, rfl⟩

end Torsion.Dsa
