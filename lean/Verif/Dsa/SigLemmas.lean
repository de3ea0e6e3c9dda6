import Verif.Dsa.KeyLemmas
import Verif.Rsa.PadLemmas
import Verif.Drbg.HashLemmas

/-!
# Lemmas: DSA signatures
-/
namespace Torsion.Dsa
open Torsion.Spec Mpi Torsion.Rsa

/-! ### Arithmetic of natural numbers -/

theorem mul_nat (a b : Nat) : mpz_mul .heap (mpz_of a) (mpz_of b) = .ok (mpz_of ((a * b : Nat) : Int)) := by
  rw [mul_of]; push_cast; rfl
theorem add_nat (a b : Nat) : mpz_add .heap (mpz_of a) (mpz_of b) = .ok (mpz_of ((a + b : Nat) : Int)) := by
  rw [add_of]; push_cast; rfl
theorem mod_nat (a : Nat) {b : Nat} (hb : 0 < b) :
    mpz_mod .heap (mpz_of a) (mpz_of b) = .ok (mpz_of ((a % b : Nat) : Int)) := by
  rw [mod_of _ (by omega)]; push_cast; rfl

/-- The inverse modulo `q`. -/
theorem invert_nat (a : Nat) {q : Nat} (hq : 1 < q) :
    (Nat.Coprime a q → ∃ w, mpz_invert .heap (mpz_of a) (mpz_of q) = .ok (mpz_of (w : Nat), true) ∧ w < q ∧ a * w % q = 1) ∧
    (¬ Nat.Coprime a q → ∃ z, mpz_invert .heap (mpz_of a) (mpz_of q) = .ok (z, false)) := by
  rw [invert_of]
  constructor
  · intro h
    obtain ⟨h1, h2, h3⟩ := invMod_nat h hq
    refine ⟨_, ?_, h2, h3⟩
    rw [h1, decide_eq_true ⟨by rw [Int.gcd_natCast_natCast]; exact h, by simpa using hq⟩]
  · intro h
    rw [decide_eq_false fun hc => h (by rw [← Nat.coprime_iff_gcd_eq_one.symm] at *; have := hc.1; rwa [Int.gcd_natCast_natCast] at this)]
    exact ⟨_, rfl⟩

theorem export_nat {v n : Nat} (h : v < 256 ^ n) : mpz_export (mpz_of v) n 1 = .ok (bigBytes n v) := by
  obtain ⟨z, h1, h2, h3⟩ := export_of h
  rw [h1, ← h3, Drb.bigBytes_beVal h2]

/-! ### The number of a message -/

theorem beVal_take (msg : List Byte) (l : Nat) (h : l ≤ msg.length) :
    beVal (msg.take l) = beVal msg / 2 ^ (8 * (msg.length - l)) := by
  conv_rhs => rw [← List.take_append_drop l msg, Asn1.beVal_append]
  have hd : (msg.drop l).length = msg.length - l := by simp
  have ht : (msg.take l).length = l := by simp [h]
  have := Asn1.beVal_lt (msg.drop l)
  rw [List.length_append, ht, hd] at *
  rw [show l + (msg.length - l) - l = msg.length - l by omega, Nat.pow_mul, show (2 : Nat) ^ 8 = 256 by norm_num,
    Nat.mul_comm, Nat.mul_add_div (by positivity), Nat.div_eq_of_lt this, Nat.add_zero]

theorem leftBits_lt (q : Nat) (msg : List Byte) : leftBits q msg < 2 ^ q.size := by
  have h := Asn1.beVal_lt msg
  rw [show (256 : Nat) = 2 ^ 8 by norm_num, ← Nat.pow_mul] at h
  unfold leftBits
  split
  · rw [Nat.div_lt_iff_lt_mul (by positivity), ← Nat.pow_add]
    refine lt_of_lt_of_le h (Nat.pow_le_pow_right (by norm_num) (by omega))
  · exact lt_of_lt_of_le h (Nat.pow_le_pow_right (by norm_num) (by omega))

theorem reduce_eq (msg : List Byte) {q : Nat} (hq : 0 < q) :
    dsa_reduce msg (mpz_of q) = .ok (mpz_of ((leftBits q msg % q : Nat) : Int), decide (leftBits q msg < q)) := by
  have hlt := leftBits_lt q msg
  have h2q : 2 ^ q.size ≤ 2 * q := by
    have h1 : 0 < q.size := Nat.size_pos.2 hq
    have h2 : 2 ^ (q.size - 1) ≤ q := size_ge.1 (by omega)
    calc 2 ^ q.size = 2 * 2 ^ (q.size - 1) := by rw [← Nat.pow_succ']; congr 1; omega
      _ ≤ 2 * q := Nat.mul_le_mul_left _ h2
  unfold dsa_reduce
  rw [bitlen_of, C.ok_bind, Int.natAbs_natCast]
  dsimp only
  have hl : (if msg.length > (q.size + 7) / 8 then (q.size + 7) / 8 else msg.length) = min msg.length ((q.size + 7) / 8) := by
    split <;> omega
  rw [hl]
  generalize hl' : min msg.length ((q.size + 7) / 8) = l
  have hle : l ≤ msg.length := by omega
  have hs : C.slice msg 0 l = .ok (msg.take l) := by
    rw [C.slice, if_pos (by omega), List.drop_zero]
  rw [hs, C.ok_bind, import_of, C.ok_bind, beVal_take msg l hle]
  have hm : (if l * 8 > q.size then
      mpz_quo_2exp .heap (mpz_of ((beVal msg / 2 ^ (8 * (msg.length - l)) : Nat) : Int)) (l * 8 - q.size) else
      .ok (mpz_of ((beVal msg / 2 ^ (8 * (msg.length - l)) : Nat) : Int))) = .ok (mpz_of (leftBits q msg : Nat)) := by
    by_cases hc : l * 8 > q.size
    · rw [if_pos hc, quo_2exp_of]
      unfold leftBits
      rw [if_pos (by omega), show 8 * msg.length - q.size = 8 * (msg.length - l) + (l * 8 - q.size) by omega, Nat.pow_add,
        ← Nat.div_div_eq_div_mul]
      congr 2
    · rw [if_neg hc]
      unfold leftBits
      split
      · rw [show 8 * msg.length - q.size = 8 * (msg.length - l) by omega]
      · rw [show msg.length - l = 0 by omega]; simp
  rw [hm, C.ok_bind]
  generalize leftBits q msg = m at hlt
  by_cases hc : m < q
  · rw [if_neg (by rw [cmp_ge0]; omega), C.ok_bind, if_pos (by rw [cmp_lt0]; omega), Nat.mod_eq_of_lt hc, decide_eq_true hc]
  · have e : ((m : Int) - (q : Int)) = ((m - q : Nat) : Int) := by omega
    rw [if_pos (by rw [cmp_ge0]; omega), sub_of, e, C.ok_bind, C.ok_bind, if_pos (by rw [cmp_lt0]; omega),
      decide_eq_false hc, Nat.mod_eq_sub_mod (by omega), Nat.mod_eq_of_lt (by omega)]

/-! ### The formats of signatures -/

theorem sig_rs_ok {n r s : Nat} (hr : r < 256 ^ n) (hs : s < 256 ^ n) :
    dsa_sig_export_rs (ofSig r s) n = .ok (bigBytes n r ++ bigBytes n s) := by
  unfold dsa_sig_export_rs ofSig
  rw [R.liftM_eq, bytelen_of, R.lift_ok, R.ok_bind, Int.natAbs_natCast,
    decide_eq_true (not_lt.2 ((fits_iff r n).2 hr)), R.need_true, R.ok_bind, R.liftM_eq, bytelen_of, R.lift_ok, R.ok_bind,
    Int.natAbs_natCast, decide_eq_true (not_lt.2 ((fits_iff s n).2 hs)), R.need_true, R.ok_bind, R.liftM_eq, export_nat hr,
    R.lift_ok, R.ok_bind, R.liftM_eq, export_nat hs]
  rfl

theorem sig_rs_fail {n r s : Nat} (h : ¬ (r < 256 ^ n ∧ s < 256 ^ n)) : dsa_sig_export_rs (ofSig r s) n = .fail := by
  unfold dsa_sig_export_rs ofSig
  rw [R.liftM_eq, bytelen_of, R.lift_ok, R.ok_bind, Int.natAbs_natCast]
  by_cases hr : r < 256 ^ n
  · rw [decide_eq_true (not_lt.2 ((fits_iff r n).2 hr)), R.need_true, R.ok_bind, R.liftM_eq, bytelen_of, R.lift_ok, R.ok_bind,
      Int.natAbs_natCast, decide_eq_false fun hc => h ⟨hr, (fits_iff s n).1 (not_lt.1 hc)⟩]
    rfl
  · rw [decide_eq_false fun hc => hr ((fits_iff r n).1 (not_lt.1 hc))]
    rfl

theorem import_rs_eq (data : List Byte) {n : Nat} (hn : n ≠ 0) :
    dsa_sig_import_rs data n = if data.length = n * 2 then
      .ok (ofSig (beVal (data.take n)) (beVal (data.drop n))) else .fail := by
  unfold dsa_sig_import_rs
  dsimp only
  rw [if_neg hn]
  by_cases h : data.length = n * 2
  · rw [decide_eq_true h, if_pos h, R.need_true, R.ok_bind]
    have h1 : C.slice data 0 n = .ok (data.take n) := by rw [C.slice, if_pos (by omega), List.drop_zero]
    have h2 : C.slice data n n = .ok (data.drop n) := by
      rw [C.slice, if_pos (by omega), List.take_of_length_le (by simp; omega)]
    rw [R.liftM_eq, h1, R.lift_ok, R.ok_bind, R.liftM_eq, import_of, R.lift_ok, R.ok_bind, R.liftM_eq, h2, R.lift_ok, R.ok_bind,
      R.liftM_eq, import_of]
    rfl
  · rw [decide_eq_false h, if_neg h]; rfl

theorem sig_sane_det (r s : Nat) : Det (dsa_sig_is_sane (ofSig r s)) (r < 256 ^ 32 ∧ s < 256 ^ 32) () := by
  unfold dsa_sig_is_sane ofSig
  simp only [R.liftM_eq, bytelen_of, R.lift_ok, R.ok_bind, Int.natAbs_natCast]
  refine (Det.need fun _ => Det.last).congr ?_
  rw [decide_eq_true_eq, decide_eq_true_eq]
  exact and_congr (fits_iff r 32) (fits_iff s 32)

/-! ### Signing -/

theorem nonce_shift {S : Type} (gen : S → Nat → List Byte × S) (q : Nat) (d : S) (i : Nat) :
    dsaNonce gen q (gen d (dsaLen q)).2 i = dsaNonce gen q d (i + 1) := by
  have : ∀ i, dsaNonceState gen q (gen d (dsaLen q)).2 i = dsaNonceState gen q d (i + 1) := by
    intro i
    induction i with
    | zero => rfl
    | succ i ih => rw [dsaNonceState, ih]; rfl
  unfold dsaNonce
  rw [this]

theorem cancel_mod {a b c q : Nat} (hc : Nat.Coprime c q) (h : a * c ≡ b * c [MOD q]) : a ≡ b [MOD q] :=
  Nat.ModEq.cancel_right_of_coprime (by rw [Nat.gcd_comm]; exact hc) h

/-- The blinded computation of the second part. -/
theorem blinded_s {q k b x m r w : Nat} (hq0 : 0 < q) (hw : k * b % q * w % q = 1) (hc : Nat.Coprime (k * b % q) q) :
    ((r * (x * b % q) + m * b % q) % q * w % q) * k % q = (m + x * r) % q ∧ Nat.Coprime k q ∧
    ((r * (x * b % q) + m * b % q) % q * w % q = 0 ↔ (m + x * r) % q = 0) := by
  have hkb : Nat.Coprime (k * b) q := by
    unfold Nat.Coprime at hc ⊢
    rw [← hc, Nat.gcd_comm, Nat.gcd_comm _ q, Nat.gcd_rec q (k * b), Nat.gcd_comm]
  have hb : Nat.Coprime b q := Nat.Coprime.coprime_mul_left hkb
  have hk : Nat.Coprime k q := Nat.Coprime.coprime_mul_right hkb
  have h1 : (r * (x * b % q) + m * b % q) % q * w % q ≡ (m + x * r) * b * w [MOD q] := by
    refine (Nat.mod_modEq _ _).trans (Nat.ModEq.mul_right _ ?_)
    refine (Nat.mod_modEq _ _).trans ?_
    refine (Nat.ModEq.add (Nat.ModEq.mul_left _ (Nat.mod_modEq _ _)) (Nat.mod_modEq _ _)).trans ?_
    rw [show r * (x * b) + m * b = (m + x * r) * b by ring]
  have hw' : k * b * w ≡ 1 [MOD q] := by
    have hq1 : 1 % q = 1 := by rw [← hw, Nat.mod_mod]
    have : k * b % q * w ≡ 1 [MOD q] := by unfold Nat.ModEq; rw [hw, hq1]
    exact (Nat.ModEq.mul_right _ (Nat.mod_modEq (k * b) q)).symm.trans this
  have hlt : (r * (x * b % q) + m * b % q) % q * w % q < q := Nat.mod_lt _ hq0
  generalize (r * (x * b % q) + m * b % q) % q * w % q = s at h1 hlt
  have h2 : s * k ≡ m + x * r [MOD q] := by
    refine (Nat.ModEq.mul_right k h1).trans ?_
    have : (m + x * r) * b * w * k = (m + x * r) * (k * b * w) := by ring
    rw [this]
    simpa using Nat.ModEq.mul_left (m + x * r) hw'
  have hs' : ∀ a, s ≡ a [MOD q] → s % q = a % q := fun _ h => h
  refine ⟨h2, hk, ?_, ?_⟩
  · intro h
    rw [h, Nat.zero_mul] at h2
    rw [← h2, Nat.zero_mod]
  · intro h
    have h3 : s ≡ 0 [MOD q] := by
      refine h1.trans ?_
      rw [Nat.mul_assoc]
      have : (m + x * r) ≡ 0 [MOD q] := by unfold Nat.ModEq; rw [h, Nat.zero_mod]
      simpa using Nat.ModEq.mul_right (b * w) this
    have h4 := hs' _ h3
    rwa [Nat.zero_mod, Nat.mod_eq_of_lt hlt] at h4

theorem leftBits_eq {q : Nat} {msg : List Byte} (h : 8 * msg.length ≤ q.size) : leftBits q msg = beVal msg := by
  unfold leftBits
  rw [if_neg (by omega)]

theorem len8 {p q g : Nat} (h : DsaGroupSane p q g) : 8 * dsaLen q = q.size ∧ dsaLen q ≠ 0 ∧ dsaLen q ≤ 32 := by
  have := h.qbits
  unfold dsaLen
  omega

theorem lt_len {p q g v : Nat} (h : DsaGroupSane p q g) (hv : v < q) : v < 256 ^ dsaLen q := by
  rw [show (256 : Nat) = 2 ^ 8 by norm_num, ← Nat.pow_mul, (len8 h).1]
  exact hv.trans (Nat.lt_size_self q)

/-- One round of the loop with the blinding factor `b`. -/
theorem sign_step {S : Type} (rng : Source S) (fuel : Nat) {key : DsaKey} (hs : DsaKeySane key) {m b : Nat} (n : Nat) (d st st' : S)
    (hb : mpz_urandomm rng.toByteGen fuel st (mpz_of key.q) = .ok (mpz_of b, st')) :
    (b = 0 → dsa_sign_loop rng fuel (ofKey key) (mpz_of m) (dsaLen key.q) (n + 1) d st =
      dsa_sign_loop rng fuel (ofKey key) (mpz_of m) (dsaLen key.q) n d st') ∧
    (b ≠ 0 → dsa_sign_loop rng fuel (ofKey key) (mpz_of m) (dsaLen key.q) (n + 1) d st = .fail ∧
        (¬ Nat.Coprime b key.q ∨ ¬ Nat.Coprime (dsaNonce rng.gen key.q d 0) key.q) ∧ 0 < dsaNonce rng.gen key.q d 0 ∧
        dsaNonce rng.gen key.q d 0 < key.q ∨
      (¬ DsaNonceOk key m (dsaNonce rng.gen key.q d 0) ∧
        dsa_sign_loop rng fuel (ofKey key) (mpz_of m) (dsaLen key.q) (n + 1) d st =
        dsa_sign_loop rng fuel (ofKey key) (mpz_of m) (dsaLen key.q) n (rng.gen d (dsaLen key.q)).2 st') ∨
      (DsaNonceOk key m (dsaNonce rng.gen key.q d 0) ∧
        ∃ r s, DsaSigned key m (dsaNonce rng.gen key.q d 0) r s ∧ s ≠ 0 ∧
        dsa_sign_loop rng fuel (ofKey key) (mpz_of m) (dsaLen key.q) (n + 1) d st = .ok (ofSig r s))) := by
  obtain ⟨hp2, hq2, -, -⟩ := group_pos hs.toDsaGroupSane
  obtain ⟨h8, h0, -⟩ := len8 hs.toDsaGroupSane
  have hq0 : 0 < key.q := by omega
  have hp0 : 0 < key.p := by omega
  have hk : leftBits key.q (rng.gen d (dsaLen key.q)).1 = dsaNonce rng.gen key.q d 0 := by
    rw [leftBits_eq (by rw [rng.len]; omega)]
    rfl
  rw [dsa_sign_loop, show (ofKey key).q = mpz_of key.q from rfl, show (ofKey key).p = mpz_of key.p from rfl,
    show (ofKey key).g = mpz_of key.g from rfl, show (ofKey key).x = mpz_of key.x from rfl, hb, R.ok_bind]
  dsimp only
  rw [R.liftM_eq, reduce_eq _ hq0, R.lift_ok, R.ok_bind, hk]
  generalize dsaNonce rng.gen key.q d 0 = k
  constructor
  · intro h
    rw [if_pos (by rw [sgn_zero, h]; rfl)]
  intro hb0
  rw [if_neg (by rw [sgn_zero]; omega)]
  by_cases hkq : k < key.q
  swap
  · right; left
    refine ⟨fun h => hkq h.2.1, ?_⟩
    rw [if_pos (by rw [decide_eq_false hkq])]
  rw [if_neg (by rw [decide_eq_true hkq]; exact Bool.true_eq_false_eq_False.elim), Nat.mod_eq_of_lt hkq]
  by_cases hk0 : k = 0
  · right; left
    refine ⟨fun h => absurd h.1 (by omega), ?_⟩
    rw [if_pos (by rw [sgn_zero]; omega)]
  rw [if_neg (by rw [sgn_zero]; omega), R.liftM_eq, powm_sec_nat hs.podd, R.lift_ok, R.ok_bind, R.liftM_eq, mod_nat _ hq0,
    R.lift_ok, R.ok_bind]
  generalize hr : key.g ^ k % key.p % key.q = r
  by_cases hr0 : r = 0
  · right; left
    refine ⟨fun h => h.2.2.1 (hr.trans hr0), ?_⟩
    rw [if_pos (by rw [sgn_zero]; omega)]
  rw [if_neg (by rw [sgn_zero]; omega)]
  simp only [R.liftM_eq, mul_nat, mod_nat _ hq0, R.lift_ok, R.ok_bind, add_nat]
  by_cases hc : Nat.Coprime (k * b % key.q) key.q
  swap
  · left
    obtain ⟨z, hz⟩ := (invert_nat (k * b % key.q) (show 1 < key.q by omega)).2 hc
    rw [hz, R.lift_ok, R.ok_bind]
    refine ⟨rfl, ?_, by omega, hkq⟩
    by_contra hcon
    push Not at hcon
    apply hc
    have := Nat.Coprime.mul_left hcon.2 hcon.1
    unfold Nat.Coprime at this ⊢
    rw [← this, Nat.gcd_comm, Nat.gcd_comm _ key.q, Nat.gcd_rec key.q (k * b), Nat.gcd_comm]
  obtain ⟨w, hz, -, hw⟩ := (invert_nat (k * b % key.q) (show 1 < key.q by omega)).1 hc
  rw [hz, R.lift_ok, R.ok_bind, R.need_true, R.ok_bind]
  simp only [R.liftM_eq, mul_nat, mod_nat _ hq0, R.lift_ok, R.ok_bind, add_nat]
  obtain ⟨e1, e3, e2⟩ := blinded_s (x := key.x) (m := m) (r := r) hq0 hw hc
  right
  by_cases hs0 : (m + key.x * r) % key.q = 0
  · left
    refine ⟨fun h => h.2.2.2 (by rw [hr]; exact hs0), ?_⟩
    rw [if_pos (by rw [sgn_zero, e2.2 hs0]; rfl)]
  · right
    refine ⟨⟨by omega, hkq, by rw [hr]; exact hr0, by rw [hr]; exact hs0⟩, r, _, ⟨hr.symm, Nat.mod_lt _ hq0, e3, e1⟩, fun h => hs0 (e2.1 h), ?_⟩
    rw [if_neg (by rw [sgn_zero]; exact fun h => hs0 (e2.1 (by exact_mod_cast h)))]
    rfl

theorem sign_loop {S : Type} (rng : Source S) (fuel : Nat) {key : DsaKey} (hs : DsaKeySane key) {m : Nat} :
    ∀ n d st, dsa_sign_loop rng fuel (ofKey key) (mpz_of m) (dsaLen key.q) n d st = .spin ∨
      (dsa_sign_loop rng fuel (ofKey key) (mpz_of m) (dsaLen key.q) n d st = .fail ∧ ¬ key.q.Prime) ∨
      ∃ i r s, (∀ j < i, ¬ DsaNonceOk key m (dsaNonce rng.gen key.q d j)) ∧ DsaNonceOk key m (dsaNonce rng.gen key.q d i) ∧
        DsaSigned key m (dsaNonce rng.gen key.q d i) r s ∧ s ≠ 0 ∧
        dsa_sign_loop rng fuel (ofKey key) (mpz_of m) (dsaLen key.q) n d st = .ok (ofSig r s)
  | 0, d, st => Or.inl rfl
  | n + 1, d, st => by
    obtain ⟨hp2, hq2, -, -⟩ := group_pos hs.toDsaGroupSane
    rcases urandomm_of rng.toByteGen fuel st (show 0 < key.q by omega) with h | ⟨b, st', h, hb⟩
    · left
      rw [dsa_sign_loop, show (ofKey key).q = mpz_of key.q from rfl, h]
      rfl
    · obtain ⟨h1, h2⟩ := sign_step rng fuel hs (m := m) n d st st' h
      rcases Nat.eq_zero_or_pos b with hb0 | hb0
      · rw [h1 hb0]
        exact sign_loop rng fuel hs n d st'
      · rcases h2 (by omega) with ⟨h3, h4, h5, h6⟩ | ⟨h3, h4⟩ | ⟨h3, r, s, h4, h5, h6⟩
        · refine Or.inr (Or.inl ⟨h3, fun hp => ?_⟩)
          have hc : ∀ v, 0 < v → v < key.q → Nat.Coprime v key.q := fun v hv hq =>
            (Nat.coprime_of_lt_prime (by omega) hq hp).symm
          rcases h4 with h4 | h4
          · exact h4 (hc b hb0 hb)
          · exact h4 (hc _ h5 h6)
        · rw [h4]
          rcases sign_loop rng fuel hs (m := m) n (rng.gen d (dsaLen key.q)).2 st' with h | h | ⟨i, r, s, a1, a2, a3, a4, a5⟩
          · exact Or.inl h
          · exact Or.inr (Or.inl h)
          · refine Or.inr (Or.inr ⟨i + 1, r, s, ?_, ?_, ?_, a4, a5⟩)
            · intro j hj
              cases j with
              | zero => exact h3
              | succ j =>
                rw [← nonce_shift]
                exact a1 j (by omega)
            · rw [← nonce_shift]; exact a2
            · rw [← nonce_shift]; exact a3
        · exact Or.inr (Or.inr ⟨0, r, s, fun j hj => absurd hj (by omega), h3, h4, h5, h6⟩)

/-- When every blinding factor is accepted at once, the loop ends with the first acceptable nonce. -/
theorem sign_loop_ends {S : Type} (rng : Source S) (fuel : Nat) {key : DsaKey} (hs : DsaKeySane key) (hq : key.q.Prime) {m : Nat}
    (hb : ∀ st, ∃ b st', mpz_urandomm rng.toByteGen fuel st (mpz_of key.q) = .ok (mpz_of (b : Nat), st') ∧ b ≠ 0) :
    ∀ n d st i, i < n → DsaNonceOk key m (dsaNonce rng.gen key.q d i) →
      ∃ sg, dsa_sign_loop rng fuel (ofKey key) (mpz_of m) (dsaLen key.q) n d st = .ok sg
  | 0, d, st, i, hi, _ => absurd hi (by omega)
  | n + 1, d, st, i, hi, hok => by
    obtain ⟨b, st', h, hb0⟩ := hb st
    rcases (sign_step rng fuel hs (m := m) n d st st' h).2 hb0 with ⟨h3, -⟩ | ⟨h3, h4⟩ | ⟨h3, r, s, h4, h5, h6⟩
    · rcases sign_loop rng fuel hs (m := m) (n + 1) d st with h | h | ⟨_, _, _, _, _, _, _, h⟩
      · rw [h] at h3; exact absurd h3 (by simp)
      · exact absurd hq h.2
      · exact ⟨_, h⟩
    · rw [h4]
      cases i with
      | zero => exact absurd hok h3
      | succ i => exact sign_loop_ends rng fuel hs hq hb n _ st' i (by omega) (by rw [nonce_shift]; exact hok)
    · exact ⟨_, h6⟩

/-! ### Verification -/

/-- A valid signature satisfies the equation of the verifier. -/
theorem signed_verifies {key : DsaKey} (hk : DsaKeyOk key) {m k r s w : Nat} (hs : DsaSigned key m k r s)
    (hw : s * w % key.q = 1) :
    key.g ^ (m * w % key.q) * key.y ^ (r * w % key.q) % key.p % key.q = r := by
  obtain ⟨hr, -, -, he⟩ := hs
  have hg : ∀ a, key.g ^ (a % key.q) ≡ key.g ^ a [MOD key.p] := by
    intro a
    conv_rhs => rw [← Nat.div_add_mod a key.q, pow_add, pow_mul]
    have h1 : key.g ^ key.q ≡ 1 [MOD key.p] := by
      unfold Nat.ModEq
      rw [hk.gorder, Nat.mod_eq_of_lt]
      have := (group_pos hk.toDsaGroupSane).1
      omega
    have h2 := (h1.pow (a / key.q)).mul_right (key.g ^ (a % key.q))
    rw [one_pow, one_mul] at h2
    exact h2.symm
  have hkk : m * w % key.q + key.x * (r * w % key.q) ≡ k [MOD key.q] := by
    have h1 : s * w ≡ 1 [MOD key.q] := by
      unfold Nat.ModEq
      rw [hw, Nat.mod_eq_of_lt]
      have := (group_pos hk.toDsaGroupSane).2.1
      omega
    have h2 : s * k ≡ m + key.x * r [MOD key.q] := he
    refine ((Nat.mod_modEq _ _).add ((Nat.mod_modEq _ _).mul_left _)).trans ?_
    rw [show m * w + key.x * (r * w) = (m + key.x * r) * w by ring]
    refine (h2.symm.mul_right w).trans ?_
    rw [show s * k * w = s * w * k by ring]
    simpa using h1.mul_right k
  have hy : key.y ≡ key.g ^ key.x [MOD key.p] := by
    rw [← hk.pub]; exact Nat.mod_modEq _ _
  have : key.g ^ (m * w % key.q) * key.y ^ (r * w % key.q) ≡ key.g ^ k [MOD key.p] := by
    refine ((hy.pow (r * w % key.q)).mul_left _).trans ?_
    rw [← pow_mul, ← pow_add, ← Nat.ModEq] at *
    refine (hg _).symm.trans ?_
    rw [hkk]
    exact hg k
  rw [this, ← hr]

/-- The equation does not depend on the choice of the inverse, nor on the reduction of the message. -/
theorem valid_inv {p q g y m r s w : Nat} (hq : 1 < q) (hw : s * w % q = 1) (h0 : 0 < r) (hr : r < q) (h1 : 0 < s) (hs : s < q) :
    DsaValid p q g y m r s ↔ g ^ (m % q * w % q) * y ^ (r * w % q) % p % q = r := by
  rw [Nat.mul_mod (m % q) w, Nat.mod_mod, ← Nat.mul_mod]
  constructor
  · rintro ⟨-, -, -, -, w', hw', h⟩
    have e : w ≡ w' [MOD q] := by
      have a1 : s * w ≡ 1 [MOD q] := by unfold Nat.ModEq; rw [hw, Nat.mod_eq_of_lt hq]
      have a2 : s * w' ≡ 1 [MOD q] := by unfold Nat.ModEq; rw [hw', Nat.mod_eq_of_lt hq]
      have a3 := a1.mul_right w'
      have a4 := a2.mul_right w
      rw [one_mul] at a3 a4
      rw [show s * w * w' = s * w' * w by ring] at a3
      exact a4.symm.trans a3
    rw [(e.mul_left m : m * w % q = m * w' % q), (e.mul_left r : r * w % q = r * w' % q)]
    exact h
  · intro h
    exact ⟨h0, hr, h1, hs, w, hw, h⟩

theorem verify_det (p q g y : Nat) (hs : DsaPubSane p q g y) (msg sig : List Byte) :
    Det (dsa_verify msg sig (dsaPubDer p q g y))
      (∃ r s, sig = bigBytes (dsaLen q) r ++ bigBytes (dsaLen q) s ∧ DsaValid p q g y (leftBits q msg) r s) () := by
  obtain ⟨hp2, hq2, -, -⟩ := group_pos hs.toDsaGroupSane
  obtain ⟨h8, h0, h32⟩ := len8 hs.toDsaGroupSane
  have hq0 : 0 < q := by omega
  obtain ⟨b1, b2, b3, b4⟩ := pub_small hs
  unfold dsa_verify
  rw [pub_import_ok b1 b2 b3 b4, R.ok_bind, (pub_sane_det p q g y).1 hs, R.ok_bind,
    show (ofPub p q g y).p = mpz_of p from rfl, show (ofPub p q g y).q = mpz_of q from rfl,
    show (ofPub p q g y).g = mpz_of g from rfl, show (ofPub p q g y).y = mpz_of y from rfl, R.liftM_eq, bytelen_of, R.lift_ok,
    R.ok_bind, Int.natAbs_natCast, show (q.size + 7) / 8 = dsaLen q from rfl, import_rs_eq _ h0]
  by_cases hl : sig.length = dsaLen q * 2
  swap
  · rw [if_neg hl]
    refine ⟨fun ⟨r, s, h, _⟩ => absurd ?_ hl, fun _ => rfl⟩
    rw [h, List.length_append, Hsh.bigBytes_len, Hsh.bigBytes_len]; omega
  rw [if_pos hl, R.ok_bind]
  generalize hr : beVal (sig.take (dsaLen q)) = r
  generalize hsv : beVal (sig.drop (dsaLen q)) = s
  have l1 : (sig.take (dsaLen q)).length = dsaLen q := by simp; omega
  have l2 : (sig.drop (dsaLen q)).length = dsaLen q := by simp; omega
  have hsig : sig = bigBytes (dsaLen q) r ++ bigBytes (dsaLen q) s := by
    rw [← hr, ← hsv, Drb.bigBytes_beVal l1, Drb.bigBytes_beVal l2, List.take_append_drop]
  have m1 : r < 256 ^ 32 := by
    rw [← hr]
    refine lt_of_lt_of_le (Asn1.beVal_lt _) ?_
    rw [l1]
    exact Nat.pow_le_pow_right (by norm_num) h32
  have m2 : s < 256 ^ 32 := by
    rw [← hsv]
    refine lt_of_lt_of_le (Asn1.beVal_lt _) ?_
    rw [l2]
    exact Nat.pow_le_pow_right (by norm_num) h32
  rw [(sig_sane_det r s).1 ⟨m1, m2⟩, R.ok_bind, show (ofSig r s).r = mpz_of r from rfl, show (ofSig r s).s = mpz_of s from rfl]
  have hiff : (∃ r' s', sig = bigBytes (dsaLen q) r' ++ bigBytes (dsaLen q) s' ∧ DsaValid p q g y (leftBits q msg) r' s') ↔
      DsaValid p q g y (leftBits q msg) r s := by
    constructor
    · rintro ⟨r', s', h, hv⟩
      rw [h] at hr hsv
      rw [List.take_append_of_le_length (by rw [Hsh.bigBytes_len]), List.take_of_length_le (by rw [Hsh.bigBytes_len]),
        Drb.beVal_bigBytes, Nat.mod_eq_of_lt (lt_len hs.toDsaGroupSane hv.2.1)] at hr
      rw [List.drop_left' (Hsh.bigBytes_len _ _), Drb.beVal_bigBytes,
        Nat.mod_eq_of_lt (lt_len hs.toDsaGroupSane hv.2.2.2.1)] at hsv
      rw [← hr, ← hsv]
      exact hv
    · intro h; exact ⟨r, s, hsig, h⟩
  refine Det.congr (P := (0 < r ∧ r < q) ∧ (0 < s ∧ s < q) ∧ DsaValid p q g y (leftBits q msg) r s) ?_
    ⟨fun h => hiff.2 h.2.2, fun h => have h := hiff.1 h; ⟨⟨h.1, h.2.1⟩, ⟨h.2.2.1, h.2.2.2.1⟩, h⟩⟩
  refine (Det.need (P := DsaValid p q g y (leftBits q msg) r s ∧ 0 < s ∧ s < q) fun c1 => ?_).congr ?_
  rotate_left
  · rw [decide_eq_true_eq, sgn_zero, cmp_ge0]
    constructor
    · rintro ⟨a, b, c⟩; exact ⟨by omega, c, b⟩
    · rintro ⟨a, b, c⟩; exact ⟨by omega, c, b⟩
  rw [decide_eq_true_eq, sgn_zero, cmp_ge0] at c1
  refine (Det.need (P := DsaValid p q g y (leftBits q msg) r s) fun c2 => ?_).congr ?_
  rotate_left
  · rw [decide_eq_true_eq, sgn_zero, cmp_ge0]
    constructor
    · rintro ⟨a, b⟩; exact ⟨b, by omega, by omega⟩
    · rintro ⟨a, b⟩; exact ⟨by omega, a⟩
  rw [decide_eq_true_eq, sgn_zero, cmp_ge0] at c2
  rw [R.liftM_eq, reduce_eq _ hq0, R.lift_ok, R.ok_bind]
  by_cases hc : Nat.Coprime s q
  swap
  · obtain ⟨z, hz⟩ := (invert_nat s (show 1 < q by omega)).2 hc
    rw [R.liftM_eq, hz, R.lift_ok, R.ok_bind]
    refine ⟨fun h => absurd ?_ hc, fun _ => rfl⟩
    obtain ⟨-, -, -, -, w, hw, -⟩ := h
    exact Nat.coprime_of_mul_modEq_one w (by unfold Nat.ModEq; rw [hw, Nat.mod_eq_of_lt (by omega)])
  obtain ⟨w, hz, -, hw⟩ := (invert_nat s (show 1 < q by omega)).1 hc
  rw [R.liftM_eq, hz, R.lift_ok, R.ok_bind, R.need_true, R.ok_bind]
  simp only [R.liftM_eq, mul_nat, mod_nat _ hq0, mod_nat _ (show 0 < p by omega), R.lift_ok, R.ok_bind,
    powm_nat (show 0 < p by omega)]
  refine Det.last.congr ?_
  rw [decide_eq_true_eq, cmp_eq0, Nat.cast_inj, valid_inv (by omega) hw (by omega) (by omega) (by omega) (by omega),
    Nat.mul_mod, Nat.mod_mod, Nat.mod_mod, ← Nat.mul_mod]

end Torsion.Dsa
