import Verif.Dsa.Example
import Mathlib.FieldTheory.Finite.Basic
import Mathlib.GroupTheory.OrderOfElement

/-! Pocklington's criterion, with a check which the kernel can evaluate. -/
namespace Torsion.Ecc

/-- The factored part of the number less one; each entry is a prime, its multiplicity and a witness. -/
def certProd : List (Nat × Nat × Nat) → Nat
  | [] => 1
  | (q, e, _) :: fs => q ^ e * certProd fs

/-- The conditions on a prime factor. -/
def certStep (p q e a : Nat) : Bool :=
  Dsa.powMod (Nat.size p) a (p - 1) p == 1 &&
  Nat.gcd (Dsa.powMod (Nat.size p) a ((p - 1) / q) p + (p - 1)) p == 1 && (p - 1) % q ^ e == 0 && decide (0 < e)

def certAll (p : Nat) : List (Nat × Nat × Nat) → Bool
  | [] => true
  | (q, e, a) :: fs => certStep p q e a && Nat.gcd (q ^ e) (certProd fs) == 1 && certAll p fs

def certCheck (p : Nat) (fs : List (Nat × Nat × Nat)) : Bool :=
  decide (1 < p) && decide (p < certProd fs * certProd fs) && certAll p fs

theorem certStep_dvd {p q e a r : Nat} (hp : 1 < p) (hq : q.Prime) (h : certStep p q e a = true) (hr : r.Prime) (hrp : r ∣ p) :
    q ^ e ∣ r - 1 := by
  unfold certStep at h
  simp only [Bool.and_eq_true, beq_iff_eq, decide_eq_true_eq] at h
  obtain ⟨⟨⟨h1, h2⟩, h3⟩, h4⟩ := h
  have := Fact.mk hr
  have := Fact.mk hq
  have hlt : p - 1 < 2 ^ Nat.size p := lt_of_le_of_lt (Nat.sub_le _ _) (Nat.lt_size_self p)
  rw [Dsa.powMod_eq _ _ _ _ hlt] at h1
  rw [Dsa.powMod_eq _ _ _ _ (lt_of_le_of_lt (Nat.div_le_self _ _) hlt)] at h2
  -- modulo r
  have e1 : ((a : ZMod r)) ^ (p - 1) = 1 := by
    have h5 : a ^ (p - 1) ≡ 1 [MOD r] := by
      have : a ^ (p - 1) ≡ 1 [MOD p] := by
        unfold Nat.ModEq; rw [h1, Nat.mod_eq_of_lt hp]
      exact this.of_dvd hrp
    have := (ZMod.natCast_eq_natCast_iff _ _ _).2 h5
    push_cast at this
    exact this
  have e2 : ((a : ZMod r)) ^ ((p - 1) / q) ≠ 1 := by
    intro h5
    have h6 : a ^ ((p - 1) / q) ≡ 1 [MOD r] := by
      rw [← ZMod.natCast_eq_natCast_iff]
      push_cast
      exact h5
    have h7 : a ^ ((p - 1) / q) % p + (p - 1) ≡ 0 [MOD r] := by
      have h8 : a ^ ((p - 1) / q) % p ≡ a ^ ((p - 1) / q) [MOD r] := (Nat.mod_modEq _ _).of_dvd hrp
      have h9 := (h8.trans h6).add_right (p - 1)
      refine h9.trans ?_
      rw [show 1 + (p - 1) = p by omega]
      exact Nat.modEq_zero_iff_dvd.2 hrp
    have h8 : r ∣ Nat.gcd (a ^ ((p - 1) / q) % p + (p - 1)) p := Nat.dvd_gcd (Nat.modEq_zero_iff_dvd.1 h7) hrp
    rw [h2] at h8
    exact hr.one_lt.ne' (Nat.dvd_one.1 h8)
  obtain ⟨m, hm⟩ := Nat.dvd_of_mod_eq_zero h3
  obtain ⟨n, rfl⟩ : ∃ n, e = n + 1 := ⟨e - 1, by omega⟩
  have e3 : orderOf ((a : ZMod r) ^ m) = q ^ (n + 1) := by
    apply orderOf_eq_prime_pow
    · rw [← pow_mul]
      have : (p - 1) / q = m * q ^ n := by
        rw [hm, Nat.pow_succ, show q ^ n * q * m = q * (m * q ^ n) by ring, Nat.mul_div_cancel_left _ hq.pos]
      rw [← this]
      exact e2
    · rw [← pow_mul, Nat.mul_comm, ← hm]
      exact e1
  rw [← e3]
  apply orderOf_dvd_of_pow_eq_one
  apply ZMod.pow_card_sub_one_eq_one
  intro h0
  rcases Nat.eq_zero_or_pos m with hm0 | hm0
  · subst hm0; rw [pow_zero] at h0; exact one_ne_zero h0
  · have : (a : ZMod r) = 0 := by
      by_contra hne
      exact pow_ne_zero m hne h0
    rw [this, zero_pow (by omega)] at e1
    exact zero_ne_one e1

theorem certAll_dvd {p r : Nat} (hp : 1 < p) (hr : r.Prime) (hrp : r ∣ p) : ∀ fs : List (Nat × Nat × Nat),
    (∀ f ∈ fs, f.1.Prime) → certAll p fs = true → certProd fs ∣ r - 1
  | [], _, _ => one_dvd _
  | (q, e, a) :: fs, h, hc => by
    rw [certAll] at hc
    simp only [Bool.and_eq_true, beq_iff_eq] at hc
    obtain ⟨⟨h1, h2⟩, h3⟩ := hc
    exact Nat.Coprime.mul_dvd_of_dvd_of_dvd h2 (certStep_dvd hp (h _ (List.mem_cons_self ..)) h1 hr hrp)
      (certAll_dvd hp hr hrp fs (fun f hf => h f (List.mem_cons_of_mem _ hf)) h3)

/-- Pocklington's criterion. -/
theorem pocklington {p : Nat} (fs : List (Nat × Nat × Nat)) (h : ∀ f ∈ fs, f.1.Prime) (hc : certCheck p fs = true) : p.Prime := by
  unfold certCheck at hc
  simp only [Bool.and_eq_true, decide_eq_true_eq] at hc
  obtain ⟨⟨h1, h2⟩, h3⟩ := hc
  by_contra hnp
  have hr : (Nat.minFac p).Prime := Nat.minFac_prime (by omega)
  have hsq : Nat.minFac p ^ 2 ≤ p := Nat.minFac_sq_le_self (by omega) hnp
  have hd := certAll_dvd h1 hr (Nat.minFac_dvd p) fs h h3
  have hle := Nat.le_of_dvd (by have := hr.two_le; omega) hd
  have h4 : certProd fs * certProd fs ≤ Nat.minFac p * Nat.minFac p := Nat.mul_le_mul (by omega) (by omega)
  rw [pow_two] at hsq
  omega

end Torsion.Ecc
