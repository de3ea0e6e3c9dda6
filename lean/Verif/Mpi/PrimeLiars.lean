import Mathlib.GroupTheory.Index
import Mathlib.GroupTheory.Coset.Card
import Mathlib.Data.ZMod.QuotientRing
import Mathlib.FieldTheory.Finite.Basic
import Verif.Mpi.PrimeMR

/-!
# Lemmas: less than half of the bases pass for a composite number
-/
namespace Torsion.Mpi
open Torsion.Spec

/-- A proper subgroup has at most half of the elements. -/
theorem proper_half {G : Type} [Group G] [Fintype G] {B : Subgroup G} {x : G} (hx : x ∉ B) : 2 * Nat.card B ≤ Nat.card G := by
  have h1 := B.card_mul_index
  have h2 : B.index ≠ 1 := fun h => hx ((Subgroup.index_eq_one.1 h) ▸ Subgroup.mem_top x)
  have h3 : B.index ≠ 0 := Subgroup.index_ne_zero_of_finite
  have h4 : 2 ≤ B.index := by omega
  calc 2 * Nat.card B = Nat.card B * 2 := Nat.mul_comm _ _
    _ ≤ Nat.card B * B.index := Nat.mul_le_mul_left _ h4
    _ = Nat.card G := h1

/-- The units whose power is one. -/
def powOne (G : Type) [CommGroup G] (m : Nat) : Subgroup G where
  carrier := {x | x ^ m = 1}
  mul_mem' := fun {a b} ha hb => by
    show (a * b) ^ m = 1
    rw [mul_pow, show a ^ m = 1 from ha, show b ^ m = 1 from hb, one_mul]
  one_mem' := one_pow m
  inv_mem' := fun {a} ha => by
    show (a⁻¹) ^ m = 1
    rw [inv_pow, show a ^ m = 1 from ha, inv_one]

/-- The units whose power is one or minus one. -/
def powSign (n m : Nat) : Subgroup (ZMod n)ˣ where
  carrier := {x | x ^ m = 1 ∨ x ^ m = -1}
  mul_mem' := fun {a b} ha hb => by
    show (a * b) ^ m = 1 ∨ (a * b) ^ m = -1
    rw [mul_pow]
    rcases ha with h | h <;> rcases hb with h' | h' <;> rw [h, h'] <;> simp
  one_mem' := Or.inl (one_pow m)
  inv_mem' := fun {a} ha => by
    show (a⁻¹) ^ m = 1 ∨ (a⁻¹) ^ m = -1
    rw [inv_pow]
    rcases ha with h | h <;> rw [h] <;> simp

theorem strongZ_unit {n k q : Nat} (hq : q % 2 = 1) {a : ZMod n} (h : StrongZ n k q a) : IsUnit a := by
  rcases h with h | ⟨r, -, h⟩
  · exact IsUnit.of_pow_eq_one h (by omega)
  · refine IsUnit.of_pow_eq_one (n := 2 ^ r * q * 2) (by rw [pow_mul, h]; ring) ?_
    have := Nat.two_pow_pos r
    have : 0 < q := by omega
    positivity

/-- For a composite number the passing bases lie in a proper subgroup. -/
theorem liars_subgroup {n k q : Nat} (ho : n % 2 = 1) (hn : 2 < n) (hc : ¬ n.Prime) (h : n - 1 = 2 ^ k * q) (hq : q % 2 = 1)
    (hk : 1 ≤ k) : ∃ (B : Subgroup (ZMod n)ˣ) (x : (ZMod n)ˣ), x ∉ B ∧ ∀ u : (ZMod n)ˣ, StrongZ n k q u → u ∈ B := by
  set p := n.minFac with hp
  have hpp : p.Prime := Nat.minFac_prime (by omega)
  obtain ⟨e, m, hm, hnm⟩ := Nat.exists_eq_pow_mul_and_not_dvd (n := n) (by omega) p hpp.ne_one
  have hp2 : p ≠ 2 := fun h => by
    have : 2 ∣ n := h ▸ Nat.minFac_dvd n
    omega
  have he : 1 ≤ e := by
    by_contra h0
    have : e = 0 := by omega
    subst this
    rw [pow_zero, Nat.one_mul] at hnm
    exact hm (hnm ▸ Nat.minFac_dvd n)
  by_cases hm1 : m = 1
  · -- a power of a prime
    subst hm1
    rw [Nat.mul_one] at hnm
    have he2 : 2 ≤ e := by
      by_contra h0
      have : e = 1 := by omega
      subst this
      rw [pow_one] at hnm
      exact hc (hnm ▸ hpp)
    have hsq : ((p ^ (e - 1) : Nat) : ZMod n) ^ 2 = 0 := by
      rw [← Nat.cast_pow, ZMod.natCast_eq_zero_iff, ← pow_mul]
      conv_lhs => rw [hnm]
      exact Nat.pow_dvd_pow p (by omega)
    have hpow : ∀ t : Nat, (1 + ((p ^ (e - 1) : Nat) : ZMod n)) ^ t = 1 + t * ((p ^ (e - 1) : Nat) : ZMod n) := by
      intro t
      induction t with
      | zero => simp
      | succ t ih =>
        rw [pow_succ, ih]
        push_cast
        push_cast at hsq
        linear_combination (t : ZMod n) * hsq
    have hnz : ((p ^ (e - 1) : Nat) : ZMod n) ≠ 0 := fun h0 => by
      rw [ZMod.natCast_eq_zero_iff] at h0
      have := Nat.le_of_dvd (Nat.pow_pos hpp.pos) h0
      have h' : p ^ (e - 1) < p ^ e := Nat.pow_lt_pow_right hpp.one_lt (by omega)
      omega
    have hu : (1 + ((p ^ (e - 1) : Nat) : ZMod n)) ^ n = 1 := by rw [hpow, ZMod.natCast_self, zero_mul, add_zero]
    refine ⟨powOne _ (n - 1), Units.ofPowEqOne _ n hu (by omega), fun hx => ?_, fun u hu => ?_⟩
    · have h1 : (1 + ((p ^ (e - 1) : Nat) : ZMod n)) ^ (n - 1) = 1 := by
        have := congrArg Units.val (show Units.ofPowEqOne _ n hu (by omega) ^ (n - 1) = 1 from hx)
        simpa using this
      have h2 : (1 + ((p ^ (e - 1) : Nat) : ZMod n)) ^ n = 1 := by rw [hpow, ZMod.natCast_self, zero_mul, add_zero]
      have h3 : (1 + ((p ^ (e - 1) : Nat) : ZMod n)) ^ n = (1 + ((p ^ (e - 1) : Nat) : ZMod n)) ^ (n - 1) * (1 + ((p ^ (e - 1) : Nat) : ZMod n)) := by
        rw [← pow_succ, Nat.sub_add_cancel (by omega)]
      rw [h2, h1, one_mul] at h3
      exact hnz (by linear_combination -h3)
    · show u ^ (n - 1) = 1
      apply Units.ext
      rw [Units.val_pow_eq_pow_val, h, Units.val_one]
      rcases hu with hu | ⟨r, hr, hu⟩
      · rw [Nat.mul_comm, pow_mul, hu, one_pow]
      · rw [show k = r + 1 + (k - r - 1) by omega, pow_add, pow_add, show 2 ^ r * 2 ^ 1 * 2 ^ (k - r - 1) * q = 2 ^ r * q * 2 * 2 ^ (k - r - 1) by ring,
          pow_mul, pow_mul, hu]
        simp
  · -- two coprime factors
    have hcop : Nat.Coprime (p ^ e) m := Nat.Coprime.pow_left _ ((Nat.Prime.coprime_iff_not_dvd hpp).2 hm)
    have hm0 : m ≠ 0 := by rintro rfl; omega
    have hmo : m % 2 = 1 := by
      rw [hnm, Nat.mul_mod] at ho
      rcases Nat.mod_two_eq_zero_or_one m with h | h
      · rw [h] at ho; simp at ho
      · exact h
    have hpo : p % 2 = 1 := hpp.eq_two_or_odd.resolve_left hp2
    have hpe : 2 < p ^ e := by
      have := Nat.pow_le_pow_right hpp.pos he
      rw [pow_one] at this
      have := hpp.two_le
      omega
    classical
    have hex : ∃ j, j < k ∧ ∃ v : (ZMod n)ˣ, v ^ (2 ^ j * q) = -1 :=
      ⟨0, by omega, -1, by rw [pow_zero, Nat.one_mul]; exact Odd.neg_one_pow (Nat.odd_iff.2 hq)⟩
    obtain ⟨j, hj, v, hv, hmax⟩ : ∃ j, j < k ∧ ∃ v : (ZMod n)ˣ, v ^ (2 ^ j * q) = -1 ∧
        ∀ r, r < k → (∃ u : (ZMod n)ˣ, u ^ (2 ^ r * q) = -1) → r ≤ j := by
      let J := (Finset.range k).filter fun r => ∃ u : (ZMod n)ˣ, u ^ (2 ^ r * q) = -1
      have hJ : J.Nonempty := by
        obtain ⟨j, hj, h⟩ := hex
        exact ⟨j, Finset.mem_filter.2 ⟨Finset.mem_range.2 hj, h⟩⟩
      obtain ⟨h1, h2⟩ := Finset.mem_filter.1 (J.max'_mem hJ)
      obtain ⟨v, hv⟩ := h2
      exact ⟨J.max' hJ, Finset.mem_range.1 h1, v, hv, fun r hr hu => J.le_max' r (Finset.mem_filter.2 ⟨Finset.mem_range.2 hr, hu⟩)⟩
    -- the unit that is `v` modulo one factor and one modulo the other
    obtain ⟨w, hw1, hw2⟩ := Nat.chineseRemainder hcop v.val.val 1
    have hd1 : p ^ e ∣ n := ⟨m, hnm⟩
    have hd2 : m ∣ n := ⟨p ^ e, by rw [Nat.mul_comm]; exact hnm⟩
    have hn0 : NeZero n := ⟨by omega⟩
    have hv1 : ((w : Nat) : ZMod (p ^ e)) = ZMod.castHom hd1 (ZMod (p ^ e)) v.val := by
      rw [(ZMod.natCast_eq_natCast_iff _ _ _).2 hw1]
      conv_rhs => rw [← ZMod.natCast_zmod_val v.val, map_natCast]
    have hv2 : ((w : Nat) : ZMod m) = 1 := by
      rw [(ZMod.natCast_eq_natCast_iff _ _ _).2 hw2, Nat.cast_one]
    have hp1 : ((w : Nat) : ZMod (p ^ e)) ^ (2 ^ j * q) = -1 := by
      rw [hv1, ← map_pow, ← Units.val_pow_eq_pow_val, hv, Units.val_neg, Units.val_one, map_neg, map_one]
    have hunit : IsUnit ((w : Nat) : ZMod n) := by
      rw [ZMod.isUnit_iff_coprime, hnm]
      refine Nat.Coprime.mul_right ?_ ?_
      · rw [← ZMod.isUnit_iff_coprime, hv1]
        exact (v.isUnit).map _
      · rw [← ZMod.isUnit_iff_coprime, hv2]
        exact isUnit_one
    refine ⟨powSign n (2 ^ j * q), hunit.unit, fun hx => ?_, fun u hu => ?_⟩
    · have hx' : ((w : Nat) : ZMod n) ^ (2 ^ j * q) = 1 ∨ ((w : Nat) : ZMod n) ^ (2 ^ j * q) = -1 := by
        rcases hx with hx | hx
        · left
          have := congrArg Units.val hx
          simpa using this
        · right
          have := congrArg Units.val hx
          simpa using this
      rcases hx' with hx | hx
      · have := congrArg (ZMod.castHom hd1 (ZMod (p ^ e))) hx
        rw [map_pow, map_natCast, map_one, hp1] at this
        exact one_ne_neg_one hpe this.symm
      · have := congrArg (ZMod.castHom hd2 (ZMod m)) hx
        rw [map_pow, map_natCast, map_neg, map_one, hv2, one_pow] at this
        exact one_ne_neg_one (by omega) this
    · show u ^ (2 ^ j * q) = 1 ∨ u ^ (2 ^ j * q) = -1
      rcases hu with hu | ⟨r, hr, hu⟩
      · left
        apply Units.ext
        rw [Units.val_pow_eq_pow_val, Nat.mul_comm, pow_mul, hu, one_pow, Units.val_one]
      · have hu' : u ^ (2 ^ r * q) = -1 := Units.ext (by rw [Units.val_pow_eq_pow_val, hu]; simp)
        have hle := hmax r hr ⟨u, hu'⟩
        rcases Nat.lt_or_eq_of_le hle with hlt | rfl
        · left
          rw [show j = r + 1 + (j - r - 1) by omega, pow_add, pow_add, show 2 ^ r * 2 ^ 1 * 2 ^ (j - r - 1) * q = 2 ^ r * q * 2 * 2 ^ (j - r - 1) by ring,
            pow_mul, pow_mul, hu']
          simp
        · right; exact hu'

/-- Fewer than half of the bases from 2 to `n - 2` pass. -/
theorem liars_bound {n : Nat} (ho : n % 2 = 1) (hn : 7 < n) (hc : ¬ n.Prime) (s : Finset Nat)
    (hs : ∀ a ∈ s, 2 ≤ a ∧ a ≤ n - 2 ∧ StrongProbablePrime n a) : 2 * s.card + 4 ≤ n - 2 := by
  obtain ⟨hk, hm, hq⟩ := split_pred ho (by omega)
  rw [Nat.mul_comm] at hm
  generalize mpz_ctz (mpz_of ((n - 1 : Nat) : Int)) = k at *
  generalize (n - 1) / 2 ^ k = q at *
  obtain ⟨B, x, hx, hB⟩ := liars_subgroup ho (by omega) hc hm.symm hq hk
  have hn0 : NeZero n := ⟨by omega⟩
  have hhalf := proper_half hx
  have hphi : Nat.card (ZMod n)ˣ = n.totient := by rw [Nat.card_eq_fintype_card, ZMod.card_units_eq_totient]
  have htot : n.totient ≤ n - 2 := by
    have h1 := Nat.totient_lt n (by omega)
    have h2 : n.totient ≠ n - 1 := fun h => hc ((Nat.totient_eq_iff_prime (by omega)).1 h)
    omega
  have hone : StrongZ n k q (((1 : Nat) : ZMod n)) := (strong_iff (by omega) hm.symm hq 1).1 ⟨_, _, hm.symm, hq, Or.inl (by
    rw [one_pow, Nat.mod_eq_of_lt (by omega)])⟩
  have hmone : StrongZ n k q (((n - 1 : Nat) : ZMod n)) := by
    refine Or.inr ⟨0, by omega, ?_⟩
    rw [pow_zero, Nat.one_mul, Nat.cast_sub (by omega), ZMod.natCast_self, Nat.cast_one, zero_sub]
    exact Odd.neg_one_pow (Nat.odd_iff.2 hq)
  classical
  have hsub : (insert 1 (insert (n - 1) s)).card ≤ Nat.card B := by
    have hall : ∀ a ∈ insert 1 (insert (n - 1) s), a < n ∧ ∃ u : (ZMod n)ˣ, u ∈ B ∧ (u : ZMod n) = (a : ZMod n) := by
      intro a ha
      have hstr : a < n ∧ StrongZ n k q ((a : Nat) : ZMod n) := by
        rcases Finset.mem_insert.1 ha with rfl | ha
        · exact ⟨by omega, hone⟩
        · rcases Finset.mem_insert.1 ha with rfl | ha
          · exact ⟨by omega, hmone⟩
          · obtain ⟨h1, h2, h3⟩ := hs a ha
            exact ⟨by omega, (strong_iff (by omega) hm.symm hq a).1 h3⟩
      obtain ⟨u, hu⟩ := strongZ_unit hq hstr.2
      exact ⟨hstr.1, u, hB u (by rw [hu]; exact hstr.2), hu⟩
    choose! hlt f hf using hall
    rw [Nat.card_eq_fintype_card, ← Fintype.card_coe]
    refine Fintype.card_le_of_injective (fun a : ↥(insert 1 (insert (n - 1) s)) => (⟨f a.1, (hf a.1 a.2).1⟩ : B)) ?_
    rintro ⟨a, ha⟩ ⟨b, hb⟩ hab
    have h1 : f a = f b := congrArg Subtype.val hab
    have h2 : ((a : Nat) : ZMod n) = b := by rw [← (hf a ha).2, ← (hf b hb).2, h1]
    have h3 := (ZMod.natCast_eq_natCast_iff _ _ _).1 h2
    have h4 : a = b := by
      have h5 : a % n = b % n := h3
      rwa [Nat.mod_eq_of_lt (hlt a ha), Nat.mod_eq_of_lt (hlt b hb)] at h5
    exact Subtype.ext h4
  rw [Finset.card_insert_of_notMem, Finset.card_insert_of_notMem] at hsub
  · omega
  · intro h
    have := hs _ h
    omega
  · intro h
    rcases Finset.mem_insert.1 h with h | h
    · omega
    · have := hs _ h
      omega

end Torsion.Mpi
