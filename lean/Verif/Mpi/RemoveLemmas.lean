import Verif.Mpi.NumberLemmas

/-!
# Lemmas: removing a factor
-/
namespace Torsion.Mpi
open Torsion.Spec

theorem remove_loop_of {j : Int} (hj : 2 ≤ j.natAbs) (xn : Nat) : ∀ (f : Nat) (i : Int) (c : Nat), i ≠ 0 → i.natAbs < 2 ^ f →
    (mpz_of i).mag.length ≤ xn →
    ∃ (e : Nat) (k : Int), mpz_remove_loop xn (mpz_of j) (f + 1) (mpz_of i) c = .ok (mpz_of k, c + e) ∧ i = j ^ e * k ∧ ¬ j ∣ k ∧
      (mpz_of k).mag.length ≤ xn
  | f, i, c, h0, hf, hl => by
    have hj0 : j ≠ 0 := by rintro rfl; simp at hj
    have hyl : 0 < (mpz_of j).mag.length := List.length_pos_of_ne_nil fun e => hj0 ((rep_nil (of_rep j)).1 e)
    unfold mpz_remove_loop
    rw [if_neg (mt (size_zero_of i).1 h0)]
    obtain ⟨a, b, e, ha, hb⟩ := quorem_rep (q := some (mpz_init_vla xn)) (r := some (mpz_init_vla (mpz_of j).mag.length))
      (of_rep i) (of_rep j) hj0 (Or.inl rfl)
      (roomO_some (by show _ ≤ max 1 xn; omega)) (roomO_some (by show _ ≤ max 1 _; omega))
    rw [e, C.ok_bind, rep_of ha, rep_of hb]
    dsimp only
    by_cases hd : j ∣ i
    · obtain ⟨k, rfl⟩ := hd
      have hk : k ≠ 0 := by rintro rfl; simp at h0
      have hq : (j * k).tdiv j = k := Int.mul_tdiv_cancel_left k hj0
      have hlt : 2 * k.natAbs ≤ (j * k).natAbs := by rw [Int.natAbs_mul]; exact Nat.mul_le_mul_right _ hj
      have hk1 : 1 ≤ k.natAbs := by omega
      obtain ⟨f, rfl⟩ : ∃ g, f = g + 1 := by
        cases f with
        | zero => simp at hf; omega
        | succ g => exact ⟨g, rfl⟩
      rw [pow_succ] at hf
      have hlen : (mpz_of k).mag.length ≤ xn := le_trans (norm_length_le (rep_norm (of_rep k))
        (by rw [rep_abs (of_rep k), rep_abs (of_rep (j * k))]; omega)) hl
      obtain ⟨e2, k2, h1, h2, h3, h4⟩ := remove_loop_of hj xn f k (c + 1) hk (by omega) hlen
      refine ⟨e2 + 1, k2, ?_, ?_, h3, h4⟩
      · rw [if_neg (by rw [not_not, size_zero_of, Int.mul_tmod_right]), hq, h1]
        congr 2
        omega
      · rw [h2]; ring_nf
    · refine ⟨0, i, ?_, by rw [pow_zero, one_mul], hd, hl⟩
      rw [if_pos (by rw [ne_eq, size_zero_of]; exact fun h => hd (Int.dvd_of_tmod_eq_zero h))]
      rfl

/-- What `mpz_remove` returns. -/
def Removed (i j : Int) (k : Int) (c : Nat) : Prop :=
  (i = 0 ∨ j.natAbs = 1) ∧ k = i ∧ c = 0 ∨ i ≠ 0 ∧ 2 ≤ j.natAbs ∧ i = j ^ c * k ∧ ¬ j ∣ k

theorem remove_of (i : Int) {j : Int} (hj : j ≠ 0) : ∃ k c, mpz_remove (some .heap) (mpz_of i) (mpz_of j) = .ok (mpz_of k, c) ∧
    (∃ t, mpz_remove none (mpz_of i) (mpz_of j) = .ok (t, c)) ∧ Removed i j k c := by
  have hjl : (mpz_of j).mag.length ≠ 0 := mt (rep_len (of_rep j)).1 hj
  have hil : (mpz_of i).mag.length = 0 ↔ i = 0 := rep_len (of_rep i)
  obtain ⟨w, ew, hw⟩ := limb0_rep (of_rep j) hj
  have hone : (mpz_of j).mag.length = 1 → j.natAbs = w.toNat := fun h => by
    have := val_lt (mpz_of j).mag
    rw [rep_abs (of_rep j), h] at this
    rw [hw, Nat.mod_eq_of_lt (by simpa using this)]
  have hsmall : j.natAbs < 2 ^ 64 → (mpz_of j).mag.length = 1 := fun h => by
    have := rep_len_le (of_rep j) (n := 1) (by simpa using h)
    omega
  unfold mpz_remove
  rw [if_neg hjl, ew]
  simp only [C.ok_bind, if_neg hjl]
  by_cases h1 : (mpz_of i).mag.length = 0 ∨ ((mpz_of j).mag.length = 1 ∧ w = 1)
  · simp only [if_pos h1]
    refine ⟨i, 0, by rw [ifDest, set_of, C.ok_bind], ⟨_, rfl⟩, Or.inl ⟨?_, rfl, rfl⟩⟩
    rcases h1 with h1 | ⟨h1, rfl⟩
    · exact Or.inl (hil.1 h1)
    · exact Or.inr (hone h1)
  simp only [if_neg h1]
  have hi0 : i ≠ 0 := fun h => h1 (Or.inl (hil.2 h))
  have hj2 : 2 ≤ j.natAbs := by
    by_contra hc
    have hj1 : j.natAbs = 1 := by omega
    refine h1 (Or.inr ⟨hsmall (by omega), BitVec.eq_of_toNat_eq ?_⟩)
    rw [hw, hj1]
    rfl
  by_cases h2 : (mpz_of j).mag.length = 1 ∧ w &&& (w - 1) = 0
  · simp only [if_pos h2]
    have hjw := hone h2.1
    have hw1 : (w - 1).toNat = w.toNat - 1 := BitVec.toNat_sub_of_le (show 1 ≤ w.toNat by omega)
    have ha : w.toNat &&& (w.toNat - 1) = 0 := by
      have := congrArg BitVec.toNat h2.2
      rwa [BitVec.toNat_and, hw1] at this
    obtain ⟨b, hb⟩ := pow2_of_and w.toNat (by omega) ha
    have hb0 : 0 < b := by
      rcases Nat.eq_zero_or_pos b with rfl | h
      · rw [pow_zero] at hb; omega
      · exact h
    have hbl : mp_bitlen (w - 1) = b := by
      rw [mp_bitlen_eq, hw1, hb]
      refine le_antisymm (Nat.size_le.2 (by have := Nat.two_pow_pos b; omega)) ?_
      obtain ⟨b', rfl⟩ : ∃ b', b = b' + 1 := ⟨b - 1, by omega⟩
      refine Nat.succ_le_of_lt (Nat.lt_size.2 ?_)
      have := Nat.two_pow_pos b'
      rw [pow_succ]; omega
    rw [hbl]
    obtain ⟨ht1, ht2⟩ := ctz_rep (of_rep i) hi0
    generalize mpz_ctz (mpz_of i) = t at ht1 ht2 ⊢
    generalize hc : t / b = c
    have hcb : c * b ≤ t := by rw [← hc]; exact Nat.div_mul_le_self t b
    have hct : t < (c + 1) * b := by rw [← hc, Nat.add_mul, Nat.one_mul, Nat.mul_comm]; exact Nat.lt_mul_div_succ t hb0
    obtain ⟨q, hq⟩ : (2 : Int) ^ (c * b) ∣ i := dvd_trans (pow_dvd_pow 2 hcb) ht1
    have hp0 : (2 : Int) ^ (c * b) ≠ 0 := by positivity
    have hquo : i.tdiv (2 ^ (c * b)) = q := by rw [hq]; exact Int.mul_tdiv_cancel_left q hp0
    have hjabs : j = 2 ^ b ∨ j = -2 ^ b := by
      have : (j.natAbs : Int) = 2 ^ b := by rw [hjw, hb]; push_cast; rfl
      omega
    have hndvd : ¬ j ∣ q := by
      intro hd
      have h3 : (2 : Int) ^ b ∣ q := by rcases hjabs with h | h <;> rw [h] at hd <;> simpa using hd
      apply ht2
      have : (2 : Int) ^ (c * b) * 2 ^ b ∣ i := by rw [hq]; exact mul_dvd_mul_left _ h3
      rw [← pow_add, show c * b + b = (c + 1) * b by ring] at this
      exact dvd_trans (pow_dvd_pow 2 (by omega)) this
    by_cases hs : c % 2 = 1 ∧ j < 0
    · refine ⟨-q, c, ?_, ⟨_, rfl⟩, Or.inr ⟨hi0, hj2, ?_, by rwa [dvd_neg]⟩⟩
      · rw [ifDest, quo_2exp_of, C.ok_bind, if_pos ⟨hs.1, (size_neg_of j).2 hs.2⟩, neg_of, C.ok_bind, hquo]
      · have hjn : j = -2 ^ b := hjabs.resolve_left (fun h => by have : (0 : Int) < 2 ^ b := by positivity
                                                                 omega)
        rw [hjn, Odd.neg_pow (Nat.odd_iff.2 hs.1), ← pow_mul, Nat.mul_comm b c, hq]; ring
    · refine ⟨q, c, ?_, ⟨_, rfl⟩, Or.inr ⟨hi0, hj2, ?_, hndvd⟩⟩
      · rw [ifDest, quo_2exp_of, C.ok_bind, if_neg (fun h => hs ⟨h.1, (size_neg_of j).1 h.2⟩), C.ok_bind, hquo]
      · have hjp : j ^ c = 2 ^ (c * b) := by
          rcases hjabs with h | h
          · rw [h, ← pow_mul, Nat.mul_comm]
          · have hev : Even c := by
              rw [Nat.even_iff]
              by_contra hc2
              refine hs ⟨by omega, ?_⟩
              have : (0 : Int) < 2 ^ b := by positivity
              omega
            rw [h, hev.neg_pow, ← pow_mul, Nat.mul_comm]
        rw [hjp, hq]
  · simp only [if_neg h2]
    obtain ⟨n, en, hn⟩ := set_rep (z := mpz_init_vla (mpz_of i).mag.length) (of_rep i) (by show _ ≤ max 1 _; omega)
    have hlt : i.natAbs < 2 ^ (64 * (mpz_of i).mag.length) := by rw [← rep_abs (of_rep i)]; exact val_lt _
    obtain ⟨e, k, h3, h4, h5, -⟩ := remove_loop_of hj2 (mpz_of i).mag.length (64 * (mpz_of i).mag.length) i 0 hi0 hlt (le_refl _)
    rw [Nat.zero_add] at h3
    rw [en, rep_of hn]
    simp only [C.ok_bind, h3]
    refine ⟨k, e, by rw [ifDest, set_of, C.ok_bind], ⟨mpz_of i, rfl⟩, Or.inr ⟨hi0, hj2, h4, h5⟩⟩

end Torsion.Mpi
