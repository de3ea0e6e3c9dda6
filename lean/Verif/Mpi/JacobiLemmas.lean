import Verif.Mpi.InvertLemmas
import Verif.Mpi.JacobiSpec

/-!
# Jacobi symbol: lemmas
-/
namespace Torsion.Mpi
open Torsion.Spec NumberTheorySymbols

theorem and7 (v : Limb) : (v &&& 7).toNat = v.toNat % 8 := by
  rw [BitVec.toNat_and, show (7 : Limb).toNat = 2 ^ 3 - 1 from rfl, Nat.and_two_pow_sub_one_eq_mod]

theorem and3 (v : Limb) : (v &&& 3).toNat = v.toNat % 4 := by
  rw [BitVec.toNat_and, show (3 : Limb).toNat = 2 ^ 2 - 1 from rfl, Nat.and_two_pow_sub_one_eq_mod]

theorem flip2_iff (v : Limb) : mp_flip2 v = true ↔ v.toNat % 8 = 3 ∨ v.toNat % 8 = 5 := by
  unfold mp_flip2
  rw [decide_eq_true_iff, ← and7]
  constructor
  · rintro (h | h)
    · left; rw [h]; rfl
    · right; rw [h]; rfl
  · rintro (h | h)
    · left; exact BitVec.eq_of_toNat_eq h
    · right; exact BitVec.eq_of_toNat_eq h

theorem and3_iff (v : Limb) : v &&& 3 = 3 ↔ v.toNat % 4 = 3 := by
  rw [← and3]
  exact ⟨fun h => by rw [h]; rfl, fun h => BitVec.eq_of_toNat_eq h⟩

/-- The sign for a factor of two. -/
theorem two_symbol {v : Nat} (hv : v % 2 = 1) : J(2 | v) = if v % 8 = 3 ∨ v % 8 = 5 then -1 else 1 := by
  rw [jacobiSym.at_two (Nat.odd_iff.2 hv), ZMod.χ₈_nat_eq_if_mod_eight, if_neg (by omega)]
  by_cases h : v % 8 = 3 ∨ v % 8 = 5
  · rw [if_neg (by omega), if_pos h]
  · rw [if_pos (by omega), if_neg h]

theorem two_flip {v : Nat} (hv : v % 2 = 1) (v0 : Limb) (h0 : v0.toNat % 8 = v % 8) (j a : Int) :
    (if mp_flip2 v0 then -j else j) * a = j * (J(2 | v) * a) := by
  rw [two_symbol hv]
  by_cases h : v % 8 = 3 ∨ v % 8 = 5
  · rw [if_pos ((flip2_iff v0).2 (by rw [h0]; exact h)), if_pos h]; ring
  · rw [if_neg (fun h' => h (by rw [← h0]; exact (flip2_iff v0).1 h')), if_neg h]; ring

/-- Removing factors of two from the top. -/
theorem shift_symbol {v : Nat} (hv : v % 2 = 1) (v0 : Limb) (h0 : v0.toNat % 8 = v % 8) (z w : Nat) (j : Int) :
    (if z % 2 = 1 ∧ mp_flip2 v0 then -j else j) * J((w : Nat) | v) = j * J(((2 ^ z * w : Nat) : Int) | v) := by
  rw [Nat.cast_mul, jacobiSym.mul_left, Nat.cast_pow, jacobiSym.pow_left, Nat.cast_ofNat, two_symbol hv]
  by_cases h : v % 8 = 3 ∨ v % 8 = 5
  · rw [if_pos h]
    have hf := (flip2_iff v0).2 (by rw [h0]; exact h)
    by_cases hz : z % 2 = 1
    · rw [if_pos ⟨hz, hf⟩, Odd.neg_one_pow (Nat.odd_iff.2 hz)]; ring
    · rw [if_neg (fun h' => hz h'.1), Even.neg_one_pow (Nat.even_iff.2 (by omega))]; ring
  · rw [if_neg h, one_pow, if_neg (fun h' => h (by rw [← h0]; exact (flip2_iff v0).1 h'.2))]; ring

/-- Reciprocity. -/
theorem swap_symbol {u v : Nat} (hu : u % 2 = 1) (hv : v % 2 = 1) (j : Int) :
    (if v % 4 = 3 ∧ u % 4 = 3 then -j else j) * J((v : Nat) | u) = j * J((u : Nat) | v) := by
  by_cases h : v % 4 = 3 ∧ u % 4 = 3
  · rw [if_pos h, jacobiSym.quadratic_reciprocity_three_mod_four h.2 h.1]; ring
  · rw [if_neg h]
    by_cases h1 : v % 4 = 1
    · rw [jacobiSym.quadratic_reciprocity_one_mod_four h1 (Nat.odd_iff.2 hu)]
    · rw [jacobiSym.quadratic_reciprocity_one_mod_four (show u % 4 = 1 by omega) (Nat.odd_iff.2 hv)]

theorem sub_symbol {u v d : Nat} (h : v ≤ u) (hd : u - v = 2 * d) : J((u : Nat) | v) = J(2 | v) * J((d : Nat) | v) := by
  rw [← jacobiSym.mul_left]
  apply jacobiSym.mod_left'
  have : (2 : Int) * d = u - v := by omega
  rw [this, Int.sub_emod_right]

theorem jacobi_step_val {u v : List Limb} (nu : Norm u) (nv : Norm v) (ou : val u % 2 = 1) (ov : val v % 2 = 1)
    (h : val v ≤ val u) :
    ∃ w, mpn_jacobi_step u v = .ok w ∧ Norm w ∧ val u - val v = 2 * val w := by
  obtain ⟨t, e, nt, vt, _⟩ := sub_strip nu nv h
  unfold mpn_jacobi_step
  rw [e, C.ok_bind]
  by_cases h0 : (mpn_strip t.1).length > 0
  · dsimp only
    rw [if_pos h0]
    obtain ⟨w, ew, nw, vw⟩ := rshift_trim nt (List.length_pos_iff.1 h0) 1 (by omega)
    refine ⟨w, ew, nw, ?_⟩
    rw [vw, vt, pow_one]; omega
  · dsimp only
    rw [if_neg h0]
    refine ⟨_, rfl, nt, ?_⟩
    have : mpn_strip t.1 = [] := by
      apply List.eq_nil_of_length_eq_zero; omega
    rw [this, val_nil] at vt
    rw [this, val_nil]; omega

theorem rd_low {v : List Limb} (hv : v ≠ []) : ∃ v0, C.rd v 0 = .ok v0 ∧ v0.toNat % 8 = val v % 8 := by
  obtain ⟨a, e, h⟩ := val_mod v hv
  exact ⟨a, e, by rw [h]; omega⟩

theorem fuel_half {n u v d : Nat} (h : Fuel n u v) (hd : u = 2 * d) : Fuel n d v := by
  left
  have e : u * v = 2 * (d * v) := by rw [hd]; ring
  rcases h with h | ⟨_, h⟩
  · omega
  · rw [pow_succ] at h; omega

theorem jacobi_loop_val : ∀ (n : Nat) (u v : List Limb) (j : Int), Norm u → Norm v → val v % 2 = 1 →
    Fuel n (val u) (val v) →
    ∃ v' j', mpn_jacobi_loop (n + 1) u v j = .ok (v', j') ∧ Norm v' ∧ val v' % 2 = 1 ∧
      (if val v' = 1 then j' else 0) = j * J((val u : Nat) | val v)
  | n, a, v, j, ha, nv, ov, hf => by
    unfold mpn_jacobi_loop
    by_cases h0 : a.length = 0
    · rw [if_pos h0]
      have : a = [] := by simpa using h0
      subst this
      refine ⟨v, j, rfl, nv, ov, ?_⟩
      rw [val_nil]
      by_cases h1 : val v = 1
      · rw [if_pos h1, h1, jacobiSym.one_right, mul_one]
      · rw [if_neg h1, Nat.cast_zero, jacobiSym.zero_left (by omega), mul_zero]
    · rw [if_neg h0]
      have hne : a ≠ [] := by simpa using h0
      obtain ⟨z, u, e1, nu, vu, ou⟩ := shift_zeroes_val ha hne
      obtain ⟨v0, e2, h2⟩ := rd_low (norm_ne (odd_pos ov))
      obtain ⟨u0, e3, h3⟩ := rd_low (norm_ne (odd_pos ou))
      rw [e1, C.ok_bind, e2, C.ok_bind]
      dsimp only
      rw [vu] at hf
      have hp : val u * val v < 2 ^ n := by
        refine fuel_shift (a := z) (b := 0) ?_ ou ov
        rwa [pow_zero, Nat.one_mul]
      obtain ⟨m, rfl⟩ : ∃ m, n = m + 1 := ⟨n - 1, by have := fuel_pos hp ou ov; omega⟩
      have hs := shift_symbol ov v0 h2 z (val u) j
      rw [← vu] at hs
      generalize (if z % 2 = 1 ∧ mp_flip2 v0 then -j else j) = j1 at hs ⊢
      by_cases hc : val u < val v
      · rw [if_pos (by have := mt (cmp2_ge nu nv).1 (by omega); omega)]
        rw [e3, C.ok_bind]
        obtain ⟨w, e4, nw, vw⟩ := jacobi_step_val nv nu ov ou hc.le
        rw [e4, C.ok_bind]
        have hsw := swap_symbol ou ov j1
        have hiff : (v0 &&& 3 = 3 ∧ u0 &&& 3 = 3) ↔ (val v % 4 = 3 ∧ val u % 4 = 3) := by
          rw [and3_iff, and3_iff]
          omega
        have e5 : (if v0 &&& 3 = 3 ∧ u0 &&& 3 = 3 then -j1 else j1) =
            (if val v % 4 = 3 ∧ val u % 4 = 3 then -j1 else j1) := by
          by_cases h : v0 &&& 3 = 3 ∧ u0 &&& 3 = 3
          · rw [if_pos h, if_pos (hiff.1 h)]
          · rw [if_neg h, if_neg (fun h' => h (hiff.2 h'))]
        rw [← e5] at hsw
        generalize (if v0 &&& 3 = 3 ∧ u0 &&& 3 = 3 then -j1 else j1) = j2 at hsw ⊢
        obtain ⟨v', j', e6, r1, r2, r3⟩ := jacobi_loop_val m w u (if mp_flip2 u0 then -j2 else j2) nw nu ou
          (fuel_half (fuel_sub_left (by rwa [Nat.mul_comm]) ov ou) vw)
        refine ⟨v', j', e6, r1, r2, ?_⟩
        rw [r3, two_flip ou u0 h3, ← sub_symbol hc.le vw, hsw, hs]
      · rw [if_neg (by have := (cmp2_ge nu nv).2 (by omega); omega)]
        obtain ⟨w, e4, nw, vw⟩ := jacobi_step_val nu nv ou ov (by omega)
        rw [e4, C.ok_bind]
        obtain ⟨v', j', e6, r1, r2, r3⟩ := jacobi_loop_val m w v (if mp_flip2 v0 then -j1 else j1) nw nv ov
          (fuel_half (fuel_sub_left hp ou ov) vw)
        refine ⟨v', j', e6, r1, r2, ?_⟩
        rw [r3, two_flip ov v0 h2, ← sub_symbol (by omega) vw, hs]

theorem jacobi_val {x y : List Limb} (hx : Norm x) (hy : Norm y) (ho : val y % 2 = 1) (hl : x.length ≤ y.length) :
    mpn_jacobi x y = .ok J((val x : Nat) | val y) := by
  have hyp := odd_pos ho
  have hne := norm_ne hyp
  have ly : y.length ≠ 0 := by simpa using hne
  unfold mpn_jacobi
  have hx' : ¬ (x.length > 0 ∧ x.getLast? = some 0) := fun h => hx h.2
  rw [C.check, decide_eq_true hx']
  simp only [if_true, C.ok_bind]
  rw [C.check, decide_eq_true (show y.length ≠ 0 ∧ y.getLast? ≠ some 0 from ⟨ly, hy⟩)]
  simp only [if_true, C.ok_bind]
  obtain ⟨y0, ey, hone⟩ := rd_low hne
  rw [ey, C.ok_bind]
  have hy0 : y0 &&& 1 ≠ 0 := by rw [odd_test]; omega
  rw [C.check, decide_eq_true hy0]
  simp only [if_true, C.ok_bind]
  rw [C.check, decide_eq_true hl]
  simp only [if_true, C.ok_bind]
  obtain ⟨v, j, e, nv, ov, h⟩ := jacobi_loop_val (64 * (x.length + y.length)) x y 1 hx hy ho (fuel_start _ le_rfl)
  rw [e, C.ok_bind]
  dsimp only
  obtain ⟨v0, ev, hv⟩ := norm_one nv (odd_pos ov)
  rw [ev, C.ok_bind]
  rw [one_mul] at h
  by_cases h1 : val v = 1
  · rw [if_neg (fun h' => (hv.1 h') h1), ← h, if_pos h1]
  · rw [if_pos (hv.2 h1), ← h, if_neg h1]

theorem jacobi_rep {x y : Mpz} {i j : Int} (hx : Rep x i) (hy : Rep y j) (ho : j % 2 = 1) :
    mpz_jacobi x y = .ok ((if i < 0 ∧ j < 0 then -1 else 1) * J(i | j.natAbs)) := by
  have hj : j ≠ 0 := by rintro rfl; simp at ho
  unfold mpz_jacobi
  rw [if_neg (fun h => hj ((rep_size0 hy).1 h))]
  obtain ⟨y0, ey, hy0⟩ := limb0_rep hy hj
  rw [ey, C.ok_bind]
  have hy0 : y0 &&& 1 ≠ 0 := by rw [odd_test, hy0]; omega
  rw [C.check, decide_eq_true hy0]
  simp only [if_true, C.ok_bind]
  have vy := rep_abs hy
  have main : ∀ (x' : Mpz) (k : Nat), Rep x' k → k < j.natAbs → j ∣ i - k →
      mpn_jacobi x'.mag y.mag = .ok J(i | j.natAbs) := by
    intro x' k hx' hk hd
    have vx := rep_abs hx'
    rw [Int.natAbs_natCast] at vx
    rw [jacobi_val (rep_norm hx') (rep_norm hy) (by rw [vy]; omega)
      (norm_length_le (rep_norm hx') (by rw [vx, vy]; omega)), vx, vy]
    congr 1
    apply jacobiSym.mod_left'
    rw [Int.natCast_natAbs, Int.emod_abs, Int.emod_abs]
    exact (Int.modEq_iff_dvd).2 hd
  have fin : (do
      let j' ← (.ok J(i | j.natAbs) : C Int)
      (.ok (if x.size < 0 ∧ y.size < 0 then -j' else j') : C Int)) =
      .ok ((if i < 0 ∧ j < 0 then -1 else 1) * J(i | j.natAbs)) := by
    rw [C.ok_bind]
    congr 1
    by_cases h : i < 0 ∧ j < 0
    · rw [if_pos (by rw [rep_sizen hx, rep_sizen hy]; exact h), if_pos h]; ring
    · rw [if_neg (by rw [rep_sizen hx, rep_sizen hy]; exact h), if_neg h]; ring
  have hcm := cmpabs_rep hx hy
  by_cases hs : x.size < 0 ∨ mpz_cmpabs x y ≥ 0
  · rw [if_pos hs]
    obtain ⟨t, e, ht⟩ := mod_rep (r := mpz_init_vla (y.mag.length + 1)) hx hy hj (room_vla _ _ (by omega))
    have e1 := Int.emod_nonneg i hj
    have e2 := Int.emod_lt_abs i hj
    rw [← Int.natCast_natAbs] at e2
    rw [e, C.ok_bind, main t (i % j).toNat (by rwa [Int.toNat_of_nonneg e1]) (by omega) (by
      rw [Int.toNat_of_nonneg e1]; exact Int.dvd_self_sub_emod)]
    exact fin
  · rw [if_neg hs]
    rw [not_or] at hs
    have hi : 0 ≤ i := by
      by_contra h; exact hs.1 ((rep_sizen hx).2 (by omega))
    have hlt : i.natAbs < j.natAbs := by
      by_contra h
      apply hs.2
      rw [hcm, if_neg h]; split <;> decide
    rw [main x i.toNat (by rwa [Int.toNat_of_nonneg hi]) (by omega) (by
      rw [Int.toNat_of_nonneg hi, sub_self]; exact dvd_zero _)]
    exact fin

theorem jacobi_even {x y : Mpz} {j : Int} (hy : Rep y j) (ho : j % 2 = 0) : mpz_jacobi x y = .abort := by
  unfold mpz_jacobi
  by_cases hj : j = 0
  · rw [if_pos ((rep_size0 hy).2 hj)]
  · rw [if_neg (fun h => hj ((rep_size0 hy).1 h))]
    obtain ⟨y0, ey, hy0⟩ := limb0_rep hy hj
    rw [ey, C.ok_bind]
    have hy0 : ¬ (y0 &&& 1 ≠ 0) := by rw [odd_test, hy0]; omega
    rw [C.check, decide_eq_false hy0]
    rfl

/-- The textbook symbol of an odd prime is Mathlib's. -/
theorem kronecker_prime {p : Nat} (hp : p.Prime) (h2 : p ≠ 2) (a : Int) : kroneckerPrime a p = J(a | p) := by
  have : Fact p.Prime := ⟨hp⟩
  unfold kroneckerPrime
  rw [if_neg h2, ← jacobiSym.legendreSym.to_jacobiSym]
  by_cases h : (p : Int) ∣ a
  · rw [if_pos h, (legendreSym.eq_zero_iff p a).2 ((ZMod.intCast_zmod_eq_zero_iff_dvd a p).2 h)]
  · rw [if_neg h]
    have h0 : (a : ZMod p) ≠ 0 := fun e => h ((ZMod.intCast_zmod_eq_zero_iff_dvd a p).1 e)
    by_cases hs : ∃ r : Int, (p : Int) ∣ r * r - a
    · rw [if_pos hs, eq_comm, legendreSym.eq_one_iff p h0]
      obtain ⟨r, hr⟩ := hs
      refine ⟨(r : ZMod p), ?_⟩
      have := (ZMod.intCast_zmod_eq_zero_iff_dvd _ p).2 hr
      push_cast at this
      exact (sub_eq_zero.1 this).symm
    · rw [if_neg hs, eq_comm, legendreSym.eq_neg_one_iff p]
      rintro ⟨r, hr⟩
      apply hs
      refine ⟨r.val, (ZMod.intCast_zmod_eq_zero_iff_dvd _ p).1 ?_⟩
      push_cast
      rw [ZMod.natCast_val, ZMod.cast_id, hr, sub_self]

/-- The textbook product over an odd number is Mathlib's symbol. -/
theorem kronecker_odd {n : Nat} (ho : n % 2 = 1) (a : Int) :
    ((n.primeFactorsList).map (kroneckerPrime a)).prod = J(a | n) := by
  rw [← Nat.prod_primeFactorsList (show n ≠ 0 by omega), jacobiSym.list_prod_right]
  · rw [Nat.prod_primeFactorsList (show n ≠ 0 by omega)]
    congr 1
    apply List.map_congr_left
    intro p hp
    refine kronecker_prime (Nat.prime_of_mem_primeFactorsList hp) ?_ a
    rintro rfl
    have := Nat.dvd_of_mem_primeFactorsList hp
    omega
  · intro p hp
    exact (Nat.prime_of_mem_primeFactorsList hp).ne_zero

theorem kronecker_split {z w : Nat} (ho : w % 2 = 1) (a : Int) :
    (((2 ^ z * w).primeFactorsList).map (kroneckerPrime a)).prod = kroneckerPrime a 2 ^ z * J(a | w) := by
  have hp := Nat.perm_primeFactorsList_mul (a := 2 ^ z) (b := w) (by positivity) (by omega)
  rw [(hp.map _).prod_eq, List.map_append, List.prod_append, kronecker_odd ho, Nat.Prime.primeFactorsList_pow Nat.prime_two,
    List.map_replicate, List.prod_replicate]

theorem kronecker_two (i : Int) (w : Limb) (hw : w.toNat = i.natAbs % 2 ^ 64) :
    C.rd mpz_kronecker_table (w &&& 7).toNat = .ok (kroneckerPrime i 2) := by
  rw [and7, hw]
  unfold kroneckerPrime
  rw [if_pos rfl]
  have h8 : i.natAbs % 2 ^ 64 % 8 = i.natAbs % 8 := by omega
  rw [h8]
  have hlt : i.natAbs % 8 < 8 := Nat.mod_lt _ (by omega)
  have hcase : i % 8 = (i.natAbs % 8 : Nat) ∨ (i % 8 + (i.natAbs % 8 : Nat)) % 8 = 0 := by omega
  generalize i.natAbs % 8 = k at *
  have h2 : i % 2 = (k : Int) % 2 := by omega
  have h7 : (i % 8 = 1 ∨ i % 8 = 7) ↔ (k = 1 ∨ k = 7) := by omega
  rw [h2]
  by_cases h : k = 1 ∨ k = 7
  · rw [if_pos (h7.2 h)]
    rcases h with rfl | rfl <;> rfl
  · rw [if_neg (fun h' => h (h7.1 h'))]
    have : k = 0 ∨ k = 2 ∨ k = 3 ∨ k = 4 ∨ k = 5 ∨ k = 6 := by omega
    rcases this with rfl | rfl | rfl | rfl | rfl | rfl <;> rfl

theorem kronecker_rep {x y : Mpz} {i j : Int} (hx : Rep x i) (hy : Rep y j) :
    mpz_kronecker x y = .ok (Spec.kronecker i j) := by
  unfold mpz_kronecker Spec.kronecker
  have cy := cmpabs_ui_rep hy 1
  have cx := cmpabs_ui_rep hx 1
  rw [show (1 : Limb).toNat = 1 from rfl] at cx cy
  by_cases hi : i = 0
  · rw [if_pos ((rep_size0 hx).2 hi), cy]
    congr 1
    subst hi
    by_cases h1 : j.natAbs = 1
    · rw [if_neg (show ¬ j.natAbs < 1 by omega), if_pos h1, if_pos rfl, if_neg (show ¬ j = 0 by omega),
        if_neg (by omega), h1, Nat.primeFactorsList_one]
      rfl
    · have : ¬ ((if j.natAbs < 1 then (-1 : Int) else if j.natAbs = 1 then 0 else 1) = 0) := by
        rw [if_neg h1]; split <;> decide
      rw [if_neg this]
      by_cases hj : j = 0
      · rw [if_pos hj, if_neg (by decide)]
      · rw [if_neg hj]
        obtain ⟨p, hp, hd⟩ := Nat.exists_prime_and_dvd h1
        have hm : kroneckerPrime 0 p ∈ (j.natAbs.primeFactorsList).map (kroneckerPrime 0) :=
          List.mem_map_of_mem ((Nat.mem_primeFactorsList (by omega)).2 ⟨hp, hd⟩)
        have hz : kroneckerPrime 0 p = 0 := by
          unfold kroneckerPrime
          by_cases h2 : p = 2
          · rw [if_pos h2, if_pos (by decide)]
          · rw [if_neg h2, if_pos (dvd_zero _)]
        rw [hz] at hm
        rw [List.prod_eq_zero hm, mul_zero]
  · rw [if_neg (fun h => hi ((rep_size0 hx).1 h))]
    by_cases hj : j = 0
    · rw [if_pos ((rep_size0 hy).2 hj), if_pos hj, cx]
      congr 1
      by_cases h1 : i.natAbs = 1
      · rw [if_neg (show ¬ i.natAbs < 1 by omega), if_pos h1, if_pos rfl, if_pos h1]
      · have : ¬ ((if i.natAbs < 1 then (-1 : Int) else if i.natAbs = 1 then 0 else 1) = 0) := by
          rw [if_neg h1]; split <;> decide
        rw [if_neg this, if_neg h1]
    · rw [if_neg (fun h => hj ((rep_size0 hy).1 h)), if_neg hj]
      obtain ⟨x0, ex, vx⟩ := limb0_rep hx hi
      obtain ⟨y0, ey, vy⟩ := limb0_rep hy hj
      rw [ex, C.ok_bind, ey, C.ok_bind]
      obtain ⟨hc1, hc2⟩ := (ctz_val y.mag).2 (by rw [rep_abs hy]; omega)
      rw [rep_abs hy] at hc1 hc2
      have hz : mpz_ctz y = mpn_ctz y.mag := rfl
      rw [hz]
      have hpar : (x0 ||| y0) &&& 1 = 0 ↔ i % 2 = 0 ∧ j % 2 = 0 := by
        have ho := odd_test (x0 ||| y0)
        rw [BitVec.toNat_or] at ho
        have h3 : (x0.toNat ||| y0.toNat) % 2 = 1 ↔ x0.toNat % 2 = 1 ∨ y0.toNat % 2 = 1 := by
          simp
        rw [h3] at ho
        have h5 := not_congr ho
        rw [not_not] at h5
        rw [h5]; omega
      by_cases h0 : i % 2 = 0 ∧ j % 2 = 0
      · rw [if_pos (hpar.2 h0)]
        congr 1
        have hm : kroneckerPrime i 2 ∈ (j.natAbs.primeFactorsList).map (kroneckerPrime i) :=
          List.mem_map_of_mem ((Nat.mem_primeFactorsList (by omega)).2 ⟨Nat.prime_two, by omega⟩)
        have hz : kroneckerPrime i 2 = 0 := by
          unfold kroneckerPrime
          rw [if_pos rfl, if_pos h0.1]
        rw [hz] at hm
        rw [List.prod_eq_zero hm, mul_zero]
      · rw [if_neg (fun h => h0 (hpar.1 h))]
        obtain ⟨w, hw⟩ : ∃ w, w = j.natAbs / 2 ^ mpn_ctz y.mag := ⟨_, rfl⟩
        rw [← hw] at hc1 hc2
        obtain ⟨z, hz'⟩ : ∃ z, z = mpn_ctz y.mag := ⟨_, rfl⟩
        rw [← hz'] at hc1 hw ⊢
        have hspl := kronecker_split (z := z) hc2 i
        rw [← hc1] at hspl
        rw [hspl]
        by_cases hzp : z > 0
        · rw [if_pos hzp]
          obtain ⟨t, et, ht⟩ := quo_2exp_rep (z := mpz_init_vla y.mag.length) z hy (room_vla _ _ (by omega))
          rw [et, C.ok_bind]
          have hn : (j.tdiv (2 ^ z)).natAbs = w := by
            rw [Int.natAbs_tdiv, Int.natAbs_pow, hw]; rfl
          have hneg : j.tdiv (2 ^ z) < 0 ↔ j < 0 := by
            constructor
            · intro h
              by_contra hn
              have : 0 ≤ j.tdiv (2 ^ z) := Int.tdiv_nonneg (by omega) (by positivity)
              omega
            · intro h
              have h1 : j = -((2 ^ z : Int) * w) := by
                have : ((2 ^ z * w : Nat) : Int) = (2 ^ z : Int) * w := by push_cast; rfl
                omega
              rw [h1, Int.neg_tdiv, Int.mul_tdiv_cancel_left _ (by positivity)]
              omega
          rw [jacobi_rep hx ht (by omega), C.ok_bind, kronecker_two i x0 vx, C.ok_bind, hn]
          congr 1
          have hk : kroneckerPrime i 2 = 1 ∨ kroneckerPrime i 2 = -1 := by
            have : i % 2 ≠ 0 := by
              intro h
              apply h0
              refine ⟨h, ?_⟩
              have : 2 ∣ 2 ^ z * w := Dvd.dvd.mul_right (dvd_pow_self 2 (by omega)) _
              omega
            unfold kroneckerPrime
            rw [if_pos rfl, if_neg this]
            split
            · left; rfl
            · right; rfl
          have hpow : kroneckerPrime i 2 ^ z = if z % 2 = 1 then kroneckerPrime i 2 else 1 := by
            rcases hk with h | h <;> rw [h]
            · rw [one_pow]; split <;> rfl
            · by_cases hz2 : z % 2 = 1
              · rw [if_pos hz2, Odd.neg_one_pow (Nat.odd_iff.2 hz2)]
              · rw [if_neg hz2, Even.neg_one_pow (Nat.even_iff.2 (by omega))]
          rw [hpow]
          have e7 : (if i < 0 ∧ j.tdiv (2 ^ z) < 0 then (-1 : Int) else 1) = (if i < 0 ∧ j < 0 then -1 else 1) := by
            by_cases h : i < 0 ∧ j < 0
            · rw [if_pos h, if_pos ⟨h.1, hneg.2 h.2⟩]
            · rw [if_neg h, if_neg (fun h' => h ⟨h'.1, hneg.1 h'.2⟩)]
          rw [e7]
          by_cases hz2 : z % 2 = 1
          · rw [if_pos hz2, if_pos hz2]; ring
          · rw [if_neg hz2, if_neg hz2]; ring
        · rw [if_neg hzp]
          have hz0 : z = 0 := by omega
          rw [hz0, pow_zero, one_mul] at hc1
          rw [jacobi_rep hx hy (by omega), hz0, pow_zero, one_mul, hc1]

end Torsion.Mpi
