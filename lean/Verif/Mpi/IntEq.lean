import Verif.Mpi.Random
import Verif.Mpi.StrProps
import Verif.Mpi.PowmProps
import Verif.Mpi.BitProps
import Verif.Mpi.RootLemmas

/-!
# The integer operations as equations

Every integer has one representation, so the theorems about `Spec.Rep` can be read as equations on
`mpz_of`.
-/
namespace Torsion.Mpi
open Torsion.Spec

theorem digits_val (n : Nat) : val ((Nat.digits (2 ^ 64) n).map (BitVec.ofNat 64)) = n ∧
    Norm ((Nat.digits (2 ^ 64) n).map (BitVec.ofNat 64)) := by
  constructor
  · have key : ∀ ds : List Nat, (∀ d ∈ ds, d < 2 ^ 64) → val (ds.map (BitVec.ofNat 64)) = Nat.ofDigits (2 ^ 64) ds := by
      intro ds h
      induction ds with
      | nil => rfl
      | cons d ds ih =>
        rw [List.map_cons, val_cons, ih (fun x hx => h x (List.mem_cons_of_mem _ hx)), Nat.ofDigits_cons,
          BitVec.toNat_ofNat, Nat.mod_eq_of_lt (h d (List.mem_cons_self ..))]
    rw [key _ (fun d hd => Nat.digits_lt_base (by decide) hd), Nat.ofDigits_digits]
  · by_cases h0 : n = 0
    · subst h0; simp [Norm]
    · have hne : Nat.digits (2 ^ 64) n ≠ [] := Nat.digits_ne_nil_iff_ne_zero.2 h0
      have hl := Nat.getLast_digit_ne_zero (2 ^ 64) h0
      have hb : (Nat.digits (2 ^ 64) n).getLast hne < 2 ^ 64 := Nat.digits_lt_base (by decide) (List.getLast_mem hne)
      unfold Norm
      rw [List.getLast?_map, List.getLast?_eq_some_getLast hne, Option.map_some]
      intro h
      have h := congrArg BitVec.toNat (Option.some.inj h)
      rw [BitVec.toNat_ofNat, Nat.mod_eq_of_lt hb] at h
      exact hl h

theorem of_rep (i : Int) : Rep (mpz_of i) i := by
  obtain ⟨h1, h2⟩ := digits_val i.natAbs
  refine make_rep' h2 ?_
  rw [h1]
  by_cases h : i < 0
  · rw [decide_eq_true h, if_pos rfl]; omega
  · rw [decide_eq_false h, if_neg (by decide)]; omega

theorem rep_of {x : Mpz} {i : Int} (h : Rep x i) : x = mpz_of i := rep_unique h (of_rep i)

theorem of_of {r : C Mpz} {i : Int} (h : ∃ t, r = .ok t ∧ Rep t i) : r = .ok (mpz_of i) := by
  obtain ⟨t, e, ht⟩ := h
  rw [e, rep_of ht]

theorem of_inj {i j : Int} : mpz_of i = mpz_of j ↔ i = j :=
  ⟨fun h => by have h1 := (of_rep i).2; have h2 := (of_rep j).2; rw [h, h2] at h1; exact h1.symm, fun h => by rw [h]⟩

@[simp] theorem add_of (i j : Int) : mpz_add .heap (mpz_of i) (mpz_of j) = .ok (mpz_of (i + j)) :=
  of_of (add_rep (of_rep i) (of_rep j) trivial)
@[simp] theorem sub_of (i j : Int) : mpz_sub .heap (mpz_of i) (mpz_of j) = .ok (mpz_of (i - j)) :=
  of_of (sub_rep (of_rep i) (of_rep j) trivial)
@[simp] theorem mul_of (i j : Int) : mpz_mul .heap (mpz_of i) (mpz_of j) = .ok (mpz_of (i * j)) :=
  of_of (mul_rep (of_rep i) (of_rep j) trivial)
@[simp] theorem sqr_of (i : Int) (al : Bool) : mpz_sqr .heap (mpz_of i) al = .ok (mpz_of (i * i)) :=
  of_of (sqr_rep al (of_rep i) trivial)
theorem add_ui_of (i : Int) (w : Limb) : mpz_add_ui .heap (mpz_of i) w = .ok (mpz_of (i + w.toNat)) :=
  of_of (add_ui_rep w (of_rep i) trivial)
theorem sub_ui_of (i : Int) (w : Limb) : mpz_sub_ui .heap (mpz_of i) w = .ok (mpz_of (i - w.toNat)) :=
  of_of (sub_ui_rep w (of_rep i) trivial)
@[simp] theorem sub_1_of (i : Int) : mpz_sub_ui .heap (mpz_of i) 1 = .ok (mpz_of (i - 1)) := sub_ui_of i 1
@[simp] theorem add_1_of (i : Int) : mpz_add_ui .heap (mpz_of i) 1 = .ok (mpz_of (i + 1)) := add_ui_of i 1
@[simp] theorem set_of (i : Int) : mpz_set .heap (mpz_of i) = .ok (mpz_of i) :=
  of_of (set_rep (of_rep i) trivial)
theorem set_ui_of (w : Limb) : mpz_set_ui w = mpz_of w.toNat := rep_of (set_ui_rep w)
@[simp] theorem sgn_of (i : Int) : mpz_sgn (mpz_of i) = i.sign := sgn_rep (of_rep i)
@[simp] theorem cmp_of (i j : Int) : mpz_cmp (mpz_of i) (mpz_of j) = if i < j then -1 else if i = j then 0 else 1 :=
  cmp_rep (of_rep i) (of_rep j)
@[simp] theorem cmp_ui_of (i : Int) (w : Limb) :
    mpz_cmp_ui (mpz_of i) w = if i < w.toNat then -1 else if i = w.toNat then 0 else 1 := cmp_ui_rep (of_rep i) w
@[simp] theorem odd_of (i : Int) : mpz_odd_p (mpz_of i) = .ok (decide (i % 2 = 1)) := odd_rep (of_rep i)
@[simp] theorem bitlen_of (i : Int) : mpz_bitlen (mpz_of i) = .ok (Nat.size i.natAbs) := bitlen_rep (of_rep i)
@[simp] theorem bytelen_of (i : Int) : mpz_bytelen (mpz_of i) = .ok ((Nat.size i.natAbs + 7) / 8) :=
  bytelen_rep (of_rep i)
theorem mod_of (i : Int) {j : Int} (hj : j ≠ 0) : mpz_mod .heap (mpz_of i) (mpz_of j) = .ok (mpz_of (i % j)) :=
  of_of (mod_rep (of_rep i) (of_rep j) hj trivial)
theorem quo_of (i : Int) {j : Int} (hj : j ≠ 0) : mpz_quo .heap (mpz_of i) (mpz_of j) = .ok (mpz_of (i.tdiv j)) :=
  of_of (quo_rep (of_rep i) (of_rep j) hj trivial)
theorem divexact_of {i j : Int} (hj : j ≠ 0) (h : j ∣ i) :
    mpz_divexact .heap (mpz_of i) (mpz_of j) = .ok (mpz_of (i / j)) :=
  of_of (mpz_divexact_rep (of_rep i) (of_rep j) hj h trivial)
@[simp] theorem gcd_of (i j : Int) : mpz_gcd .heap (mpz_of i) (mpz_of j) = .ok (mpz_of (Int.gcd i j)) :=
  of_of (gcd_rep (of_rep i) (of_rep j) trivial)
@[simp] theorem lcm_of (i j : Int) : mpz_lcm .heap (mpz_of i) (mpz_of j) = .ok (mpz_of (Int.lcm i j)) :=
  of_of (lcm_rep (of_rep i) (of_rep j) trivial)
theorem powm_of (i : Int) {e j : Int} (hj : j ≠ 0) (he : 0 ≤ e) :
    mpz_powm .heap (mpz_of i) (mpz_of e) (mpz_of j) = .ok (mpz_of (i ^ e.toNat % j)) :=
  of_of (powm_rep_nonneg (of_rep i) (of_rep e) (of_rep j) hj he trivial)
theorem powm_sec_of (i : Int) {e j : Int} (hj : j % 2 = 1) (he : 0 ≤ e) :
    mpz_powm_sec .heap (mpz_of i) (mpz_of e) (mpz_of j) = .ok (mpz_of (i ^ e.toNat % j)) :=
  of_of ((powm_sec_rep (z := .heap) (of_rep i) (of_rep e) (of_rep j) trivial).1 ⟨he, hj⟩)
@[simp] theorem quo_2exp_of (i : Int) (bits : Nat) :
    mpz_quo_2exp .heap (mpz_of i) bits = .ok (mpz_of (i.tdiv (2 ^ bits))) :=
  of_of (quo_2exp_rep bits (of_rep i) trivial)
@[simp] theorem import_of (raw : List Byte) : mpz_import .heap raw 1 = .ok (mpz_of (beVal raw)) :=
  of_of (mpz_import_exact .heap raw trivial).1
theorem setbit_zero_of (b : Nat) : mpz_setbit ⟨false, []⟩ b = .ok (mpz_of ((2 ^ b : Nat) : Int)) :=
  of_of (setbit_zero b)

/-- The inverse of `i` in `[0, |j|)`, zero if there is none. -/
def invMod (i j : Int) : Int := if Int.gcd i j = 1 ∧ 1 < j.natAbs then Int.gcdA i j % j else 0

theorem invMod_spec {i j : Int} (h : Int.gcd i j = 1 ∧ 1 < j.natAbs) :
    0 ≤ invMod i j ∧ invMod i j < j.natAbs ∧ j ∣ invMod i j * i - 1 := by
  have hj : j ≠ 0 := by rintro rfl; simp at h
  unfold invMod
  rw [if_pos h]
  have hb := Int.gcd_eq_gcd_ab i j
  rw [h.1] at hb
  refine ⟨Int.emod_nonneg _ hj, by rw [Int.natCast_natAbs]; exact Int.emod_lt_abs _ hj, ?_⟩
  rw [Int.emod_def]
  refine ⟨-(Int.gcdB i j) - Int.gcdA i j / j * i, ?_⟩
  push_cast at hb
  linear_combination -hb

theorem inverse_unique {i j a b : Int} (ha : 0 ≤ a) (ha' : a < j.natAbs) (hb : 0 ≤ b) (hb' : b < j.natAbs)
    (h1 : j ∣ a * i - 1) (h2 : j ∣ b * i - 1) : a = b := by
  have h3 : j ∣ (a - b) := by
    have e : a - b = a * (1 - b * i) + (a * i - 1) * b := by ring
    rw [e]
    exact dvd_add (dvd_mul_of_dvd_right (by rw [← dvd_neg]; simpa using h2) _) (dvd_mul_of_dvd_left h1 _)
  obtain ⟨k, hk⟩ := Int.natAbs_dvd_natAbs.2 h3
  rcases Nat.eq_zero_or_pos k with rfl | hk0
  · omega
  · have : j.natAbs ≤ j.natAbs * k := Nat.le_mul_of_pos_right _ hk0
    omega

@[simp] theorem invert_of (i j : Int) : mpz_invert .heap (mpz_of i) (mpz_of j) =
    .ok (mpz_of (invMod i j), decide (Int.gcd i j = 1 ∧ 1 < j.natAbs)) := by
  obtain ⟨t, b, k, e, ht, h1, h2, h3⟩ := invert_rep (of_rep i) (of_rep j)
  rw [e, rep_of ht]
  by_cases h : Int.gcd i j = 1 ∧ 1 < j.natAbs
  · obtain ⟨h4, h5, h6⟩ := h3 (h1.2 h)
    obtain ⟨h7, h8, h9⟩ := invMod_spec h
    rw [inverse_unique h4 h5 h7 h8 h6 h9, h1.2 h, decide_eq_true h]
  · have hb : b = false := by cases b with | false => rfl | true => exact absurd (h1.1 rfl) h
    rw [h2 hb, hb, decide_eq_false h]
    unfold invMod
    rw [if_neg h]

/-- Exporting a number which fits. -/
theorem export_of {v n : Nat} (h : v < 256 ^ n) :
    ∃ z, mpz_export (mpz_of v) n 1 = .ok z ∧ z.length = n ∧ beVal z = v := by
  obtain ⟨z, h1, h2, h3⟩ := ((mpz_export_exact (of_rep v) n).1 (by simpa using h)).1
  exact ⟨z, h1, h2, by simpa using h3⟩

/-! ### Random integers -/

theorem random_val {S : Type} (rng : ByteGen S) (s : S) (zn : Nat) :
    ∃ z, mpn_random rng s zn = .ok (z, (rng.gen s (zn * 8)).2) ∧ z.length = zn ∧
      val z = leVal (rng.gen s (zn * 8)).1 := by
  obtain ⟨z, h1, h2, h3⟩ := import_le_val (rng.gen s (zn * 8)).1 zn 0 (Nat.zero_le _)
  refine ⟨z, ?_, h2, ?_⟩
  · unfold mpn_random
    rw [h1, C.ok_bind]
  · rw [h3, List.drop_zero, Nat.mod_eq_of_lt]
    have := leVal_lt (rng.gen s (zn * 8)).1
    rw [rng.len, show (256 : Nat) = 2 ^ 8 by norm_num, ← Nat.pow_mul, show 8 * (zn * 8) = 64 * zn by ring] at this
    exact this

theorem randomm_loop {S : Type} (rng : ByteGen S) (xp : List Limb) (sh : Nat) (hx : xp ≠ []) :
    ∀ fuel s, mpn_randomm_loop rng xp sh fuel s = .spin ∨
      ∃ z s', mpn_randomm_loop rng xp sh fuel s = .ok (z, s') ∧ z.length = xp.length ∧ val z < val xp
  | 0, s => Or.inl rfl
  | fuel + 1, s => by
    obtain ⟨z, h1, h2, -⟩ := random_val rng s xp.length
    have hl := List.length_pos_of_ne_nil hx
    unfold mpn_randomm_loop
    rw [show (liftM (mpn_random rng s xp.length) : R _) = R.lift (mpn_random rng s xp.length) from rfl, h1, R.lift_ok,
      R.ok_bind]
    dsimp only
    rw [R.liftM_eq, rd_lt (by omega), R.lift_ok, R.ok_bind, R.liftM_eq, wr_lt _ (by omega), R.lift_ok, R.ok_bind,
      cmp_val _ _ (by rw [List.length_set]; omega)]
    generalize hz : z.set (xp.length - 1) (z.getD (xp.length - 1) 0 >>> sh) = w
    have hw : w.length = xp.length := by rw [← hz, List.length_set]; omega
    by_cases hc : val w < val xp
    · rw [if_pos hc, if_neg (by decide)]
      exact Or.inr ⟨_, _, rfl, hw, hc⟩
    · rw [if_neg hc, if_pos (by split <;> decide)]
      exact randomm_loop rng xp sh hx fuel _

/-- A random number below the bound. -/
theorem urandomm_of {S : Type} (rng : ByteGen S) (fuel : Nat) (s : S) {m : Nat} (hm : 0 < m) :
    mpz_urandomm rng fuel s (mpz_of m) = .spin ∨
      ∃ k s', mpz_urandomm rng fuel s (mpz_of m) = .ok (mpz_of (k : Nat), s') ∧ k < m := by
  have hr := of_rep (m : Int)
  unfold mpz_urandomm mpn_randomm
  rw [if_neg (mt (rep_size0 hr).1 (by omega)), norm_inj (strip_norm _) (rep_norm hr) (strip_val _)]
  have hne : (mpz_of m).mag ≠ [] := fun h => absurd ((rep_nil hr).1 h) (by omega)
  have hl := List.length_pos_of_ne_nil hne
  dsimp only
  rw [if_pos hl, R.liftM_eq, rd_lt (by omega), R.lift_ok, R.ok_bind]
  rcases randomm_loop rng (mpz_of m).mag (mp_clz ((mpz_of m).mag.getD ((mpz_of m).mag.length - 1) 0)) hne fuel s with
    h | ⟨z, s', h, h2, h3⟩
  · left
    rw [h]
    rfl
  · right
    rw [h, R.ok_bind, R.ok_bind, Nat.sub_self, List.replicate_zero, List.append_nil]
    rw [rep_abs hr, Int.natAbs_natCast] at h3
    refine ⟨val z, s', ?_, h3⟩
    rw [decide_eq_false (mt (rep_sizen hr).1 (by omega))]
    have := make_rep' (s := false) (i := (val z : Int)) (strip_norm z) (by rw [strip_val]; rfl)
    rw [rep_of this]

end Torsion.Mpi
