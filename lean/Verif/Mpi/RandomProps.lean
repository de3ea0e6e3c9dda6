import Verif.Mpi.IntEq
import Verif.Mpi.MpzBitMore

/-!
# Random integers are exactly the accepted draws, without bias
-/
namespace Torsion.Spec

/-- The number of 64-bit limbs of a number. -/
def limbs (m : Nat) : Nat := (m.size + 63) / 64

/-- The candidate below `2 ^ size m` made from a draw of `limbs m` limbs: the low limbs are kept, the top one loses its low
bits. -/
def candidate (m draw : Nat) : Nat :=
  draw % 2 ^ (64 * (limbs m - 1)) +
    2 ^ (64 * (limbs m - 1)) * (draw / 2 ^ (64 * (limbs m - 1)) / 2 ^ (64 * limbs m - m.size))

/-- The state of a generator after `i` requests of `n` bytes. -/
def stateAfter {S : Type} (gen : S → Nat → List Byte × S) (n : Nat) (s : S) : Nat → S
  | 0 => s
  | i + 1 => (gen (stateAfter gen n s i) n).2

/-- The `i`-th candidate. -/
def nthCandidate {S : Type} (gen : S → Nat → List Byte × S) (m : Nat) (s : S) (i : Nat) : Nat :=
  candidate m (leVal (gen (stateAfter gen (limbs m * 8) s i) (limbs m * 8)).1)

end Torsion.Spec

namespace Torsion.Mpi
open Spec (val leVal Rep limbs candidate stateAfter nthCandidate)

theorem val_set_top {z : List Limb} {n : Nat} (hz : z.length = n + 1) (sh : Nat) :
    val (z.set n (z.getD n 0 >>> sh)) = val z % 2 ^ (64 * n) + 2 ^ (64 * n) * (val z / 2 ^ (64 * n) / 2 ^ sh) := by
  obtain ⟨a, t, rfl⟩ : ∃ a t, z = a ++ [t] := ⟨z.dropLast, z.getLast (by rintro rfl; simp at hz),
    (List.dropLast_concat_getLast _).symm⟩
  have ha : a.length = n := by simpa using hz
  subst ha
  rw [List.set_append_right _ _ (le_refl _), Nat.sub_self, List.set_cons_zero, List.getD_append_right _ _ _ _ (le_refl _),
    Nat.sub_self, List.getD_cons_zero, val_append, val_append, val_cons, val_cons]
  have hv := val_lt a
  rw [show val ([] : List Limb) = 0 from rfl, Nat.mul_zero, Nat.add_zero, Nat.add_zero, Nat.add_mul_mod_self_left,
    Nat.mod_eq_of_lt hv, Nat.add_mul_div_left _ _ (by positivity), Nat.div_eq_of_lt hv, Nat.zero_add,
    BitVec.toNat_ushiftRight, Nat.shiftRight_eq_div_pow]

theorem rep_limbs {x : Mpz} {m : Nat} (hx : Rep x m) (hm : 0 < m) :
    x.mag.length = limbs m ∧ mp_clz (x.mag.getD (x.mag.length - 1) 0) = 64 * limbs m - m.size := by
  have hne : x.mag ≠ [] := fun h => absurd ((rep_nil hx).1 h) (by omega)
  have hn := rep_norm hx
  have hv : val x.mag = m := by rw [rep_abs hx]; simp
  obtain ⟨a, t, e⟩ : ∃ a t, x.mag = a ++ [t] := ⟨x.mag.dropLast, x.mag.getLast hne, (List.dropLast_concat_getLast _).symm⟩
  rw [e] at hn hv ⊢
  have ht : t ≠ 0 := by
    rintro rfl
    have := hn (by simp)
    simp at this
  have hv' : m = val a + 2 ^ (64 * a.length) * t.toNat := by
    rw [← hv, val_append, val_cons]; simp [show val ([] : List Limb) = 0 from rfl]
  have ht0 : 0 < t.toNat := by
    rcases Nat.eq_zero_or_pos t.toNat with h | h
    · exact absurd (BitVec.eq_of_toNat_eq (by simpa using h)) ht
    · exact h
  have hsz : m.size = 64 * a.length + t.toNat.size := by
    have ha := val_lt a
    apply le_antisymm
    · rw [Nat.size_le, Nat.pow_add]
      have := Nat.lt_size_self t.toNat
      calc m = val a + 2 ^ (64 * a.length) * t.toNat := hv'
        _ < 2 ^ (64 * a.length) * (t.toNat + 1) := by rw [Nat.mul_add, Nat.mul_one]; omega
        _ ≤ 2 ^ (64 * a.length) * 2 ^ t.toNat.size := Nat.mul_le_mul_left _ this
    · have h1 : 0 < t.toNat.size := Nat.size_pos.2 ht0
      have h2 : 2 ^ (t.toNat.size - 1) ≤ t.toNat := Nat.lt_size.1 (by omega)
      have h3 : 64 * a.length + (t.toNat.size - 1) < m.size := by
        rw [Nat.lt_size, Nat.pow_add, hv']
        exact le_trans (Nat.mul_le_mul_left _ h2) (Nat.le_add_left _ _)
      omega
  have h64 := size_le t
  have hp : 0 < t.toNat.size := Nat.size_pos.2 ht0
  have hl : limbs m = a.length + 1 := by unfold limbs; omega
  refine ⟨by simp [hl], ?_⟩
  rw [mp_clz_eq, List.length_append, List.length_singleton, Nat.add_sub_cancel, List.getD_append_right _ _ _ _ (le_refl _),
    Nat.sub_self, List.getD_cons_zero]
  omega

theorem randomm_step {S : Type} (rng : ByteGen S) {x : Mpz} {m : Nat} (hx : Rep x m) (hm : 0 < m) (fuel : Nat) (s : S) :
    ∃ w, val w = nthCandidate rng.gen m s 0 ∧
    mpn_randomm_loop rng x.mag (64 * limbs m - m.size) (fuel + 1) s =
      if nthCandidate rng.gen m s 0 < m then .ok (w, (rng.gen s (limbs m * 8)).2)
      else mpn_randomm_loop rng x.mag (64 * limbs m - m.size) fuel (rng.gen s (limbs m * 8)).2 := by
  obtain ⟨hl, -⟩ := rep_limbs hx hm
  have hpos : 0 < x.mag.length := List.length_pos_of_ne_nil fun h => absurd ((rep_nil hx).1 h) (by omega)
  have hv : val x.mag = m := by rw [rep_abs hx]; simp
  obtain ⟨z, h1, h2, h3⟩ := random_val rng s x.mag.length
  rw [hl] at h3
  refine ⟨z.set (x.mag.length - 1) (z.getD (x.mag.length - 1) 0 >>> (64 * limbs m - m.size)), ?_, ?_⟩
  · rw [val_set_top (by omega), h3, hl]
    rfl
  · have hw := val_set_top (z := z) (n := x.mag.length - 1) (by omega) (64 * limbs m - m.size)
    rw [h3, hl] at hw
    conv_lhs => unfold mpn_randomm_loop
    rw [show (liftM (mpn_random rng s x.mag.length) : R _) = R.lift (mpn_random rng s x.mag.length) from rfl, h1, R.lift_ok,
      R.ok_bind]
    dsimp only
    rw [R.liftM_eq, rd_lt (by omega), R.lift_ok, R.ok_bind, R.liftM_eq, wr_lt _ (by omega), R.lift_ok, R.ok_bind,
      cmp_val _ _ (by rw [List.length_set]; omega), hl, hw, hv]
    rw [show leVal (rng.gen s (limbs m * 8)).1 % 2 ^ (64 * (limbs m - 1)) + 2 ^ (64 * (limbs m - 1)) *
      (leVal (rng.gen s (limbs m * 8)).1 / 2 ^ (64 * (limbs m - 1)) / 2 ^ (64 * limbs m - m.size)) =
      nthCandidate rng.gen m s 0 from rfl]
    by_cases hc : nthCandidate rng.gen m s 0 < m
    · rw [if_pos hc, if_neg (by decide), if_pos hc]
    · rw [if_neg hc, if_pos (by split <;> decide), if_neg hc]

theorem state_shift {S : Type} (gen : S → Nat → List Byte × S) (n : Nat) (s : S) :
    ∀ i, stateAfter gen n (gen s n).2 i = stateAfter gen n s (i + 1)
  | 0 => rfl
  | i + 1 => by
    rw [stateAfter, state_shift gen n s i]
    rfl

theorem randomm_exact {S : Type} (rng : ByteGen S) {x : Mpz} {m : Nat} (hx : Rep x m) (hm : 0 < m) :
    ∀ fuel s, (∀ i < fuel, (∀ j < i, m ≤ nthCandidate rng.gen m s j) → nthCandidate rng.gen m s i < m →
      ∃ w, mpn_randomm_loop rng x.mag (64 * limbs m - m.size) fuel s = .ok (w, stateAfter rng.gen (limbs m * 8) s (i + 1)) ∧
        val w = nthCandidate rng.gen m s i) ∧
      ((∀ j < fuel, m ≤ nthCandidate rng.gen m s j) →
        mpn_randomm_loop rng x.mag (64 * limbs m - m.size) fuel s = .spin)
  | 0, s => ⟨fun i h => absurd h (by omega), fun _ => rfl⟩
  | fuel + 1, s => by
    obtain ⟨w, h1, h2⟩ := randomm_step rng hx hm fuel s
    have hs : ∀ i, nthCandidate rng.gen m (rng.gen s (limbs m * 8)).2 i = nthCandidate rng.gen m s (i + 1) := by
      intro i; unfold nthCandidate; rw [state_shift]
    obtain ⟨h3, h4⟩ := randomm_exact rng hx hm fuel (rng.gen s (limbs m * 8)).2
    simp only [hs] at h3 h4
    rw [h2]
    constructor
    · intro i hi hj hlt
      cases i with
      | zero => rw [if_pos hlt]; exact ⟨w, rfl, h1⟩
      | succ i =>
        rw [if_neg (by have := hj 0 (by omega); omega)]
        obtain ⟨w', h5, h6⟩ := h3 i (by omega) (fun j hlt => hj (j + 1) (by omega)) hlt
        exact ⟨w', by rw [h5, state_shift], h6⟩
    · intro h
      rw [if_neg (by have := h 0 (by omega); omega)]
      exact h4 fun j hj => h (j + 1) (by omega)

end Torsion.Mpi

namespace Torsion
open Torsion.Spec Torsion.Mpi

/-- The number below `m` is exactly the first candidate which is below `m`; as long as there is none the call keeps
drawing. -/
theorem mpz_urandomm_exact {S : Type} (rng : ByteGen S) (fuel : Nat) (s : S) {x : Mpz} {m : Nat} (hx : Rep x m) (hm : 0 < m) :
    (∀ i < fuel, (∀ j < i, m ≤ nthCandidate rng.gen m s j) → nthCandidate rng.gen m s i < m →
      ∃ z, mpz_urandomm rng fuel s x = .ok (z, stateAfter rng.gen (limbs m * 8) s (i + 1)) ∧
        Rep z (nthCandidate rng.gen m s i : Nat)) ∧
    ((∀ j < fuel, m ≤ nthCandidate rng.gen m s j) → mpz_urandomm rng fuel s x = .spin) := by
  obtain ⟨h1, h2⟩ := randomm_exact rng hx hm fuel s
  obtain ⟨hl, hc⟩ := rep_limbs hx hm
  have hpos : 0 < x.mag.length := List.length_pos_of_ne_nil fun h => absurd ((rep_nil hx).1 h) (by omega)
  have key : mpz_urandomm rng fuel s x = (mpn_randomm_loop rng x.mag (64 * limbs m - m.size) fuel s >>= fun zs =>
      .ok (mpz_make false (mpn_strip zs.1), zs.2)) := by
    unfold mpz_urandomm mpn_randomm
    rw [if_neg (mt (rep_size0 hx).1 (by omega)), norm_inj (strip_norm _) (rep_norm hx) (strip_val _)]
    dsimp only
    rw [if_pos hpos, R.liftM_eq, rd_lt (by omega), R.lift_ok, R.ok_bind, hc, R.bind_assoc,
      decide_eq_false (mt (rep_sizen hx).1 (by omega))]
    congr 1
    funext zs
    rw [R.ok_bind, Nat.sub_self, List.replicate_zero, List.append_nil]
  rw [key]
  constructor
  · intro i hi hj hlt
    obtain ⟨w, h3, h4⟩ := h1 i hi hj hlt
    rw [h3, R.ok_bind]
    exact ⟨_, rfl, make_rep' (s := false) (strip_norm w) (by rw [strip_val, h4]; rfl)⟩
  · intro h
    rw [h2 h]; rfl

/-- Every number of at most `size m` bits is the candidate of equally many draws: the draws which are accepted are
uniform below `m`. -/
theorem mpz_urandomm_unbiased {m : Nat} (hm : 0 < m) (v : Nat) (hv : v < 2 ^ m.size) :
    ((Finset.range (2 ^ (64 * limbs m))).filter (fun d => candidate m d = v)).card = 2 ^ (64 * limbs m - m.size) := by
  have hsz : 0 < m.size := Nat.size_pos.2 hm
  generalize hk : limbs m = k
  unfold candidate
  rw [hk]
  have hk1 : k = (m.size + 63) / 64 := hk.symm
  generalize hsh : 64 * k - m.size = sh
  generalize hlo : 64 * (k - 1) = lo
  have hsum : 64 * k = lo + sh + (m.size - lo) := by omega
  have hl1 : m.size = lo + (m.size - lo) := by omega
  generalize m.size - lo = r at hsum hl1
  rw [hl1] at hv
  rw [hsum]
  refine Eq.trans ?_ (Finset.card_range (2 ^ sh))
  symm
  apply Finset.card_bij (fun a _ => v % 2 ^ lo + 2 ^ lo * (2 ^ sh * (v / 2 ^ lo) + a))
  · intro a ha
    rw [Finset.mem_range] at ha
    have h1 : v % 2 ^ lo < 2 ^ lo := Nat.mod_lt _ (by positivity)
    have h2 : v / 2 ^ lo < 2 ^ r := by
      rw [Nat.div_lt_iff_lt_mul (by positivity), ← Nat.pow_add, Nat.add_comm]; exact hv
    rw [Finset.mem_filter, Finset.mem_range]
    constructor
    · have h3 : 2 ^ sh * (v / 2 ^ lo) + a < 2 ^ sh * 2 ^ r := by
        calc 2 ^ sh * (v / 2 ^ lo) + a < 2 ^ sh * (v / 2 ^ lo + 1) := by rw [Nat.mul_add]; omega
          _ ≤ 2 ^ sh * 2 ^ r := Nat.mul_le_mul_left _ h2
      calc v % 2 ^ lo + 2 ^ lo * (2 ^ sh * (v / 2 ^ lo) + a)
          < 2 ^ lo * (2 ^ sh * (v / 2 ^ lo) + a + 1) := by rw [Nat.mul_add _ _ 1]; omega
        _ ≤ 2 ^ lo * (2 ^ sh * 2 ^ r) := Nat.mul_le_mul_left _ h3
        _ = 2 ^ (lo + sh + r) := by rw [Nat.pow_add, Nat.pow_add, Nat.mul_assoc]
    · rw [Nat.add_mul_mod_self_left, Nat.mod_mod, Nat.add_mul_div_left _ _ (by positivity), Nat.div_eq_of_lt h1, Nat.zero_add,
        Nat.mul_add_div (by positivity), Nat.div_eq_of_lt ha, Nat.add_zero]
      exact Nat.mod_add_div v (2 ^ lo)
  · intro a _ b _ h
    have h2 := Nat.add_left_cancel h
    have h3 := Nat.eq_of_mul_eq_mul_left (by positivity) h2
    omega
  · intro d hd
    rw [Finset.mem_filter, Finset.mem_range] at hd
    obtain ⟨h1, h2⟩ := hd
    have h4 : d % 2 ^ lo < 2 ^ lo := Nat.mod_lt _ (by positivity)
    refine ⟨d / 2 ^ lo % 2 ^ sh, Finset.mem_range.2 (Nat.mod_lt _ (by positivity)), ?_⟩
    have hm1 : v % 2 ^ lo = d % 2 ^ lo := by rw [← h2, Nat.add_mul_mod_self_left, Nat.mod_mod]
    have hm2 : v / 2 ^ lo = d / 2 ^ lo / 2 ^ sh := by
      rw [← h2, Nat.add_mul_div_left _ _ (by positivity), Nat.div_eq_of_lt h4, Nat.zero_add]
    rw [hm1, hm2, Nat.div_add_mod (d / 2 ^ lo) (2 ^ sh)]
    exact Nat.mod_add_div d (2 ^ lo)

/-- Random bits: the low `bits` bits of what the generator gives. -/
theorem mpz_urandomb_exact {S : Type} (rng : ByteGen S) (s : S) (bits : Nat) :
    ∃ z, mpz_urandomb rng s bits = .ok (z, (rng.gen s ((bits + 63) / 64 * 8)).2) ∧
      Rep z (leVal (rng.gen s ((bits + 63) / 64 * 8)).1 % 2 ^ bits : Nat) := by
  obtain ⟨z, h1, h2, h3⟩ := random_val rng s ((bits + 63) / 64)
  unfold mpz_urandomb
  dsimp only
  rw [h1, C.ok_bind]
  by_cases h0 : bits % 64 = 0
  · rw [if_neg (not_not.2 h0)]
    refine ⟨_, rfl, make_rep' (s := false) (strip_norm z) ?_⟩
    have := val_lt z
    rw [strip_val, ← h3, Nat.mod_eq_of_lt (lt_of_lt_of_le this (Nat.pow_le_pow_right (by norm_num) (by omega)))]
    rfl
  · dsimp only
    rw [if_pos h0, rd_lt (by omega), C.ok_bind, wr_lt _ (by omega), C.ok_bind]
    refine ⟨_, rfl, make_rep' (s := false) (strip_norm _) ?_⟩
    rw [strip_val, ← h3]
    obtain ⟨n, hn⟩ : ∃ n, (bits + 63) / 64 = n + 1 := ⟨(bits + 63) / 64 - 1, by omega⟩
    rw [hn, Nat.add_sub_cancel]
    rw [hn] at h2
    obtain ⟨a, t, rfl⟩ : ∃ a t, z = a ++ [t] := ⟨z.dropLast, z.getLast (by rintro rfl; simp at h2),
      (List.dropLast_concat_getLast _).symm⟩
    have ha : a.length = n := by simpa using h2
    subst ha
    rw [List.set_append_right _ _ (le_refl _), Nat.sub_self, List.set_cons_zero, List.getD_append_right _ _ _ _ (le_refl _),
      Nat.sub_self, List.getD_cons_zero, val_append, val_append, val_cons, val_cons]
    have hb : bits = 64 * a.length + bits % 64 := by omega
    have hv := val_lt a
    rw [and_mask t (bits % 64) (Nat.mod_lt _ (by norm_num)), show val ([] : List Limb) = 0 from rfl, Nat.mul_zero, Nat.add_zero,
      Nat.add_zero]
    have key : (val a + 2 ^ (64 * a.length) * t.toNat) % 2 ^ bits =
        val a + 2 ^ (64 * a.length) * (t.toNat % 2 ^ (bits % 64)) := by
      conv_lhs => rw [hb, Nat.pow_add, Nat.mod_mul, Nat.add_mul_mod_self_left, Nat.mod_eq_of_lt hv,
        Nat.add_mul_div_left _ _ (by positivity), Nat.div_eq_of_lt hv, Nat.zero_add]
    rw [key]
    rfl

example : (5 : Nat) < 2 ^ Nat.size 6 := by decide

/-- A generator whose every draw is the number 3. -/
def threes : ByteGen Nat where
  gen s n := ((3 : Byte) :: List.replicate (n - 1) 0 |>.take n, s + 1)
  len s n := by simp; omega

/-- The first candidate below 2^70 is 3. -/
example : ∃ z, mpz_urandomm threes 5 0 (mpz_of ((2 ^ 70 : Nat) : Int)) = .ok (z, 1) ∧ Rep z (3 : Nat) :=
  (mpz_urandomm_exact threes 5 0 (of_rep _) (by norm_num)).1 0 (by norm_num) (fun j h => absurd h (by omega))
    (by decide +kernel)

end Torsion
