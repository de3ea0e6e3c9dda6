import Verif.Ecc.Recode
import Verif.Ecc.RecodeSpec
import Mathlib.Tactic.LinearCombination
import Mathlib.Tactic.IntervalCases
import Mathlib.Tactic.Push

/-! Lemmas on recodings. -/
namespace Torsion.Ecc

open Torsion.Spec (digits joint)

theorem check_true {p : Prop} [Decidable p] (h : p) : C.check (decide p) = .ok () := by simp [C.check, h]

theorem check_false {p : Prop} [Decidable p] (h : ¬ p) : C.check (decide p) = .abort := by simp [C.check, h]

theorem digits_append (a b : List Int) : digits (a ++ b) = digits a + 2 ^ a.length * digits b := by
  induction a with
  | nil => simp [digits]
  | cons x xs ih => simp only [List.cons_append, digits, ih, List.length_cons, pow_succ]; ring

theorem digits_replicate (n : Nat) : digits (List.replicate n 0) = 0 := by
  induction n with
  | zero => rfl
  | succ n ih => simp [List.replicate_succ, digits, ih]

theorem digits_set (l : List Int) (i : Nat) (v : Int) (hi : i < l.length) (h0 : l[i]? = some 0) :
    digits (l.set i v) = digits l + v * 2 ^ i := by
  induction l generalizing i with
  | nil => simp at hi
  | cons x xs ih =>
    cases i with
    | zero =>
      simp only [List.getElem?_cons_zero, Option.some.injEq] at h0
      simp only [List.set_cons_zero, digits, h0]; ring
    | succ i =>
      simp only [List.getElem?_cons_succ, List.length_cons, Nat.add_lt_add_iff_right] at h0 hi
      simp only [List.set_cons_succ, digits, ih i hi h0, pow_succ]; ring

/-- Digits which are zero from `n` on. -/
theorem digits_take {l : List Int} {n : Nat} (h : ∀ d ∈ l.drop n, d = 0) : digits (l.take n) = digits l := by
  have e : l.drop n = List.replicate (l.drop n).length 0 := List.eq_replicate_iff.2 ⟨rfl, h⟩
  conv => rhs; rw [← List.take_append_drop n l, digits_append, e, digits_replicate]
  ring

/-- The state of the loop which computes the width-`w` form: everything below `i` is done. -/
structure NafInv (k : Nat) (sign : Int) (w m i carry len : Nat) (naf : List Int) : Prop where
  size : naf.length = m
  hcarry : carry ≤ 1
  zero : ∀ j, i ≤ j → j < m → naf[j]? = some 0
  val : digits naf = sign * (((k % 2 ^ i : Nat) : Int) - carry * 2 ^ i)
  odd : ∀ d ∈ naf, d = 0 ∨ ∃ e : Int, d = sign * e ∧ e % 2 = 1 ∧ -2 ^ (w - 1) < e ∧ e < 2 ^ (w - 1)
  hlen : ∀ j, len ≤ j → j < m → naf[j]? = some 0
  sparse : ∀ a b, a < b → b < a + w → b < m → naf[a]? ≠ some 0 → naf[b]? = some 0 ∨ m ≤ a
  last : ∀ a, a < m → naf[a]? ≠ some 0 → a + w ≤ i

theorem naf_loop_spec {k : Nat} {sign : Int} {w bits m : Nat} (hw : 2 ≤ w) (hb : bits = k.size + 1)
    (hm : bits ≤ m) : ∀ fuel i carry len naf, bits ≤ i + fuel → (bits ≤ i → carry = 0) → len ≤ bits →
      NafInv k sign w m i carry len naf →
      ∃ naf' len' i', naf_loop k sign w bits fuel i carry len naf = .ok (naf', len', 0) ∧ len' ≤ bits ∧
        bits ≤ i' ∧ NafInv k sign w m i' 0 len' naf' := by
  intro fuel
  induction fuel with
  | zero =>
    intro i carry len naf hf hc hl inv
    have := hc (by omega)
    subst this
    exact ⟨naf, len, i, rfl, hl, by omega, inv⟩
  | succ fuel ih =>
    intro i carry len naf hf hc hl inv
    rw [naf_loop]
    split
    · rename_i hi
      have hklt : k < 2 ^ k.size := Nat.lt_size_self k
      split
      · rename_i hbit
        refine ih (i + 1) carry len naf (by omega) ?_ hl ?_
        · intro h
          have : i = k.size := by omega
          subst this
          rw [← hbit, sc_get_bit, Nat.div_eq_of_lt hklt]
        · refine ⟨inv.size, inv.hcarry, fun j hj => inv.zero j (by omega), ?_, inv.odd, inv.hlen, inv.sparse,
            fun a h1 h2 => (inv.last a h1 h2).trans (by omega)⟩
          rw [inv.val, pow_succ 2 i, Nat.mod_mul]
          rw [sc_get_bit] at hbit
          rw [hbit]
          push_cast
          ring
      · rename_i hbit
        rw [if_neg (by omega)]
        have him : i < m := by omega
        simp only [C.wr, inv.size, him, if_true, C.ok_bind]
        -- the window, the digit and the new carry
        obtain ⟨win, hwin⟩ : ∃ win, win = k / 2 ^ i % 2 ^ w := ⟨_, rfl⟩
        obtain ⟨w', rfl⟩ : ∃ w', w = w' + 1 := ⟨w - 1, by omega⟩
        have hww : (2 : Nat) ^ (w' + 1) = 2 * 2 ^ w' := by rw [pow_succ]; ring
        have hev : 2 ∣ 2 ^ w' := dvd_pow_self 2 (by omega)
        have hlt : win < 2 ^ (w' + 1) := by rw [hwin]; exact Nat.mod_lt _ (by positivity)
        have hpar : win % 2 = sc_get_bit k i := by
          rw [hwin, sc_get_bit, hww, Nat.mod_mul_right_mod]
        have hc1 := inv.hcarry
        have hodd : (win + carry) % 2 = 1 := by
          have : sc_get_bit k i < 2 := Nat.mod_lt _ (by decide)
          omega
        have hle : win + carry < 2 * 2 ^ w' := by omega
        obtain ⟨c', hc'⟩ : ∃ c', c' = (win + carry) / 2 ^ w' % 2 := ⟨_, rfl⟩
        have hcd : c' = (win + carry) / 2 ^ w' := by
          rw [hc', Nat.mod_eq_of_lt]
          exact Nat.div_lt_of_lt_mul (by omega)
        have hpos : 0 < 2 ^ w' := by positivity
        have hdm := Nat.div_add_mod (win + carry) (2 ^ w')
        rw [← hcd] at hdm
        have hmod := Nat.mod_lt (win + carry) hpos
        have hmod0 : 0 < (win + carry) % 2 ^ w' := by
          by_contra h0
          have : (win + carry) % 2 ^ w' = 0 := by omega
          have : 2 ∣ win + carry := hev.trans (Nat.dvd_of_mod_eq_zero this)
          omega
        have hc'1 : c' ≤ 1 := by omega
        obtain ⟨dig, hdig⟩ : ∃ dig : Int, dig = (win : Int) + carry - c' * 2 ^ (w' + 1) := ⟨_, rfl⟩
        have hcast : ((win + carry : Nat) : Int) - (c' : Int) * 2 ^ (w' + 1) = dig := by rw [hdig]; push_cast; ring
        have e1 : sc_get_bits k i (w' + 1) = win := by rw [sc_get_bits, hwin]
        simp only [e1, Nat.add_sub_cancel, ← hc', hcast]
        have hdodd : dig % 2 = 1 := by
          rw [hdig, pow_succ]
          have h2 : ((c' : Int) * (2 ^ w' * 2)) = 2 * (c' * 2 ^ w') := by ring
          rw [h2]
          omega
        have hdig' : -(2 ^ w' : Int) < dig ∧ dig < 2 ^ w' := by
          have hzz : ((2 ^ w' : Nat) : Int) = 2 ^ w' := by push_cast; rfl
          rw [hdig, pow_succ, ← hzz]
          interval_cases c'
          · simp only [Nat.cast_zero, zero_mul]
            omega
          · simp only [Nat.cast_one, one_mul]
            omega
        have hget : ∀ j, (naf.set i (sign * dig))[j]? = if i = j then some (sign * dig) else naf[j]? := by
          intro j
          rw [List.getElem?_set]
          by_cases hij : i = j
          · subst hij; simp [inv.size, him]
          · simp [hij]
        refine ih (i + (w' + 1)) c' (i + 1) _ (by omega) ?_ (by omega) ?_
        · intro h
          have hz : win < 2 ^ w' := by
            rw [hwin]
            have : k / 2 ^ i < 2 ^ w' := by
              apply Nat.div_lt_of_lt_mul
              rw [← pow_add]
              exact lt_of_lt_of_le hklt (Nat.pow_le_pow_right (by decide) (by omega))
            exact lt_of_le_of_lt (Nat.mod_le _ _) this
          have : win + carry < 2 ^ w' := by omega
          rw [hcd, Nat.div_eq_of_lt this]
        · refine ⟨by rw [List.length_set, inv.size], hc'1, ?_, ?_, ?_, ?_, ?_, ?_⟩
          · intro j h1 h2
            rw [hget, if_neg (by omega)]
            exact inv.zero j (by omega) h2
          · rw [digits_set _ _ _ (by rw [inv.size]; exact him) (inv.zero i le_rfl him), inv.val, pow_add 2 i,
              Nat.mod_mul, ← hwin, hdig]
            push_cast
            ring
          · intro d hd
            rcases List.mem_or_eq_of_mem_set hd with h | h
            · exact inv.odd d h
            · exact Or.inr ⟨dig, h, hdodd, hdig'.1, hdig'.2⟩
          · intro j h1 h2
            rw [hget, if_neg (by omega)]
            exact inv.zero j (by omega) h2
          · intro a b hab hbw hbm h
            rw [hget] at h ⊢
            by_cases ham : m ≤ a
            · exact Or.inr ham
            left
            by_cases hia : i = a
            · rw [if_neg (by omega)]
              exact inv.zero b (by omega) hbm
            · rw [if_neg hia] at h
              have := inv.last a (by omega) h
              rw [if_neg (by omega)]
              exact (inv.sparse a b hab hbw hbm h).resolve_right ham
          · intro a ha h
            rw [hget] at h
            by_cases hia : i = a
            · omega
            · rw [if_neg hia] at h
              have := inv.last a ha h
              omega
    · rename_i hi
      have := hc (by omega)
      subst this
      exact ⟨naf, len, i, rfl, hl, by omega, inv⟩

theorem naf_inv0 (k : Nat) (sign : Int) (w m : Nat) : NafInv k sign w m 0 0 0 (List.replicate m 0) := by
  have hz : ∀ j, j < m → (List.replicate m (0 : Int))[j]? = some 0 := by
    intro j hj; simp [hj]
  refine ⟨by simp, by omega, fun j _ h => hz j h, ?_, ?_, fun j _ h => hz j h, ?_, ?_⟩
  · simp [digits_replicate, Nat.mod_one]
  · intro d hd; left; exact List.eq_of_mem_replicate hd
  · intro a b _ _ hb _; exact Or.inl (hz b hb)
  · intro a ha h; exact absurd (hz a ha) h

/-! ### Joint sparse form -/

/-- One step for one scalar: the digit is in range, and the remaining number is what it should be. -/
theorem jsf_step (b d : Nat) (o : Int) (hd : d ≤ 1) :
    (jsf_digit b d o = 0 ∨ jsf_digit b d o = 1 ∨ jsf_digit b d o = -1) ∧ jsf_carry d (jsf_digit b d o) ≤ 1 ∧
    (b % 2 : Nat) + (d : Int) = jsf_digit b d o + 2 * jsf_carry d (jsf_digit b d o) ∧
    (b = 0 → jsf_carry d (jsf_digit b d o) = 0) := by
  have h8 : b % 8 < 8 := Nat.mod_lt _ (by decide)
  have e4 : b % 4 = b % 8 % 4 := by omega
  have e2 : b % 2 = b % 8 % 2 := by omega
  have e0 : b = 0 → b % 8 = 0 := by omega
  by_cases ho : o = 2
  · subst ho
    unfold jsf_digit jsf_m4
    simp only [e4, e2]
    generalize b % 8 = c at *
    clear e4 e2
    interval_cases d <;> interval_cases c <;> simp [jsf_carry] <;> omega
  · unfold jsf_digit jsf_m4
    simp only [e4, e2, ho, and_false, if_false]
    generalize b % 8 = c at *
    clear e4 e2
    interval_cases d <;> interval_cases c <;> simp [jsf_carry] <;> omega

theorem jsf_table_joint (u1 u2 : Int) (h1 : u1 = 0 ∨ u1 = 1 ∨ u1 = -1) (h2 : u2 = 0 ∨ u2 = 1 ∨ u2 = -1) :
    0 ≤ (u1 + 1) * 3 + (u2 + 1) ∧ ∃ z, C.rd jsf_table ((u1 + 1) * 3 + (u2 + 1)).toNat = .ok z ∧
      joint z = (u1, u2) ∧ (z = 0 ∨ (z.natAbs % 2 = 1 ∧ z.natAbs ≤ 7)) := by
  rcases h1 with rfl | rfl | rfl <;> rcases h2 with rfl | rfl | rfl <;>
    exact ⟨by decide, _, rfl, by decide, by decide⟩

theorem jsf_loop_spec {k1 k2 : Nat} {s1 s2 : Int} (h1 : s1 = 1 ∨ s1 = -1) (h2 : s2 = 1 ∨ s2 = -1) :
    ∀ steps i d1 d2, d1 ≤ 1 → d2 ≤ 1 → ∃ naf e1 e2, jsf_loop k1 s1 k2 s2 steps i d1 d2 = .ok naf ∧
      naf.length = steps ∧ (∀ z ∈ naf, z = 0 ∨ (z.natAbs % 2 = 1 ∧ z.natAbs ≤ 7)) ∧
      digits (naf.map fun z => (joint z).1) = s1 * ((k1 / 2 ^ i % 2 ^ steps : Nat) + d1 - e1 * 2 ^ steps) ∧
      digits (naf.map fun z => (joint z).2) = s2 * ((k2 / 2 ^ i % 2 ^ steps : Nat) + d2 - e2 * 2 ^ steps) ∧
      (0 < steps → k1 < 2 ^ (i + steps - 1) → e1 = (0 : Int)) ∧
      (0 < steps → k2 < 2 ^ (i + steps - 1) → e2 = (0 : Int)) ∧ (steps = 0 → e1 = d1 ∧ e2 = d2) := by
  intro steps
  induction steps with
  | zero =>
    intro i d1 d2 _ _
    refine ⟨[], d1, d2, rfl, rfl, by simp, ?_, ?_, by omega, by omega, fun _ => ⟨rfl, rfl⟩⟩
    · simp [digits, Nat.mod_one]
    · simp [digits, Nat.mod_one]
  | succ steps ih =>
    intro i d1 d2 hd1 hd2
    obtain ⟨r1, c1, v1, z1⟩ := jsf_step (sc_get_bits k1 i 3) d1 (jsf_m4 (sc_get_bits k2 i 3) d2) hd1
    obtain ⟨r2, c2, v2, z2⟩ := jsf_step (sc_get_bits k2 i 3) d2 (jsf_m4 (sc_get_bits k1 i 3) d1) hd2
    rw [jsf_loop]
    generalize jsf_digit (sc_get_bits k1 i 3) d1 (jsf_m4 (sc_get_bits k2 i 3) d2) = u1 at *
    generalize jsf_digit (sc_get_bits k2 i 3) d2 (jsf_m4 (sc_get_bits k1 i 3) d1) = u2 at *
    have q1 : u1 * s1 = 0 ∨ u1 * s1 = 1 ∨ u1 * s1 = -1 := by
      rcases h1 with rfl | rfl <;> rcases r1 with rfl | rfl | rfl <;> simp
    have q2 : u2 * s2 = 0 ∨ u2 * s2 = 1 ∨ u2 * s2 = -1 := by
      rcases h2 with rfl | rfl <;> rcases r2 with rfl | rfl | rfl <;> simp
    obtain ⟨hnn, z, hz, hj, hzr⟩ := jsf_table_joint _ _ q1 q2
    obtain ⟨naf, e1, e2, hnaf, hlen, hr, hv1, hv2, he1, he2, he0⟩ :=
      ih (i + 1) (jsf_carry d1 u1) (jsf_carry d2 u2) c1 c2
    rw [if_neg (by omega), hz, C.ok_bind, hnaf, C.ok_bind]
    have par : ∀ k : Nat, sc_get_bits k i 3 % 2 = k / 2 ^ i % 2 := by
      intro k
      rw [sc_get_bits]
      omega
    have top : ∀ k : Nat, k < 2 ^ i → sc_get_bits k i 3 = 0 := by
      intro k hk
      rw [sc_get_bits, Nat.div_eq_of_lt hk]
    have split : ∀ k : Nat, k / 2 ^ i % 2 ^ (steps + 1) = k / 2 ^ i % 2 + 2 * (k / 2 ^ (i + 1) % 2 ^ steps) := by
      intro k
      rw [pow_succ, mul_comm (2 ^ steps) 2, Nat.mod_mul, Nat.div_div_eq_div_mul, ← pow_succ]
    rw [par] at v1 v2
    refine ⟨z :: naf, e1, e2, rfl, by simp [hlen], ?_, ?_, ?_, ?_, ?_, by omega⟩
    · intro y hy
      rcases List.mem_cons.1 hy with rfl | hy
      · exact hzr
      · exact hr y hy
    · simp only [List.map_cons, digits, hj, hv1, split]
      simp only [Nat.cast_add, Nat.cast_mul, Nat.cast_ofNat]
      linear_combination s1 * (-v1)
    · simp only [List.map_cons, digits, hj, hv2, split]
      simp only [Nat.cast_add, Nat.cast_mul, Nat.cast_ofNat]
      linear_combination s2 * (-v2)
    · intro _ hk
      rcases Nat.eq_zero_or_pos steps with h0 | h0
      · subst h0
        rw [(he0 rfl).1, z1 (top k1 (by simpa using hk))]; rfl
      · exact he1 h0 (by rw [show i + 1 + steps - 1 = i + (steps + 1) - 1 by omega]; exact hk)
    · intro _ hk
      rcases Nat.eq_zero_or_pos steps with h0 | h0
      · subst h0
        rw [(he0 rfl).2, z2 (top k2 (by simpa using hk))]; rfl
      · exact he2 h0 (by rw [show i + 1 + steps - 1 = i + (steps + 1) - 1 by omega]; exact hk)

theorem jsf_trim_le (naf : List Int) (n : Nat) : jsf_trim naf n ≤ n := by
  induction n with
  | zero => exact le_rfl
  | succ n ih => rw [jsf_trim]; split <;> omega

theorem jsf_trim_zero (naf : List Int) (n j : Nat) (h1 : jsf_trim naf n ≤ j) (h2 : j < n) :
    naf[j]? = some 0 := by
  induction n with
  | zero => omega
  | succ n ih =>
    rw [jsf_trim] at h1
    split at h1
    · rename_i h
      by_cases hj : j = n
      · subst hj; exact h
      · exact ih h1 (by omega)
    · omega

end Torsion.Ecc
