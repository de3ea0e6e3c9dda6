import Verif.Mpi.Popcount
import Mathlib.Data.Nat.Bitwise

namespace Torsion.Mpi

open Spec (val ival Canon Rep Room bit ones fromCompact)

theorem and_mod (x : Limb) (k : Nat) (m : Limb) (hm : m.toNat = 2 ^ k - 1) : (x &&& m).toNat = x.toNat % 2 ^ k := by
  rw [BitVec.toNat_and, hm, Nat.and_two_pow_sub_one_eq_mod]

theorem set_compact_rep (x : Limb) : ∃ t, mpz_set_compact x = .ok t ∧ Rep t (fromCompact x.toNat) := by
  unfold mpz_set_compact
  by_cases h0 : x = 0
  · rw [if_pos h0, h0]
    exact ⟨_, rfl, by simpa [fromCompact] using set_ui_rep 0⟩
  rw [if_neg h0]
  dsimp only
  have he : ((x >>> 24) &&& 0xff).toNat = x.toNat / 2 ^ 24 % 256 := by
    rw [and_mod _ 8 _ rfl, shr_toNat]; rfl
  have hm : (x &&& 0x7fffff).toNat = x.toNat % 2 ^ 23 := and_mod _ 23 _ rfl
  rw [he]
  generalize hE : x.toNat / 2 ^ 24 % 256 = e
  obtain ⟨t, et, rt⟩ : ∃ t, (if e ≤ 3 then C.ok (mpz_set_ui ((x &&& 0x7fffff) >>> (8 * (3 - e))))
      else mpz_mul_2exp .heap (mpz_set_ui (x &&& 0x7fffff)) (8 * (e - 3))) = .ok t ∧
      Rep t ((x.toNat % 2 ^ 23 * 256 ^ e / 256 ^ 3 : Nat) : Int) := by
    by_cases h : e ≤ 3
    · rw [if_pos h]
      refine ⟨_, rfl, ?_⟩
      have := set_ui_rep ((x &&& 0x7fffff) >>> (8 * (3 - e)))
      rw [shr_toNat, hm] at this
      have e1 : x.toNat % 2 ^ 23 * 256 ^ e / 256 ^ 3 = x.toNat % 2 ^ 23 / 2 ^ (8 * (3 - e)) := by
        rw [show 256 ^ 3 = 2 ^ (8 * (3 - e)) * 256 ^ e by
          rw [pow_mul, show (2 : Nat) ^ 8 = 256 from rfl, ← pow_add]; congr 1; omega]
        exact Nat.mul_div_mul_right _ _ (by positivity)
      rw [e1]; exact this
    · rw [if_neg h]
      obtain ⟨t, et, rt⟩ := mul_2exp_rep (z := .heap) (8 * (e - 3)) (set_ui_rep (x &&& 0x7fffff)) trivial
      refine ⟨t, et, ?_⟩
      have e1 : x.toNat % 2 ^ 23 * 256 ^ e / 256 ^ 3 = x.toNat % 2 ^ 23 * 2 ^ (8 * (e - 3)) := by
        rw [show 256 ^ e = 2 ^ (8 * (e - 3)) * 256 ^ 3 by
          rw [pow_mul, show (2 : Nat) ^ 8 = 256 from rfl, ← pow_add]; congr 1; omega, ← Nat.mul_assoc]
        exact Nat.mul_div_cancel _ (by positivity)
      rw [e1]
      rw [hm] at rt
      push_cast at rt ⊢
      exact rt
  rw [et, C.ok_bind]
  have hn : ((x >>> 23) &&& 1 ≠ 0) ↔ x.toNat.testBit 23 = true := by
    rw [bit_and_one]
    cases x.toNat.testBit 23 <;> simp [flag]
  have hf : fromCompact x.toNat = if x.toNat.testBit 23 then -((x.toNat % 2 ^ 23 * 256 ^ e / 256 ^ 3 : Nat) : Int)
      else ((x.toNat % 2 ^ 23 * 256 ^ e / 256 ^ 3 : Nat) : Int) := by
    unfold fromCompact; rw [hE]
  rw [hf]
  by_cases hb : x.toNat.testBit 23 = true
  · rw [if_pos (hn.2 hb), if_pos hb]
    exact neg_rep rt trivial
  · rw [if_neg (mt hn.1 hb), if_neg hb]
    exact ⟨_, rfl, rt⟩

/-- The fields of a packed word. -/
theorem from_pack (E M : Limb) (s : Bool) (hE : E.toNat < 256) (hM : M.toNat < 2 ^ 23) :
    (if s then (E <<< 24 ||| M) ||| 0x800000 else E <<< 24 ||| M).toNat < 2 ^ 32 ∧
    fromCompact (if s then (E <<< 24 ||| M) ||| 0x800000 else E <<< 24 ||| M).toNat =
      (if s then -1 else 1) * ((M.toNat * 256 ^ E.toNat / 256 ^ 3 : Nat) : Int) := by
  have h1 : (E <<< 24).toNat = 2 ^ 24 * E.toNat := by
    rw [shl_toNat]; rw [Nat.mod_eq_of_lt (by omega)]; ring
  have h2 : (E <<< 24 ||| M).toNat = 2 ^ 24 * E.toNat + M.toNat := by
    rw [BitVec.toNat_or, h1, ← Nat.two_pow_add_eq_or_of_lt (by omega)]
  have h3 : ((E <<< 24 ||| M) ||| 0x800000).toNat = 2 ^ 24 * E.toNat + (2 ^ 23 + M.toNat) := by
    rw [BitVec.toNat_or, BitVec.toNat_or, h1, show (0x800000 : Limb).toNat = 2 ^ 23 * 1 from rfl, Nat.or_assoc,
      Nat.or_comm M.toNat, ← Nat.two_pow_add_eq_or_of_lt hM, ← Nat.two_pow_add_eq_or_of_lt (by omega), Nat.mul_one]
  cases s
  · rw [if_neg (by simp), if_neg (by simp), h2]
    refine ⟨by omega, ?_⟩
    unfold fromCompact
    dsimp only
    rw [odd_half, decide_eq_false (by omega), if_neg (by simp), show (2 ^ 24 * E.toNat + M.toNat) % 2 ^ 23 = M.toNat by omega,
      show (2 ^ 24 * E.toNat + M.toNat) / 2 ^ 24 % 256 = E.toNat by omega, one_mul]
  · rw [if_pos rfl, if_pos rfl, h3]
    refine ⟨by omega, ?_⟩
    unfold fromCompact
    dsimp only
    rw [odd_half, decide_eq_true (by omega), if_pos rfl,
      show (2 ^ 24 * E.toNat + (2 ^ 23 + M.toNat)) % 2 ^ 23 = M.toNat by omega,
      show (2 ^ 24 * E.toNat + (2 ^ 23 + M.toNat)) / 2 ^ 24 % 256 = E.toNat by omega, neg_one_mul]

theorem pow256 (k : Nat) : 2 ^ (8 * k) = 256 ^ k := by rw [pow_mul]; rfl

/-- `mpz_get_compact` keeps the leading digits in base 256: all if three bytes below `2^23` suffice. -/
theorem get_compact_rep {x : Mpz} {i : Int} (hx : Rep x i) (hs : Nat.size i.natAbs ≤ 254 * 8) :
    ∃ w d, mpz_get_compact x = .ok w ∧ w.toNat < 2 ^ 32 ∧
      fromCompact w.toNat = i.sign * ((i.natAbs / 256 ^ d * 256 ^ d : Nat) : Int) ∧ i.natAbs / 256 ^ d < 2 ^ 23 ∧
      (d = 0 ∨ 2 ^ 15 ≤ i.natAbs / 256 ^ d) := by
  unfold mpz_get_compact
  by_cases h0 : i = 0
  · rw [if_pos ((rep_size0 hx).2 h0), h0]
    exact ⟨0, 0, rfl, by decide, by decide, by decide, .inl rfl⟩
  rw [if_neg (mt (rep_size0 hx).1 h0), bytelen_rep hx, C.ok_bind]
  generalize hn : (Nat.size i.natAbs + 7) / 8 = n
  have hv0 : 0 < i.natAbs := by omega
  have hs0 : 0 < Nat.size i.natAbs := Nat.size_pos.2 hv0
  have hlt : i.natAbs < 256 ^ n := by
    rw [← pow256]; exact lt_of_lt_of_le (Nat.lt_size_self _) (Nat.pow_le_pow_right (by omega) (by omega))
  have hge : 256 ^ (n - 1) ≤ i.natAbs := by
    rw [← pow256]
    exact Nat.lt_size.1 (by omega)
  have hn1 : 1 ≤ n := by omega
  have hn2 : n ≤ 254 := by omega
  -- the three leading bytes
  obtain ⟨m, em, vm⟩ : ∃ m, (if n ≤ 3 then do
        let m ← mpz_get_ui x
        C.ok (m <<< (8 * (3 - n)))
      else do
        let t ← mpz_quo_2exp .heap x (8 * (n - 3))
        mpz_get_ui t) = .ok m ∧ m.toNat = i.natAbs * 256 ^ (3 - n) / 256 ^ (n - 3) := by
    by_cases h : n ≤ 3
    · rw [if_pos h]
      obtain ⟨r, er, vr⟩ := get_ui_rep hx
      rw [er, C.ok_bind]
      refine ⟨_, rfl, ?_⟩
      have h3 : i.natAbs < 256 ^ 3 := lt_of_lt_of_le hlt (Nat.pow_le_pow_right (by omega) h)
      have h4 : i.natAbs * 256 ^ (3 - n) < 256 ^ 3 := by
        calc i.natAbs * 256 ^ (3 - n) < 256 ^ n * 256 ^ (3 - n) := Nat.mul_lt_mul_of_pos_right hlt (by positivity)
          _ = 256 ^ 3 := by rw [← pow_add]; congr 1; omega
      rw [shl_toNat, vr, Nat.mod_eq_of_lt (a := i.natAbs) (by omega), pow256, show n - 3 = 0 by omega, pow_zero, Nat.div_one]
      exact Nat.mod_eq_of_lt (by omega)
    · rw [if_neg h]
      obtain ⟨t, et, rt⟩ := quo_2exp_rep (z := .heap) (8 * (n - 3)) hx trivial
      rw [et, C.ok_bind]
      obtain ⟨r, er, vr⟩ := get_ui_rep rt
      refine ⟨r, er, ?_⟩
      rw [Int.natAbs_tdiv, natAbs_two_pow, pow256] at vr
      change r.toNat = i.natAbs / 256 ^ (n - 3) % 2 ^ 64 at vr
      rw [vr, show 3 - n = 0 by omega, pow_zero, Nat.mul_one]
      apply Nat.mod_eq_of_lt
      have : i.natAbs / 256 ^ (n - 3) < 256 ^ 3 := by
        rw [Nat.div_lt_iff_lt_mul (by positivity), ← pow_add, show 3 + (n - 3) = n by omega]; exact hlt
      omega
  rw [em, C.ok_bind]
  have hm24 : m.toNat < 2 ^ 24 := by
    rw [vm, Nat.div_lt_iff_lt_mul (by positivity)]
    calc i.natAbs * 256 ^ (3 - n) < 256 ^ n * 256 ^ (3 - n) := Nat.mul_lt_mul_of_pos_right hlt (by positivity)
      _ = 256 ^ 3 * 256 ^ (n - 3) := by rw [← pow_add, ← pow_add]; congr 1; omega
      _ = 2 ^ 24 * 256 ^ (n - 3) := by norm_num
  have hm16 : 2 ^ 16 ≤ m.toNat := by
    rw [vm, Nat.le_div_iff_mul_le (by positivity)]
    calc 2 ^ 16 * 256 ^ (n - 3) = 256 ^ (2 + (n - 3)) := by rw [pow_add]; rfl
      _ = 256 ^ (n - 1 + (3 - n)) := by congr 1; omega
      _ = 256 ^ (n - 1) * 256 ^ (3 - n) := by rw [pow_add]
      _ ≤ i.natAbs * 256 ^ (3 - n) := Nat.mul_le_mul_right _ hge
  have hbig : (m &&& 0x800000 ≠ 0) ↔ 2 ^ 23 ≤ m.toNat := by
    rw [Ne, ← toNat_eq_zero, BitVec.toNat_and, show (0x800000 : Limb).toNat = 2 ^ 23 from rfl, Nat.and_two_pow, odd_half]
    by_cases h : m.toNat / 2 ^ 23 % 2 = 1
    · rw [decide_eq_true h]; simp; omega
    · rw [decide_eq_false h]; simp; omega
  have hsg : i.sign = if i < 0 then -1 else 1 := by
    by_cases h : i < 0
    · rw [if_pos h, Int.sign_eq_neg_one_of_neg h]
    · rw [if_neg h, Int.sign_eq_one_of_pos (by omega)]
  have hmask : ∀ y : Limb, y.toNat < 2 ^ 32 → (y &&& 0xffffffff).toNat = y.toNat := fun y hy => by
    rw [and_mod _ 32 _ rfl, Nat.mod_eq_of_lt hy]
  have hexp : ∀ k : Nat, k < 256 → (BitVec.ofNat 64 k &&& 0xff).toNat = k := fun k hk => by
    rw [and_mod _ 8 _ rfl, BitVec.toNat_ofNat, Nat.mod_eq_of_lt (a := k) (by omega)]; exact Nat.mod_eq_of_lt hk
  have hsz := rep_sizen hx
  dsimp only
  by_cases hb : 2 ^ 23 ≤ m.toNat
  · have hb' := hbig.2 hb
    rw [if_pos hb', if_pos hb']
    have hM : ((m >>> 8) &&& 0xffffffff).toNat = m.toNat / 256 := by
      rw [hmask _ (by rw [shr_toNat]; omega), shr_toNat]; rfl
    have hE := hexp (n + 1) (by omega)
    have hp := from_pack (BitVec.ofNat 64 (n + 1) &&& 0xff) ((m >>> 8) &&& 0xffffffff) (decide (i < 0))
      (by rw [hE]; omega) (by rw [hM]; omega)
    rw [hE, hM] at hp
    refine ⟨_, n - 2, rfl, ?_⟩
    simp only [hsz, decide_eq_true_eq] at hp ⊢
    refine ⟨hp.1, ?_⟩
    rw [hp.2, hsg]
    by_cases hn3 : 3 ≤ n
    · have e1 : m.toNat / 256 = i.natAbs / 256 ^ (n - 2) := by
        rw [vm, show 3 - n = 0 by omega, pow_zero, Nat.mul_one, Nat.div_div_eq_div_mul, ← pow_succ,
          show n - 3 + 1 = n - 2 by omega]
      have e2 : m.toNat / 256 * 256 ^ (n + 1) / 256 ^ 3 = i.natAbs / 256 ^ (n - 2) * 256 ^ (n - 2) := by
        rw [e1, show n + 1 = n - 2 + 3 by omega, pow_add, ← Nat.mul_assoc]
        exact Nat.mul_div_cancel _ (by positivity)
      rw [e2, ← e1]
      exact ⟨rfl, by omega, .inr (by omega)⟩
    · have e0 : n - 2 = 0 := by omega
      rw [e0, pow_zero, Nat.div_one, Nat.mul_one]
      have e1 : m.toNat / 256 = i.natAbs * 256 ^ (2 - n) := by
        rw [vm, show n - 3 = 0 by omega, pow_zero, Nat.div_one, show 3 - n = 2 - n + 1 by omega, pow_succ, ← Nat.mul_assoc]
        exact Nat.mul_div_cancel _ (by positivity)
      have e2 : m.toNat / 256 * 256 ^ (n + 1) / 256 ^ 3 = i.natAbs := by
        rw [e1, Nat.mul_assoc, ← pow_add, show 2 - n + (n + 1) = 3 by omega]
        exact Nat.mul_div_cancel _ (by positivity)
      rw [e2]
      have : i.natAbs < 256 ^ 2 := lt_of_lt_of_le hlt (Nat.pow_le_pow_right (by omega) (by omega))
      exact ⟨rfl, by omega, .inl rfl⟩
  · have hb' := mt hbig.1 hb
    rw [if_neg hb', if_neg hb']
    have hM : (m &&& 0xffffffff).toNat = m.toNat := hmask _ (by omega)
    have hE := hexp n (by omega)
    have hp := from_pack (BitVec.ofNat 64 n &&& 0xff) (m &&& 0xffffffff) (decide (i < 0))
      (by rw [hE]; omega) (by rw [hM]; omega)
    rw [hE, hM] at hp
    refine ⟨_, n - 3, rfl, ?_⟩
    simp only [hsz, decide_eq_true_eq] at hp ⊢
    refine ⟨hp.1, ?_⟩
    rw [hp.2, hsg]
    by_cases hn3 : 3 ≤ n
    · have e1 : m.toNat = i.natAbs / 256 ^ (n - 3) := by
        rw [vm, show 3 - n = 0 by omega, pow_zero, Nat.mul_one]
      have e2 : m.toNat * 256 ^ n / 256 ^ 3 = i.natAbs / 256 ^ (n - 3) * 256 ^ (n - 3) := by
        rw [e1]
        conv_lhs => rw [show n = n - 3 + 3 by omega, pow_add, ← Nat.mul_assoc, Nat.add_sub_cancel]
        exact Nat.mul_div_cancel _ (by positivity)
      rw [e2, ← e1]
      exact ⟨rfl, by omega, .inr (by omega)⟩
    · have e0 : n - 3 = 0 := by omega
      rw [e0, pow_zero, Nat.div_one, Nat.mul_one]
      have e2 : m.toNat * 256 ^ n / 256 ^ 3 = i.natAbs := by
        rw [vm, e0, pow_zero, Nat.div_one, Nat.mul_assoc, ← pow_add, show 3 - n + n = 3 by omega]
        exact Nat.mul_div_cancel _ (by positivity)
      rw [e2]
      have : i.natAbs < 256 ^ 2 := lt_of_lt_of_le hlt (Nat.pow_le_pow_right (by omega) (by omega))
      exact ⟨rfl, by omega, .inl rfl⟩

end Torsion.Mpi
