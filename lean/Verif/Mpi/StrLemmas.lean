import Verif.Mpi.ImportLemmas
import Verif.Mpi.StrSpec
import Mathlib.Data.Nat.Digits.Lemmas
import Mathlib.Tactic.IntervalCases

namespace Torsion.Mpi

open Spec

theorem byte_all {p : Nat → Prop} (h : ∀ n : Fin 256, p n.val) (c : Byte) : p c.toNat := h ⟨c.toNat, c.isLt⟩

theorem isspace_eq (c : Byte) : mp_isspace c = isBlank c := by
  unfold mp_isspace isBlank
  exact byte_all (p := fun n => decide (mp_spaces.getD n 0 ≠ 0) = ((decide (9 ≤ n) && decide (n ≤ 13)) || decide (n = 32)))
    (by decide +kernel) c

theorem tab36 : ∀ n : Fin 256,
    (if 48 ≤ n.val ∧ n.val ≤ 57 then some (n.val - 48) else if 65 ≤ n.val ∧ n.val ≤ 90 then some (n.val - 65 + 10)
      else if 97 ≤ n.val ∧ n.val ≤ 122 then some (n.val - 97 + 10) else none) =
    if mp_table_36[n.val] = 36 then none else some mp_table_36[n.val] := by decide +kernel

theorem tab36_le : ∀ n : Fin 256, mp_table_36[n.val] ≤ 36 := by decide +kernel

theorem table36 (c : Byte) (base : Nat) (hb : base ≤ 36) :
    digitOf base c = if (mp_table_36[c.toNat]'(c.isLt)) ≥ base then none else some (mp_table_36[c.toNat]'(c.isLt)) := by
  have key := tab36 ⟨c.toNat, c.isLt⟩
  have hle := tab36_le ⟨c.toNat, c.isLt⟩
  unfold digitOf
  simp only [if_pos hb] at key ⊢
  rw [key]
  generalize (mp_table_36[c.toNat]'(c.isLt)) = t at hle
  by_cases h : t = 36
  · rw [if_pos h, if_pos (by omega)]; rfl
  · rw [if_neg h]
    by_cases h2 : t ≥ base
    · rw [if_pos h2]; simp [Option.filter]; omega
    · rw [if_neg h2]; simp [Option.filter]; omega

theorem tab62 : ∀ n : Fin 256,
    (if 48 ≤ n.val ∧ n.val ≤ 57 then some (n.val - 48) else if 65 ≤ n.val ∧ n.val ≤ 90 then some (n.val - 65 + 10)
      else if 97 ≤ n.val ∧ n.val ≤ 122 then some (n.val - 97 + 36) else none) =
    if mp_table_62[n.val] = 62 then none else some mp_table_62[n.val] := by decide +kernel

theorem tab62_le : ∀ n : Fin 256, mp_table_62[n.val] ≤ 62 := by decide +kernel

theorem table62 (c : Byte) (base : Nat) (hb : ¬ base ≤ 36) (hb' : base ≤ 62) :
    digitOf base c = if (mp_table_62[c.toNat]'(c.isLt)) ≥ base then none else some (mp_table_62[c.toNat]'(c.isLt)) := by
  have key := tab62 ⟨c.toNat, c.isLt⟩
  have hle := tab62_le ⟨c.toNat, c.isLt⟩
  unfold digitOf
  simp only [if_neg hb] at key ⊢
  rw [key]
  generalize (mp_table_62[c.toNat]'(c.isLt)) = t at hle
  by_cases h : t = 62
  · rw [if_pos h, if_pos (by omega)]; rfl
  · rw [if_neg h]
    by_cases h2 : t ≥ base
    · rw [if_pos h2]; simp [Option.filter]; omega
    · rw [if_neg h2]; simp [Option.filter]; omega

/-- A power of two as the code tests for it. -/
theorem pow_shift (base : Nat) (h2 : 2 ≤ base) (h62 : base ≤ 62) (h : base &&& (base - 1) = 0) :
    base = 2 ^ mp_bitlen (BitVec.ofNat 64 (base - 1)) ∧ 0 < mp_bitlen (BitVec.ofNat 64 (base - 1)) ∧
      mp_bitlen (BitVec.ofNat 64 (base - 1)) ≤ 5 := by
  revert h
  interval_cases base <;> decide

/-- One step of `mpn_set_str`. -/
def strStep (base shift : Nat) (zp : List Limb) (ch : Limb) : List Limb × Limb :=
  if zp.length = 0 then (zp, ch)
  else if shift > 0 then
    let s := mpn_lshift zp shift
    (s.1.modifyHead (· ||| ch), s.2)
  else
    let s := mpn_mul_1 zp (BitVec.ofNat 64 base)
    let t := mpn_add_1 s.1 ch
    (t.1, s.2 + t.2)

theorem strStep_val (base shift : Nat) (zp : List Limb) (ch : Limb) (h2 : 2 ≤ base) (h62 : base ≤ 62)
    (hs : shift > 0 → base = 2 ^ shift ∧ shift ≤ 5) (hc : ch.toNat < base) :
    (strStep base shift zp ch).1.length = zp.length ∧
    val (strStep base shift zp ch).1 + 2 ^ (64 * zp.length) * (strStep base shift zp ch).2.toNat =
      val zp * base + ch.toNat := by
  unfold strStep
  by_cases h0 : zp.length = 0
  · rw [if_pos h0]
    have : zp = [] := List.length_eq_zero_iff.1 h0
    subst this
    simp [val_nil]
  rw [if_neg h0]
  have hne : zp ≠ [] := fun e => h0 (by rw [e]; rfl)
  by_cases hsh : shift > 0
  · rw [if_pos hsh]
    obtain ⟨hb, hs5⟩ := hs hsh
    have hl := lshift_val zp shift (by omega) hne
    dsimp only
    generalize mpn_lshift zp shift = s at hl
    obtain ⟨sl, sc⟩ := s
    obtain ⟨hv, hlen⟩ := hl
    cases sl with
    | nil => simp only [List.length_nil] at hlen; omega
    | cons x xs =>
      simp only [List.modifyHead_cons, List.length_cons] at hlen ⊢
      refine ⟨hlen, ?_⟩
      have hx : x.toNat % 2 ^ shift = 0 := by
        have e : (val (x :: xs) + 2 ^ (64 * zp.length) * sc.toNat) % 2 ^ shift = 0 := by
          rw [hv]; exact Nat.mul_mod_left ..
        rw [val_cons, show 64 * zp.length = 64 + 64 * (zp.length - 1) by omega, Nat.pow_add,
          ← split_pow shift (by omega), Nat.add_assoc, Nat.mul_assoc, Nat.mul_assoc, Nat.mul_assoc, ← Nat.mul_add,
          Nat.add_mul_mod_self_left] at e
        exact e
      have hor := or_disjoint x ch shift hx (by rw [← hb]; exact hc)
      rw [val_cons] at hv ⊢
      rw [hor, hb]
      simp only at hv
      omega
  · rw [if_neg hsh]
    have hbn : (BitVec.ofNat 64 base).toNat = base := by rw [BitVec.toNat_ofNat]; omega
    have hm := mul_1_val zp (BitVec.ofNat 64 base)
    dsimp only
    generalize mpn_mul_1 zp (BitVec.ofNat 64 base) = s at hm
    obtain ⟨sl, sc⟩ := s
    obtain ⟨hv1, hl1⟩ := hm
    have ha := add_1_val sl ch
    dsimp only
    generalize mpn_add_1 sl ch = t at ha
    obtain ⟨tl, tc⟩ := t
    obtain ⟨hv2, hl2⟩ := ha
    simp only at hl1 hv1 hl2 hv2 ⊢
    rw [hbn] at hv1
    rw [hl1] at hl2 hv2
    refine ⟨hl2, ?_⟩
    have hz := val_lt zp
    have htot : val tl + 2 ^ (64 * zp.length) * (sc.toNat + tc.toNat) = val zp * base + ch.toNat := by
      rw [Nat.mul_add]; omega
    have hsum : sc.toNat + tc.toNat < 62 := by
      have h1 : val zp * base + ch.toNat < 2 ^ (64 * zp.length) * base := by
        have : (val zp + 1) * base ≤ 2 ^ (64 * zp.length) * base := Nat.mul_le_mul_right _ hz
        rw [Nat.add_mul] at this
        omega
      have h3 : 2 ^ (64 * zp.length) * (sc.toNat + tc.toNat) < 2 ^ (64 * zp.length) * base := by omega
      have := Nat.lt_of_mul_lt_mul_left h3
      omega
    rw [BitVec.toNat_add, Nat.mod_eq_of_lt (by omega)]
    exact htot

theorem setstr_cons (zn : Nat) (table : Vector Nat 256) (base shift : Nat) (c : Byte) (s : List Byte) (zp : List Limb)
    (hc0 : c ≠ 0) (hb : ¬ isBlank c = true) :
    mpn_set_str_loop zn table base shift (c :: s) zp =
      if (table[c.toNat]'(c.isLt)) ≥ base then none
      else
        if (strStep base shift zp (BitVec.ofNat 64 (table[c.toNat]'(c.isLt)))).2 ≠ 0 then
          if zp.length = zn then none
          else mpn_set_str_loop zn table base shift s
            ((strStep base shift zp (BitVec.ofNat 64 (table[c.toNat]'(c.isLt)))).1 ++
              [(strStep base shift zp (BitVec.ofNat 64 (table[c.toNat]'(c.isLt)))).2])
        else mpn_set_str_loop zn table base shift s
          (strStep base shift zp (BitVec.ofNat 64 (table[c.toNat]'(c.isLt)))).1 := by
  conv_lhs => unfold mpn_set_str_loop
  rw [if_neg hc0, isspace_eq, if_neg hb]
  rfl

theorem setstr_loop (zn : Nat) (table : Vector Nat 256) (base shift : Nat) (h2 : 2 ≤ base) (h62 : base ≤ 62)
    (hs : shift > 0 → base = 2 ^ shift ∧ shift ≤ 5)
    (ht : ∀ c : Byte, digitOf base c =
      if (table[c.toNat]'(c.isLt)) ≥ base then none else some (table[c.toNat]'(c.isLt))) :
    ∀ (s : List Byte) (zp : List Limb), 0#8 ∉ s → Norm zp → zp.length ≤ zn →
      match (s.filter fun c => !isBlank c).mapM (digitOf base) with
      | none => mpn_set_str_loop zn table base shift s zp = none
      | some ds => if val zp * base ^ ds.length + Nat.ofDigits base ds.reverse < 2 ^ (64 * zn) then
          ∃ z, mpn_set_str_loop zn table base shift s zp = some z ∧ Norm z ∧ z.length ≤ zn ∧
            val z = val zp * base ^ ds.length + Nat.ofDigits base ds.reverse
        else mpn_set_str_loop zn table base shift s zp = none
  | [], zp, _, hn, hl => by
    simp only [List.filter_nil, List.mapM_nil, Option.pure_def, List.length_nil, Nat.pow_zero, Nat.mul_one,
      List.reverse_nil, Nat.ofDigits_nil, Nat.add_zero]
    rw [if_pos (Nat.lt_of_lt_of_le (val_lt zp) (Nat.pow_le_pow_right (by decide) (by omega)))]
    exact ⟨zp, rfl, hn, hl, rfl⟩
  | c :: s, zp, h0, hn, hl => by
    have hc0 : c ≠ 0 := fun e => h0 (by rw [e]; exact List.mem_cons_self ..)
    have hs0 : 0#8 ∉ s := fun h => h0 (List.mem_cons_of_mem _ h)
    by_cases hb : isBlank c = true
    · rw [List.filter_cons_of_neg (by simp [hb])]
      unfold mpn_set_str_loop
      rw [if_neg hc0, isspace_eq, if_pos hb]
      exact setstr_loop zn table base shift h2 h62 hs ht s zp hs0 hn hl
    rw [setstr_cons _ _ _ _ _ _ _ hc0 hb, List.filter_cons_of_pos (by simpa using hb), List.mapM_cons, ht c]
    by_cases hge : (table[c.toNat]'(c.isLt)) ≥ base
    · rw [if_pos hge, if_pos hge]; rfl
    rw [if_neg hge, if_neg hge]
    simp only [Option.bind_eq_bind, Option.bind_some]
    generalize (table[c.toNat]'(c.isLt)) = d at hge
    have hd : (BitVec.ofNat 64 d).toNat = d := by rw [BitVec.toNat_ofNat]; omega
    have hst := strStep_val base shift zp (BitVec.ofNat 64 d) h2 h62 hs (by rw [hd]; omega)
    generalize strStep base shift zp (BitVec.ofNat 64 d) = r at hst
    obtain ⟨rl, rc⟩ := r
    simp only at hst ⊢
    obtain ⟨hrl, hrv⟩ := hst
    rw [hd] at hrv
    have hval : ∀ ds : List Nat, val zp * base ^ (d :: ds).length + Nat.ofDigits base (d :: ds).reverse =
        (val zp * base + d) * base ^ ds.length + Nat.ofDigits base ds.reverse := by
      intro ds
      rw [List.reverse_cons, Nat.ofDigits_append, List.length_reverse, Nat.ofDigits_singleton, List.length_cons,
        Nat.pow_succ]
      ring
    by_cases hc : rc ≠ 0
    · rw [if_pos hc]
      have hcpos : 0 < rc.toNat := Nat.pos_of_ne_zero (fun e => hc (toNat_eq_zero.1 e))
      by_cases hfull : zp.length = zn
      · rw [if_pos hfull]
        have hbig : 2 ^ (64 * zn) ≤ val zp * base + d := by
          rw [← hrv, hfull]
          have := Nat.mul_le_mul_left (2 ^ (64 * zn)) hcpos
          omega
        cases (s.filter fun c => !isBlank c).mapM (digitOf base) with
        | none => rfl
        | some ds =>
          simp only [Option.bind_some, Option.pure_def]
          have : (val zp * base + d) * 1 ≤ (val zp * base + d) * base ^ ds.length :=
            Nat.mul_le_mul_left _ (Nat.pos_of_ne_zero (by positivity))
          rw [Nat.mul_one] at this
          rw [hval, if_neg (Nat.not_lt.2 (Nat.le_trans hbig (Nat.le_trans this (Nat.le_add_right _ _))))]
          trivial
      · rw [if_neg hfull]
        have hv' : val (rl ++ [rc]) = val zp * base + d := by
          rw [val_append, val_singleton, hrl, hrv]
        have hn' : Norm (rl ++ [rc]) := by
          unfold Norm
          simpa using hc
        have ih := setstr_loop zn table base shift h2 h62 hs ht s (rl ++ [rc]) hs0 hn'
          (by rw [List.length_append, List.length_singleton]; omega)
        cases hm : (s.filter fun c => !isBlank c).mapM (digitOf base) with
        | none => rw [hm] at ih; exact ih
        | some ds =>
          rw [hm] at ih
          simp only [Option.bind_some, Option.pure_def] at ih ⊢
          rw [hval, ← hv']
          exact ih
    · rw [if_neg hc]
      have hc' : rc = 0 := by simpa using hc
      have hv' : val rl = val zp * base + d := by
        rw [hc'] at hrv
        simpa using hrv
      have hn' : Norm rl := by
        apply norm_of_ge hn hrl
        rw [hv']
        have : val zp * 1 ≤ val zp * base := Nat.mul_le_mul_left _ (by omega)
        omega
      have ih := setstr_loop zn table base shift h2 h62 hs ht s rl hs0 hn' (by omega)
      cases hm : (s.filter fun c => !isBlank c).mapM (digitOf base) with
      | none => rw [hm] at ih; exact ih
      | some ds =>
        rw [hm] at ih
        simp only [Option.bind_some, Option.pure_def] at ih ⊢
        rw [hval, ← hv']
        exact ih

end Torsion.Mpi
