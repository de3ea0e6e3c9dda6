import Verif.Mpi.StrMore
import Mathlib.Data.Nat.Size

namespace Torsion.Mpi

open Spec

theorem small_2by1 (b : Limb) (hb : b ≠ 0) : ∃ den, mpn_divmod_init_1 b = .ok den ∧ ∀ np : List Limb,
    ∃ q r, mpn_divmod_small_2by1 np den = .ok (q, r) ∧ q.length = np.length ∧ val q = val np / b.toNat ∧
      r.toNat = val np % b.toNat := by
  obtain ⟨v, s, ev, hs, hD, hD1, hv⟩ := init_1_val b hb
  refine ⟨_, ev, fun np => ?_⟩
  unfold mpn_divmod_small_2by1
  rw [show C.rd [b <<< s] 0 = .ok (b <<< s) from rfl, C.ok_bind]
  obtain ⟨l, r, e⟩ := small_loop_val (b <<< s) v s b.toNat hs hD hD1 hv np
  refine ⟨_, _, rfl, l, ?_⟩
  obtain ⟨h1, h2⟩ := quot_unique _ _ _ _ e r
  exact ⟨h1.symm, h2.symm⟩

theorem str_trim {q : List Limb} (hne : q ≠ []) : ∃ t, trimTop q = .ok t ∧ val t = val q ∧
    (t.length + 1 = q.length ∨ t = q ∧ Norm q) := by
  obtain ⟨l, x, rfl⟩ : ∃ l x, q = l ++ [x] := ⟨_, _, (List.dropLast_concat_getLast hne).symm⟩
  unfold trimTop
  rw [List.getLast?_append, List.getLast?_singleton]
  simp only [Option.some_or, List.dropLast_concat]
  refine ⟨_, rfl, ?_⟩
  by_cases hx : x = 0
  · rw [if_pos hx]
    refine ⟨by rw [val_append, val_singleton, hx]; simp, Or.inl (by simp)⟩
  · rw [if_neg hx]
    exact ⟨rfl, Or.inr ⟨rfl, by unfold Norm; simpa using hx⟩⟩

theorem str_norm {a : List Limb} (h : a.length ≤ 1 ∧ val a ≠ 0 ∨ 2 ^ (64 * (a.length - 1)) ≤ val a) : Norm a := by
  by_cases hne : a = []
  · subst hne; exact norm_nil
  · obtain ⟨l, x, rfl⟩ : ∃ l x, a = l ++ [x] := ⟨_, _, (List.dropLast_concat_getLast hne).symm⟩
    unfold Norm
    rw [List.getLast?_append, List.getLast?_singleton]
    simp only [Option.some_or, ne_eq, Option.some.injEq]
    rintro rfl
    rw [val_append, val_singleton, List.length_append, List.length_singleton, Nat.add_sub_cancel] at h
    have hl := val_lt l
    simp only [BitVec.toNat_zero, Nat.mul_zero, Nat.add_zero, BitVec.ofNat_eq_ofNat] at h
    rcases h with ⟨h1, h2⟩ | h
    · have : l = [] := List.length_eq_zero_iff.1 (by omega)
      subst this
      exact h2 val_nil
    · omega

theorem digits_loop (b : Limb) (hb2 : 2 ≤ b.toNat) (den : Divisor) (hden : ∀ np : List Limb,
      ∃ q r, mpn_divmod_small_2by1 np den = .ok (q, r) ∧ q.length = np.length ∧ val q = val np / b.toNat ∧
      r.toNat = val np % b.toNat) : ∀ (n : Nat) (tp : List Limb), Norm tp → tp ≠ [] → val tp < 2 ^ n →
    ∃ ds, mpn_digits_loop den n tp = .ok ds ∧ ds.map BitVec.toNat = Nat.digits b.toNat (val tp)
  | 0, tp, hn, hne, h => by
    have := norm_val_pos hn hne
    have : 0 < 2 ^ (64 * (tp.length - 1)) := Nat.pos_of_ne_zero (by positivity)
    omega
  | n + 1, tp, hn, hne, h => by
    have hge := norm_val_pos hn hne
    have hp : 0 < 2 ^ (64 * (tp.length - 1)) := Nat.pos_of_ne_zero (by positivity)
    have hpos : 0 < val tp := by omega
    obtain ⟨q, r, e, hl, hq, hr⟩ := hden tp
    have hqne : q ≠ [] := fun e => hne (List.length_eq_zero_iff.1 (by rw [← hl, e]; rfl))
    obtain ⟨t, et, hv, hc⟩ := str_trim hqne
    unfold mpn_digits_loop
    rw [e, C.ok_bind]
    dsimp only
    rw [et, C.ok_bind, Nat.digits_def' (by omega) hpos, ← hr, ← hq, ← hv]
    have htl : 1 ≤ tp.length := by
      rcases tp with _ | _
      · exact absurd rfl hne
      · simp
    by_cases ht : t.length = 0
    · rw [if_pos ht]
      have : t = [] := List.length_eq_zero_iff.1 ht
      subst this
      exact ⟨_, rfl, by simp [val_nil]⟩
    · rw [if_neg ht]
      have htn : Norm t := by
        rcases hc with hc | ⟨rfl, hc⟩
        · apply str_norm
          right
          rw [hv, hq, Nat.le_div_iff_mul_le (by omega)]
          have hb := b.isLt
          have h3 : 2 ^ (64 * (t.length - 1)) * b.toNat ≤ 2 ^ (64 * (t.length - 1)) * 2 ^ 64 :=
            Nat.mul_le_mul_left _ (by omega)
          rw [← Nat.pow_add, show 64 * (t.length - 1) + 64 = 64 * (tp.length - 1) by omega] at h3
          omega
        · exact hc
      have hlt : val t < 2 ^ n := by
        rw [hv, hq, Nat.div_lt_iff_lt_mul (by omega)]
        rw [Nat.pow_succ] at h
        have : 2 ^ n * 2 ≤ 2 ^ n * b.toNat := Nat.mul_le_mul_left _ hb2
        omega
      obtain ⟨ds, hds, hm⟩ := digits_loop b hb2 den hden n t htn (fun e => ht (by rw [e]; rfl)) hlt
      rw [hds, C.ok_bind]
      exact ⟨_, rfl, by rw [List.map_cons, hm]⟩

/-- Digits of a number split at a power of the base. -/
theorem digits_split {b : Nat} (hb : 1 < b) : ∀ (n x r : Nat), x < b ^ n → 0 < r →
    Nat.digits b (x + b ^ n * r) = (List.range n).map (fun i => x / b ^ i % b) ++ Nat.digits b r
  | 0, x, r, hx, hr => by
    have : x = 0 := by simpa using hx
    subst this
    simp
  | n + 1, x, r, hx, hr => by
    have hp : 0 < b ^ n := Nat.pos_of_ne_zero (by positivity)
    have hpos : 0 < x + b ^ (n + 1) * r := by
      have : 0 < b ^ (n + 1) * r := Nat.mul_pos (Nat.pos_of_ne_zero (by positivity)) hr
      omega
    have e : x + b ^ (n + 1) * r = x + b * (b ^ n * r) := by rw [Nat.pow_succ']; ring
    rw [Nat.digits_def' hb hpos, e, Nat.add_mul_mod_self_left, Nat.add_mul_div_left _ _ (by omega),
      digits_split hb n (x / b) r (by rw [Nat.div_lt_iff_lt_mul (by omega), ← Nat.pow_succ]; exact hx) hr,
      List.range_succ_eq_map, List.map_cons, List.map_map, Nat.pow_zero, Nat.div_one, List.cons_append]
    congr 2
    apply List.map_congr_left
    intro i _
    simp only [Function.comp, Nat.pow_succ', Nat.div_div_eq_div_mul]

theorem str_mask (w : Nat) (hw : w ≤ 5) (x : Limb) :
    (x &&& BitVec.ofNat 64 (2 ^ w - 1)).toNat = x.toNat % 2 ^ w := by
  have h5 : 2 ^ w ≤ 2 ^ 5 := Nat.pow_le_pow_right (by decide) hw
  rw [BitVec.toNat_and, BitVec.toNat_ofNat, Nat.mod_eq_of_lt (by omega), Nat.and_two_pow_sub_one_eq_mod]

theorem limb_digits (w : Nat) (hw : w ≤ 5) : ∀ (n : Nat) (x : Limb),
    (mpn_limb_digits (BitVec.ofNat 64 (2 ^ w - 1)) w n x).map BitVec.toNat =
      (List.range n).map (fun i => x.toNat / (2 ^ w) ^ i % 2 ^ w)
  | 0, x => rfl
  | n + 1, x => by
    unfold mpn_limb_digits
    rw [List.map_cons, limb_digits w hw n, str_mask w hw, List.range_succ_eq_map, List.map_cons, List.map_map,
      Nat.pow_zero, Nat.div_one, shr_toNat]
    congr 1
    apply List.map_congr_left
    intro i _
    simp only [Function.comp, Nat.pow_succ', Nat.div_div_eq_div_mul]

theorem top_digits (w : Nat) (hw : w ≤ 5) (hw0 : 0 < w) : ∀ (n : Nat) (x : Limb), x ≠ 0 → x.toNat < 2 ^ n →
    ∃ ds, mpn_top_digits (BitVec.ofNat 64 (2 ^ w - 1)) w n x = .ok ds ∧
      ds.map BitVec.toNat = Nat.digits (2 ^ w) x.toNat
  | 0, x, hx, h => by
    have : x.toNat = 0 := by simpa using h
    exact absurd (toNat_eq_zero.1 this) hx
  | n + 1, x, hx, h => by
    have hb : 1 < 2 ^ w := Nat.one_lt_two_pow (by omega)
    have hpos : 0 < x.toNat := Nat.pos_of_ne_zero (fun e => hx (toNat_eq_zero.1 e))
    unfold mpn_top_digits
    rw [Nat.digits_def' hb hpos, ← str_mask w hw, ← shr_toNat]
    by_cases hs : x >>> w ≠ 0
    · rw [if_pos hs]
      have hlt : (x >>> w).toNat < 2 ^ n := by
        rw [shr_toNat, Nat.div_lt_iff_lt_mul (by omega)]
        rw [Nat.pow_succ] at h
        have : 2 ^ n * 2 ≤ 2 ^ n * 2 ^ w := Nat.mul_le_mul_left _ (by omega)
        omega
      obtain ⟨ds, hds, hm⟩ := top_digits w hw hw0 n (x >>> w) hs hlt
      rw [hds, C.ok_bind]
      exact ⟨_, rfl, by rw [List.map_cons, hm]⟩
    · rw [if_neg hs]
      have hs0 : x >>> w = 0 := by simpa using hs
      exact ⟨_, rfl, by rw [hs0]; simp⟩

theorem pow_digits (w : Nat) (hw : w ≤ 5) (hw0 : 0 < w) (hd : 64 / w * w = 64) : ∀ xp : List Limb, Norm xp → xp ≠ [] →
    ∃ ds, mpn_pow_digits (BitVec.ofNat 64 (2 ^ w - 1)) w xp = .ok ds ∧
      ds.map BitVec.toNat = Nat.digits (2 ^ w) (val xp)
  | [], _, h => absurd rfl h
  | [x], hn, _ => by
    unfold mpn_pow_digits
    rw [val_singleton]
    exact top_digits w hw hw0 64 x (norm_single.1 hn) x.isLt
  | x :: y :: xp, hn, _ => by
    have hn' := norm_cons.1 hn
    obtain ⟨ds, hds, hm⟩ := pow_digits w hw hw0 hd (y :: xp) hn' (by simp)
    have hpos : 0 < val (y :: xp) := by
      have := norm_val_pos hn' (by simp)
      have : 0 < 2 ^ (64 * ((y :: xp).length - 1)) := Nat.pos_of_ne_zero (by positivity)
      omega
    unfold mpn_pow_digits
    rw [hds, C.ok_bind]
    refine ⟨_, rfl, ?_⟩
    have e : (2 : Nat) ^ 64 = (2 ^ w) ^ (64 / w) := by rw [← Nat.pow_mul, Nat.mul_comm, hd]
    rw [List.map_append, hm, limb_digits w hw, val_cons x, e,
      digits_split (Nat.one_lt_two_pow (by omega)) _ _ _ (by rw [← e]; exact x.isLt) hpos]

theorem bits_digits (xp : List Limb) (w : Nat) (hw : w ≤ 5) (hw0 : 0 < w) : ∀ (n pos : Nat),
    0 < val xp / 2 ^ pos → val xp / 2 ^ pos < 2 ^ n →
    ∃ ds, mpn_bits_digits xp (Nat.size (val xp)) w n pos = .ok ds ∧
      ds.map BitVec.toNat = Nat.digits (2 ^ w) (val xp / 2 ^ pos)
  | 0, pos, h1, h2 => by
    have : val xp / 2 ^ pos = 0 := by simpa using h2
    omega
  | n + 1, pos, h1, h2 => by
    have hb : 1 < 2 ^ w := Nat.one_lt_two_pow (by omega)
    unfold mpn_bits_digits
    rw [Nat.digits_def' hb h1, ← getbits_eq xp pos w (by omega), Nat.div_div_eq_div_mul, ← Nat.pow_add]
    have hiff : pos + w < Nat.size (val xp) ↔ 0 < val xp / 2 ^ (pos + w) := by
      rw [Nat.lt_size, Nat.div_pos_iff]
      exact ⟨fun h => ⟨Nat.pos_of_ne_zero (by positivity), h⟩, fun h => h.2⟩
    dsimp only
    by_cases hc : pos + w < Nat.size (val xp)
    · rw [if_pos hc]
      have hlt : val xp / 2 ^ (pos + w) < 2 ^ n := by
        rw [Nat.pow_add, ← Nat.div_div_eq_div_mul, Nat.div_lt_iff_lt_mul (by omega)]
        rw [Nat.pow_succ] at h2
        have : 2 ^ n * 2 ≤ 2 ^ n * 2 ^ w := Nat.mul_le_mul_left _ (by omega)
        omega
      obtain ⟨ds, hds, hm⟩ := bits_digits xp w hw hw0 n (pos + w) (hiff.1 hc) hlt
      rw [hds, C.ok_bind]
      exact ⟨_, rfl, by rw [List.map_cons, hm]⟩
    · rw [if_neg hc]
      have : val xp / 2 ^ (pos + w) = 0 := Nat.eq_zero_of_not_pos (mt hiff.2 hc)
      exact ⟨_, rfl, by rw [this]; simp⟩

theorem top_bits {a : List Limb} (hn : Norm a) (hne : a ≠ []) :
    ∃ top, C.rd a (a.length - 1) = .ok top ∧ a.length * 64 - mp_clz top = Nat.size (val a) := by
  obtain ⟨l, x, rfl⟩ : ∃ l x, a = l ++ [x] := ⟨_, _, (List.dropLast_concat_getLast hne).symm⟩
  refine ⟨x, rd_append_at (by simp), ?_⟩
  have hx : x ≠ 0 := by
    unfold Norm at hn
    simpa using hn
  have h0 : x.toNat ≠ 0 := fun e => hx (toNat_eq_zero.1 e)
  have hsz : Nat.size x.toNat ≤ 64 := Nat.size_le.2 x.isLt
  have hs1 : 0 < Nat.size x.toNat := Nat.size_pos.2 (by omega)
  have h1 : 2 ^ (Nat.size x.toNat - 1) ≤ x.toNat := by
    rw [← Nat.lt_size]; omega
  have h2 := Nat.lt_size_self x.toNat
  have hl := val_lt l
  rw [mp_clz_eq, List.length_append, List.length_singleton]
  apply Nat.le_antisymm
  · have : 64 * l.length + (Nat.size x.toNat - 1) < Nat.size (val (l ++ [x])) := by
      rw [Nat.lt_size, val_append, val_singleton, Nat.pow_add]
      have := Nat.mul_le_mul_left (2 ^ (64 * l.length)) h1
      omega
    omega
  · have : Nat.size (val (l ++ [x])) ≤ 64 * l.length + Nat.size x.toNat := by
      rw [Nat.size_le, val_append, val_singleton, Nat.pow_add]
      have : 2 ^ (64 * l.length) * (x.toNat + 1) ≤ 2 ^ (64 * l.length) * 2 ^ Nat.size x.toNat :=
        Nat.mul_le_mul_left _ h2
      rw [Nat.mul_add] at this
      omega
    omega

theorem val_pos {a : List Limb} (hn : Norm a) (hne : a ≠ []) : 0 < val a := by
  have := norm_val_pos hn hne
  have : 0 < 2 ^ (64 * (a.length - 1)) := Nat.pos_of_ne_zero (by positivity)
  omega

theorem swap_rev : ∀ (m a c : List Byte), a.length = c.length →
    mp_str_swap (m.length / 2) a.length (a.length + m.length - 1) (a ++ m ++ c) = .ok (a ++ m.reverse ++ c) := by
  intro m
  induction m using List.bidirectionalRec with
  | nil => intro a c _; rfl
  | singleton x => intro a c _; simp [mp_str_swap]
  | cons_append x m y ih =>
    intro a c h
    have hlen : (x :: (m ++ [y])).length / 2 = m.length / 2 + 1 := by simp; omega
    rw [hlen]
    unfold mp_str_swap
    have e1 : C.rd (a ++ (x :: (m ++ [y])) ++ c) a.length = .ok x := by
      unfold C.rd; simp
    have hj : a.length + (x :: (m ++ [y])).length - 1 = (a ++ x :: m).length := by simp
    have e2 : C.rd (a ++ (x :: (m ++ [y])) ++ c) (a.length + (x :: (m ++ [y])).length - 1) = .ok y := by
      rw [hj, show a ++ (x :: (m ++ [y])) ++ c = (a ++ x :: m) ++ (y :: c) by simp]
      unfold C.rd; simp
    rw [e1, C.ok_bind, e2, C.ok_bind]
    have e3 : C.wr (a ++ (x :: (m ++ [y])) ++ c) a.length y = .ok (a ++ (y :: (m ++ [y])) ++ c) := by
      unfold C.wr; simp
    have e4 : C.wr (a ++ (y :: (m ++ [y])) ++ c) (a.length + (x :: (m ++ [y])).length - 1) x =
        .ok (a ++ (y :: (m ++ [x])) ++ c) := by
      rw [hj, show a ++ (y :: (m ++ [y])) ++ c = (a ++ y :: m) ++ (y :: c) by simp,
        show (a ++ x :: m).length = (a ++ y :: m).length by simp]
      unfold C.wr; simp
    rw [e3, C.ok_bind, e4, C.ok_bind]
    have := ih (a ++ [y]) (x :: c) (by simp [h])
    simp only [List.length_append, List.length_singleton, List.append_assoc, List.singleton_append, List.cons_append] at this
    simp only [List.length_append, List.length_singleton, List.append_assoc, List.singleton_append, List.cons_append,
      List.length_cons, List.reverse_cons, List.reverse_append, List.reverse_singleton, List.length_nil,
      List.nil_append] at this ⊢
    rw [show a.length + (m.length + (0 + 1) + 1) - 1 - 1 = a.length + (0 + 1) + m.length - 1 by omega]
    exact this

theorem str_chars (b : Nat) (h62 : b ≤ 62) : ∀ ds : List Limb, (∀ d ∈ ds, d.toNat < b) →
    mp_str_chars (mp_charset b) ds = .ok (ds.map fun d => charOf b d.toNat)
  | [], _ => rfl
  | d :: ds, h => by
    have hd : d.toNat < b := h d (List.mem_cons_self ..)
    unfold mp_str_chars
    have hc : C.rd (mp_charset b) d.toNat = .ok (charOf b d.toNat) := by
      unfold mp_charset charOf
      by_cases hb : b ≤ 36
      · rw [if_pos hb, if_pos hb]
        have hd36 : d.toNat < 36 := by omega
        generalize d.toNat = n at hd36
        revert hd36
        revert n
        decide
      · rw [if_neg hb, if_neg hb]
        have hd62 : d.toNat < 62 := by omega
        generalize d.toNat = n at hd62
        revert hd62
        revert n
        decide
    rw [hc, C.ok_bind, str_chars b h62 ds (fun x hx => h x (List.mem_cons_of_mem _ hx)), C.ok_bind]
    rfl

end Torsion.Mpi
