import Verif.Encoding.Cash32Lemmas
import Verif.Encoding.ConvertLemmas

/-! # Lemmas for cash32 deserialisation -/
namespace Torsion
open Spec

/-- `s` is a string accepted for prefix `pfx` and symbols `data` when `f` is the fallback prefix:
either it carries its own prefix, or it is the part after the colon for prefix `f`. -/
def CashAccept (s f pfx data : List Byte) : Prop :=
  ¬ Mixed s ∧ ((58 ∈ s ∧ Cash32String pfx data (s.map lower)) ∨
    (58 ∉ s ∧ pfx = f ∧ Cash32String f data (f ++ 58 :: s.map lower)))

theorem cashData_iff {pfx : List Byte} (b data : List Byte) (h1 : 1 ≤ pfx.length)
    (h2 : pfx.length ≤ 83) (h3 : ∀ c ∈ pfx, IsLower c) :
    Cash32String pfx data (pfx ++ 58 :: b.map lower) ↔
      8 ≤ b.length ∧ b.length ≤ 112 ∧ (∀ c ∈ b, IsSym c) ∧
        data = (b.map symVal).take (b.length - 8) ∧ cashState pfx (b.map symVal) = 1 := by
  constructor
  · rintro ⟨-, -, -, g4, g5, chk, g6, g7, g8, g9⟩
    have g8 := (List.cons.inj (List.append_cancel_left g8)).2
    have hlt : ∀ d ∈ data ++ chk, d.toNat < 32 := by
      intro d hd
      rcases List.mem_append.1 hd with h | h
      exacts [g4 d h, g7 d h]
    have hlen := congrArg List.length g8
    simp only [List.length_map, List.length_append, g6] at hlen
    have hsym : ∀ c ∈ b, IsSym c := by
      intro c hc
      have : lower c ∈ (data ++ chk).map (fun d => bechChar d.toNat) := by
        rw [← g8]; exact List.mem_map_of_mem hc
      obtain ⟨d, hd, e⟩ := List.mem_map.1 this
      have := isSym_of (hlt d hd) e.symm
      exact this.1
    have hv : b.map symVal = data ++ chk := by
      apply map_bechChar_inj
      · intro d hd
        obtain ⟨c, hc, rfl⟩ := List.mem_map.1 hd
        exact hsym c hc
      · exact hlt
      · rw [← g8, List.map_map]
        apply List.map_congr_left
        intro c hc
        exact isSym_char (hsym c hc)
    refine ⟨by omega, by omega, hsym, ?_, ?_⟩
    · rw [hv, List.take_left' (by omega)]
    · rw [hv, ← g9]; rfl
  · rintro ⟨g1, g2, g3, g4, g5⟩
    have hlt : ∀ d ∈ b.map symVal, d.toNat < 32 := by
      intro d hd
      obtain ⟨c, hc, rfl⟩ := List.mem_map.1 hd
      exact g3 c hc
    have hcat : data ++ (b.map symVal).drop (b.length - 8) = b.map symVal := by
      rw [g4, List.take_append_drop]
    refine ⟨h1, h2, h3, ?_, ?_, (b.map symVal).drop (b.length - 8), ?_, ?_, ?_, ?_⟩
    · intro d hd; rw [g4] at hd; exact hlt d (List.mem_of_mem_take hd)
    · rw [g4]; simp; omega
    · simp; omega
    · intro d hd; exact hlt d (List.mem_of_mem_drop hd)
    · rw [hcat, List.map_map]
      congr 2
      apply List.map_congr_left
      intro c hc
      exact (isSym_char (g3 c hc)).symm
    · rw [hcat]; exact g5

theorem lower_letter : ∀ x : Byte, IsLower (lower x) → IsLower x ∨ IsUpper x := by decide +kernel
theorem letter_lower : ∀ x : Byte, IsLower x ∨ IsUpper x → lower x = x ||| 32 ∧ IsLower (lower x) := by
  decide +kernel
theorem alnum_ascii : ∀ x : Byte, IsAlnum x → x.toNat < 128 ∧ x ≠ 58 := by decide +kernel
theorem lower_colon : ∀ x : Byte, lower x = 58 ↔ x = 58 := by decide +kernel
theorem sym_alnum : ∀ x : Byte, IsSym x → IsAlnum x := by unfold IsSym; decide +kernel
theorem letter_ne : ∀ x : Byte, IsLower x → x ≠ 58 ∧ x ≠ 0 ∧ lower x = x ∧ ¬ IsUpper x := by
  decide +kernel

/-- `s` consists of a prefix of letters, a colon, and letters and digits. -/
def CashShape (s a b : List Byte) : Prop :=
  s = a ++ 58 :: b ∧ 1 ≤ a.length ∧ (∀ c ∈ a, IsLower c ∨ IsUpper c) ∧ (∀ c ∈ b, IsAlnum c)

theorem accept_colon {s pfx data : List Byte}
    (h : Cash32String pfx data (s.map lower)) : s.length ≤ 196 ∧ ∃ b, CashShape s
      (s.take pfx.length) b ∧ (s.take pfx.length).map lower = pfx ∧ 8 ≤ b.length ∧ b.length ≤ 112 := by
  obtain ⟨h1, h2, h3, h4, h5, chk, h6, h7, h8, h9⟩ := h
  obtain ⟨a, t, rfl, ha, ht⟩ := List.map_eq_append_iff.1 h8
  obtain ⟨c, b, rfl, hc, hb⟩ := List.map_eq_cons_iff.1 ht
  rw [(lower_colon c).1 hc] at *
  have hal : a.length = pfx.length := by rw [← ha, List.length_map]
  have hbl : b.length = data.length + 8 := by
    have := congrArg List.length hb
    simpa [h6] using this
  refine ⟨by simp; omega, b, ⟨?_, ?_, ?_, ?_⟩, ?_, by omega, by omega⟩
  · rw [List.take_left' hal]
  · rw [List.take_left' hal]; omega
  · rw [List.take_left' hal]
    intro x hx
    exact lower_letter x (h3 _ (by rw [← ha]; exact List.mem_map_of_mem hx))
  · intro x hx
    have : lower x ∈ (data ++ chk).map (fun d => bechChar d.toNat) := by
      rw [← hb]; exact List.mem_map_of_mem hx
    obtain ⟨d, hd, e⟩ := List.mem_map.1 this
    have hd32 : d.toNat < 32 := by
      rcases List.mem_append.1 hd with h | h
      exacts [h4 d h, h7 d h]
    exact sym_alnum x (isSym_of hd32 e.symm).1
  · rw [List.take_left' hal, ha]

theorem accept_bare {s f data : List Byte} (h : Cash32String f data (f ++ 58 :: s.map lower)) :
    s.length ≤ 112 ∧ 8 ≤ s.length ∧ ∀ c ∈ s, IsAlnum c := by
  have h' := (cashData_iff s data h.1 h.2.1 h.2.2.1).1 h
  exact ⟨h'.2.1, h'.1, fun c hc => sym_alnum c (h'.2.2.1 c hc)⟩

theorem any_mixed (s : List Byte) :
    (s.any (fun c => decide (IsLower c)) && s.any (fun c => decide (IsUpper c))) = true ↔
      Mixed s := by
  simp [Mixed, List.any_eq_true]

theorem not_mem_colon {b : List Byte} (h : ∀ c ∈ b, IsAlnum c) : (58 : Byte) ∉ b :=
  fun hm => (alnum_ascii _ (h _ hm)).2 rfl

theorem cashState_lower (a v : List Byte) : cashState (a.map lower) v = cashState a v := by
  unfold cashState
  rw [List.map_map]
  congr 3
  apply List.map_congr_left
  intro c _
  exact (lower_lo5 c).symm

/-- Everything about `cash32_deserialize`. -/
theorem cash_des {s f : List Byte} (hs0 : ∀ c ∈ s, c ≠ 0) (hf0 : ∀ c ∈ f, c ≠ 0)
    (rest frest : List Byte) :
    ∃ out, cash32_deserialize (s ++ 0 :: rest) (f ++ 0 :: frest) = .ok out ∧
      out.hrp.length ≤ 84 ∧ out.data.length ≤ 104 ∧
      (out.ret = true → ∃ pfx, out.hrp = pfx ++ [0] ∧ CashAccept s f pfx out.data) ∧
      ∀ pfx data, CashAccept s f pfx data → out = ⟨pfx ++ [0], data, true⟩ := by
  rw [cash32_deserialize, cash_scan_eq 196 s rest _ hs0]
  simp only [C.ok_bind]
  by_cases hl : s.length ≤ 196
  case neg =>
    have hno : ∀ pfx data, ¬ CashAccept s f pfx data := by
      rintro pfx data ⟨-, ⟨-, h⟩ | ⟨-, -, h⟩⟩
      · exact hl (accept_colon h).1
      · have := (accept_bare h).1; omega
    refine ⟨⟨[], [], false⟩, ?_, by simp, by simp, by simp, fun p d h => absurd h (hno p d)⟩
    cases hrun : cashRun (s.take 196) ⟨0, false, false, false, 0⟩ with
    | none => rfl
    | some st =>
      dsimp only [Option.map_some]
      split
      · rfl
      · obtain ⟨x, hx⟩ : ∃ x, (s.drop 196)[0]? = some x := by
          rw [List.getElem?_drop]; exact ⟨_, List.getElem?_eq_getElem (by omega)⟩
        have hx' : (s.drop 196 ++ 0 :: rest)[0]? = some x := by
          rw [List.getElem?_append_left (by rw [List.length_drop]; omega)]; exact hx
        have hxz : x ≠ 0 := hs0 x (List.mem_of_mem_drop (List.mem_of_getElem? hx))
        simp only [C.rd, hx', C.ok_bind]
        rw [if_pos hxz]
  rw [List.take_of_length_le hl, List.drop_eq_nil_of_le hl, List.nil_append]
  by_cases hA : ∀ c ∈ s, IsAlnum c
  · have h58 := not_mem_colon hA
    have hacc : ∀ pfx data, CashAccept s f pfx data ↔
        ¬ Mixed s ∧ pfx = f ∧ Cash32String f data (f ++ 58 :: s.map lower) := by
      intro pfx data; unfold CashAccept; tauto
    simp only [hacc]
    rw [cashRun_alnum s _ hA]
    simp only [Option.map_some, alnumSt, Nat.zero_add, Bool.false_or]
    by_cases h8 : s.length < 8
    · rw [if_pos h8]
      refine ⟨_, rfl, by simp, by simp, by simp, ?_⟩
      rintro pfx data ⟨-, -, h⟩
      have := (accept_bare h).2.1; omega
    rw [if_neg h8]
    simp only [C.rd, List.getElem?_cons_zero, C.ok_bind]
    rw [if_neg (by simp)]
    by_cases hm : Mixed s
    · rw [if_pos ((any_mixed s).2 hm)]
      exact ⟨_, rfl, by simp, by simp, by simp, fun _ _ h => absurd hm h.1⟩
    rw [if_neg (fun h => hm ((any_mixed s).1 h)), if_pos trivial]
    by_cases hg : ∀ c ∈ f.take 83, IsLower c
    case neg =>
      obtain ⟨o, ho, hol⟩ := fallback_bad 83 f frest 1 hf0 hg
      rw [ho]
      refine ⟨_, rfl, by dsimp only; omega, by simp, by simp, ?_⟩
      rintro pfx data ⟨-, -, h⟩
      exact absurd (fun c hc => h.2.2.1 c (List.mem_of_mem_take hc)) hg
    rw [fallback_eq 83 f frest 1 hf0 hg]
    simp only [C.ok_bind, List.length_take]
    by_cases hz : min 83 f.length = 0
    · rw [if_pos hz]
      refine ⟨_, rfl, by simp, by simp, by simp, ?_⟩
      rintro pfx data ⟨-, -, h⟩
      have := h.1; omega
    rw [if_neg hz]
    by_cases hfl : f.length ≤ 83
    case neg =>
      obtain ⟨x, hx⟩ : ∃ x, (f.drop 83)[0]? = some x := by
        rw [List.getElem?_drop]; exact ⟨_, List.getElem?_eq_getElem (by omega)⟩
      have hx' : (f.drop 83 ++ 0 :: frest)[0]? = some x := by
        rw [List.getElem?_append_left (by rw [List.length_drop]; omega)]; exact hx
      have hxz : x ≠ 0 := hf0 x (List.mem_of_mem_drop (List.mem_of_getElem? hx))
      simp only [hx', C.ok_bind]
      rw [if_pos hxz]
      refine ⟨_, rfl, by simp, by simp, by simp, ?_⟩
      rintro pfx data ⟨-, -, h⟩
      have := h.2.1; omega
    rw [List.take_of_length_le hfl] at hg
    rw [List.take_of_length_le hfl, List.drop_eq_nil_of_le hfl, List.nil_append]
    simp only [List.getElem?_cons_zero, C.ok_bind]
    rw [if_neg (by simp)]
    obtain ⟨k1, k2, k3⟩ := cash_finish_eq [] s rest f (f ++ [0])
      (fun c hc => (alnum_ascii c (hA c hc)).1)
    simp only [List.nil_append] at k1 k2 k3
    have hiff := fun data => cashData_iff s data (by omega) hfl hg
    by_cases h112 : s.length ≤ 112
    case neg =>
      rw [k1 (by omega)]
      refine ⟨_, rfl, by simp; omega, by simp, by simp, ?_⟩
      rintro pfx data ⟨-, -, h⟩
      have := (accept_bare h).1; omega
    by_cases hsym : ∀ c ∈ s, IsSym c
    · rw [k2 (by omega) h112 hsym]
      refine ⟨_, rfl, by simp; omega, by simp; omega, ?_, ?_⟩
      · intro h
        refine ⟨f, rfl, hm, rfl, ?_⟩
        rw [hiff]
        exact ⟨by omega, h112, hsym, rfl, by simpa using h⟩
      · rintro pfx data ⟨-, rfl, h⟩
        rw [hiff] at h
        rw [h.2.2.2.2, h.2.2.2.1]; simp
    · obtain ⟨o, ho, hol⟩ := k3 (by omega) h112 hsym
      rw [ho]
      refine ⟨_, rfl, by simp; omega, hol, by simp, ?_⟩
      rintro pfx data ⟨-, -, h⟩
      rw [hiff] at h
      exact absurd h.2.2.1 hsym
  by_cases hB : ∃ a b, CashShape s a b
  · obtain ⟨a, b, rfl, ha, hal, hb⟩ := hB
    have hacc : ∀ pfx data, CashAccept (a ++ 58 :: b) f pfx data ↔ ¬ Mixed (a ++ 58 :: b) ∧
        pfx = a.map lower ∧ Cash32String pfx data (a.map lower ++ 58 :: b.map lower) := by
      intro pfx data
      unfold CashAccept
      have hml : (a ++ 58 :: b).map lower = a.map lower ++ 58 :: b.map lower := by
        rw [List.map_append, List.map_cons, (lower_colon 58).2 rfl]
      rw [hml]
      constructor
      · rintro ⟨hm, ⟨-, h⟩ | ⟨h, -⟩⟩
        · refine ⟨hm, ?_, h⟩
          obtain ⟨-, b', ⟨e, -, -, e3⟩, e4, -⟩ := accept_colon (s := a ++ 58 :: b) (pfx := pfx)
            (data := data) (by rw [hml]; exact h)
          rw [← e4, ← (split_unique e (not_mem_colon hb) (not_mem_colon e3)).1]
        · exact absurd (by simp) h
      · rintro ⟨hm, rfl, h⟩
        exact ⟨hm, Or.inl ⟨by simp, h⟩⟩
    simp only [hacc]
    have hrun := cashRun_colon a b ha hal hb
    rw [st0] at hrun
    rw [hrun]
    have hll : ∀ c ∈ a.map lower, IsLower c := by
      intro c hc
      obtain ⟨x, hx, rfl⟩ := List.mem_map.1 hc
      exact (letter_lower x (hal x hx)).2
    have hiff := fun (h83 : a.length ≤ 83) data => cashData_iff (pfx := a.map lower) b data
      (by simpa using ha) (by simpa using h83) hll
    simp only [Option.map_some]
    by_cases h8 : a.length + 1 + b.length < 8
    · rw [if_pos h8]
      refine ⟨_, rfl, by simp, by simp, by simp, ?_⟩
      rintro pfx data ⟨-, rfl, h⟩
      have := h.2.1
      rw [hiff (by simpa using this)] at h
      omega
    rw [if_neg h8]
    simp only [C.rd, List.getElem?_cons_zero, C.ok_bind]
    rw [if_neg (by simp)]
    by_cases hm : Mixed (a ++ 58 :: b)
    · rw [if_pos ((any_mixed _).2 hm)]
      exact ⟨_, rfl, by simp, by simp, by simp, fun _ _ h => absurd hm h.1⟩
    rw [if_neg (fun h => hm ((any_mixed _).1 h)), if_neg (by omega)]
    by_cases h83 : a.length > 83
    · rw [if_pos h83]
      refine ⟨_, rfl, by simp, by simp, by simp, ?_⟩
      rintro pfx data ⟨-, rfl, h⟩
      have := h.2.1
      simp at this; omega
    rw [if_neg h83]
    replace hiff := hiff (by omega)
    have hpre : (((a ++ 58 :: b) ++ 0 :: rest).take a.length).map (· ||| 32) = a.map lower := by
      rw [List.append_assoc, List.take_left' rfl]
      apply List.map_congr_left
      intro x hx
      exact (letter_lower x (hal x hx)).1.symm
    obtain ⟨k1, k2, k3⟩ := cash_finish_eq (a ++ [58]) b rest (a.map lower) (a.map lower ++ [0])
      (fun c hc => (alnum_ascii c (hb c hc)).1)
    have e1 : (a ++ [58]) ++ b = a ++ 58 :: b := by simp
    have e2 : (a ++ 58 :: b).length = a.length + 1 + b.length := by simp; omega
    simp only [e1, e2] at k1 k2 k3
    rw [hpre, show a.length + 1 + b.length - (a.length + 1) = b.length by omega]
    by_cases hbl : b.length < 8 ∨ b.length > 112
    · rw [k1 hbl]
      refine ⟨_, rfl, by simp; omega, by simp, by simp, ?_⟩
      rintro pfx data ⟨-, rfl, h⟩
      rw [hiff] at h; omega
    by_cases hsym : ∀ c ∈ b, IsSym c
    · rw [k2 (by omega) (by omega) hsym]
      refine ⟨_, rfl, by simp; omega, by simp; omega, ?_, ?_⟩
      · intro h
        refine ⟨a.map lower, rfl, hm, rfl, ?_⟩
        rw [hiff]
        exact ⟨by omega, by omega, hsym, rfl, by simpa using h⟩
      · rintro pfx data ⟨-, rfl, h⟩
        rw [hiff] at h
        rw [h.2.2.2.2, h.2.2.2.1]; simp
    · obtain ⟨o, ho, hol⟩ := k3 (by omega) (by omega) hsym
      rw [ho]
      refine ⟨_, rfl, by simp; omega, hol, by simp, ?_⟩
      rintro pfx data ⟨-, rfl, h⟩
      rw [hiff] at h
      exact absurd h.2.2.1 hsym
  · have hrun : cashRun s ⟨0, false, false, false, 0⟩ = none := by
      cases hrun : cashRun s ⟨0, false, false, false, 0⟩ with
      | none => rfl
      | some st =>
        rcases cashRun_some hrun with h | ⟨a, b, h⟩
        · exact absurd h hA
        · exact absurd ⟨a, b, h⟩ hB
    rw [hrun]
    refine ⟨_, rfl, by simp, by simp, by simp, ?_⟩
    rintro pfx data ⟨-, ⟨-, h⟩ | ⟨-, -, h⟩⟩
    · obtain ⟨-, b, h, -⟩ := accept_colon h
      exact absurd ⟨_, b, h⟩ hB
    · exact absurd (accept_bare h).2.2 hA

end Torsion
