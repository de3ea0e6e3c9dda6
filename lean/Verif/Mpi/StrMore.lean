import Verif.Mpi.StrLemmas

namespace Torsion.Mpi

open Spec

theorem mapM_digits {base : Nat} : ∀ {l : List Byte} {ds : List Nat}, l.mapM (digitOf base) = some ds →
    ds.length = l.length ∧ ∀ d ∈ ds, d < base
  | [], ds, h => by
    simp only [List.mapM_nil, Option.pure_def, Option.some.injEq] at h
    subst h
    exact ⟨rfl, by simp⟩
  | c :: l, ds, h => by
    rw [List.mapM_cons] at h
    simp only [Option.bind_eq_bind, Option.pure_def] at h
    cases hd : digitOf base c with
    | none => rw [hd] at h; simp at h
    | some d =>
      rw [hd] at h
      simp only [Option.bind_some] at h
      cases hm : l.mapM (digitOf base) with
      | none => rw [hm] at h; simp at h
      | some es =>
        rw [hm] at h
        simp only [Option.bind_some, Option.some.injEq] at h
        subst h
        obtain ⟨h1, h2⟩ := mapM_digits hm
        refine ⟨by rw [List.length_cons, List.length_cons, h1], fun x hx => ?_⟩
        rcases List.mem_cons.1 hx with rfl | hx
        · unfold digitOf at hd
          dsimp only at hd
          simpa using (Option.filter_eq_some_iff.1 hd).2
        · exact h2 x hx

theorem parse_lt {base : Nat} (h1 : 1 < base) {s : List Byte} {v : Nat} (h : parseNat base s = some v) :
    v < base ^ (s.filter fun c => !isBlank c).length := by
  unfold parseNat at h
  cases hm : (s.filter fun c => !isBlank c).mapM (digitOf base) with
  | none => rw [hm] at h; simp at h
  | some ds =>
    rw [hm] at h
    simp only [Option.map_some, Option.some.injEq] at h
    subst h
    obtain ⟨hl, hd⟩ := mapM_digits hm
    rw [← hl, ← List.length_reverse]
    exact Nat.ofDigits_lt_base_pow_length h1 (fun x hx => hd x (List.mem_reverse.1 hx))

/-- `mpn_set_str` in terms of `parseNat`. -/
theorem setstr_val (zn b : Nat) (h2 : 2 ≤ b) (h62 : b ≤ 62) (s : List Byte) (h0 : 0#8 ∉ s) :
    match parseNat b s with
    | none => mpn_set_str zn s b = (mpn_zero zn, false)
    | some v => if v < 2 ^ (64 * zn) then ∃ z, mpn_set_str zn s b = (z, true) ∧ z.length = zn ∧ val z = v
      else mpn_set_str zn s b = (mpn_zero zn, false) := by
  unfold mpn_set_str parseNat
  rw [if_neg (by omega), Int.toNat_natCast]
  dsimp only
  have ht : ∀ c : Byte, digitOf b c = if ((if (b : Int) ≤ 36 then mp_table_36 else mp_table_62)[c.toNat]'(c.isLt)) ≥ b
      then none else some ((if (b : Int) ≤ 36 then mp_table_36 else mp_table_62)[c.toNat]'(c.isLt)) := by
    intro c
    by_cases hb : b ≤ 36
    · have hb' : (b : Int) ≤ 36 := by omega
      simp only [if_pos hb']
      exact table36 c b hb
    · have hb' : ¬ (b : Int) ≤ 36 := by omega
      simp only [if_neg hb']
      exact table62 c b hb h62
  have hs : (if b &&& (b - 1) = 0 then mp_bitlen (BitVec.ofNat 64 (b - 1)) else 0) > 0 →
      b = 2 ^ (if b &&& (b - 1) = 0 then mp_bitlen (BitVec.ofNat 64 (b - 1)) else 0) ∧
      (if b &&& (b - 1) = 0 then mp_bitlen (BitVec.ofNat 64 (b - 1)) else 0) ≤ 5 := by
    split
    · intro _
      obtain ⟨h1, -, h3⟩ := pow_shift b h2 h62 (by assumption)
      exact ⟨h1, h3⟩
    · intro h; omega
  have key := setstr_loop zn _ b _ h2 h62 hs ht s [] h0 norm_nil (Nat.zero_le _)
  generalize mpn_set_str_loop zn _ b _ s [] = r at key ⊢
  cases hm : (s.filter fun c => !isBlank c).mapM (digitOf b) with
  | none =>
    rw [hm] at key
    simp only [Option.map_none] at key ⊢
    rw [key]
  | some ds =>
    rw [hm] at key
    simp only [Option.map_some, val_nil, Nat.zero_mul, Nat.zero_add] at key ⊢
    split at key
    · next hlt =>
      rw [if_pos hlt]
      obtain ⟨z, rfl, -, hl, hv⟩ := key
      refine ⟨_, rfl, ?_, ?_⟩
      · rw [List.length_append, len_zeros]; omega
      · rw [val_append, val_zeros, hv]; omega
    · next hlt =>
      rw [if_neg hlt, key]

theorem count_val : ∀ (s : List Byte) (n : Nat), 0#8 ∉ s → mp_str_count s n = n + (s.filter fun c => !isBlank c).length
  | [], n, _ => rfl
  | c :: s, n, h => by
    unfold mp_str_count
    rw [if_neg (fun e : c = 0 => h (by rw [e]; exact List.mem_cons_self ..)),
      count_val s _ (fun hh => h (List.mem_cons_of_mem _ hh)), isspace_eq]
    cases hb : isBlank c
    · rw [List.filter_cons_of_pos (by simp [hb])]
      simp only [Bool.false_eq_true, if_false, List.length_cons]
      omega
    · rw [List.filter_cons_of_neg (by simp [hb])]
      simp

/-- The loop of `mp_str_limbs` ends with a power that fits a limb. -/
def powFits (b : Nat) : Bool :=
  match mp_str_pow ((-1 : Limb) / BitVec.ofNat 64 b) (BitVec.ofNat 64 b) 64 (BitVec.ofNat 64 b) 1 with
  | .ok L => 0 < L && b ^ L ≤ 2 ^ 64
  | _ => false

/-- For every base it is used with. -/
theorem pow_fits : ∀ b : Fin 63, 2 ≤ b.val → powFits b.val = true := by decide +kernel

theorem str_pow (b : Nat) (h2 : 2 ≤ b) (h62 : b ≤ 62) : ∃ L,
    mp_str_pow ((-1 : Limb) / BitVec.ofNat 64 b) (BitVec.ofNat 64 b) 64 (BitVec.ofNat 64 b) 1 = .ok L ∧
    0 < L ∧ b ^ L ≤ 2 ^ 64 := by
  have h := pow_fits ⟨b, by omega⟩ h2
  unfold powFits at h
  dsimp only at h
  split at h
  · next L e =>
    simp only [Bool.and_eq_true, decide_eq_true_eq] at h
    exact ⟨L, e, h⟩
  · cases h

/-- The limbs reserved for a string suffice. -/
theorem str_limbs (b : Nat) (h2 : 2 ≤ b) (h62 : b ≤ 62) (s : List Byte) (h0 : 0#8 ∉ s) :
    ∃ zn, mp_str_limbs s b = .ok zn ∧ b ^ (s.filter fun c => !isBlank c).length ≤ 2 ^ (64 * zn) := by
  unfold mp_str_limbs
  have hb1 : (if (b : Int) < 2 then 2 else if (b : Int) > 62 then 62 else (b : Int).toNat) = b := by
    rw [if_neg (by omega), if_neg (by omega), Int.toNat_natCast]
  simp only [count_val s 0 h0, Nat.zero_add, hb1]
  generalize hn : (s.filter fun c => !isBlank c).length = n
  have hle : n ≤ (if n = 0 then 1 else n) := by split <;> omega
  generalize (if n = 0 then 1 else n) = m at hle
  have hbn : b ^ n ≤ b ^ m := Nat.pow_le_pow_right (by omega) hle
  by_cases hp : b &&& (b - 1) = 0
  · rw [if_pos hp]
    obtain ⟨h1, h3, h5⟩ := pow_shift b h2 h62 hp
    refine ⟨_, rfl, Nat.le_trans hbn ?_⟩
    generalize mp_bitlen (BitVec.ofNat 64 (b - 1)) = w at *
    rw [h1, ← Nat.pow_mul, Nat.mul_comm]
    exact Nat.pow_le_pow_right (by decide) (by omega)
  · rw [if_neg hp]
    obtain ⟨L, hL1, hL, hpow⟩ := str_pow b h2 h62
    · rw [hL1, C.ok_bind]
      refine ⟨_, rfl, Nat.le_trans hbn ?_⟩
      have h1 : m ≤ L * ((m + L - 1) / L) := by
        have := Nat.div_add_mod (m + L - 1) L
        have := Nat.mod_lt (m + L - 1) hL
        omega
      refine Nat.le_trans (Nat.pow_le_pow_right (by omega) h1) ?_
      rw [Nat.pow_mul, Nat.pow_mul]
      exact Nat.pow_le_pow_left hpow _

/-- `mpz_set_str` after sign and prefix. -/
theorem setstr_abs (b : Nat) (h2 : 2 ≤ b) (h62 : b ≤ 62) (s : List Byte) (h0 : 0#8 ∉ s) :
    match parseNat b s with
    | none => ∃ zn, mp_str_limbs s b = .ok zn ∧ mpn_set_str zn s b = (mpn_zero zn, false)
    | some v => ∃ zn z, mp_str_limbs s b = .ok zn ∧ mpn_set_str zn s b = (z, true) ∧ val z = v := by
  obtain ⟨zn, hzn, hle⟩ := str_limbs b h2 h62 s h0
  have key := setstr_val zn b h2 h62 s h0
  cases hp : parseNat b s with
  | none => rw [hp] at key; exact ⟨zn, hzn, key⟩
  | some v =>
    rw [hp] at key
    have hlt := parse_lt (by omega) hp
    simp only [if_pos (Nat.lt_of_lt_of_le hlt hle)] at key
    obtain ⟨z, hz, -, hv⟩ := key
    exact ⟨zn, z, hzn, hz, hv⟩

theorem not_mem_drop {s : List Byte} (h : 0#8 ∉ s) (n : Nat) : 0#8 ∉ s.drop n := fun hh => h (List.mem_of_mem_drop hh)

theorem autoBase_eq (s : List Byte) : mpz_set_str_base s = (((autoBase s).1 : Int), (autoBase s).2) ∧
    2 ≤ (autoBase s).1 ∧ (autoBase s).1 ≤ 62 ∧ (0#8 ∉ s → 0#8 ∉ (autoBase s).2) := by
  unfold mpz_set_str_base autoBase
  match s with
  | [] => exact ⟨rfl, by simp, by simp, id⟩
  | c :: t =>
    by_cases hc : c = 48#8
    · subst hc
      match t with
      | [] => exact ⟨rfl, by simp, by simp, id⟩
      | d :: r =>
        simp only [List.getD_cons_succ, List.getD_cons_zero, List.drop_succ_cons, List.drop_zero, ne_eq, not_true_eq_false,
          if_true, if_false]
        have hr : 0#8 ∉ 48#8 :: d :: r → 0#8 ∉ r := fun h hh => h (by simp [hh])
        by_cases h1 : d = 98#8 ∨ d = 66#8
        · simp only [if_pos h1]
          exact ⟨rfl, by simp, by simp, hr⟩
        by_cases h2 : d = 111#8 ∨ d = 79#8
        · simp only [if_neg h1, if_pos h2]
          exact ⟨rfl, by simp, by simp, hr⟩
        by_cases h3 : d = 120#8 ∨ d = 88#8
        · simp only [if_neg h1, if_neg h2, if_pos h3]
          exact ⟨rfl, by simp, by simp, hr⟩
        · simp only [if_neg h1, if_neg h2, if_neg h3]
          exact ⟨rfl, by simp, by simp, id⟩
    · simp only [List.getD_cons_zero, if_neg hc, ne_eq, hc, not_false_eq_true, if_true]
      exact ⟨rfl, by simp, by simp, id⟩

theorem dropWhile_eq (s : List Byte) : s.dropWhile mp_isspace = s.dropWhile isBlank := by
  congr 1; funext c; exact isspace_eq c

theorem not_mem_dropWhile {s : List Byte} (h : 0#8 ∉ s) : 0#8 ∉ s.dropWhile isBlank :=
  fun hh => h (List.dropWhile_sublist _ |>.mem hh)

/-- The unsigned part of `mpz_set_str`. -/
theorem setstr_tail (b : Nat) (hb : b = 0 ∨ 2 ≤ b ∧ b ≤ 62) (s : List Byte) (h0 : 0#8 ∉ s) (neg : Bool) :
    let bs := if (b : Int) = 0 then mpz_set_str_base s else ((b : Int), s)
    match parseAbs b s with
    | none => (do
        let zn ← mp_str_limbs bs.2 bs.1
        mpz_grow .heap zn
        let r := mpn_set_str zn bs.2 bs.1
        if !r.2 then .ok ((⟨false, []⟩ : Mpz), false)
        else .ok (mpz_make neg (mpn_strip r.1), true)) = C.ok ((⟨false, []⟩ : Mpz), false)
    | some v => ∃ z, (do
        let zn ← mp_str_limbs bs.2 bs.1
        mpz_grow .heap zn
        let r := mpn_set_str zn bs.2 bs.1
        if !r.2 then .ok ((⟨false, []⟩ : Mpz), false)
        else .ok (mpz_make neg (mpn_strip r.1), true)) = C.ok (z, true) ∧ Rep z (if neg then -(v : Int) else v) := by
  intro bs
  obtain ⟨b', s', hbs, h2, h62, h0', hp⟩ : ∃ (b' : Nat) (s' : List Byte), bs = ((b' : Int), s') ∧ 2 ≤ b' ∧ b' ≤ 62 ∧
      0#8 ∉ s' ∧ parseAbs b s = parseNat b' s' := by
    rcases hb with rfl | ⟨hb2, hb62⟩
    · obtain ⟨h1, h2, h3, h4⟩ := autoBase_eq s
      exact ⟨_, _, h1, h2, h3, h4 h0, rfl⟩
    · exact ⟨b, s, if_neg (by omega), hb2, hb62, h0, if_neg (by omega)⟩
  rw [hbs, hp]
  have key := setstr_abs b' h2 h62 s' h0'
  cases hq : parseNat b' s' with
  | none =>
    rw [hq] at key
    obtain ⟨zn, h1, h3⟩ := key
    simp only [h1, C.ok_bind, mpz_grow, h3, Bool.not_false, if_true]
  | some v =>
    rw [hq] at key
    obtain ⟨zn, z, h1, h3, hv⟩ := key
    simp only [h1, C.ok_bind, mpz_grow, h3, Bool.not_true, Bool.false_eq_true, if_false]
    have := make_rep neg (strip_norm z)
    rw [strip_val, hv] at this
    exact ⟨_, rfl, this⟩

/-- `mpz_set_str` in terms of `parseInt`. -/
theorem mpz_setstr (b : Nat) (hb : b = 0 ∨ 2 ≤ b ∧ b ≤ 62) (s : List Byte) (h0 : 0#8 ∉ s) :
    match parseInt b s with
    | none => mpz_set_str .heap s b = .ok (⟨false, []⟩, false)
    | some i => ∃ z, mpz_set_str .heap s b = .ok (z, true) ∧ Rep z i := by
  unfold parseInt mpz_set_str
  rw [dropWhile_eq]
  have h0' := not_mem_dropWhile h0
  generalize s.dropWhile isBlank = t at h0'
  unfold parseSigned
  match t with
  | [] =>
    have key := setstr_tail b hb [] h0' false
    simp only [List.getD_nil, show (0#8 : Byte) ≠ 43#8 by decide, show (0#8 : Byte) ≠ 45#8 by decide, or_false,
      if_false, decide_false]
    cases hp : parseAbs b [] with
    | none => rw [hp] at key; exact key
    | some v => rw [hp] at key; exact key
  | c :: t =>
    simp only [List.getD_cons_zero, List.drop_succ_cons, List.drop_zero]
    have ht : 0#8 ∉ t := fun hh => h0' (List.mem_cons_of_mem _ hh)
    by_cases hm : c = 45#8
    · rw [if_pos hm, if_pos (Or.inr hm)]
      have key := setstr_tail b hb t ht true
      simp only [hm, decide_true]
      cases hp : parseAbs b t with
      | none => rw [hp] at key; exact key
      | some v => rw [hp] at key; exact key
    · rw [if_neg hm]
      by_cases hpl : c = 43#8
      · rw [if_pos hpl, if_pos (Or.inl hpl)]
        have key := setstr_tail b hb t ht false
        simp only [hm, decide_false]
        cases hp : parseAbs b t with
        | none => rw [hp] at key; exact key
        | some v => rw [hp] at key; exact key
      · rw [if_neg hpl]
        have key := setstr_tail b hb (c :: t) h0' false
        simp only [hm, hpl, decide_false, or_self, if_false]
        cases hp : parseAbs b (c :: t) with
        | none => rw [hp] at key; exact key
        | some v => rw [hp] at key; exact key

theorem mpz_setstr_base (b : Int) (hb : b ≠ 0 ∧ b < 2 ∨ 62 < b) (s : List Byte) (h0 : 0#8 ∉ s) :
    mpz_set_str .heap s b = .ok (⟨false, []⟩, false) := by
  unfold mpz_set_str
  have hne : b ≠ 0 := by omega
  simp only [if_neg hne]
  rw [dropWhile_eq]
  have h0' := not_mem_dropWhile h0
  generalize s.dropWhile isBlank = t at h0'
  have h0'' : 0#8 ∉ (if t.getD 0 0 = 43#8 ∨ t.getD 0 0 = 45#8 then t.drop 1 else t) := by
    split
    · exact not_mem_drop h0' 1
    · exact h0'
  generalize (if t.getD 0 0 = 43#8 ∨ t.getD 0 0 = 45#8 then t.drop 1 else t) = u at h0''
  have : ∃ zn, mp_str_limbs u b = .ok zn := by
    rcases hb with ⟨-, h⟩ | h
    · obtain ⟨zn, h1, -⟩ := str_limbs 2 (by decide) (by decide) u h0''
      refine ⟨zn, ?_⟩
      rw [← h1]
      unfold mp_str_limbs
      simp only [if_pos h]
      rfl
    · obtain ⟨zn, h1, -⟩ := str_limbs 62 (by decide) (by decide) u h0''
      refine ⟨zn, ?_⟩
      rw [← h1]
      unfold mp_str_limbs
      simp only [if_pos (show b > 62 from h), if_neg (show ¬ b < 2 by omega)]
      rfl
  obtain ⟨zn, hzn⟩ := this
  have h3 : mpn_set_str zn u b = (mpn_zero zn, false) := by
    unfold mpn_set_str
    rw [if_pos (by omega)]
  simp only [hzn, C.ok_bind, mpz_grow, h3, Bool.not_false, if_true]

end Torsion.Mpi
