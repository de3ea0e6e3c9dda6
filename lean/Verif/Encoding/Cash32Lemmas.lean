import Verif.Encoding.Bech32Decode

/-! # Lemmas for cash32 -/
namespace Torsion
open Spec

theorem cash32_step (c v : BitVec 64) :
    (cash32_polymod c ^^^ v).toNat = polyStep 35 cash32Gen c.toNat v.toNat := by
  rw [BitVec.toNat_xor, cash32_polymod_toNat, polyStep_eq]

theorem cash32_fold (f : Byte → BitVec 64) (g : Byte → Nat) : ∀ (l : List Byte) (c : BitVec 64),
    (∀ x ∈ l, (f x).toNat = g x) →
    (l.foldl (fun chk x => cash32_polymod chk ^^^ f x) c).toNat =
      (l.map g).foldl (polyStep 35 cash32Gen) c.toNat
  | [], c, _ => rfl
  | x :: l, c, h => by
    rw [List.foldl_cons, cash32_fold f g l _ (fun y hy => h y (by simp [hy])), List.map_cons,
      List.foldl_cons, cash32_step, h x (by simp)]

theorem lo5_64 : ∀ x : Byte, ((x &&& 0x1f).zeroExtend 64).toNat = x.toNat % 32 := by
  decide +kernel

theorem zx64 (x : Byte) : (x.zeroExtend 64).toNat = x.toNat := by
  simp [BitVec.zeroExtend, BitVec.toNat_setWidth]
  have := x.isLt; omega

/-- Residue of prefix and symbols. -/
def cashState (pfx vals : List Byte) : Nat :=
  (pfx.map (fun x : Byte => x.toNat % 32) ++ [0] ++ vals.map (fun x : Byte => x.toNat)).foldl (polyStep 35 cash32Gen) 1

def cashChk (pfx data : List Byte) : List Nat :=
  unpack 8 ((polyMap 35 cash32Gen)^[8] (cashState pfx data) ^^^ 1)

theorem cash_words (h data : List Byte) :
    (data.foldl (fun chk (d : Byte) => cash32_polymod chk ^^^ d.zeroExtend 64)
      (cash32_polymod (h.foldl
        (fun chk (c : Byte) => cash32_polymod chk ^^^ (c &&& 0x1f).zeroExtend 64) 1))).toNat =
      cashState h data := by
  rw [cash32_fold _ (·.toNat) data _ (fun x _ => zx64 x), cash32_polymod_toNat,
    cash32_fold _ (·.toNat % 32) h _ (fun x _ => lo5_64 x)]
  rw [cashState]
  simp only [List.foldl_append, List.foldl_cons, List.foldl_nil]
  rfl

theorem prefix_scan_eq : ∀ (n : Nat) (h rest : List Byte) (k : Nat), (∀ c ∈ h, c ≠ 0) →
    cash32_prefix_scan n (h ++ 0 :: rest) k =
      if ∀ c ∈ h.take n, IsLower c then
        .ok (some (k + min n h.length, h.drop n ++ 0 :: rest))
      else .ok none
  | 0, h, rest, k, _ => by simp [cash32_prefix_scan]
  | n + 1, [], rest, k, _ => by simp [cash32_prefix_scan]
  | n + 1, c :: h, rest, k, h0 => by
    rw [List.cons_append, cash32_prefix_scan, if_neg (h0 c (by simp))]
    by_cases h1 : c.toNat < 97 ∨ c.toNat > 122
    · rw [if_pos h1, if_neg]
      intro h; have := h c (by simp); unfold IsLower at this; omega
    rw [if_neg h1, prefix_scan_eq n h rest _ (fun x hx => h0 x (by simp [hx]))]
    have hc : IsLower c := by unfold IsLower; omega
    simp only [List.take_succ_cons, List.forall_mem_cons, hc, true_and, List.length_cons,
      List.drop_succ_cons]
    rw [show k + 1 + min n h.length = k + min (n + 1) (h.length + 1) by omega]

theorem cash_data_loop_eq : ∀ (ds : List Byte) (chk : BitVec 64), (∀ d ∈ ds, d.toNat < 32) →
    cash32_data_loop chk ds = .ok (ds.map (fun d => bechChar d.toNat),
      some (ds.foldl (fun chk d => cash32_polymod chk ^^^ d.zeroExtend 64) chk))
  | [], chk, _ => rfl
  | d :: ds, chk, h => by
    have hd := h d (by simp)
    rw [cash32_data_loop, if_neg (by rw [shr5_ne]; omega), charset_eq, charset_rd' hd, C.ok_bind,
      cash_data_loop_eq ds _ (fun x hx => h x (by simp [hx]))]
    rfl

theorem cash_data_loop_bad : ∀ (ds : List Byte) (chk : BitVec 64), (¬ ∀ d ∈ ds, d.toNat < 32) →
    ∃ o, cash32_data_loop chk ds = .ok (o, none) ∧ o.length ≤ ds.length
  | [], chk, h => by simp at h
  | d :: ds, chk, h => by
    by_cases hd : d.toNat < 32
    · obtain ⟨o, ho, hl⟩ := cash_data_loop_bad ds (cash32_polymod chk ^^^ d.zeroExtend 64)
        (by simpa [hd] using h)
      refine ⟨bechChar d.toNat :: o, ?_, by simpa using hl⟩
      rw [cash32_data_loop, if_neg (by rw [shr5_ne]; omega), charset_eq, charset_rd' hd, C.ok_bind,
        ho]
      rfl
    · exact ⟨[], by rw [cash32_data_loop, if_pos ((shr5_ne d).2 hd)], by simp⟩

theorem cash_chk_char_eq (chk : BitVec 64) (sh : Nat) :
    cash32_chk_char chk sh = .ok (bechChar (chk.toNat / 2 ^ sh % 32)) := by
  have : ((chk >>> sh) &&& 0x1f#64).toNat = chk.toNat / 2 ^ sh % 32 := by
    rw [BitVec.toNat_and, BitVec.toNat_ushiftRight, Nat.shiftRight_eq_div_pow,
      show (0x1f#64 : BitVec 64).toNat = 2 ^ 5 - 1 from rfl, Nat.and_two_pow_sub_one_eq_mod]
  rw [cash32_chk_char, this, charset_eq, charset_rd' (Nat.mod_lt _ (by omega))]

theorem unpack8 (x : Nat) : unpack 8 x = [x / 2 ^ 35 % 32, x / 2 ^ 30 % 32, x / 2 ^ 25 % 32,
    x / 2 ^ 20 % 32, x / 2 ^ 15 % 32, x / 2 ^ 10 % 32, x / 2 ^ 5 % 32, x / 2 ^ 0 % 32] := by
  simp only [unpack, Nat.div_div_eq_div_mul]
  norm_num

theorem iter8 (c : BitVec 64) : (cash32_polymod (cash32_polymod (cash32_polymod (cash32_polymod
    (cash32_polymod (cash32_polymod (cash32_polymod (cash32_polymod c)))))))).toNat =
      (polyMap 35 cash32Gen)^[8] c.toNat := by
  simp only [cash32_polymod_toNat]; rfl

theorem cash32String_iff (pfx data s : List Byte) :
    Cash32String pfx data s ↔
      1 ≤ pfx.length ∧ pfx.length ≤ 83 ∧ (∀ c ∈ pfx, IsLower c) ∧ (∀ d ∈ data, d.toNat < 32) ∧
      data.length ≤ 104 ∧
      s = pfx ++ 58 :: (data.map (fun d => bechChar d.toNat) ++ (cashChk pfx data).map bechChar) := by
  have key := fun (chk : List Byte) (h8 : chk.length = 8) (hb : ∀ d ∈ chk, d.toNat < 32) =>
    polymod_checksum (k := 35) (n := 8) (by omega) cash32Gen cash32Gen_lt (const := 1)
    (pre := pfx.map (·.toNat % 32) ++ [0] ++ data.map (·.toNat)) rfl (by norm_num) (by omega)
    (chk := chk.map (·.toNat)) (by simpa using h8)
    (by simpa using hb)
  constructor
  · rintro ⟨h1, h2, h3, h4, h4', chk, h5, h6, h7, h8⟩
    have hk := (key chk h5 h6).1 (by rw [← h8]; simp)
    refine ⟨h1, h2, h3, h4, h4', ?_⟩
    rw [h7, cashChk, cashState, ← hk]
    simp [Function.comp_def]
  · rintro ⟨h1, h2, h3, h4, h4', h5⟩
    have hlt : ∀ d ∈ (cashChk pfx data).map (BitVec.ofNat 8), d.toNat < 32 := by
      intro d hd
      obtain ⟨v, hv, rfl⟩ := List.mem_map.1 hd
      have := unpack_lt 8 _ v hv
      simp; omega
    refine ⟨h1, h2, h3, h4, h4', (cashChk pfx data).map (BitVec.ofNat 8), ?_, hlt, ?_, ?_⟩
    · simp [cashChk, unpack_len]
    · rw [h5, List.map_append]
      congr 3
      rw [List.map_map]
      apply List.map_congr_left
      intro v hv
      have := unpack_lt 8 _ v hv
      simp only [Function.comp_apply, BitVec.toNat_ofNat]
      rw [Nat.mod_eq_of_lt (by omega)]
    · have := (key ((cashChk pfx data).map (BitVec.ofNat 8)) (by simp [cashChk, unpack_len])
        hlt).2
        (by rw [cashChk]; exact toNat_map_ofNat _ (unpack_lt 8 _))
      rw [List.map_append, ← List.append_assoc]; exact this

theorem cash_serialize_ok {h : List Byte} (rest data : List Byte)
    (h0 : ∀ c ∈ h, c ≠ 0) (h1 : 1 ≤ h.length) (hl : h.length ≤ 83) (h2 : ∀ c ∈ h, IsLower c)
    (h3 : ∀ d ∈ data, d.toNat < 32) (h4 : data.length ≤ 104) :
    cash32_serialize (h ++ 0 :: rest) data =
      .ok ⟨(h ++ 58 :: (data.map (fun d => bechChar d.toNat) ++
        (cashChk h data).map bechChar)) ++ [0], true⟩ := by
  rw [cash32_serialize, if_neg (by omega)]
  simp only [prefix_scan_eq 83 h rest 0 h0, List.take_of_length_le hl,
    List.drop_eq_nil_of_le hl, if_pos h2, C.ok_bind, List.nil_append, Nat.zero_add,
    Nat.min_eq_right hl]
  rw [if_neg (by omega)]
  simp only [C.rd, List.getElem?_cons_zero, C.ok_bind]
  rw [if_neg (by simp), List.take_left' rfl, cash_data_loop_eq data _ h3]
  simp only [C.ok_bind, cash_chk_char_eq, BitVec.toNat_xor, iter8, cash_words]
  rw [cashChk, unpack8]
  simp [ch]

theorem cash_serialize_bad {h : List Byte} (rest data : List Byte)
    (h0 : ∀ c ∈ h, c ≠ 0) (hbad : ¬ (1 ≤ h.length ∧ h.length ≤ 83 ∧ (∀ c ∈ h, IsLower c) ∧
    (∀ d ∈ data, d.toNat < 32) ∧ data.length ≤ 104)) :
    ∃ o, cash32_serialize (h ++ 0 :: rest) data = .ok ⟨o, false⟩ ∧ o.length ≤ 188 := by
  rw [cash32_serialize]
  by_cases hdl : data.length > 104
  · rw [if_pos hdl]; exact ⟨[], rfl, by simp⟩
  rw [if_neg hdl]
  simp only [prefix_scan_eq 83 h rest 0 h0]
  by_cases hg : ∀ c ∈ h.take 83, IsLower c
  case neg => rw [if_neg hg]; exact ⟨[], rfl, by simp⟩
  rw [if_pos hg]
  simp only [C.ok_bind, Nat.zero_add]
  by_cases hz : min 83 h.length = 0
  · rw [if_pos hz]; exact ⟨[], rfl, by simp⟩
  rw [if_neg hz]
  by_cases hl : h.length ≤ 83
  · simp only [List.take_of_length_le hl, List.drop_eq_nil_of_le hl, List.nil_append,
      Nat.min_eq_right hl] at *
    simp only [C.rd, List.getElem?_cons_zero, C.ok_bind]
    rw [if_neg (by simp), List.take_left' rfl]
    obtain ⟨o, ho, hol⟩ := cash_data_loop_bad data
        (cash32_polymod (h.foldl
          (fun chk (c : Byte) => cash32_polymod chk ^^^ (c &&& 0x1f).zeroExtend 64) 1))
      (fun hd => hbad ⟨by omega, hl, hg, hd, by omega⟩)
    rw [ho]
    refine ⟨_, rfl, ?_⟩
    simp; omega
  · obtain ⟨x, hx⟩ : ∃ x, (h.drop 83)[0]? = some x := by
      rw [List.getElem?_drop]; exact ⟨_, List.getElem?_eq_getElem (by omega)⟩
    have hx' : (h.drop 83 ++ 0 :: rest)[0]? = some x := by
      rw [List.getElem?_append_left (by rw [List.length_drop]; omega)]; exact hx
    have hxz : x ≠ 0 := h0 x (List.mem_of_mem_drop (List.mem_of_getElem? hx))
    simp only [C.rd, hx', C.ok_bind]
    rw [if_pos hxz]
    exact ⟨[], rfl, by simp⟩

/-! ## Deserialisation -/

def IsDigit (c : Byte) : Prop := 48 ≤ c.toNat ∧ c.toNat ≤ 57
instance (c : Byte) : Decidable (IsDigit c) := by unfold IsDigit; infer_instance

def IsAlnum (c : Byte) : Prop := IsLower c ∨ IsUpper c ∨ IsDigit c
instance (c : Byte) : Decidable (IsAlnum c) := by unfold IsAlnum; infer_instance

/-- One iteration of the scan. -/
def cashStep (st : Cash32Scan) (c : Byte) : Option Cash32Scan :=
  if c.toNat ≥ 97 ∧ c.toNat ≤ 122 then some { st with lower := true, slen := st.slen + 1 }
  else if c.toNat ≥ 65 ∧ c.toNat ≤ 90 then some { st with upper := true, slen := st.slen + 1 }
  else if c.toNat ≥ 48 ∧ c.toNat ≤ 57 then some { st with number := true, slen := st.slen + 1 }
  else if c.toNat = 58 then
    if st.number ∨ st.slen = 0 ∨ st.plen ≠ 0 then none
    else some { st with plen := st.slen, slen := st.slen + 1 }
  else none

def cashRun : List Byte → Cash32Scan → Option Cash32Scan
  | [], st => some st
  | c :: s, st => match cashStep st c with
    | none => none
    | some st => cashRun s st

theorem cash_scan_eq : ∀ (n : Nat) (s rest : List Byte) (st : Cash32Scan), (∀ c ∈ s, c ≠ 0) →
    cash32_str_scan n (s ++ 0 :: rest) st =
      .ok ((cashRun (s.take n) st).map (fun st => (st, s.drop n ++ 0 :: rest)))
  | 0, s, rest, st, _ => by simp [cash32_str_scan, cashRun]
  | n + 1, [], rest, st, _ => by simp [cash32_str_scan, cashRun]
  | n + 1, c :: s, rest, st, h0 => by
    have ih := fun st => cash_scan_eq n s rest st (fun x hx => h0 x (by simp [hx]))
    rw [List.cons_append, cash32_str_scan, if_neg (h0 c (by simp)), List.take_succ_cons, cashRun,
      cashStep]
    split
    · rw [ih]; rfl
    · split
      · rw [ih]; rfl
      · split
        · rw [ih]; rfl
        · split
          · split
            · rfl
            · rw [ih]; rfl
          · rfl

def alnumSt (st : Cash32Scan) (s : List Byte) : Cash32Scan :=
  ⟨st.slen + s.length, st.lower || s.any (fun c => decide (IsLower c)),
    st.upper || s.any (fun c => decide (IsUpper c)),
    st.number || s.any (fun c => decide (IsDigit c)), st.plen⟩

theorem cashRun_alnum : ∀ (s : List Byte) (st : Cash32Scan), (∀ c ∈ s, IsAlnum c) →
    cashRun s st = some (alnumSt st s)
  | [], st, _ => by simp [cashRun, alnumSt]
  | c :: s, st, h => by
    have hc := h c (by simp)
    have hs : ∀ x ∈ s, IsAlnum x := fun x hx => h x (by simp [hx])
    have key : ∀ c : Byte, (IsLower c ∧ ¬ IsUpper c ∧ ¬ IsDigit c) ∨
        (¬ IsLower c ∧ IsUpper c ∧ ¬ IsDigit c) ∨ (¬ IsLower c ∧ ¬ IsUpper c ∧ IsDigit c) ∨
        ¬ IsAlnum c := by
      intro c; unfold IsAlnum IsLower IsUpper IsDigit; omega
    have e : cashStep st c = some ⟨st.slen + 1, st.lower || decide (IsLower c),
        st.upper || decide (IsUpper c), st.number || decide (IsDigit c), st.plen⟩ := by
      rcases key c with ⟨k1, k2, k3⟩ | ⟨k1, k2, k3⟩ | ⟨k1, k2, k3⟩ | k
      · simp only [k1, k2, k3, decide_true, decide_false, Bool.or_true, Bool.or_false, cashStep]
        exact if_pos k1
      · simp only [k1, k2, k3, decide_true, decide_false, Bool.or_true, Bool.or_false, cashStep]
        exact (if_neg k1).trans (if_pos k2)
      · simp only [k1, k2, k3, decide_true, decide_false, Bool.or_true, Bool.or_false, cashStep]
        exact (if_neg k1).trans ((if_neg k2).trans (if_pos k3))
      · exact absurd hc k
    simp only [cashRun, e]
    rw [cashRun_alnum s _ hs]
    simp only [alnumSt, List.length_cons, List.any_cons, Bool.or_assoc, Option.some.injEq,
      Cash32Scan.mk.injEq, and_true]
    omega

/-- A run over a character that is neither alphanumeric nor a legal colon fails. -/
theorem cashStep_other {st : Cash32Scan} {c : Byte} (h : ¬ IsAlnum c) :
    cashStep st c = if c = 58 then
      (if st.number ∨ st.slen = 0 ∨ st.plen ≠ 0 then none
        else some { st with plen := st.slen, slen := st.slen + 1 }) else none := by
  have h' : ¬ (97 ≤ c.toNat ∧ c.toNat ≤ 122) ∧ ¬ (65 ≤ c.toNat ∧ c.toNat ≤ 90) ∧
      ¬ (48 ≤ c.toNat ∧ c.toNat ≤ 57) := by
    unfold IsAlnum IsLower IsUpper IsDigit at h; tauto
  have hc : c.toNat = 58 ↔ c = 58 := by rw [← BitVec.toNat_inj]; rfl
  rw [cashStep, if_neg h'.1, if_neg h'.2.1, if_neg h'.2.2]
  by_cases e : c = 58
  · rw [if_pos (hc.2 e), if_pos e]
  · rw [if_neg (fun x => e (hc.1 x)), if_neg e]

theorem split_alnum (s : List Byte) : (∀ c ∈ s, IsAlnum c) ∨
    ∃ a c b, s = a ++ c :: b ∧ (∀ x ∈ a, IsAlnum x) ∧ ¬ IsAlnum c := by
  induction s with
  | nil => left; simp
  | cons c s ih =>
    by_cases hc : IsAlnum c
    · rcases ih with h | ⟨a, d, b, rfl, h1, h2⟩
      · left; intro x hx
        rcases List.mem_cons.1 hx with rfl | hx
        exacts [hc, h x hx]
      · right
        refine ⟨c :: a, d, b, by simp, ?_, h2⟩
        intro x hx
        rcases List.mem_cons.1 hx with rfl | hx
        exacts [hc, h1 x hx]
    · right; exact ⟨[], c, s, by simp, by simp, hc⟩

theorem cashRun_append : ∀ (a b : List Byte) (st : Cash32Scan),
    cashRun (a ++ b) st = (cashRun a st).bind (cashRun b)
  | [], b, st => rfl
  | c :: a, b, st => by
    rw [List.cons_append, cashRun, cashRun]
    cases cashStep st c with
    | none => rfl
    | some st => exact cashRun_append a b st

def st0 : Cash32Scan := ⟨0, false, false, false, 0⟩

/-- With a separator: prefix of letters, data of letters and digits. -/
theorem cashRun_colon (a b : List Byte) (ha : 1 ≤ a.length) (hal : ∀ c ∈ a, IsLower c ∨ IsUpper c)
    (hb : ∀ c ∈ b, IsAlnum c) : cashRun (a ++ 58 :: b) st0 =
      some ⟨a.length + 1 + b.length, (a ++ 58 :: b).any (fun c => decide (IsLower c)),
        (a ++ 58 :: b).any (fun c => decide (IsUpper c)),
        (a ++ 58 :: b).any (fun c => decide (IsDigit c)), a.length⟩ := by
  have hnd : a.any (fun c => decide (IsDigit c)) = false := by
    rw [List.any_eq_false]
    intro c hc
    have := hal c hc
    simp only [decide_eq_true_eq]
    unfold IsLower IsUpper at this
    unfold IsDigit; omega
  rw [cashRun_append, cashRun_alnum a _ (fun c hc => by
    rcases hal c hc with h | h
    exacts [Or.inl h, Or.inr (Or.inl h)]), Option.bind_some, cashRun,
    cashStep_other (by decide), if_pos rfl, if_neg (by
      simp [alnumSt, st0, hnd]
      intro h; subst h; simp at ha)]
  dsimp only
  rw [cashRun_alnum b _ hb]
  simp only [alnumSt, st0, Nat.zero_add, Bool.false_or, List.any_append, List.any_cons,
    show decide (IsLower 58) = false from by decide, show decide (IsUpper 58) = false from by decide,
    show decide (IsDigit 58) = false from by decide]

theorem cashRun_some {s : List Byte} {st : Cash32Scan} (h : cashRun s st0 = some st) :
    (∀ c ∈ s, IsAlnum c) ∨ ∃ a b, s = a ++ 58 :: b ∧ 1 ≤ a.length ∧
      (∀ c ∈ a, IsLower c ∨ IsUpper c) ∧ (∀ c ∈ b, IsAlnum c) := by
  rcases split_alnum s with hs | ⟨a, c, b, rfl, h1, h2⟩
  · left; exact hs
  right
  rw [cashRun_append, cashRun_alnum a _ h1, Option.bind_some, cashRun, cashStep_other h2] at h
  by_cases hc : c = 58
  case neg => rw [if_neg hc] at h; simp at h
  rw [if_pos hc] at h
  by_cases hg : (alnumSt st0 a).number ∨ (alnumSt st0 a).slen = 0 ∨ (alnumSt st0 a).plen ≠ 0
  · rw [if_pos hg] at h; simp at h
  rw [if_neg hg] at h
  dsimp only at h
  have hlen : 1 ≤ a.length := by
    simp [alnumSt, st0] at hg
    rcases a with _ | ⟨x, a⟩
    · simp at hg
    · simp
  have hnd : ∀ x ∈ a, ¬ IsDigit x := by
    simp only [alnumSt, st0, Bool.false_or, List.any_eq_true, decide_eq_true_eq] at hg
    intro x hx hd
    exact hg (Or.inl ⟨x, hx, hd⟩)
  refine ⟨a, b, by rw [hc], hlen, ?_, ?_⟩
  · intro x hx
    rcases h1 x hx with k | k | k
    · exact Or.inl k
    · exact Or.inr k
    · exact absurd k (hnd x hx)
  · rcases split_alnum b with hb | ⟨a', c', b', rfl, k1, k2⟩
    · exact hb
    · exfalso
      rw [cashRun_append, cashRun_alnum a' _ k1, Option.bind_some, cashRun, cashStep_other k2] at h
      by_cases hc' : c' = 58
      · rw [if_pos hc', if_pos (by
          right; right
          simp only [alnumSt, st0, Nat.zero_add]
          omega)] at h
        simp at h
      · rw [if_neg hc'] at h; simp at h

theorem cash_value_loop_ok (slen : Nat) : ∀ (s : List Byte) (i : Nat) (chk : BitVec 64),
    (∀ c ∈ s, c.toNat < 128) → (∀ c ∈ s, IsSym c) →
    cash32_value_loop slen i chk s = .ok ((s.map symVal).take (slen - 8 - i),
      some ((s.map symVal).foldl (fun chk d => cash32_polymod chk ^^^ d.zeroExtend 64) chk))
  | [], i, chk, _, _ => by simp [cash32_value_loop]
  | c :: s, i, chk, h1, h2 => by
    rw [cash32_value_loop, table_eq, look128_eq (h1 c (by simp)), C.ok_bind,
      if_neg (hi_sym _ (h2 c (by simp))),
      cash_value_loop_ok slen s _ _ (fun x hx => h1 x (by simp [hx]))
        (fun x hx => h2 x (by simp [hx]))]
    simp only [C.ok_bind, List.map_cons, List.foldl_cons]
    by_cases hi : i < slen - 8
    · rw [if_pos hi, show slen - 8 - i = (slen - 8 - (i + 1)) + 1 by omega, List.take_succ_cons]
    · rw [if_neg hi, show slen - 8 - i = 0 by omega, show slen - 8 - (i + 1) = 0 by omega]; simp

theorem cash_value_loop_bad (slen : Nat) : ∀ (s : List Byte) (i : Nat) (chk : BitVec 64),
    (∀ c ∈ s, c.toNat < 128) → (¬ ∀ c ∈ s, IsSym c) →
    ∃ o, cash32_value_loop slen i chk s = .ok (o, none) ∧ o.length ≤ slen - 8 - i
  | [], i, chk, _, h => by simp at h
  | c :: s, i, chk, h1, h2 => by
    rw [cash32_value_loop, table_eq, look128_eq (h1 c (by simp)), C.ok_bind]
    by_cases hc : IsSym c
    · obtain ⟨o, ho, hl⟩ := cash_value_loop_bad slen s (i + 1)
        (cash32_polymod chk ^^^ (symVal c).zeroExtend 64)
        (fun x hx => h1 x (by simp [hx])) (by simpa [hc] using h2)
      rw [if_neg (hi_sym _ hc), ho]
      simp only [C.ok_bind]
      by_cases hi : i < slen - 8
      · rw [if_pos hi]; exact ⟨_, rfl, by simp; omega⟩
      · rw [if_neg hi]; exact ⟨_, rfl, by omega⟩
    · rw [if_pos (by rw [not_isSym hc]; decide)]
      exact ⟨[], rfl, by simp⟩

/-- The tail of the deserialiser, on data characters `b` at the end of the string. -/
theorem cash_finish_eq (pre b rest pfx p : List Byte) (hb : ∀ c ∈ b, c.toNat < 128) :
    (b.length < 8 ∨ b.length > 112 →
      cash32_finish ((pre ++ b) ++ 0 :: rest) p (pre ++ b).length b.length
        (pfx.foldl (fun chk (c : Byte) => cash32_polymod chk ^^^ (c &&& 0x1f).zeroExtend 64) 1) =
        .ok ⟨p, [], false⟩) ∧
    (8 ≤ b.length → b.length ≤ 112 → (∀ c ∈ b, IsSym c) →
      cash32_finish ((pre ++ b) ++ 0 :: rest) p (pre ++ b).length b.length
        (pfx.foldl (fun chk (c : Byte) => cash32_polymod chk ^^^ (c &&& 0x1f).zeroExtend 64) 1) =
        .ok ⟨p, (b.map symVal).take (b.length - 8),
          decide (cashState pfx (b.map symVal) = 1)⟩) ∧
    (8 ≤ b.length → b.length ≤ 112 → (¬ ∀ c ∈ b, IsSym c) → ∃ o,
      cash32_finish ((pre ++ b) ++ 0 :: rest) p (pre ++ b).length b.length
        (pfx.foldl (fun chk (c : Byte) => cash32_polymod chk ^^^ (c &&& 0x1f).zeroExtend 64) 1) =
        .ok ⟨p, o, false⟩ ∧ o.length ≤ 104) := by
  have hsub : (pre ++ b).length - b.length = pre.length := by simp
  have hdrop : (List.take (pre ++ b).length ((pre ++ b) ++ 0 :: rest)).drop pre.length = b := by
    rw [List.take_left' rfl, List.drop_left' rfl]
  refine ⟨fun h => by rw [cash32_finish, if_pos h], fun h8 h112 hsym => ?_, fun h8 h112 hns => ?_⟩
  · rw [cash32_finish, if_neg (by omega), hsub, hdrop]
    simp only [cash_value_loop_ok _ b _ _ hb hsym, C.ok_bind]
    have hw := cash_words pfx (b.map symVal)
    rw [← hw, show (pre ++ b).length - 8 - pre.length = b.length - 8 by simp; omega]
    rw [show ((1 : Nat)) = ((1 : BitVec 64)).toNat from rfl]
    simp only [BitVec.toNat_inj]
    split <;> simp_all
  · rw [cash32_finish, if_neg (by omega), hsub, hdrop]
    obtain ⟨o, ho, hol⟩ := cash_value_loop_bad (pre ++ b).length b pre.length
      (cash32_polymod (pfx.foldl
        (fun chk (c : Byte) => cash32_polymod chk ^^^ (c &&& 0x1f).zeroExtend 64) 1)) hb hns
    refine ⟨o, ?_, by simp at hol; omega⟩
    simp only [ho, C.ok_bind]

theorem fallback_eq : ∀ (n : Nat) (h rest : List Byte) (chk : BitVec 64), (∀ c ∈ h, c ≠ 0) →
    (∀ c ∈ h.take n, IsLower c) →
    cash32_fallback_loop n (h ++ 0 :: rest) chk = .ok (h.take n,
      some ((h.take n).foldl
        (fun chk (c : Byte) => cash32_polymod chk ^^^ (c &&& 0x1f).zeroExtend 64) chk,
        h.drop n ++ 0 :: rest))
  | 0, h, rest, chk, _, _ => by simp [cash32_fallback_loop]
  | n + 1, [], rest, chk, _, _ => by simp [cash32_fallback_loop]
  | n + 1, c :: h, rest, chk, h0, hg => by
    have hc := hg c (by simp)
    rw [List.cons_append, cash32_fallback_loop, if_neg (h0 c (by simp)),
      if_neg (by unfold IsLower at hc; omega), fallback_eq n h rest _ (fun x hx => h0 x (by simp [hx]))
        (fun x hx => hg x (by simp [hx]))]
    rfl

theorem fallback_bad : ∀ (n : Nat) (h rest : List Byte) (chk : BitVec 64), (∀ c ∈ h, c ≠ 0) →
    (¬ ∀ c ∈ h.take n, IsLower c) →
    ∃ o, cash32_fallback_loop n (h ++ 0 :: rest) chk = .ok (o, none) ∧ o.length < n
  | 0, h, rest, chk, _, hg => by simp at hg
  | n + 1, [], rest, chk, _, hg => by simp at hg
  | n + 1, c :: h, rest, chk, h0, hg => by
    rw [List.cons_append, cash32_fallback_loop, if_neg (h0 c (by simp))]
    by_cases hc : IsLower c
    · obtain ⟨o, ho, hl⟩ := fallback_bad n h rest
        (cash32_polymod chk ^^^ (c &&& 0x1f).zeroExtend 64) (fun x hx => h0 x (by simp [hx]))
        (by simpa [hc] using hg)
      rw [if_neg (by unfold IsLower at hc; omega), ho]
      exact ⟨c :: o, rfl, by simp; omega⟩
    · rw [if_pos (by unfold IsLower at hc; omega)]
      exact ⟨[], rfl, by simp⟩

end Torsion
