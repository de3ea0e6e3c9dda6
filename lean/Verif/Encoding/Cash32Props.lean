import Verif.Encoding.Cash32Decode
import Verif.Encoding.Bech32Props

/-!
# Properties of cash32 (C12, C13)

As in `Bech32Props`, a C string argument is `s ++ 0 :: rest` with no zero byte in `s`.
-/
namespace Torsion
open Spec

/-- C12: `cash32_serialize` succeeds exactly on the inputs that have a CashAddr string and
produces that string. -/
theorem cash32_serialize_iff {pfx : List Byte} (h0 : NoNul pfx) (rest data s : List Byte) :
    cash32_serialize (pfx ++ 0 :: rest) data = .ok ⟨s ++ [0], true⟩ ↔ Cash32String pfx data s := by
  rw [cash32String_iff]
  by_cases h : 1 ≤ pfx.length ∧ pfx.length ≤ 83 ∧ (∀ c ∈ pfx, IsLower c) ∧
      (∀ d ∈ data, d.toNat < 32) ∧ data.length ≤ 104
  · obtain ⟨h1, h2, h3, h4, h5⟩ := h
    rw [cash_serialize_ok rest data h0 h1 h2 h3 h4 h5]
    simp only [C.ok.injEq, SerOut.mk.injEq, and_true, List.append_left_inj]
    constructor
    · rintro rfl; exact ⟨h1, h2, h3, h4, h5, rfl⟩
    · rintro ⟨-, -, -, -, -, rfl⟩; rfl
  · obtain ⟨o, ho, -⟩ := cash_serialize_bad rest data h0 h
    rw [ho]
    constructor
    · intro h'; simp at h'
    · rintro ⟨h1, h2, h3, h4, h5, -⟩; exact absurd ⟨h1, h2, h3, h4, h5⟩ h

/-- C12/C13: it always returns, stores at most `CASH32_MAX_SERIALIZE_SIZE + 1` bytes, and succeeds
exactly for a prefix of 1 to 83 lower-case letters and at most 104 symbols below 32. -/
theorem cash32_serialize_total {pfx : List Byte} (h0 : NoNul pfx) (rest data : List Byte) :
    ∃ out, cash32_serialize (pfx ++ 0 :: rest) data = .ok out ∧ out.str.length ≤ 196 + 1 ∧
      (out.ret = true ↔ 1 ≤ pfx.length ∧ pfx.length ≤ 83 ∧ (∀ c ∈ pfx, IsLower c) ∧
        (∀ d ∈ data, d.toNat < 32) ∧ data.length ≤ 104) := by
  by_cases h : 1 ≤ pfx.length ∧ pfx.length ≤ 83 ∧ (∀ c ∈ pfx, IsLower c) ∧
      (∀ d ∈ data, d.toNat < 32) ∧ data.length ≤ 104
  · obtain ⟨h1, h2, h3, h4, h5⟩ := h
    refine ⟨_, cash_serialize_ok rest data h0 h1 h2 h3 h4 h5, ?_,
      fun _ => ⟨h1, h2, h3, h4, h5⟩, fun _ => rfl⟩
    simp [cashChk, unpack_len]; omega
  · obtain ⟨o, ho, hl⟩ := cash_serialize_bad rest data h0 h
    exact ⟨_, ho, by dsimp only; omega, by simp, fun h' => absurd h' h⟩

/-- C12: what `cash32_deserialize` accepts: a CashAddr string in one case, with its prefix, or
without it, in which case the fallback prefix is the one that counts. -/
theorem cash32_deserialize_iff {s f : List Byte} (hs : NoNul s) (hf : NoNul f)
    (rest frest pfx data : List Byte) :
    cash32_deserialize (s ++ 0 :: rest) (f ++ 0 :: frest) = .ok ⟨pfx ++ [0], data, true⟩ ↔
      ¬ Mixed s ∧ ((58 ∈ s ∧ Cash32String pfx data (s.map lower)) ∨
        (58 ∉ s ∧ pfx = f ∧ Cash32String f data (f ++ 58 :: s.map lower))) := by
  obtain ⟨out, ho, -, -, h3, h4⟩ := cash_des hs hf rest frest
  rw [ho]
  constructor
  · intro h
    simp only [C.ok.injEq] at h
    subst h
    obtain ⟨p, hp, ha⟩ := h3 rfl
    rw [List.append_left_inj] at hp
    rw [hp]; exact ha
  · intro h
    rw [h4 pfx data h]

/-- C13: on every pair of NUL-terminated strings `cash32_deserialize` returns, without touching
memory past either terminator, and stores at most `CASH32_MAX_PREFIX_SIZE + 1` and
104 <= `CASH32_MAX_DESERIALIZE_SIZE` bytes. -/
theorem cash32_deserialize_bounds {s f : List Byte} (hs : NoNul s) (hf : NoNul f)
    (rest frest : List Byte) :
    ∃ out, cash32_deserialize (s ++ 0 :: rest) (f ++ 0 :: frest) = .ok out ∧
      out.hrp.length ≤ 83 + 1 ∧ out.data.length ≤ 104 ∧
      (out.ret = true → (∃ pfx, out.hrp = pfx ++ [0] ∧ ∀ c ∈ pfx, IsLower c) ∧
        ∀ d ∈ out.data, d.toNat < 32) := by
  obtain ⟨out, ho, h1, h2, h3, -⟩ := cash_des hs hf rest frest
  refine ⟨out, ho, h1, h2, ?_⟩
  intro hr
  obtain ⟨p, hp, -, ⟨-, ha⟩ | ⟨-, rfl, ha⟩⟩ := h3 hr
  · exact ⟨⟨p, hp, ha.2.2.1⟩, ha.2.2.2.1⟩
  · exact ⟨⟨_, hp, ha.2.2.1⟩, ha.2.2.2.1⟩

theorem cash32String_chars {pfx data s : List Byte} (h : Cash32String pfx data s) :
    (∀ c ∈ s, HrpChar c) ∧ (58 : Byte) ∈ s := by
  obtain ⟨h1, h2, h3, h4, h5, chk, h6, h7, h8, h9⟩ := h
  constructor
  · intro c hc
    rw [h8] at hc
    rcases List.mem_append.1 hc with h | h
    · have := h3 c h
      have h' := (letter_ne c this).2.2.2
      unfold IsLower at this
      exact ⟨by omega, by omega, h'⟩
    · rcases List.mem_cons.1 h with h | h
      · rw [h]; decide
      · obtain ⟨d, hd, rfl⟩ := List.mem_map.1 h
        have hd32 : d.toNat < 32 := by
          rcases List.mem_append.1 hd with h | h
          exacts [h4 d h, h7 d h]
        have := bechChar_props ⟨_, hd32⟩
        exact ⟨this.2.2.2.1.1, this.2.2.2.1.2, this.2.2.2.2.1⟩
  · rw [h8]; exact List.mem_append_right _ List.mem_cons_self

/-- C12: deserialising what was serialised gives the input back, whatever the fallback. -/
theorem cash32_roundtrip {pfx : List Byte} (h0 : NoNul pfx) {rest data s : List Byte}
    (h : cash32_serialize (pfx ++ 0 :: rest) data = .ok ⟨s ++ [0], true⟩)
    {f : List Byte} (hf : NoNul f) (rest' frest : List Byte) :
    cash32_deserialize (s ++ 0 :: rest') (f ++ 0 :: frest) = .ok ⟨pfx ++ [0], data, true⟩ := by
  rw [cash32_serialize_iff h0] at h
  obtain ⟨hch, h58⟩ := cash32String_chars h
  rw [cash32_deserialize_iff (fun c hc => not_lower_upper c (hch c hc)) hf, map_lower_eq hch]
  exact ⟨not_mixed_of hch, Or.inl ⟨h58, h⟩⟩

theorem bare_chars {pfx data t : List Byte} (h : Cash32String pfx data (pfx ++ 58 :: t)) :
    (58 : Byte) ∉ t := by
  obtain ⟨h1, h2, h3, h4, h5, chk, h6, h7, h8, h9⟩ := h
  rw [(List.cons.inj (List.append_cancel_left h8)).2]
  intro hm
  obtain ⟨d, hd, e⟩ := List.mem_map.1 hm
  have hd32 : d.toNat < 32 := by
    rcases List.mem_append.1 hd with h | h
    exacts [h4 d h, h7 d h]
  exact (bechChar_props ⟨_, hd32⟩).2.1 e

/-- C12: the serialised string is `prefix:t`, and `t` alone deserialises to the same result when
the fallback is that prefix. -/
theorem cash32_roundtrip_bare {pfx : List Byte} (h0 : NoNul pfx) {rest data s : List Byte}
    (h : cash32_serialize (pfx ++ 0 :: rest) data = .ok ⟨s ++ [0], true⟩) :
    ∃ t, s = pfx ++ 58 :: t ∧ ∀ rest' frest,
      cash32_deserialize (t ++ 0 :: rest') (pfx ++ 0 :: frest) =
        .ok ⟨pfx ++ [0], data, true⟩ := by
  rw [cash32_serialize_iff h0] at h
  obtain ⟨hch, h58⟩ := cash32String_chars h
  obtain ⟨t, rfl⟩ : ∃ t, s = pfx ++ 58 :: t := by
    obtain ⟨-, -, -, -, -, chk, -, -, h8, -⟩ := h
    exact ⟨_, h8⟩
  refine ⟨t, rfl, fun rest' frest => ?_⟩
  have hch' : ∀ c ∈ t, HrpChar c := fun c hc => hch c (by simp [hc])
  rw [cash32_deserialize_iff (fun c hc => not_lower_upper c (hch' c hc)) h0, map_lower_eq hch']
  exact ⟨not_mixed_of hch', Or.inr ⟨bare_chars h, rfl, h⟩⟩

/-- C12: an accepted string is, up to case and up to dropping a prefix equal to the fallback, the
serialisation of the result; mixed case is never accepted. -/
theorem cash32_canonical {s f : List Byte} (hs : NoNul s) (hf : NoNul f)
    {rest frest pfx data : List Byte}
    (h : cash32_deserialize (s ++ 0 :: rest) (f ++ 0 :: frest) = .ok ⟨pfx ++ [0], data, true⟩)
    (rest' : List Byte) : ¬ Mixed s ∧
      cash32_serialize (pfx ++ 0 :: rest') data =
        .ok ⟨(if 58 ∈ s then s.map lower else f ++ 58 :: s.map lower) ++ [0], true⟩ ∧
      (58 ∉ s → pfx = f) := by
  rw [cash32_deserialize_iff hs hf] at h
  obtain ⟨hm, ⟨h58, hc⟩ | ⟨h58, rfl, hc⟩⟩ := h
  · refine ⟨hm, ?_, fun h => absurd h58 h⟩
    rw [if_pos h58, cash32_serialize_iff (fun c hc' => (letter_ne c (hc.2.2.1 c hc')).2.1)]
    exact hc
  · refine ⟨hm, ?_, fun _ => rfl⟩
    rw [if_neg h58, cash32_serialize_iff hf]
    exact hc

/-- `cash32_is` is acceptance by `cash32_deserialize`. -/
theorem cash32_is_iff {s f : List Byte} (hs : NoNul s) (hf : NoNul f) (rest frest : List Byte) :
    ∃ b, cash32_is (s ++ 0 :: rest) (f ++ 0 :: frest) = .ok b ∧
      (b = true ↔ ¬ Mixed s ∧ ∃ pfx data, ((58 ∈ s ∧ Cash32String pfx data (s.map lower)) ∨
        (58 ∉ s ∧ pfx = f ∧ Cash32String f data (f ++ 58 :: s.map lower)))) := by
  obtain ⟨out, ho, -, -, h3, h4⟩ := cash_des hs hf rest frest
  refine ⟨out.ret, by rw [cash32_is, ho]; rfl, ?_⟩
  constructor
  · intro hr
    obtain ⟨p, -, h⟩ := h3 hr
    exact ⟨h.1, p, _, h.2⟩
  · rintro ⟨hm, p, d, h⟩
    rw [h4 p d ⟨hm, h⟩]

/-! ## Addresses -/

namespace Spec
/-- The hash sizes of the CashAddr version byte. -/
def cashSizes : List Nat := [20, 24, 28, 32, 40, 48, 56, 64]

/-- `s` is the (lower-case, prefixed) CashAddr address of (prefix, type, hash). -/
def CashAddress (pfx : List Byte) (type : Nat) (hash s : List Byte) : Prop :=
  type ≤ 15 ∧ ∃ code, cashSizes[code]? = some hash.length ∧
    ∃ data : List Byte,
      data.map (·.toNat) = groups 5 (bits (BitVec.ofNat 8 (8 * type + code) :: hash)) ∧
      Cash32String pfx data s
end Spec

theorem size_code_iff (n code : Nat) :
    cash32_size_code n = some code ↔ cashSizes[code]? = some n := by
  constructor
  · intro h
    unfold cash32_size_code at h
    split at h <;> cases h <;>
    · simp only [cashSizes, List.getElem?_cons_succ, List.getElem?_cons_zero, Option.some.injEq]
      omega
  · intro h
    have hlt : code < 8 := (List.getElem?_eq_some_iff.1 h).1
    interval_cases code <;>
    · simp only [cashSizes, List.getElem?_cons_succ, List.getElem?_cons_zero,
        Option.some.injEq] at h
      subst h; rfl

theorem code_lt {n code : Nat} (h : cashSizes[code]? = some n) : code < 8 ∧ 20 ≤ n ∧ n ≤ 64 := by
  have hlt : code < 8 := (List.getElem?_eq_some_iff.1 h).1
  refine ⟨hlt, ?_⟩
  interval_cases code <;>
    · simp only [cashSizes, List.getElem?_cons_succ, List.getElem?_cons_zero,
        Option.some.injEq] at h
      omega

theorem or_version : ∀ t : Fin 16, ∀ c : Fin 8, (t.val <<< 3) ||| c.val = 8 * t.val + c.val := by
  decide +kernel

/-- C12: `cash32_encode` produces exactly the address (and fails when there is none). -/
theorem cash32_encode_iff {pfx : List Byte} (h0 : NoNul pfx) (rest : List Byte) (type : Nat)
    (hash s : List Byte) :
    cash32_encode (pfx ++ 0 :: rest) type hash = .ok ⟨s ++ [0], true⟩ ↔
      CashAddress pfx type hash s := by
  rw [cash32_encode]
  by_cases ht : type > 15
  · rw [if_pos ht]
    constructor
    · intro h; simp at h
    · rintro ⟨h, -⟩; omega
  rw [if_neg ht]
  cases hsc : cash32_size_code hash.length with
  | none =>
    constructor
    · intro h; simp at h
    · rintro ⟨-, code, h, -⟩
      rw [← size_code_iff, hsc] at h; simp at h
  | some code =>
    have hc := (size_code_iff _ _).1 hsc
    obtain ⟨hc8, hl1, hl2⟩ := code_lt hc
    have hov := or_version ⟨type, by omega⟩ ⟨code, hc8⟩
    dsimp only at hov ⊢
    rw [hov]
    generalize hdat : BitVec.ofNat 8 (8 * type + code) :: hash = dat
    have hdl : dat.length = hash.length + 1 := by rw [← hdat]; simp
    have hcv := conv85 (w := 8 + 5 - 1) (by omega) dat
    have hcl : (convert_bits (8 + 5 - 1) 5 dat 8 true).dst.length = (8 * dat.length + 4) / 5 := by
      rw [← groups5_len, ← hcv.2, List.length_map]
    rw [if_neg (by omega), if_neg (by omega), if_neg (by simp [hcv.1]), cash32_serialize_iff h0]
    constructor
    · intro h
      exact ⟨by omega, code, hc, _, by rw [hdat]; exact hcv.2, h⟩
    · rintro ⟨-, code', h1, data, h2, h3⟩
      rw [← size_code_iff, hsc, Option.some.injEq] at h1
      subst h1
      rw [hdat, ← hcv.2] at h2
      rwa [map_toNat_inj h2] at h3

theorem streq_eq : ∀ (a b r r' : List Byte), NoNul a → NoNul b →
    c_streq (a ++ 0 :: r) (b ++ 0 :: r') = .ok (decide (a = b))
  | [], [], r, r', _, _ => by simp [c_streq]
  | [], y :: b, r, r', _, h => by
    have := h y (by simp)
    rw [List.nil_append, List.cons_append, c_streq, if_pos (Ne.symm this)]; simp
  | x :: a, [], r, r', h, _ => by
    have := h x (by simp)
    rw [List.nil_append, List.cons_append, c_streq, if_pos this]; simp
  | x :: a, y :: b, r, r', h, h' => by
    have hx := h x (by simp)
    rw [List.cons_append, List.cons_append, c_streq]
    by_cases e : x = y
    · rw [if_neg (by simp [e]), if_neg hx, streq_eq a b r r' (fun c hc => h c (by simp [hc]))
        (fun c hc => h' c (by simp [hc]))]
      simp [e]
    · rw [if_pos e]; simp [e]

theorem version_byte : ∀ b : Byte,
    let size := 20 + 4 * (b &&& 3).toNat
    let size := if b &&& 4 ≠ 0 then size * 2 else size
    ((b >>> 3) &&& 31).toNat = b.toNat / 8 ∧ cashSizes[b.toNat % 8]? = some size := by
  decide +kernel

theorem cashSizes_inj {c c' n : Nat} (h : cashSizes[c]? = some n) (h' : cashSizes[c']? = some n) :
    c = c' := by
  have := (size_code_iff _ _).2 h
  rw [(size_code_iff _ _).2 h'] at this
  exact (Option.some.inj this).symm

/-- C12: `cash32_decode` accepts exactly the addresses with the expected prefix, in either case,
with or without that prefix in front. -/
theorem cash32_decode_iff {s e : List Byte} (hs : NoNul s) (he : NoNul e) (rest erest : List Byte)
    (type : Nat) (hash : List Byte) :
    cash32_decode (s ++ 0 :: rest) (e ++ 0 :: erest) = .ok ⟨type, hash, true⟩ ↔
      ¬ Mixed s ∧ ((58 ∈ s ∧ CashAddress e type hash (s.map lower)) ∨
        (58 ∉ s ∧ CashAddress e type hash (e ++ 58 :: s.map lower))) := by
  obtain ⟨d, hd, b1, b2, h3, h4⟩ := cash_des hs he rest erest
  rw [cash32_decode, hd, C.ok_bind, if_neg (by omega)]
  -- the right-hand side in terms of acceptance
  have hrhs : (¬ Mixed s ∧ ((58 ∈ s ∧ CashAddress e type hash (s.map lower)) ∨
        (58 ∉ s ∧ CashAddress e type hash (e ++ 58 :: s.map lower)))) ↔
      type ≤ 15 ∧ ∃ code, cashSizes[code]? = some hash.length ∧ ∃ data : List Byte,
        data.map (·.toNat) = groups 5 (bits (BitVec.ofNat 8 (8 * type + code) :: hash)) ∧
        CashAccept s e e data := by
    constructor
    · rintro ⟨hm, ⟨h58, ht, code, hc, data, hdt, hst⟩ | ⟨h58, ht, code, hc, data, hdt, hst⟩⟩
      · exact ⟨ht, code, hc, data, hdt, hm, Or.inl ⟨h58, hst⟩⟩
      · exact ⟨ht, code, hc, data, hdt, hm, Or.inr ⟨h58, rfl, hst⟩⟩
    · rintro ⟨ht, code, hc, data, hdt, hm, ⟨h58, hst⟩ | ⟨h58, -, hst⟩⟩
      · exact ⟨hm, Or.inl ⟨h58, ht, code, hc, data, hdt, hst⟩⟩
      · exact ⟨hm, Or.inr ⟨h58, ht, code, hc, data, hdt, hst⟩⟩
  rw [hrhs]
  rcases hr : d.ret with _ | _
  · rw [if_pos (by simp)]
    constructor
    · intro h; simp at h
    · rintro ⟨-, code, -, data, -, h⟩
      rw [h4 _ _ h] at hr; simp at hr
  rw [if_neg (by simp)]
  obtain ⟨p, hp, hacc⟩ := h3 hr
  have hpl : ∀ c ∈ p, IsLower c := by
    obtain ⟨-, ⟨-, ha⟩ | ⟨-, rfl, ha⟩⟩ := hacc
    exacts [ha.2.2.1, ha.2.2.1]
  have hp0 : NoNul p := fun c hc => (letter_ne c (hpl c hc)).2.1
  have hv32 : ∀ x ∈ d.data, x.toNat < 32 := by
    obtain ⟨-, ⟨-, ha⟩ | ⟨-, rfl, ha⟩⟩ := hacc
    exacts [ha.2.2.2.1, ha.2.2.2.1]
  rw [hp, streq_eq p e [] erest hp0 he, C.ok_bind]
  by_cases hpe : p = e
  case neg =>
    rw [if_pos (by simp [hpe])]
    constructor
    · intro h; simp at h
    · rintro ⟨-, code, -, data, -, h⟩
      have := h4 _ _ h
      rw [this] at hp
      rw [List.append_left_inj] at hp
      exact absurd hp.symm hpe
  rw [if_neg (by simp [hpe])]
  subst hpe
  have huniq : ∀ {data : List Byte}, CashAccept s p p data → data = d.data := by
    intro data h
    rw [h4 _ _ h]
  by_cases hlen : d.data.length = 0 ∨ d.data.length > 104
  · rw [if_pos hlen]
    constructor
    · intro h; simp at h
    · rintro ⟨-, code, hc, data, hdt, h⟩
      have := huniq h
      subst this
      have hl := congrArg List.length hdt
      rw [List.length_map, groups5_len, List.length_cons] at hl
      omega
  rw [if_neg hlen]
  have hconv := conv58_iff (w := 5 + 8 - 1) (by omega) d.data hv32
  have hlenc := convert_nopad_len (d := 8) (s := 5) (w := 5 + 8 - 1) (by omega) (by omega) (by omega)
    d.data hv32
  dsimp only
  rw [if_neg (by omega)]
  rcases hcr : (convert_bits (5 + 8 - 1) 8 d.data 5 false).ret with _ | _
  · rw [if_pos (by simp)]
    constructor
    · intro h; simp at h
    · rintro ⟨-, code, hc, data, hdt, h⟩
      have := huniq h
      subst this
      rw [(hconv _).2 hdt] at hcr
      simp at hcr
  rw [if_neg (by simp)]
  generalize hC : convert_bits (5 + 8 - 1) 8 d.data 5 false = cv at *
  by_cases hl2 : cv.dst.length = 0 ∨ cv.dst.length > 65
  · rw [if_pos hl2]
    constructor
    · intro h; simp at h
    · rintro ⟨-, code, hc, data, hdt, h⟩
      have := huniq h
      subst this
      have := (hconv _).2 hdt
      rw [this] at hl2
      have := (code_lt hc).2
      simp at hl2
      omega
  rw [if_neg hl2]
  have hself := (hconv cv.dst).1 (by cases cv; simp_all)
  obtain ⟨b, h', hbh⟩ : ∃ b h', cv.dst = b :: h' := by
    rcases hx : cv.dst with _ | ⟨v, vs⟩
    · simp [hx] at hl2
    · exact ⟨v, vs, rfl⟩
  rw [hbh]
  rw [show C.rd (b :: h') 0 = .ok b from rfl, C.ok_bind, List.drop_succ_cons, List.drop_zero]
  obtain ⟨hvb1, hvb2⟩ := version_byte b
  -- any address with this data has this version byte and hash
  have hinj : ∀ {t code : Nat} {hash : List Byte},
      d.data.map (·.toNat) = groups 5 (bits (BitVec.ofNat 8 (8 * t + code) :: hash)) →
      b = BitVec.ofNat 8 (8 * t + code) ∧ h' = hash := by
    intro t code hash h
    have := (hconv _).2 h
    rw [this] at hbh
    simp only [List.cons.injEq] at hbh
    exact ⟨hbh.1.symm, hbh.2.symm⟩
  have hbv : b.toNat / 8 ≤ 15 → b = BitVec.ofNat 8 (8 * (b.toNat / 8) + b.toNat % 8) := by
    intro _
    apply BitVec.eq_of_toNat_eq
    rw [BitVec.toNat_ofNat]; have := b.isLt; omega
  have hbt : ∀ {t code : Nat}, t ≤ 15 → code < 8 → b = BitVec.ofNat 8 (8 * t + code) →
      t = b.toNat / 8 ∧ code = b.toNat % 8 := by
    intro t code h1 h2 h
    rw [h, BitVec.toNat_ofNat]; omega
  rw [hvb1]
  by_cases ht15 : b.toNat / 8 > 15
  · rw [if_pos ht15]
    constructor
    · intro h; simp at h
    · rintro ⟨ht, code, hc, data, hdt, h⟩
      have := huniq h
      subst this
      have := hbt ht (code_lt hc).1 (hinj hdt).1
      omega
  rw [if_neg ht15]
  generalize (if b &&& 4 ≠ 0 then (20 + 4 * (b &&& 3).toNat) * 2 else 20 + 4 * (b &&& 3).toNat) =
    size at *
  by_cases hsz : size ≠ h'.length
  · rw [if_pos hsz]
    constructor
    · intro h; simp at h
    · rintro ⟨ht, code, hc, data, hdt, h⟩
      have := huniq h
      subst this
      obtain ⟨g1, rfl⟩ := hinj hdt
      obtain ⟨-, rfl⟩ := hbt ht (code_lt hc).1 g1
      rw [hvb2, Option.some.injEq] at hc
      exact absurd hc hsz
  rw [if_neg hsz]
  push Not at hsz
  constructor
  · intro h
    simp only [C.ok.injEq, CashAddr.mk.injEq, and_true] at h
    obtain ⟨rfl, rfl⟩ := h
    refine ⟨by omega, b.toNat % 8, by rw [hvb2, hsz], d.data, ?_, hacc⟩
    rw [← hbv (by omega), ← hbh, hself]
  · rintro ⟨ht, code, hc, data, hdt, h⟩
    have := huniq h
    subst this
    obtain ⟨g1, rfl⟩ := hinj hdt
    obtain ⟨g2, -⟩ := hbt ht (code_lt hc).1 g1
    rw [g2]

/-- C12: decoding an encoded address returns type and hash, with and without the prefix. -/
theorem cash32_address_roundtrip {pfx : List Byte} (h0 : NoNul pfx) {rest : List Byte} {type : Nat}
    {hash s : List Byte}
    (h : cash32_encode (pfx ++ 0 :: rest) type hash = .ok ⟨s ++ [0], true⟩) :
    ∃ t, s = pfx ++ 58 :: t ∧ ∀ rest' erest,
      cash32_decode (s ++ 0 :: rest') (pfx ++ 0 :: erest) = .ok ⟨type, hash, true⟩ ∧
      cash32_decode (t ++ 0 :: rest') (pfx ++ 0 :: erest) = .ok ⟨type, hash, true⟩ := by
  rw [cash32_encode_iff h0] at h
  obtain ⟨ht, code, hc, data, hd, hst⟩ := id h
  obtain ⟨hch, h58⟩ := cash32String_chars hst
  obtain ⟨t, rfl⟩ : ∃ t, s = pfx ++ 58 :: t := by
    obtain ⟨-, -, -, -, -, chk, -, -, h8, -⟩ := hst
    exact ⟨_, h8⟩
  have hch' : ∀ c ∈ t, HrpChar c := fun c hc => hch c (by simp [hc])
  refine ⟨t, rfl, fun rest' erest => ⟨?_, ?_⟩⟩
  · rw [cash32_decode_iff (fun c hc => not_lower_upper c (hch c hc)) h0, map_lower_eq hch]
    exact ⟨not_mixed_of hch, Or.inl ⟨h58, h⟩⟩
  · rw [cash32_decode_iff (fun c hc => not_lower_upper c (hch' c hc)) h0, map_lower_eq hch']
    exact ⟨not_mixed_of hch', Or.inr ⟨bare_chars hst, h⟩⟩

/-- C12: an accepted address is, up to case and up to dropping the expected prefix, the encoding
of the result. -/
theorem cash32_address_canonical {s e : List Byte} (hs : NoNul s) (he : NoNul e)
    {rest erest : List Byte} {type : Nat} {hash : List Byte}
    (h : cash32_decode (s ++ 0 :: rest) (e ++ 0 :: erest) = .ok ⟨type, hash, true⟩)
    (rest' : List Byte) : ¬ Mixed s ∧
      cash32_encode (e ++ 0 :: rest') type hash =
        .ok ⟨(if 58 ∈ s then s.map lower else e ++ 58 :: s.map lower) ++ [0], true⟩ := by
  rw [cash32_decode_iff hs he] at h
  obtain ⟨hm, ⟨h58, hc⟩ | ⟨h58, hc⟩⟩ := h
  · refine ⟨hm, ?_⟩
    rw [if_pos h58, cash32_encode_iff he]
    exact hc
  · refine ⟨hm, ?_⟩
    rw [if_neg h58, cash32_encode_iff he]
    exact hc

/-- C13: `cash32_decode` and `cash32_test` always return and store at most
`CASH32_MAX_DECODE_SIZE` bytes, also on rejected input. -/
theorem cash32_decode_bounds {s e : List Byte} (hs : NoNul s) (he : NoNul e)
    (rest erest : List Byte) :
    ∃ out, cash32_decode (s ++ 0 :: rest) (e ++ 0 :: erest) = .ok out ∧ out.hash.length ≤ 64 ∧
      cash32_test (s ++ 0 :: rest) (e ++ 0 :: erest) = .ok out.ret := by
  suffices h : ∃ out, cash32_decode (s ++ 0 :: rest) (e ++ 0 :: erest) = .ok out ∧
      out.hash.length ≤ 64 by
    obtain ⟨out, ho, h2⟩ := h
    refine ⟨out, ho, h2, ?_⟩
    rw [cash32_test, ho, C.ok_bind, if_neg (by omega)]
  obtain ⟨d, hd, b1, b2, h3⟩ := cash32_deserialize_bounds hs he rest erest
  rw [cash32_decode, hd, C.ok_bind, if_neg (by omega)]
  rcases hr : d.ret with _ | _
  · exact ⟨_, by rw [if_pos (by simp)], by simp⟩
  rw [if_neg (by simp)]
  obtain ⟨⟨p, hp, hpl⟩, hv32⟩ := h3 hr
  rw [hp, streq_eq p e [] erest (fun c hc => (letter_ne c (hpl c hc)).2.1) he, C.ok_bind]
  by_cases hpe : p = e
  case neg => exact ⟨_, by rw [if_pos (by simp [hpe])], by simp⟩
  rw [if_neg (by simp [hpe])]
  by_cases hlen : d.data.length = 0 ∨ d.data.length > 104
  · rw [if_pos hlen]; exact ⟨_, rfl, by simp⟩
  rw [if_neg hlen]
  have hlenc := convert_nopad_len (d := 8) (s := 5) (w := 5 + 8 - 1) (by omega) (by omega) (by omega)
    d.data hv32
  dsimp only
  rw [if_neg (by omega)]
  rcases hcr : (convert_bits (5 + 8 - 1) 8 d.data 5 false).ret with _ | _
  · exact ⟨_, by rw [if_pos (by simp)], by simp⟩
  rw [if_neg (by simp)]
  by_cases hl2 : (convert_bits (5 + 8 - 1) 8 d.data 5 false).dst.length = 0 ∨
      (convert_bits (5 + 8 - 1) 8 d.data 5 false).dst.length > 65
  · rw [if_pos hl2]; exact ⟨_, rfl, by simp⟩
  rw [if_neg hl2]
  obtain ⟨b, h', hbh⟩ : ∃ b h', (convert_bits (5 + 8 - 1) 8 d.data 5 false).dst = b :: h' := by
    rcases hx : (convert_bits (5 + 8 - 1) 8 d.data 5 false).dst with _ | ⟨v, vs⟩
    · simp [hx] at hl2
    · exact ⟨v, vs, rfl⟩
  rw [hbh] at hl2 ⊢
  have hle : h'.length ≤ 64 := by simp at hl2; omega
  rw [show C.rd (b :: h') 0 = .ok b from rfl, C.ok_bind, List.drop_succ_cons, List.drop_zero]
  split
  · exact ⟨_, rfl, hle⟩
  · split
    · split
      · exact ⟨_, rfl, hle⟩
      · exact ⟨_, rfl, hle⟩
    · split
      · exact ⟨_, rfl, hle⟩
      · exact ⟨_, rfl, hle⟩

/-- C13: `cash32_encode` always returns and stays within its locals and
`CASH32_MAX_ENCODE_SIZE + 1` bytes of output, for every type and every hash length. -/
theorem cash32_encode_bounds {pfx : List Byte} (h0 : NoNul pfx) (rest : List Byte) (type : Nat)
    (hash : List Byte) : ∃ out, cash32_encode (pfx ++ 0 :: rest) type hash = .ok out ∧
      out.str.length ≤ 196 + 1 := by
  rw [cash32_encode]
  by_cases ht : type > 15
  · rw [if_pos ht]; exact ⟨_, rfl, by simp⟩
  rw [if_neg ht]
  cases hsc : cash32_size_code hash.length with
  | none => exact ⟨_, rfl, by simp⟩
  | some code =>
    have hc := (size_code_iff _ _).1 hsc
    obtain ⟨hc8, hl1, hl2⟩ := code_lt hc
    dsimp only
    generalize hdat : BitVec.ofNat 8 (type <<< 3 ||| code) :: hash = dat
    have hdl : dat.length = hash.length + 1 := by rw [← hdat]; simp
    have hcv := conv85 (w := 8 + 5 - 1) (by omega) dat
    have hcl : (convert_bits (8 + 5 - 1) 5 dat 8 true).dst.length = (8 * dat.length + 4) / 5 := by
      rw [← groups5_len, ← hcv.2, List.length_map]
    rw [if_neg (by omega), if_neg (by omega), if_neg (by simp [hcv.1])]
    obtain ⟨out, ho, hl, -⟩ := cash32_serialize_total h0 rest
      (convert_bits (8 + 5 - 1) 5 dat 8 true).dst
    exact ⟨out, ho, hl⟩

/-! ## Non-vacuity: vectors of the CashAddr specification -/

/-- The 20-byte test vector of the CashAddr specification. -/
def cashVec : List Byte := [0xF5, 0xBF, 0x48, 0xB3, 0x97, 0xDA, 0xE7, 0x0B, 0xE8, 0x2B, 0x3C, 0xCA,
  0x47, 0x93, 0xF8, 0xEB, 0x2B, 0x6C, 0xDA, 0xC9]

example : cash32_encode (str "bitcoincash" ++ [0]) 0 cashVec =
    .ok ⟨str "bitcoincash:qr6m7j9njldwwzlg9v7v53unlr4jkmx6eylep8ekg2" ++ [0], true⟩ := by
  decide +kernel

example : cash32_decode (str "QR6M7J9NJLDWWZLG9V7V53UNLR4JKMX6EYLEP8EKG2" ++ [0])
    (str "bitcoincash" ++ [0]) = .ok ⟨0, cashVec, true⟩ := by decide +kernel

example : cash32_decode (str "bchtest:pr6m7j9njldwwzlg9v7v53unlr4jkmx6eyvwc0uz5t" ++ [0])
    (str "bchtest" ++ [0]) = .ok ⟨1, cashVec, true⟩ := by decide +kernel

example : cash32_is (str "bitcoincash:qr6m7j9njldwwzlg9v7v53unlr4jkmx6eylep8ekg3" ++ [0])
    (str "bitcoincash" ++ [0]) = .ok false := by decide +kernel

end Torsion
