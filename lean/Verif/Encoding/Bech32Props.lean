import Verif.Encoding.Bech32Decode
import Verif.Encoding.ConvertLemmas
import Verif.Encoding.Props

/-!
# Properties of bech32 (C09, C10, C13)

A C string argument is `s ++ 0 :: rest` with no zero byte in `s`; `rest` is whatever follows the
terminator in memory, so the theorems (for every `rest`, also `[]`) say nothing past it is read.
-/
namespace Torsion
open Spec

/-- `s` contains no NUL. -/
def NoNul (s : List Byte) : Prop := ∀ c ∈ s, c ≠ 0

theorem lower_hrp : ∀ c : Byte, HrpChar c → lower c = c := by decide +kernel
theorem not_lower_upper : ∀ c : Byte, HrpChar c → c ≠ 0 := by decide +kernel

/-- The characters of a Bech32 string are lower-case. -/
theorem bech32String_chars {const : Nat} {hrp data s : List Byte}
    (h : Bech32String const hrp data s) : ∀ c ∈ s, HrpChar c := by
  obtain ⟨h1, h2, h3, h4, chk, h5, h6, h7, h8⟩ := h
  intro c hc
  rw [h7] at hc
  rcases List.mem_append.1 hc with h | h
  · exact h2 c h
  · rcases List.mem_cons.1 h with h | h
    · rw [h]; decide
    · obtain ⟨d, hd, rfl⟩ := List.mem_map.1 h
      have hd32 : d.toNat < 32 := by
        rcases List.mem_append.1 hd with h | h
        exacts [h3 d h, h6 d h]
      have := bechChar_props ⟨_, hd32⟩
      exact ⟨this.2.2.2.1.1, this.2.2.2.1.2, this.2.2.2.2.1⟩

theorem map_lower_eq {s : List Byte} (h : ∀ c ∈ s, HrpChar c) : s.map lower = s := by
  conv_rhs => rw [← List.map_id s]
  exact List.map_congr_left (fun c hc => lower_hrp c (h c hc))

theorem not_mixed_of {s : List Byte} (h : ∀ c ∈ s, HrpChar c) : ¬ Mixed s := by
  rintro ⟨-, c, hc, hu⟩
  exact (h c hc).2.2 hu

/-- C09/C10: `bech32_serialize` succeeds exactly on the inputs that have a Bech32 string and
produces that string. -/
theorem bech32_serialize_iff {hrp : List Byte} (h0 : NoNul hrp) (rest data : List Byte)
    (const : BitVec 32) (hc : const.toNat < 2 ^ 30) (s : List Byte) :
    bech32_serialize (hrp ++ 0 :: rest) data const = .ok ⟨s ++ [0], true⟩ ↔
      Bech32String const.toNat hrp data s := by
  rw [bech32String_iff hc]
  by_cases h : 1 ≤ hrp.length ∧ (∀ c ∈ hrp, HrpChar c) ∧ (∀ d ∈ data, d.toNat < 32) ∧
      hrp.length + 1 + data.length + 6 ≤ 90
  · obtain ⟨h1, h2, h3, h4⟩ := h
    rw [serialize_ok rest data const h0 h1 h2 h3 h4]
    simp only [C.ok.injEq, SerOut.mk.injEq, and_true, List.append_left_inj]
    constructor
    · rintro rfl; exact ⟨h1, h2, h3, h4, rfl⟩
    · rintro ⟨-, -, -, -, rfl⟩; rfl
  · obtain ⟨o, ho, -⟩ := serialize_bad rest data const h0 h
    rw [ho]
    constructor
    · intro h'; simp at h'
    · rintro ⟨h1, h2, h3, h4, -⟩; exact absurd ⟨h1, h2, h3, h4⟩ h

/-- C09: it always returns, with 1 or 0, and succeeds exactly when the prefix is 1 to 83 printable
non-upper-case characters, all symbols are below 32 and the total length is at most 90. -/
theorem bech32_serialize_total {hrp : List Byte} (h0 : NoNul hrp) (rest data : List Byte)
    (const : BitVec 32) : ∃ out, bech32_serialize (hrp ++ 0 :: rest) data const = .ok out ∧
      out.str.length ≤ 91 ∧
      (out.ret = true ↔ 1 ≤ hrp.length ∧
        (∀ c ∈ hrp, 33 ≤ c.toNat ∧ c.toNat ≤ 126 ∧ ¬ IsUpper c) ∧
        (∀ d ∈ data, d.toNat < 32) ∧ hrp.length + 1 + data.length + 6 ≤ 90) := by
  by_cases h : 1 ≤ hrp.length ∧ (∀ c ∈ hrp, HrpChar c) ∧ (∀ d ∈ data, d.toNat < 32) ∧
      hrp.length + 1 + data.length + 6 ≤ 90
  · obtain ⟨h1, h2, h3, h4⟩ := h
    refine ⟨_, serialize_ok rest data const h0 h1 h2 h3 h4, ?_, fun _ => ⟨h1, h2, h3, h4⟩,
      fun _ => rfl⟩
    simp [bechChk, unpack_len]; omega
  · obtain ⟨o, ho, hl⟩ := serialize_bad rest data const h0 h
    exact ⟨_, ho, by dsimp only; omega, by simp, fun h' => absurd h' h⟩

/-- C10: what `bech32_deserialize` accepts. -/
theorem bech32_deserialize_iff {s : List Byte} (h0 : NoNul s) (rest : List Byte)
    (const : BitVec 32) (hrp data : List Byte) :
    bech32_deserialize (s ++ 0 :: rest) const = .ok ⟨hrp ++ [0], data, true⟩ ↔
      ¬ Mixed s ∧ Bech32String const.toNat hrp data (s.map lower) :=
  deserialize_iff' h0 rest const hrp data

/-- C13: on every NUL-terminated string `bech32_deserialize` returns, without touching memory past
the terminator, and stores at most `BECH32_MAX_HRP_SIZE + 1` and `BECH32_MAX_DESERIALIZE_SIZE`
bytes; when it accepts, the prefix is NUL-terminated. -/
theorem bech32_deserialize_bounds {s : List Byte} (h0 : NoNul s) (rest : List Byte)
    (const : BitVec 32) : ∃ out, bech32_deserialize (s ++ 0 :: rest) const = .ok out ∧
      out.hrp.length ≤ 83 + 1 ∧ out.data.length ≤ 83 ∧ (∀ d ∈ out.data, out.ret → d.toNat < 32) ∧
      (out.ret = true → ∃ hrp, out.hrp = hrp ++ [0]) := by
  by_cases hsh : ∃ a b, BechShape s a b
  · obtain ⟨a, b, hsh⟩ := hsh
    have hd := des_shape hsh rest const
    obtain ⟨hs, hb, ha, hb6, hl, hp, hm⟩ := hsh
    have hslen : s.length = a.length + 1 + b.length := by rw [hs]; simp; omega
    by_cases hsym : ∀ c ∈ b, IsSym c
    · refine ⟨_, hd.1 hsym, ?_, ?_, ?_, fun _ => ⟨_, rfl⟩⟩
      · simp; omega
      · simp; omega
      · intro d hd' _
        obtain ⟨c, hc, rfl⟩ := List.mem_map.1 (List.mem_of_mem_take hd')
        exact hsym c hc
    · obtain ⟨o, ho, hol⟩ := hd.2 hsym
      refine ⟨_, ho, ?_, by dsimp only; omega, by simp, by simp⟩
      simp; omega
  · exact ⟨_, des_noshape h0 hsh rest const, by simp, by simp, by simp, by simp⟩

/-- C09: deserialising what was serialised gives the input back. -/
theorem bech32_roundtrip {hrp : List Byte} (h0 : NoNul hrp) {rest data : List Byte}
    {const : BitVec 32} (hc : const.toNat < 2 ^ 30) {s : List Byte}
    (h : bech32_serialize (hrp ++ 0 :: rest) data const = .ok ⟨s ++ [0], true⟩)
    (rest' : List Byte) :
    bech32_deserialize (s ++ 0 :: rest') const = .ok ⟨hrp ++ [0], data, true⟩ := by
  rw [bech32_serialize_iff h0 rest data const hc] at h
  have hch := bech32String_chars h
  rw [bech32_deserialize_iff (fun c hc => not_lower_upper c (hch c hc)), map_lower_eq hch]
  exact ⟨not_mixed_of hch, h⟩

theorem polymod_lt {pre : List Nat} {v : Nat} (hv : v < 32) :
    polymod 25 bech32Gen (pre ++ [v]) < 2 ^ 30 := by
  rw [polymod, List.foldl_append]
  exact polyStep_lt bech32Gen_lt _ hv

/-- A Bech32 string only exists for 30-bit constants. -/
theorem bech32String_const {const : Nat} {hrp data s : List Byte}
    (h : Bech32String const hrp data s) : const < 2 ^ 30 := by
  obtain ⟨h1, h2, h3, h4, chk, h5, h6, h7, h8⟩ := h
  rw [← h8]
  rcases List.eq_nil_or_concat chk with rfl | ⟨l, x, rfl⟩
  · simp at h5
  · have : hrpExpand hrp ++ (data ++ l.concat x).map (·.toNat) =
        (hrpExpand hrp ++ data.map (·.toNat) ++ l.map (·.toNat)) ++ [x.toNat] := by simp
    rw [this]
    exact polymod_lt (h6 x (by simp))

/-- C10: an accepted string is, up to case, the serialisation of the result; mixed case is never
accepted. -/
theorem bech32_canonical {s : List Byte} (h0 : NoNul s) {rest : List Byte} {const : BitVec 32}
    {hrp data : List Byte}
    (h : bech32_deserialize (s ++ 0 :: rest) const = .ok ⟨hrp ++ [0], data, true⟩)
    (rest' : List Byte) :
    ¬ Mixed s ∧
    bech32_serialize (hrp ++ 0 :: rest') data const = .ok ⟨s.map lower ++ [0], true⟩ := by
  rw [bech32_deserialize_iff h0] at h
  refine ⟨h.1, ?_⟩
  rw [bech32_serialize_iff _ _ _ _ (bech32String_const h.2)]
  · exact h.2
  · intro c hc
    have := h.2.2.1 c hc
    exact not_lower_upper c this

/-- C10: two accepted strings with the same result are equal up to case. -/
theorem bech32_unique {s t : List Byte} (hs : NoNul s) (ht : NoNul t) {r r' : List Byte}
    {const : BitVec 32} {hrp data : List Byte}
    (h1 : bech32_deserialize (s ++ 0 :: r) const = .ok ⟨hrp ++ [0], data, true⟩)
    (h2 : bech32_deserialize (t ++ 0 :: r') const = .ok ⟨hrp ++ [0], data, true⟩) :
    s.map lower = t.map lower := by
  have e1 := (bech32_canonical hs h1 []).2
  have e2 := (bech32_canonical ht h2 []).2
  rw [e1] at e2
  simpa using e2

/-- Finding: with a checksum constant of 31 or 32 bits the serialiser still succeeds, but the
deserialiser accepts no string at all, so the round trip needs `const < 2^30`. -/
theorem bech32_const_limit {s : List Byte} (h0 : NoNul s) (rest : List Byte) {const : BitVec 32}
    (hc : 2 ^ 30 ≤ const.toNat) :
    ∃ out, bech32_deserialize (s ++ 0 :: rest) const = .ok out ∧ out.ret = false := by
  obtain ⟨out, ho, -, -, -, hret⟩ := bech32_deserialize_bounds h0 rest const
  refine ⟨out, ho, ?_⟩
  rcases hr : out.ret with _ | _
  · rfl
  · exfalso
    obtain ⟨hrp, hh⟩ := hret hr
    have : out = ⟨hrp ++ [0], out.data, true⟩ := by
      cases out; simp_all
    rw [this, bech32_deserialize_iff h0] at ho
    have := bech32String_const ho.2
    omega

/-- `bech32_is` is acceptance by `bech32_deserialize`. -/
theorem bech32_is_iff {s : List Byte} (h0 : NoNul s) (rest : List Byte) (const : BitVec 32) :
    ∃ b, bech32_is (s ++ 0 :: rest) const = .ok b ∧
      (b = true ↔ ¬ Mixed s ∧ ∃ hrp data, Bech32String const.toNat hrp data (s.map lower)) := by
  obtain ⟨out, ho, -, -, -, hret⟩ := bech32_deserialize_bounds h0 rest const
  refine ⟨out.ret, by rw [bech32_is, ho]; rfl, ?_⟩
  constructor
  · intro hr
    obtain ⟨hrp, hh⟩ := hret hr
    have : out = ⟨hrp ++ [0], out.data, true⟩ := by
      cases out; simp_all
    rw [this, bech32_deserialize_iff h0] at ho
    exact ⟨ho.1, hrp, out.data, ho.2⟩
  · rintro ⟨hm, hrp, data, hs⟩
    have := (bech32_deserialize_iff h0 rest const hrp data).2 ⟨hm, hs⟩
    rw [this] at ho
    cases ho; rfl

/-! ## Addresses -/

/-- `s` is the segwit-style address of (hrp, version, program). -/
def BechAddress (const : Nat) (hrp : List Byte) (version : Nat) (program s : List Byte) : Prop :=
  version ≤ 31 ∧ 2 ≤ program.length ∧ program.length ≤ 40 ∧
    ∃ data : List Byte, data.map (·.toNat) = version :: groups 5 (bits program) ∧
      Bech32String const hrp data s

theorem groups5_len (program : List Byte) :
    (groups 5 (bits program)).length = (8 * program.length + 4) / 5 := by
  rw [groups_len (by omega), bits_len]

theorem conv_len (hash : List Byte) :
    (convert_bits 32 5 hash 8 true).dst.length = (8 * hash.length + 4) / 5 := by
  rw [← groups5_len, ← (conv85 (w := 32) (by omega) hash).2, List.length_map]

theorem map_toNat_inj {a b : List Byte} (h : a.map (·.toNat) = b.map (·.toNat)) : a = b :=
  (List.map_inj_right (fun _ _ h => BitVec.eq_of_toNat_eq h)).1 h

/-- C09: `bech32_encode` produces exactly the address (and fails when there is none). -/
theorem bech32_encode_iff {hrp : List Byte} (h0 : NoNul hrp) (rest : List Byte) (version : Nat)
    (hash : List Byte) (const : BitVec 32) (hc : const.toNat < 2 ^ 30) (s : List Byte) :
    bech32_encode (hrp ++ 0 :: rest) version hash const = .ok ⟨s ++ [0], true⟩ ↔
      BechAddress const.toNat hrp version hash s := by
  rw [bech32_encode]
  by_cases hv : version > 31
  · rw [if_pos hv]
    constructor
    · intro h; simp at h
    · rintro ⟨h, -⟩; omega
  rw [if_neg hv]
  by_cases hl : hash.length < 2 ∨ hash.length > 40
  · rw [if_pos hl]
    constructor
    · intro h; simp at h
    · rintro ⟨-, h1, h2, -⟩; omega
  rw [if_neg hl]
  have hcl := conv_len hash
  have hcv := conv85 (w := 32) (by omega) hash
  dsimp only
  rw [if_neg (by omega), if_neg (by simp [hcv.1]), bech32_serialize_iff h0 _ _ _ hc]
  have hdat : (BitVec.ofNat 8 version :: (convert_bits 32 5 hash 8 true).dst).map (·.toNat) =
      version :: groups 5 (bits hash) := by
    rw [List.map_cons, hcv.2, BitVec.toNat_ofNat, Nat.mod_eq_of_lt (by omega)]
  constructor
  · intro h
    exact ⟨by omega, by omega, by omega, _, hdat, h⟩
  · rintro ⟨-, -, -, data, h1, h2⟩
    rw [← hdat] at h1
    rwa [map_toNat_inj h1] at h2

/-- C09/C10: `bech32_decode` accepts exactly the addresses (in either case). -/
theorem bech32_decode_iff {s : List Byte} (h0 : NoNul s) (rest : List Byte) (const : BitVec 32)
    (hrp : List Byte) (version : Nat) (hash : List Byte) :
    bech32_decode (s ++ 0 :: rest) const = .ok ⟨hrp ++ [0], version, hash, true⟩ ↔
      ¬ Mixed s ∧ BechAddress const.toNat hrp version hash (s.map lower) := by
  obtain ⟨d, hd, b1, b2, b3, b4⟩ := bech32_deserialize_bounds h0 rest const
  rw [bech32_decode, hd, C.ok_bind, if_neg (by omega)]
  rcases hr : d.ret with _ | _
  · rw [if_pos (by simp)]
    constructor
    · intro h; simp at h
    · rintro ⟨hm, -, -, -, data, -, h2⟩
      have := (bech32_deserialize_iff h0 rest const hrp data).2 ⟨hm, h2⟩
      rw [hd] at this
      cases this; simp at hr
  rw [if_neg (by simp)]
  obtain ⟨hrp', hh⟩ := b4 hr
  have hd' := hd
  rw [show d = ⟨hrp' ++ [0], d.data, true⟩ by cases d; simp_all,
    bech32_deserialize_iff h0] at hd'
  obtain ⟨hm, hstr⟩ := hd'
  -- uniqueness of the parse
  have huniq : ∀ {hrp data : List Byte}, Bech32String const.toNat hrp data (s.map lower) →
      hrp = hrp' ∧ data = d.data := by
    intro hrp data h
    have := (bech32_deserialize_iff h0 rest const hrp data).2 ⟨hm, h⟩
    rw [hd] at this
    cases this
    exact ⟨by simpa using hh, rfl⟩
  have hv32 : ∀ x ∈ d.data, x.toNat < 32 := fun x hx => b3 x hx hr
  by_cases hlen : d.data.length = 0 ∨ d.data.length > 65
  · rw [if_pos hlen]
    constructor
    · intro h; simp at h
    · rintro ⟨-, h1, h2, h3, data, h4, h5⟩
      obtain ⟨-, rfl⟩ := huniq h5
      have := congrArg List.length h4
      rw [List.length_map, List.length_cons, groups5_len] at this
      omega
  rw [if_neg hlen]
  obtain ⟨v, vs, hvs⟩ : ∃ v vs, d.data = v :: vs := by
    rcases hx : d.data with _ | ⟨v, vs⟩
    · simp [hx] at hlen
    · exact ⟨v, vs, rfl⟩
  rw [hvs] at hv32 hlen ⊢
  have hv := hv32 v (by simp)
  have hvs32 : ∀ x ∈ vs, x.toNat < 32 := fun x hx => hv32 x (by simp [hx])
  rw [show C.rd (v :: vs) 0 = .ok v from rfl, C.ok_bind, if_neg (by omega), List.drop_succ_cons,
    List.drop_zero]
  dsimp only
  have hconv := conv58_iff (w := 32) (by omega) vs hvs32
  have hlenc := convert_nopad_len (d := 8) (s := 5) (w := 32) (by omega) (by omega) (by omega) vs
    hvs32
  rcases hcr : (convert_bits 32 8 vs 5 false).ret with _ | _
  · rw [if_pos (by simp)]
    constructor
    · intro h; simp at h
    · rintro ⟨-, h1, h2, h3, data, h4, h5⟩
      obtain ⟨-, rfl⟩ := huniq h5
      rw [hvs, List.map_cons, List.cons.injEq] at h4
      have := (hconv hash).2 h4.2
      rw [this] at hcr
      simp at hcr
  rw [if_neg (by simp)]
  have hself := (hconv (convert_bits 32 8 vs 5 false).dst).1 (by
    cases hx : convert_bits 32 8 vs 5 false; simp_all)
  by_cases hl2 : (convert_bits 32 8 vs 5 false).dst.length < 2 ∨
      (convert_bits 32 8 vs 5 false).dst.length > 40
  · rw [if_pos hl2]
    constructor
    · intro h; simp at h
    · rintro ⟨-, h1, h2, h3, data, h4, h5⟩
      obtain ⟨-, rfl⟩ := huniq h5
      rw [hvs, List.map_cons, List.cons.injEq] at h4
      have := (hconv hash).2 h4.2
      rw [this] at hl2
      dsimp only at hl2
      omega
  rw [if_neg hl2]
  constructor
  · intro h
    simp only [C.ok.injEq, BechAddr.mk.injEq, and_true, hh, List.append_left_inj] at h
    obtain ⟨rfl, rfl, rfl⟩ := h
    refine ⟨hm, by omega, by omega, by omega, d.data, ?_, hstr⟩
    rw [hvs, List.map_cons, hself]
  · rintro ⟨-, h1, h2, h3, data, h4, h5⟩
    obtain ⟨rfl, rfl⟩ := huniq h5
    rw [hvs, List.map_cons, List.cons.injEq] at h4
    rw [(hconv hash).2 h4.2, hh, h4.1]

/-- C09: decoding an encoded address returns prefix, version and program. -/
theorem bech32_address_roundtrip {hrp : List Byte} (h0 : NoNul hrp) {rest : List Byte}
    {version : Nat} {hash : List Byte} {const : BitVec 32} (hc : const.toNat < 2 ^ 30)
    {s : List Byte}
    (h : bech32_encode (hrp ++ 0 :: rest) version hash const = .ok ⟨s ++ [0], true⟩)
    (rest' : List Byte) :
    bech32_decode (s ++ 0 :: rest') const = .ok ⟨hrp ++ [0], version, hash, true⟩ := by
  rw [bech32_encode_iff h0 _ _ _ _ hc] at h
  obtain ⟨h1, h2, h3, data, h4, h5⟩ := h
  have hch := bech32String_chars h5
  rw [bech32_decode_iff (fun c hc => not_lower_upper c (hch c hc)), map_lower_eq hch]
  exact ⟨not_mixed_of hch, h1, h2, h3, data, h4, h5⟩

/-- C10: an accepted address is, up to case, the encoding of the result. -/
theorem bech32_address_canonical {s : List Byte} (h0 : NoNul s) {rest : List Byte}
    {const : BitVec 32} {hrp : List Byte} {version : Nat} {hash : List Byte}
    (h : bech32_decode (s ++ 0 :: rest) const = .ok ⟨hrp ++ [0], version, hash, true⟩)
    (rest' : List Byte) :
    ¬ Mixed s ∧
    bech32_encode (hrp ++ 0 :: rest') version hash const = .ok ⟨s.map lower ++ [0], true⟩ := by
  rw [bech32_decode_iff h0] at h
  refine ⟨h.1, ?_⟩
  obtain ⟨h1, h2, h3, data, h4, h5⟩ := h.2
  rw [bech32_encode_iff _ _ _ _ _ (bech32String_const h5)]
  · exact h.2
  · exact fun c hc => not_lower_upper c (h5.2.1 c hc)

/-- C13: `bech32_decode` and `bech32_test` always return, and store at most 84 bytes of prefix and
`BECH32_MAX_DECODE_SIZE` bytes of program, also on rejected input. -/
theorem bech32_decode_bounds {s : List Byte} (h0 : NoNul s) (rest : List Byte)
    (const : BitVec 32) :
    (∃ out, bech32_decode (s ++ 0 :: rest) const = .ok out ∧
      out.hrp.length ≤ 83 + 1 ∧ out.hash.length ≤ 40 ∧
      bech32_test (s ++ 0 :: rest) const = .ok out.ret ∧
      (out.ret = true → ∃ hrp, out.hrp = hrp ++ [0])) := by
  suffices h : ∃ out, bech32_decode (s ++ 0 :: rest) const = .ok out ∧
      out.hrp.length ≤ 83 + 1 ∧ out.hash.length ≤ 40 ∧
      (out.ret = true → ∃ hrp, out.hrp = hrp ++ [0]) by
    obtain ⟨out, ho, h1, h2, h3⟩ := h
    refine ⟨out, ho, h1, h2, ?_, h3⟩
    rw [bech32_test, ho, C.ok_bind, if_neg (by omega)]
  obtain ⟨d, hd, b1, b2, b3, b4⟩ := bech32_deserialize_bounds h0 rest const
  rw [bech32_decode, hd, C.ok_bind, if_neg (by omega)]
  rcases hr : d.ret with _ | _
  · exact ⟨_, by rw [if_pos (by simp)], b1, by simp, by simp⟩
  rw [if_neg (by simp)]
  by_cases hlen : d.data.length = 0 ∨ d.data.length > 65
  · rw [if_pos hlen]; exact ⟨_, rfl, b1, by simp, by simp⟩
  rw [if_neg hlen]
  obtain ⟨v, vs, hvs⟩ : ∃ v vs, d.data = v :: vs := by
    rcases hx : d.data with _ | ⟨v, vs⟩
    · simp [hx] at hlen
    · exact ⟨v, vs, rfl⟩
  have hv32 : ∀ x ∈ d.data, x.toNat < 32 := fun x hx => b3 x hx hr
  rw [hvs] at hv32 hlen ⊢
  have hv := hv32 v (by simp)
  have hvs32 : ∀ x ∈ vs, x.toNat < 32 := fun x hx => hv32 x (by simp [hx])
  rw [show C.rd (v :: vs) 0 = .ok v from rfl, C.ok_bind, if_neg (by omega), List.drop_succ_cons,
    List.drop_zero]
  dsimp only
  have hlenc := convert_nopad_len (d := 8) (s := 5) (w := 32) (by omega) (by omega) (by omega) vs
    hvs32
  have hle : (convert_bits 32 8 vs 5 false).dst.length ≤ 40 := by
    simp at hlen; omega
  rcases hcr : (convert_bits 32 8 vs 5 false).ret with _ | _
  · exact ⟨_, by rw [if_pos (by simp)], b1, hle, by simp⟩
  rw [if_neg (by simp)]
  by_cases hl2 : (convert_bits 32 8 vs 5 false).dst.length < 2 ∨
      (convert_bits 32 8 vs 5 false).dst.length > 40
  · exact ⟨_, by rw [if_pos hl2], b1, hle, by simp⟩
  · exact ⟨_, by rw [if_neg hl2], b1, hle, fun _ => b4 hr⟩

/-- C13: `bech32_encode` always returns and stays within its locals and
`BECH32_MAX_ENCODE_SIZE + 1` bytes of output, for every version and every program length. -/
theorem bech32_encode_bounds {hrp : List Byte} (h0 : NoNul hrp) (rest : List Byte) (version : Nat)
    (hash : List Byte) (const : BitVec 32) :
    ∃ out, bech32_encode (hrp ++ 0 :: rest) version hash const = .ok out ∧
      out.str.length ≤ 90 + 1 := by
  rw [bech32_encode]
  by_cases hv : version > 31
  · rw [if_pos hv]; exact ⟨_, rfl, by simp⟩
  rw [if_neg hv]
  by_cases hl : hash.length < 2 ∨ hash.length > 40
  · rw [if_pos hl]; exact ⟨_, rfl, by simp⟩
  rw [if_neg hl]
  have hcl := conv_len hash
  have hcv := conv85 (w := 32) (by omega) hash
  dsimp only
  rw [if_neg (by omega), if_neg (by simp [hcv.1])]
  obtain ⟨out, ho, hl, -⟩ := bech32_serialize_total h0 rest
    (BitVec.ofNat 8 version :: (convert_bits 32 5 hash 8 true).dst) const
  exact ⟨out, ho, hl⟩

/-! ## Non-vacuity: BIP 173 test vectors -/

example : bech32_encode (str "bc" ++ [0]) 0
    [0x75, 0x1e, 0x76, 0xe8, 0x19, 0x91, 0x96, 0xd4, 0x54, 0x94, 0x1c, 0x45, 0xd1, 0xb3, 0xa3,
     0x23, 0xf1, 0x43, 0x3b, 0xd6] 1 =
    .ok ⟨str "bc1qw508d6qejxtdg4y5r3zarvary0c5xw7kv8f3t4" ++ [0], true⟩ := by decide +kernel

example : bech32_decode (str "BC1QW508D6QEJXTDG4Y5R3ZARVARY0C5XW7KV8F3T4" ++ [0, 7]) 1 =
    .ok ⟨str "bc" ++ [0], 0, [0x75, 0x1e, 0x76, 0xe8, 0x19, 0x91, 0x96, 0xd4, 0x54, 0x94, 0x1c,
      0x45, 0xd1, 0xb3, 0xa3, 0x23, 0xf1, 0x43, 0x3b, 0xd6], true⟩ := by decide +kernel

example : (bech32_is (str "bc1Qw508d6qejxtdg4y5r3zarvary0c5xw7kv8f3t4" ++ [0]) 1) = .ok false := by
  decide +kernel

example : bech32_serialize (str "a" ++ [0]) [] 1 = .ok ⟨str "a12uel5l" ++ [0], true⟩ := by
  decide +kernel

example : bech32_serialize (str "a" ++ [0]) [] 0x2bc830a3 =
    .ok ⟨str "a1lqfn3a" ++ [0], true⟩ := by decide +kernel

/-- A 31-bit constant: serialising succeeds (and `bech32_const_limit` shows nothing is
accepted). -/
example : bech32_serialize (str "a" ++ [0]) [1] 0x40000001 =
    bech32_serialize (str "a" ++ [0]) [1] 1 := by decide +kernel

example : NoNul (str "bc1q") := by unfold NoNul; decide +kernel

end Torsion
