import Verif.Encoding.Base16Lemmas
import Verif.Encoding.Base64Lemmas

/-!
# Properties C01-C07: base16, base32, base64

`Spec.hex`, `Spec.encode` are the RFC 4648 definitions of `Verif/Encoding/Spec.lean`.
A decoder result `⟨b, true⟩` is "returns 1 with `b` in `dst`".
-/
namespace Torsion
open Spec

/-- Byte string of an ASCII literal (used in the examples). -/
def str (s : String) : List Byte := s.toList.map ch

/-! ## C01, C02: base16 -/

/-- C01: `base16_encode` writes the RFC 4648 text of every byte string. -/
theorem base16_encode_spec (b : List Byte) : base16_encode b = .ok (b.flatMap hex) :=
  base16_encode_eq b

/-- C02: acceptance and result of `base16_decode` on every string: it succeeds with `b` exactly
when the input is, up to letter case, the hexadecimal text of `b`. -/
theorem base16_decode_iff (s b : List Byte) :
    base16_decode s = ⟨b, true⟩ ↔ b.flatMap hex = s.map lower := by
  constructor
  · intro h
    have hr : (base16_decode s).ret = true := by rw [h]
    obtain ⟨he, hh⟩ := (base16_decode_ret s).1 hr
    have hd := base16_decode_dst s he
    rw [h] at hd
    simp only at hd
    rw [hd]
    exact decode_loop_canon s 0 he hh
  · intro h
    have hlow : ∀ c : Byte, IsHex (lower c) ↔ IsHex c := by decide +kernel
    have hl : s.length % 2 = 0 := by
      have := congrArg List.length h
      rw [hex_len, List.length_map] at this
      omega
    have hh : ∀ c ∈ s, IsHex c := by
      intro c hc
      rw [← hlow]
      exact hex_all b _ (h ▸ List.mem_map_of_mem hc)
    have hr := (base16_decode_ret s).2 ⟨hl, hh⟩
    have hd := base16_decode_dst s hl
    have hc := decode_loop_canon s 0 hl hh
    rw [← h] at hc
    have hinj : (base16_decode_loop 0 s).2 = b := by
      have := congrArg (fun t => (base16_decode_loop 0 t).2) hc
      simpa only [decode_loop_encode] using this
    have : base16_decode s = ⟨(base16_decode s).dst, (base16_decode s).ret⟩ := rfl
    rw [this, hr, hd, hinj]

theorem lower_hex (b : List Byte) : (b.flatMap hex).map lower = b.flatMap hex := by
  have h : ∀ n : Fin 16, lower (hexDigit n.val) = hexDigit n.val := by decide +kernel
  induction b with
  | nil => rfl
  | cons c b ih =>
    rw [List.flatMap_cons, List.map_append, ih]
    congr 1
    simp only [hex, List.map_cons, List.map_nil]
    rw [h ⟨c.toNat / 16, by have := c.isLt; omega⟩, h ⟨c.toNat % 16, Nat.mod_lt _ (by decide)⟩]

/-- C01: round trip, big-endian variant. -/
theorem base16_roundtrip (b : List Byte) :
    ∃ s, base16_encode b = .ok s ∧ base16_decode s = ⟨b, true⟩ :=
  ⟨_, base16_encode_eq b, (base16_decode_iff _ b).2 (lower_hex b).symm⟩

/-- C02: the accepted strings are exactly the even-length strings of hexadecimal digits. -/
theorem base16_accepts_iff (s : List Byte) :
    (base16_decode s).ret = true ↔ s.length % 2 = 0 ∧ ∀ c ∈ s, IsHex c := base16_decode_ret s

/-- C02: `base16_test` (and `base16le_test`, the same function) is total and agrees with
`base16_decode`. -/
theorem base16_test_eq_decode (s : List Byte) :
    base16_test s = .ok (base16_decode s).ret := by
  unfold base16_test
  by_cases h : s.length % 2 = 1
  · rw [if_pos h]; simp [base16_decode, h]
  · rw [if_neg h, test_loop_eq s _ (Nat.le_refl _), List.take_length]
    congr 1
    rw [Bool.eq_iff_iff, base16_decode_ret, decide_eq_true_iff]
    constructor
    · intro hh; exact ⟨by omega, hh⟩
    · exact fun hh => hh.2

/-- C01: the little-endian variant writes the text of the reversed bytes. -/
theorem base16le_encode_spec (b : List Byte) :
    base16le_encode b = .ok (b.reverse.flatMap hex) := by
  rw [base16le_encode, le_encode_loop_eq b _ (Nat.le_refl _), List.take_length]

/-- C01/C02: the little-endian decoder never reads outside the string, succeeds on exactly the
strings `base16_decode` accepts, and stores the reversed bytes. -/
theorem base16le_decode_eq (s : List Byte) :
    base16le_decode s = .ok ⟨(base16_decode s).dst.reverse, (base16_decode s).ret⟩ := by
  unfold base16le_decode
  by_cases h : s.length % 2 = 1
  · rw [if_pos h]; simp [base16_decode, h]
  · rw [if_neg h]
    have he : s.length % 2 = 0 := by omega
    obtain ⟨z, e, hz⟩ := le_decode_loop_eq s (s.length / 2) 0 (by omega)
    have ht : s.take (2 * (s.length / 2)) = s := List.take_of_length_le (by omega)
    rw [ht] at e hz
    rw [e, C.ok_bind]
    rw [base16_decode_dst s he]
    have hr := base16_decode_ret s
    have hb := hi_bit z
    have h0 : ¬ (0 : Byte).getLsbD 7 = true := by decide
    rw [or_iff_right h0] at hz
    by_cases hh : z.getLsbD 7 = true
    · simp only [if_pos (hb.2 hh)]
      have : (base16_decode s).ret = false := by
        rw [Bool.eq_false_iff, ne_eq, hr]
        rintro ⟨_, h2⟩
        obtain ⟨c, hc, hn⟩ := hz.1 hh
        exact hn (h2 c hc)
      rw [this]
    · simp only [if_neg (mt hb.1 hh)]
      have : (base16_decode s).ret = true := by
        rw [hr]
        refine ⟨he, fun c hc => ?_⟩
        by_contra hn
        exact hh (hz.2 ⟨c, hc, hn⟩)
      rw [this]

/-- C01: round trip, little-endian variant. -/
theorem base16le_roundtrip (b : List Byte) :
    ∃ s, base16le_encode b = .ok s ∧ base16le_decode s = .ok ⟨b, true⟩ := by
  refine ⟨_, base16le_encode_spec b, ?_⟩
  rw [base16le_decode_eq, (base16_decode_iff _ b.reverse).2 (lower_hex _).symm]
  simp

example : base16_encode [0xde, 0xad, 0x0f] = .ok (str "dead0f") := by decide
example : base16_decode (str "DeaD0f") = ⟨[0xde, 0xad, 0x0f], true⟩ := by decide +kernel
example : (base16_decode (str "dead0")).ret = false := by decide +kernel
example : (base16_decode (str "dexd")).ret = false := by decide +kernel
example : base16le_encode [0xde, 0xad, 0x0f] = .ok (str "0fadde") := by decide

/-! ## C03, C04: base32 -/

/-- C03: both alphabets, both padding choices: the RFC 4648 text. -/
theorem base32_encode_spec (b : List Byte) (pad : Bool) :
    base32_encode b pad = .ok (encode 5 8 base32Char pad b) ∧
    base32hex_encode b pad = .ok (encode 5 8 base32hexChar pad b) :=
  ⟨base32_encode0_eq alpha32 b pad, base32_encode0_eq alpha32hex b pad⟩

/-- C04: the decoder succeeds with `b` exactly on the canonical text of `b`, up to case. -/
theorem base32_decode_iff (s b : List Byte) (unpad : Bool) :
    (base32_decode s unpad = ⟨b, true⟩ ↔ encode 5 8 base32Char unpad b = s.map lower) ∧
    (base32hex_decode s unpad = ⟨b, true⟩ ↔ encode 5 8 base32hexChar unpad b = s.map lower) :=
  ⟨base32_decode0_iff alpha32 s b unpad, base32_decode0_iff alpha32hex s b unpad⟩

theorem lower_encode32 (al : Nat → Byte) (h : ∀ n < 32, lower (al n) = al n) (pad : Bool)
    (b : List Byte) : (encode 5 8 al pad b).map lower = encode 5 8 al pad b := by
  have hg : ∀ n ∈ groups 5 (bits b), n < 32 := (bitsK_groups (by decide) (bits b)).1
  have ht : ((groups 5 (bits b)).map al).map lower = (groups 5 (bits b)).map al := by
    rw [List.map_map]
    apply List.map_congr_left
    intro n hn
    exact h n (hg n hn)
  unfold encode
  cases pad
  · simpa using ht
  · simp only [if_true, List.map_append, ht]
    congr 1
    simp [eqPad, List.map_replicate]
    right; decide

/-- C03: round trip, both alphabets, padding on and off. -/
theorem base32_roundtrip (b : List Byte) (pad : Bool) :
    (∃ s, base32_encode b pad = .ok s ∧ base32_decode s pad = ⟨b, true⟩) ∧
    (∃ s, base32hex_encode b pad = .ok s ∧ base32hex_decode s pad = ⟨b, true⟩) :=
  ⟨⟨_, (base32_encode_spec b pad).1, (base32_decode_iff _ b pad).1.2
      (lower_encode32 _ (by decide +kernel) pad b).symm⟩,
   ⟨_, (base32_encode_spec b pad).2, (base32_decode_iff _ b pad).2.2
      (lower_encode32 _ (by decide +kernel) pad b).symm⟩⟩

/-- C04: canonicity: re-encoding what was decoded gives the input with letters lower-cased. -/
theorem base32_canonical (s b : List Byte) (unpad : Bool) :
    (base32_decode s unpad = ⟨b, true⟩ → base32_encode b unpad = .ok (s.map lower)) ∧
    (base32hex_decode s unpad = ⟨b, true⟩ → base32hex_encode b unpad = .ok (s.map lower)) := by
  constructor
  · intro h; rw [(base32_encode_spec b unpad).1, (base32_decode_iff s b unpad).1.1 h]
  · intro h; rw [(base32_encode_spec b unpad).2, (base32_decode_iff s b unpad).2.1 h]

/-- C04: `base32_test` is total and agrees with `base32_decode` on every string. -/
theorem base32_test_eq_decode (s : List Byte) (unpad : Bool) :
    base32_test s unpad = .ok (base32_decode s unpad).ret ∧
    base32hex_test s unpad = .ok (base32hex_decode s unpad).ret :=
  ⟨base32_test0_eq alpha32 s unpad, base32_test0_eq alpha32hex s unpad⟩

example : base32_encode (str "fooba") true = .ok (str "mzxw6ytb") := by decide
example : base32_encode (str "foob") true = .ok (str "mzxw6yq=") := by decide
example : base32_encode (str "f") false = .ok (str "my") := by decide
example : base32hex_encode (str "foob") true = .ok (str "cpnmuog=") := by decide
example : base32_decode (str "MZxw6yq=") true = ⟨str "foob", true⟩ := by decide +kernel
example : (base32_decode (str "mzxw6yr=") true).ret = false := by decide +kernel
example : (base32_decode (str "mzxw6yq") true).ret = false := by decide +kernel

/-! ## C05, C06: base64 -/

/-- C05: the RFC 4648 text. -/
theorem base64_encode_spec (b : List Byte) :
    base64_encode b = .ok (encode 6 4 base64Char true b) ∧
    base64url_encode b = .ok (encode 6 4 base64urlChar false b) :=
  ⟨base64_encode0_eq alpha64 true b, base64_encode0_eq alpha64url false b⟩

/-- C05: round trip. -/
theorem base64_roundtrip (b : List Byte) :
    (∃ s, base64_encode b = .ok s ∧ base64_decode s = .ok ⟨b, true⟩) ∧
    (∃ s, base64url_encode b = .ok s ∧ base64url_decode s = .ok ⟨b, true⟩) := by
  constructor
  · refine ⟨_, (base64_encode_spec b).1, ?_⟩
    obtain ⟨r, hr, h⟩ := base64_decode_iff (encode 6 4 base64Char true b)
    rw [hr, (h b).2 rfl]
  · refine ⟨_, (base64_encode_spec b).2, ?_⟩
    obtain ⟨r, hr, h⟩ := base64url_decode_iff (encode 6 4 base64urlChar false b)
    rw [hr, (h b).2 rfl]

/-- C06: the decoders never read outside the string and succeed with `b` exactly on the
canonical text of `b`. -/
theorem base64_canonical (s b : List Byte) :
    (base64_decode s = .ok ⟨b, true⟩ ↔ base64_encode b = .ok s) ∧
    (base64url_decode s = .ok ⟨b, true⟩ ↔ base64url_encode b = .ok s) := by
  constructor
  · obtain ⟨r, hr, h⟩ := base64_decode_iff s
    rw [hr, (base64_encode_spec b).1, C.ok.injEq, C.ok.injEq, h b]
  · obtain ⟨r, hr, h⟩ := base64url_decode_iff s
    rw [hr, (base64_encode_spec b).2, C.ok.injEq, C.ok.injEq, h b]

/-- C06: the tests are total and agree with the decoders. -/
theorem base64_test_eq_decode (s : List Byte) :
    (∃ r, base64_decode s = .ok r ∧ base64_test s = .ok r.ret) ∧
    (∃ r, base64url_decode s = .ok r ∧ base64url_test s = .ok r.ret) := by
  constructor
  · obtain ⟨L, hL, -⟩ := strip_spec s 2 s.length (Nat.le_refl _)
    obtain ⟨g, hg, -⟩ := check_padding_eq s (6 * L / 8)
    obtain ⟨r, h1, h2⟩ := base64_test0_eq alpha64 s
    unfold base64_decode base64_test
    rw [decode_size64 s L hL, C.ok_bind, C.ok_bind, hg, C.ok_bind, C.ok_bind]
    cases g
    · exact ⟨_, rfl, rfl⟩
    · exact ⟨r, h1, h2⟩
  · obtain ⟨g, hg, -⟩ := check_padding_eq s 0
    obtain ⟨r, h1, h2⟩ := base64_test0_eq alpha64url s
    unfold base64url_decode base64url_test
    rw [hg, C.ok_bind, C.ok_bind]
    cases g
    · exact ⟨_, rfl, rfl⟩
    · exact ⟨r, h1, h2⟩

example : base64_encode (str "foob") = .ok (str "Zm9vYg==") := by decide
example : base64url_encode [0xfb, 0xff] = .ok (str "-_8") := by decide
example : base64_decode (str "Zm9vYg==") = .ok ⟨str "foob", true⟩ := by decide +kernel
example : ∃ r, base64_decode (str "Zm9vYh==") = .ok r ∧ r.ret = false := ⟨_, rfl, rfl⟩
example : ∃ r, base64_decode (str "Zm9vYg=") = .ok r ∧ r.ret = false := ⟨_, rfl, rfl⟩

/-! ## C07: sizes -/

/-- C07, base16: exact text length; bytes stored are `len/2` (none for odd lengths). -/
theorem base16_sizes (b s : List Byte) :
    (∃ t, base16_encode b = .ok t ∧ t.length = base16_encode_size b.length) ∧
    (∃ t, base16le_encode b = .ok t ∧ t.length = base16_encode_size b.length) ∧
    (base16_decode s).dst.length ≤ base16_decode_size s.length ∧
    ((base16_decode s).ret = true →
      (base16_decode s).dst.length = base16_decode_size s.length) := by
  refine ⟨⟨_, base16_encode_eq b, by rw [hex_len, base16_encode_size]; omega⟩,
    ⟨_, base16le_encode_spec b, by
      rw [hex_len, base16_encode_size, List.length_reverse]; omega⟩, ?_, ?_⟩
  · by_cases h : s.length % 2 = 0
    · rw [base16_decode_dst s h, decode_loop_len]; exact Nat.le_refl _
    · simp [base16_decode, show s.length % 2 = 1 by omega]
  · intro hr
    rw [base16_decode_dst s ((base16_decode_ret s).1 hr).1, decode_loop_len]; rfl

/-- C07, base32: `base32_encode_size` is exact and, with the terminating NUL, within the
`BASE32_ENCODE_SIZE` macro; whatever the input, the bytes stored are at most
`base32_decode_size`, which is at most the `BASE32_DECODE_SIZE` macro, with equality on
success. -/
theorem base32_sizes (b s : List Byte) (pad : Bool) :
    (∃ t, base32_encode b pad = .ok t ∧ base32_encode_size b.length pad = .ok t.length ∧
      t.length + 1 ≤ (b.length / 5) * 8 + 13) ∧
    (∃ t, base32hex_encode b pad = .ok t ∧ base32_encode_size b.length pad = .ok t.length ∧
      t.length + 1 ≤ (b.length / 5) * 8 + 13) ∧
    ∃ n, base32_decode_size s = .ok n ∧ n ≤ (s.length / 8) * 5 + 4 ∧
      (base32_decode s pad).dst.length ≤ n ∧ (base32hex_decode s pad).dst.length ≤ n ∧
      ((base32_decode s pad).ret = true → (base32_decode s pad).dst.length = n) ∧
      ((base32hex_decode s pad).ret = true → (base32hex_decode s pad).dst.length = n) := by
  refine ⟨⟨_, (base32_encode_spec b pad).1, (encode_len _ pad b).1, ?_⟩,
    ⟨_, (base32_encode_spec b pad).2, (encode_len _ pad b).1, ?_⟩, ?_⟩
  · have := (encode_len base32Char pad b).2; omega
  · have := (encode_len base32hexChar pad b).2; omega
  · obtain ⟨n, h1, h2, h3, h4⟩ := base32_size_bound alpha32 s pad
    obtain ⟨n', h1', h2', h3', h4'⟩ := base32_size_bound alpha32hex s pad
    rw [h1, C.ok.injEq] at h1'
    subst h1'
    exact ⟨n, h1, h4, h2, h2', h3, h3'⟩

theorem encode_len64 (al : Nat → Byte) (pad : Bool) (b : List Byte) :
    (encode 6 4 al pad b).length = base64_encode_size0 b.length pad := by
  have hg := groups_len (k := 6) (by decide) (bits b)
  rw [bits_len] at hg
  have h3 : b.length % 3 < 3 := Nat.mod_lt _ (by decide)
  have hb : b.length = 3 * (b.length / 3) + b.length % 3 := by omega
  unfold encode base64_encode_size0
  simp only
  generalize b.length / 3 = q at *
  generalize b.length % 3 = r at *
  rw [hb] at hg
  cases pad
  · simp only [Bool.false_eq_true, if_false, List.length_map, hg]
    interval_cases r <;> simp only <;> omega
  · simp only [if_true, List.length_append, List.length_map, eqPad, List.length_replicate, hg]
    interval_cases r <;> simp only <;> omega

/-- C07, base64: as for base32. `BASE64_ENCODE_SIZE` bounds the text. -/
theorem base64_sizes (b s : List Byte) :
    (∃ t, base64_encode b = .ok t ∧ t.length = base64_encode_size b.length ∧
      t.length ≤ (b.length / 3) * 4 + 4) ∧
    (∃ t, base64url_encode b = .ok t ∧ t.length = base64url_encode_size b.length ∧
      t.length ≤ (b.length / 3) * 4 + 4) ∧
    ∃ n r r', base64_decode_size s = .ok n ∧ n ≤ (s.length / 4) * 3 + 2 ∧
      base64_decode s = .ok r ∧ r.dst.length ≤ n ∧ (r.ret = true → r.dst.length = n) ∧
      base64url_decode s = .ok r' ∧ r'.dst.length ≤ n ∧ (r'.ret = true → r'.dst.length = n) := by
  have hs : ∀ pad, base64_encode_size0 b.length pad ≤ (b.length / 3) * 4 + 4 := by
    intro pad
    unfold base64_encode_size0
    simp only
    have h3 : b.length % 3 < 3 := Nat.mod_lt _ (by decide)
    generalize b.length % 3 = r at *
    cases pad <;> interval_cases r <;> simp
  refine ⟨⟨_, (base64_encode_spec b).1, encode_len64 _ _ b, ?_⟩,
    ⟨_, (base64_encode_spec b).2, encode_len64 _ _ b, ?_⟩, ?_⟩
  · rw [encode_len64]; exact hs _
  · rw [encode_len64]; exact hs _
  · obtain ⟨L, hL, hLs, -⟩ := strip_spec s 2 s.length (Nat.le_refl _)
    obtain ⟨g, hg, -⟩ := check_padding_eq s (6 * L / 8)
    obtain ⟨g', hg', -⟩ := check_padding_eq s 0
    obtain ⟨r, h1, h2, h3, -⟩ := decode0_iff alpha64 s L hL hLs
    obtain ⟨r', h1', h2', h3', -⟩ := decode0_iff alpha64url s L hL hLs
    have e1 : base64_decode s = .ok (if g then r else ⟨[], false⟩) := by
      unfold base64_decode
      rw [decode_size64 s L hL, C.ok_bind, hg, C.ok_bind]
      cases g
      · rfl
      · exact h1
    have e2 : base64url_decode s = .ok (if g' then r' else ⟨[], false⟩) := by
      unfold base64url_decode
      rw [hg', C.ok_bind]
      cases g'
      · rfl
      · exact h1'
    refine ⟨6 * L / 8, _, _, decode_size64 s L hL, by omega, e1, ?_, ?_, e2, ?_, ?_⟩
    · cases g <;> simp [h2]
    · cases g <;> simp; exact h3
    · cases g' <;> simp [h2']
    · cases g' <;> simp; exact h3'

example : base32_decode_size (str "mzxw6yq=") = .ok 4 := by decide
example : base64_decode_size (str "Zm9vYg==") = .ok 4 := by decide

end Torsion
