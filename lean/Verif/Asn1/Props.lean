import Verif.Asn1.Lemmas

/-!
# Properties of src/asn1.c (C16, C17, C18)

`beVal` is the big-endian value of a byte string and `derLen`, `derContent`, `derInt` are the X.690
encodings (`Verif.Asn1.Spec`). `exact d` is the reader state whose buffer is exactly the bytes `d`.
-/
namespace Torsion
open Spec Asn1

/-! ## C16: writers and round trips -/

/-- The size writer stores the DER length octets, or aborts when it needs more than two bytes. -/
theorem asn1_write_size_spec (n : Nat) :
    asn1_write_size n = if n ≤ 0xffff then .ok (derLen n) else .abort := write_size_eq n

/-- The integer writer stores the DER encoding of the value of `num`, whatever zeroes lead it. -/
theorem asn1_write_int_spec (num : List Byte) : asn1_write_int num =
    if (derContent (beVal num)).length ≤ 0xffff then .ok (derInt (beVal num)) else .abort :=
  write_int_eq num

/-- The multi-precision writer stores the DER encoding of the value. -/
theorem asn1_write_mpz_spec (n : Nat) : asn1_write_mpz n =
    if (derContent n).length ≤ 0xffff then .ok (derInt n) else .abort := write_mpz_eq n

/-- The sequence writer stores the tag and the DER length octets. -/
theorem asn1_write_seq_spec (n : Nat) : asn1_write_seq n =
    if n ≤ 0xffff then .ok (0x30 :: derLen n) else .abort := by
  rw [asn1_write_seq, write_size_eq]
  split <;> rfl

/-- The version writer stores a one-byte INTEGER. -/
theorem asn1_write_version_spec (v : Nat) : asn1_write_version v =
    if v ≤ 0xff then .ok [2, 1, BitVec.ofNat 8 v] else .abort := by
  rw [asn1_write_version, C.check]
  by_cases h : v ≤ 0xff
  · rw [if_pos h, if_pos (by simpa using h)]; rfl
  · rw [if_neg h, if_neg (by simpa using h)]; rfl

theorem two_byte_hdr {n : Nat} (h : n ≤ 0xffff) :
    beVal [BitVec.ofNat 8 (n >>> 8), BitVec.ofNat 8 (n &&& 0xff)] = n := by
  rw [beVal_cons, beVal_single, Nat.shiftRight_eq_div_pow, show (0xff : Nat) = 2 ^ 8 - 1 from rfl,
    Nat.and_two_pow_sub_one_eq_mod]
  simp only [BitVec.toNat_ofNat, List.length_singleton]
  omega

/-- The "dumb" writer stores a two-byte big-endian length and the shortest big-endian bytes. -/
theorem asn1_write_dumb_spec (n : Nat) :
    (0xffff < (beBytes n).length → asn1_write_dumb n = .abort) ∧
    ((beBytes n).length ≤ 0xffff → ∃ h0 h1, asn1_write_dumb n = .ok (h0 :: h1 :: beBytes n) ∧
      beVal [h0, h1] = (beBytes n).length) := by
  rw [asn1_write_dumb]
  rw [bytelen_eq, export_eq, C.check]
  constructor
  · intro h
    rw [if_neg (by simpa using h)]; rfl
  · intro h
    rw [if_pos (by simpa using h)]
    exact ⟨_, _, rfl, two_byte_hdr h⟩

/-- The size functions predict exactly the number of bytes the writers store, whenever the writers
do not abort. -/
theorem asn1_sizes :
    (∀ n b, asn1_write_size n = .ok b → asn1_size_size n = b.length) ∧
    (∀ num b, asn1_write_int num = .ok b → asn1_size_int num = b.length) ∧
    (∀ n b, asn1_write_mpz n = .ok b → asn1_size_mpz n = b.length) ∧
    (∀ v b, asn1_write_version v = .ok b → asn1_size_version v = b.length) := by
  refine ⟨fun n b h => ?_, fun num b h => ?_, fun n b h => ?_, fun v b h => ?_⟩
  · rw [write_size_eq] at h
    split at h
    · rename_i hl
      simp only [C.ok.injEq] at h
      rw [← h, size_size_eq hl]
    · simp at h
  · rw [write_int_eq] at h
    split at h
    · rename_i hl
      simp only [C.ok.injEq] at h
      rw [← h, size_int_eq hl]
    · simp at h
  · rw [write_mpz_eq] at h
    split at h
    · rename_i hl
      simp only [C.ok.injEq] at h
      rw [← h, size_mpz_eq hl]
    · simp at h
  · rw [asn1_write_version_spec] at h
    split at h
    · simp only [C.ok.injEq] at h
      rw [← h]; rfl
    · simp at h

theorem derLen_ber {n : Nat} (h : n < 2 ^ 32) : BerLen n (derLen n) := by
  rw [derLen]
  by_cases h1 : n < 128
  · rw [if_pos h1]; exact .inl ⟨h1, rfl⟩
  · rw [if_neg h1]
    refine .inr ⟨beBytes n, ?_, rfl, beVal_beBytes n, h⟩
    have : (beBytes n).length ≤ 4 := by rw [beBytes_len_le]; omega
    omega

theorem lenEnc_der (strict : Bool) {n : Nat} (h : n < 2 ^ 32) : LenEnc strict n (derLen n) := by
  rw [LenEnc]
  split
  · exact ⟨h, rfl⟩
  · exact derLen_ber h

theorem beVal_derContent (v : Nat) : beVal (derContent v) = v := by
  have h := beVal_beBytes v
  rw [derContent]
  rcases hb : beBytes v with _ | ⟨c, b⟩
  · rw [hb] at h; rw [← h]; rfl
  · rw [hb] at h
    dsimp only
    split
    · exact h
    · rw [beVal_cons, h]; simp

/-- `asn1_read_size` after `asn1_write_size`, in both modes, before any bytes `r`. -/
theorem asn1_size_roundtrip (strict : Bool) {n : Nat} {b : List Byte} (r : List Byte)
    (h : asn1_write_size n = .ok b) :
    asn1_read_size (exact (b ++ r)) strict = .ok ⟨n, exact r, true⟩ := by
  rw [write_size_eq] at h
  split at h
  case isFalse => simp at h
  rename_i hn
  simp only [C.ok.injEq] at h
  obtain ⟨out, ho, -, -, hi⟩ := read_size_all strict (b ++ r)
  rw [ho, (hi n r).2 ⟨b, rfl, h ▸ lenEnc_der strict (by omega)⟩]

/-- `asn1_read_seq` after `asn1_write_seq`: strict mode needs the announced size to be the number
of bytes that follow. -/
theorem asn1_seq_roundtrip (strict : Bool) {b : List Byte} (r : List Byte)
    (h : asn1_write_seq r.length = .ok b) :
    asn1_read_seq (exact (b ++ r)) strict = .ok (exact r, true) := by
  rw [asn1_write_seq] at h
  rcases hw : asn1_write_size r.length with b' | _ | _ <;> rw [hw] at h
  case abort => simp at h
  case ub => simp at h
  simp only [C.ok_bind, C.ok.injEq] at h
  subst h
  rw [asn1_read_seq, if_neg (by simp), List.cons_append,
    show C.rd (exact (0x30 :: (b' ++ r))).data 0 = .ok 0x30 from rfl, C.ok_bind,
    if_neg (by simp), adv_exact (by simp), C.ok_bind, List.drop_succ_cons, List.drop_zero,
    asn1_size_roundtrip strict r hw]
  simp

/-- `asn1_read_int` after `asn1_write_int`, in both modes and for any following bytes: the output
buffer (of any length the value fits in) holds the value. -/
theorem asn1_int_roundtrip (strict : Bool) {num b : List Byte} (r : List Byte) (out_len : Nat)
    (h : asn1_write_int num = .ok b) (hfit : beVal num < 256 ^ out_len) :
    ∃ o, asn1_read_int out_len (exact (b ++ r)) strict = .ok ⟨o, exact r, true⟩ ∧
      o.length = out_len ∧ beVal o = beVal num := by
  rw [write_int_eq] at h
  split at h
  case isFalse => simp at h
  rename_i hn
  simp only [C.ok.injEq] at h
  obtain ⟨out, ho, -, -, hi⟩ := read_int_all out_len strict (b ++ r)
  have hv := beVal_derContent (beVal num)
  have hl := (beBytes_len_le _ _).2 hfit
  refine ⟨List.replicate (out_len - (beBytes (beVal num)).length) 0 ++ beBytes (beVal num), ?_,
    by simp; omega, by rw [beVal_append, beVal_replicate, beVal_beBytes]; simp⟩
  rw [ho, (hi _ r).2]
  refine ⟨_, derContent (beVal num), ?_, lenEnc_der strict (by omega), fun _ => by rw [hv],
    by simp; omega, by rw [beVal_append, beVal_replicate, beVal_beBytes, hv]; simp⟩
  rw [← h, derInt]; rfl

/-- In particular an integer of the same width comes back unchanged. -/
theorem asn1_int_roundtrip_same (strict : Bool) {num b : List Byte} (r : List Byte)
    (h : asn1_write_int num = .ok b) :
    asn1_read_int num.length (exact (b ++ r)) strict = .ok ⟨num, exact r, true⟩ := by
  obtain ⟨o, h1, h2, h3⟩ := asn1_int_roundtrip strict r num.length h (beVal_lt num)
  rw [h1, beVal_inj h2 h3]

/-- `asn1_read_mpz` after `asn1_write_mpz`, for values up to 2048 bytes. -/
theorem asn1_mpz_roundtrip (strict : Bool) {n : Nat} {b : List Byte} (r : List Byte)
    (h : asn1_write_mpz n = .ok b) (hfit : n < 256 ^ 2048) :
    asn1_read_mpz (exact (b ++ r)) strict = .ok ⟨n, exact r, true⟩ := by
  rw [write_mpz_eq] at h
  split at h
  case isFalse => simp at h
  rename_i hn
  simp only [C.ok.injEq] at h
  obtain ⟨out, ho, -, -, hi⟩ := read_mpz_all strict (b ++ r)
  have hv := beVal_derContent n
  rw [ho, (hi n r).2]
  refine ⟨derContent n, ?_, by omega, fun _ => by rw [hv], hv.symm, hfit⟩
  rw [← h, derInt]; rfl

/-- Values above 2048 bytes are written but never read back. -/
theorem asn1_mpz_limit (strict : Bool) {n : Nat} {b : List Byte} (r : List Byte)
    (h : asn1_write_mpz n = .ok b) (hbig : 256 ^ 2048 ≤ n) :
    ∃ s, asn1_read_mpz (exact (b ++ r)) strict = .ok ⟨0, s, false⟩ := by
  obtain ⟨out, ho, ⟨d', hst, -⟩, hf, hi⟩ := read_mpz_all strict (b ++ r)
  rcases hr : out.ret with _ | _
  · refine ⟨out.st, ?_⟩
    rw [ho, ← hf hr, ← hr]
  · exfalso
    rw [write_mpz_eq] at h
    split at h
    case isFalse => simp at h
    rename_i hn
    simp only [C.ok.injEq] at h
    obtain ⟨c, h1, h2, -, h4, h5⟩ := (hi out.n d').1 (by cases out; simp_all)
    -- the same length octets, hence the same contents
    rw [← h, derInt, List.cons_append, List.cons.injEq, List.append_assoc, List.append_assoc] at h1
    obtain ⟨o1, g1, -, -, g2⟩ := read_size_all true (derLen c.length ++ (c ++ d'))
    have a1 := (g2 c.length (c ++ d')).2 ⟨_, rfl, h2, rfl⟩
    have a2 := (g2 (derContent n).length (derContent n ++ r)).2
      ⟨_, h1.2.symm, (by omega : (derContent n).length < 2 ^ 32), rfl⟩
    rw [a1] at a2
    simp only [Asn1Size.mk.injEq, Asn1St.mk.injEq, and_true] at a2
    have := (List.append_inj a2.2.1 a2.1).1
    rw [this, beVal_derContent] at h4
    omega

/-- `asn1_read_version` after `asn1_write_version`, in both modes. -/
theorem asn1_version_roundtrip (strict : Bool) {v : Nat} {b : List Byte} (r : List Byte)
    (h : asn1_write_version v = .ok b) :
    asn1_read_version (exact (b ++ r)) v strict = .ok (exact r, true) := by
  rw [asn1_write_version_spec] at h
  split at h
  case isFalse => simp at h
  rename_i hv
  simp only [C.ok.injEq] at h
  subst h
  rcases strict with _ | _
  · obtain ⟨out, ho, -, -, hi⟩ := read_mpz_all false ([2, 1, BitVec.ofNat 8 v] ++ r)
    rw [asn1_read_version, if_neg (by simp), ho,
      (hi v r).2 ⟨[BitVec.ofNat 8 v], rfl, by simp, by simp, ?_, ?_⟩]
    · simp
    · rw [beVal_single, BitVec.toNat_ofNat]; omega
    · calc v < 256 ^ 1 := by omega
        _ ≤ 256 ^ 2048 := Nat.pow_le_pow_right (by omega) (by omega)
  · rw [asn1_read_version, if_pos rfl, if_neg (by simp)]
    simp only [List.cons_append, List.nil_append, C.rd, List.getElem?_cons_zero,
      List.getElem?_cons_succ, C.ok_bind, ne_eq, not_true_eq_false, if_false]
    rw [if_neg (by rw [BitVec.toNat_ofNat]; omega), adv_exact (by simp)]
    rfl

theorem read_dumb_all (d : List Byte) :
    ∃ out, asn1_read_dumb (exact d) = .ok out ∧
      (∃ d', out.st = exact d' ∧ d' <:+ d) ∧
      (out.ret = false → out.n = 0) ∧
      ∀ n r, (out = ⟨n, exact r, true⟩ ↔ ∃ h0 h1 c, d = h0 :: h1 :: (c ++ r) ∧
        beVal [h0, h1] = c.length ∧ n = beVal c) := by
  rcases d with _ | ⟨b0, _ | ⟨b1, d⟩⟩
  · exact ⟨_, rfl, ⟨_, rfl, List.suffix_refl _⟩, fun _ => rfl, fun n r => by simp⟩
  · exact ⟨_, rfl, ⟨_, rfl, List.suffix_refl _⟩, fun _ => rfl, fun n r => by simp⟩
  rw [asn1_read_dumb, if_neg (by simp),
    show C.rd (exact (b0 :: b1 :: d)).data 0 = .ok b0 from rfl, C.ok_bind,
    show C.rd (exact (b0 :: b1 :: d)).data 1 = .ok b1 from rfl, C.ok_bind,
    adv_exact (by simp), C.ok_bind]
  have hs : d <:+ b0 :: b1 :: d := ⟨[b0, b1], rfl⟩
  have hsz : b0.toNat <<< 8 ||| b1.toNat = beVal [b0, b1] := by
    rw [← Nat.shiftLeft_add_eq_or_of_lt b1.isLt, Nat.shiftLeft_eq, beVal_cons, beVal_single]; simp
  dsimp only
  rw [hsz, List.drop_succ_cons, List.drop_succ_cons, List.drop_zero]
  by_cases hl : beVal [b0, b1] > d.length
  · rw [if_pos hl]
    refine ⟨_, rfl, ⟨_, rfl, hs⟩, fun _ => rfl, fun n r => ?_⟩
    constructor
    · intro h; simp at h
    · rintro ⟨h0, h1, c, h, hc, -⟩
      simp only [List.cons.injEq] at h
      obtain ⟨rfl, rfl, rfl⟩ := h
      rw [hc] at hl; simp at hl
  · rw [if_neg hl, Asn1St.bytes, if_pos (by simpa using hl), C.ok_bind,
      adv_exact (by simpa using hl), C.ok_bind]
    refine ⟨_, rfl, ⟨_, rfl, (List.drop_suffix _ _).trans hs⟩, by simp, fun n r => ?_⟩
    rw [import_eq]
    constructor
    · intro h
      simp only [Asn1Mpz.mk.injEq, Asn1St.mk.injEq, and_true] at h
      refine ⟨b0, b1, d.take (beVal [b0, b1]), ?_, by simp; omega, h.1.symm⟩
      rw [← h.2.1, List.take_append_drop]
    · rintro ⟨h0, h1, c, h, hc, hn⟩
      simp only [List.cons.injEq] at h
      obtain ⟨rfl, rfl, rfl⟩ := h
      rw [hc, List.take_left' rfl, List.drop_left' rfl, hn]

/-- `asn1_read_dumb` after `asn1_write_dumb`. -/
theorem asn1_dumb_roundtrip {n : Nat} {b : List Byte} (r : List Byte)
    (h : asn1_write_dumb n = .ok b) :
    asn1_read_dumb (exact (b ++ r)) = .ok ⟨n, exact r, true⟩ := by
  obtain ⟨w1, w2⟩ := asn1_write_dumb_spec n
  by_cases hl : (beBytes n).length ≤ 0xffff
  · obtain ⟨h0, h1, e1, e2⟩ := w2 hl
    rw [e1] at h
    simp only [C.ok.injEq] at h
    obtain ⟨out, ho, -, -, hi⟩ := read_dumb_all (b ++ r)
    rw [ho, (hi n r).2 ⟨h0, h1, beBytes n, by rw [← h]; rfl, e2, (beVal_beBytes n).symm⟩]
  · rw [w1 (by omega)] at h; simp at h

/-! ## C17: what is accepted -/

/-- `asn1_read_size`: strict mode accepts exactly the DER length octets of sizes below 2^32, lax
mode the BER ones (`BerLen`). -/
theorem asn1_read_size_iff (strict : Bool) (d : List Byte) (n : Nat) (r : List Byte) :
    asn1_read_size (exact d) strict = .ok ⟨n, exact r, true⟩ ↔
      ∃ enc, d = enc ++ r ∧ (strict = true → n < 2 ^ 32 ∧ enc = derLen n) ∧
        (strict = false → BerLen n enc) := by
  obtain ⟨out, ho, -, -, hi⟩ := read_size_all strict d
  rw [ho, C.ok.injEq, hi]
  cases strict <;> simp [LenEnc]

/-- Strict `asn1_read_int` succeeds exactly on the DER encoding of a value that fits. -/
theorem asn1_read_int_strict_iff (out_len : Nat) (d o r : List Byte) :
    asn1_read_int out_len (exact d) true = .ok ⟨o, exact r, true⟩ ↔
      d = derInt (beVal o) ++ r ∧ (derContent (beVal o)).length < 2 ^ 32 ∧ o.length = out_len := by
  obtain ⟨out, ho, -, -, hi⟩ := read_int_all out_len true d
  rw [ho, C.ok.injEq, hi]
  constructor
  · rintro ⟨enc, c, h1, h2, h3, h4, h5⟩
    rw [LenEnc, if_pos rfl] at h2
    have h3 := h3 rfl
    rw [h5, ← h3, derInt, ← h3]
    exact ⟨by rw [h1, h2.2]; simp, h2.1, h4⟩
  · rintro ⟨h1, h2, h3⟩
    refine ⟨_, derContent (beVal o), ?_, lenEnc_der true h2, fun _ => ?_, h3, ?_⟩
    · rw [h1, derInt]; rfl
    · rw [beVal_derContent]
    · rw [beVal_derContent]

/-- Lax `asn1_read_int` accepts any BER length octets and any (even empty) contents octets, which
it reads as an unsigned number. -/
theorem asn1_read_int_lax_iff (out_len : Nat) (d o r : List Byte) :
    asn1_read_int out_len (exact d) false = .ok ⟨o, exact r, true⟩ ↔
      ∃ enc c, d = 2 :: (enc ++ c ++ r) ∧ BerLen c.length enc ∧ o.length = out_len ∧
        beVal o = beVal c := by
  obtain ⟨out, ho, -, -, hi⟩ := read_int_all out_len false d
  rw [ho, C.ok.injEq, hi]
  simp [LenEnc]

/-- Strict `asn1_read_mpz` succeeds exactly on the DER encoding of a value below 256^2048. -/
theorem asn1_read_mpz_strict_iff (d : List Byte) (n : Nat) (r : List Byte) :
    asn1_read_mpz (exact d) true = .ok ⟨n, exact r, true⟩ ↔
      d = derInt n ++ r ∧ n < 256 ^ 2048 := by
  obtain ⟨out, ho, -, -, hi⟩ := read_mpz_all true d
  rw [ho, C.ok.injEq, hi]
  constructor
  · rintro ⟨c, h1, h2, h3, h4, h5⟩
    have h3 := h3 rfl
    rw [h4] at h5 ⊢
    rw [derInt, ← h3]
    exact ⟨by rw [h1]; simp, h5⟩
  · rintro ⟨h1, h2⟩
    have hl : (derContent n).length ≤ 2049 := by
      have := (beBytes_len_le n 2048).2 h2
      rw [derContent]
      split
      · simp
      · rename_i hb
        rw [hb] at this
        split <;> simp at this ⊢ <;> omega
    refine ⟨derContent n, ?_, by omega, fun _ => ?_, ?_, h2⟩
    · rw [h1, derInt]; rfl
    · rw [beVal_derContent]
    · rw [beVal_derContent]

/-- Lax `asn1_read_mpz` still insists on DER length octets. -/
theorem asn1_read_mpz_lax_iff (d : List Byte) (n : Nat) (r : List Byte) :
    asn1_read_mpz (exact d) false = .ok ⟨n, exact r, true⟩ ↔
      ∃ c, d = 2 :: (derLen c.length ++ c ++ r) ∧ c.length < 2 ^ 32 ∧ n = beVal c ∧
        n < 256 ^ 2048 := by
  obtain ⟨out, ho, -, -, hi⟩ := read_mpz_all false d
  rw [ho, C.ok.injEq, hi]
  simp

/-- Everything about `asn1_read_seq`. -/
theorem read_seq_all (strict : Bool) (d : List Byte) :
    ∃ out, asn1_read_seq (exact d) strict = .ok out ∧
      (∃ d', out.1 = exact d' ∧ d' <:+ d) ∧
      ∀ r, (out = (exact r, true) ↔ ∃ n enc, d = 0x30 :: (enc ++ r) ∧ LenEnc strict n enc ∧
        (strict = true → n = r.length)) := by
  rcases d with _ | ⟨tag, d⟩
  · exact ⟨_, rfl, ⟨_, rfl, List.suffix_refl _⟩, fun r => by simp⟩
  rw [asn1_read_seq, if_neg (by simp), show C.rd (exact (tag :: d)).data 0 = .ok tag from rfl,
    C.ok_bind]
  by_cases ht : tag ≠ 0x30
  · rw [if_pos ht]
    refine ⟨_, rfl, ⟨_, rfl, List.suffix_refl _⟩, fun r => ?_⟩
    constructor
    · intro h; simp at h
    · rintro ⟨n, enc, h, -⟩
      simp only [List.cons.injEq] at h
      exact absurd h.1 ht
  have htag : tag = 0x30 := by simpa using ht
  subst htag
  rw [if_neg ht, adv_exact (by simp), C.ok_bind, List.drop_succ_cons, List.drop_zero]
  obtain ⟨rs, hrs, ⟨d', hst, hsuf⟩, -, hiff⟩ := read_size_all strict d
  have hsuf' : d' <:+ 0x30 :: d := hsuf.trans (List.suffix_cons _ _)
  rw [hrs]
  simp only [C.ok_bind, hst]
  have cand : ∀ {n : Nat} {enc r : List Byte}, (0x30 : Byte) :: d = 0x30 :: (enc ++ r) →
      LenEnc strict n enc → rs.ret = true ∧ rs.size = n ∧ d' = r := by
    intro n enc r h1 h2
    have := (hiff n r).2 ⟨enc, by simpa using h1, h2⟩
    rw [this] at hst ⊢
    simp only [Asn1St.mk.injEq] at hst
    exact ⟨rfl, rfl, hst.1.symm⟩
  rcases hr : rs.ret with _ | _
  · rw [if_pos (by simp)]
    refine ⟨_, rfl, ⟨_, rfl, hsuf'⟩, fun r => ?_⟩
    constructor
    · intro h; simp at h
    · rintro ⟨n, enc, h1, h2, -⟩
      have := (cand h1 h2).1
      rw [hr] at this; simp at this
  rw [if_neg (by simp)]
  obtain ⟨enc, he1, he2⟩ := (hiff rs.size d').1 (by cases rs; simp_all)
  by_cases hs : strict = true ∧ rs.size ≠ d'.length
  · rw [if_pos hs]
    refine ⟨_, rfl, ⟨_, rfl, hsuf'⟩, fun r => ?_⟩
    constructor
    · intro h; simp at h
    · rintro ⟨n, enc, h1, h2, h3⟩
      obtain ⟨-, g1, g2⟩ := cand h1 h2
      exact absurd (by rw [g1, g2]; exact h3 hs.1) hs.2
  · rw [if_neg hs]
    refine ⟨_, rfl, ⟨_, rfl, hsuf'⟩, fun r => ?_⟩
    constructor
    · intro h
      simp only [Prod.mk.injEq, Asn1St.mk.injEq, and_true] at h
      obtain ⟨rfl, -⟩ := h
      refine ⟨rs.size, enc, by rw [← he1], he2, fun hst => ?_⟩
      by_contra hne
      exact hs ⟨hst, hne⟩
    · rintro ⟨n, enc, h1, h2, h3⟩
      rw [(cand h1 h2).2.2]

/-- `asn1_read_seq` in strict mode accepts exactly a sequence header announcing the number of bytes
that follow. -/
theorem asn1_read_seq_strict_iff (d r : List Byte) :
    asn1_read_seq (exact d) true = .ok (exact r, true) ↔
      d = 0x30 :: (derLen r.length ++ r) ∧ r.length < 2 ^ 32 := by
  obtain ⟨out, ho, -, hi⟩ := read_seq_all true d
  rw [ho, C.ok.injEq, hi]
  simp only [LenEnc, if_true]
  constructor
  · rintro ⟨n, enc, h1, ⟨h2, rfl⟩, h3⟩
    have h3 := h3 trivial
    subst h3
    exact ⟨h1, h2⟩
  · rintro ⟨h1, h2⟩
    exact ⟨_, _, h1, ⟨h2, rfl⟩, fun _ => rfl⟩

/-- In lax mode the announced size is ignored. -/
theorem asn1_read_seq_lax_iff (d r : List Byte) :
    asn1_read_seq (exact d) false = .ok (exact r, true) ↔
      ∃ n enc, d = 0x30 :: (enc ++ r) ∧ BerLen n enc := by
  obtain ⟨out, ho, -, hi⟩ := read_seq_all false d
  rw [ho, C.ok.injEq, hi]
  simp [LenEnc]

/-- Strict `asn1_read_version` accepts exactly the three bytes `02 01 version`. -/
theorem asn1_read_version_strict_iff (d r : List Byte) (v : Nat) :
    asn1_read_version (exact d) v true = .ok (exact r, true) ↔
      ∃ c : Byte, c.toNat = v ∧ d = 2 :: 1 :: c :: r := by
  rw [asn1_read_version, if_pos rfl]
  rcases d with _ | ⟨a, _ | ⟨b, _ | ⟨c, d⟩⟩⟩
  · rw [if_pos (by simp)]; simp
  · rw [if_pos (by simp)]; simp
  · rw [if_pos (by simp)]; simp
  rw [if_neg (by simp), show C.rd (exact (a :: b :: c :: d)).data 0 = .ok a from rfl, C.ok_bind,
    show C.rd (exact (a :: b :: c :: d)).data 1 = .ok b from rfl,
    show C.rd (exact (a :: b :: c :: d)).data 2 = .ok c from rfl]
  by_cases ha : a ≠ 2
  · rw [if_pos ha]
    constructor
    · intro h; simp at h
    · rintro ⟨c', -, h⟩
      simp only [List.cons.injEq] at h
      exact absurd h.1 ha
  rw [if_neg ha, C.ok_bind]
  by_cases hb : b ≠ 1
  · rw [if_pos hb]
    constructor
    · intro h; simp at h
    · rintro ⟨c', -, h⟩
      simp only [List.cons.injEq] at h
      exact absurd h.2.1 hb
  rw [if_neg hb, C.ok_bind]
  by_cases hc : c.toNat ≠ v
  · rw [if_pos hc]
    constructor
    · intro h; simp at h
    · rintro ⟨c', h', h⟩
      simp only [List.cons.injEq] at h
      rw [h.2.2.1] at hc
      exact absurd h' hc
  rw [if_neg hc, adv_exact (by simp), C.ok_bind, C.ok.injEq, Prod.mk.injEq, Asn1St.mk.injEq]
  simp only [List.drop_succ_cons, List.drop_zero, and_true]
  constructor
  · rintro ⟨rfl, -⟩
    exact ⟨c, by simpa using hc, by simp only [ne_eq, Decidable.not_not] at ha hb; rw [ha, hb]⟩
  · rintro ⟨c', -, h⟩
    simp only [List.cons.injEq] at h
    exact ⟨h.2.2.2, by rw [h.2.2.2]⟩

/-- `asn1_read_dumb` accepts exactly a two-byte length followed by that many bytes (leading zeroes
allowed, so this format is not canonical). -/
theorem asn1_read_dumb_iff (d : List Byte) (n : Nat) (r : List Byte) :
    asn1_read_dumb (exact d) = .ok ⟨n, exact r, true⟩ ↔
      ∃ h0 h1 c, d = h0 :: h1 :: (c ++ r) ∧ beVal [h0, h1] = c.length ∧ n = beVal c := by
  obtain ⟨out, ho, -, -, hi⟩ := read_dumb_all d
  rw [ho, C.ok.injEq, hi]

/-- Uniqueness: if strict parsing accepts two buffers with the same value and the same rest, the
buffers are equal. -/
theorem asn1_int_unique (d1 d2 o r : List Byte) (out_len : Nat)
    (h1 : asn1_read_int out_len (exact d1) true = .ok ⟨o, exact r, true⟩)
    (h2 : asn1_read_int out_len (exact d2) true = .ok ⟨o, exact r, true⟩) : d1 = d2 := by
  rw [asn1_read_int_strict_iff] at h1 h2
  rw [h1.1, h2.1]

/-- The same for multi-precision integers. -/
theorem asn1_mpz_unique (d1 d2 r : List Byte) (n : Nat)
    (h1 : asn1_read_mpz (exact d1) true = .ok ⟨n, exact r, true⟩)
    (h2 : asn1_read_mpz (exact d2) true = .ok ⟨n, exact r, true⟩) : d1 = d2 := by
  rw [asn1_read_mpz_strict_iff] at h1 h2
  rw [h1.1, h2.1]

/-- What strict parsing consumed is what the writer produces (for the lengths the writer handles). -/
theorem asn1_int_canonical (d o r : List Byte) (out_len : Nat)
    (h : asn1_read_int out_len (exact d) true = .ok ⟨o, exact r, true⟩)
    (hl : d.length < 65536) : ∃ b, asn1_write_int o = .ok b ∧ d = b ++ r := by
  rw [asn1_read_int_strict_iff] at h
  refine ⟨derInt (beVal o), ?_, h.1⟩
  rw [write_int_eq, if_pos]
  have := congrArg List.length h.1
  rw [derInt] at this
  simp at this
  omega

/-- The same for multi-precision integers, without a length condition. -/
theorem asn1_mpz_canonical (d r : List Byte) (n : Nat)
    (h : asn1_read_mpz (exact d) true = .ok ⟨n, exact r, true⟩) :
    ∃ b, asn1_write_mpz n = .ok b ∧ d = b ++ r := by
  rw [asn1_read_mpz_strict_iff] at h
  refine ⟨derInt n, ?_, h.1⟩
  rw [write_mpz_eq, if_pos]
  have := (beBytes_len_le n 2048).2 h.2
  rw [derContent]
  split
  · simp
  · rename_i hb
    rw [hb] at this
    split <;> simp at this ⊢ <;> omega

/-! ## C18: readers stay inside the buffer -/

/-- On every buffer every reader terminates normally (no access outside, no abort), and leaves a
state that is again exactly a final part of the buffer. On failure the outputs are zeroed. -/
theorem asn1_readers_safe (d : List Byte) (strict : Bool) :
    (∃ o, asn1_read_size (exact d) strict = .ok o ∧ (∃ d', o.st = exact d' ∧ d' <:+ d) ∧
      (o.ret = false → o.size = 0)) ∧
    (∃ o, asn1_read_seq (exact d) strict = .ok o ∧ ∃ d', o.1 = exact d' ∧ d' <:+ d) ∧
    (∀ len, ∃ o, asn1_read_int len (exact d) strict = .ok o ∧ (∃ d', o.st = exact d' ∧ d' <:+ d) ∧
      o.out.length = len ∧ (o.ret = false → o.out = List.replicate len 0)) ∧
    (∃ o, asn1_read_mpz (exact d) strict = .ok o ∧ (∃ d', o.st = exact d' ∧ d' <:+ d) ∧
      (o.ret = false → o.n = 0)) ∧
    (∀ v, ∃ o, asn1_read_version (exact d) v strict = .ok o ∧ ∃ d', o.1 = exact d' ∧ d' <:+ d) ∧
    (∃ o, asn1_read_dumb (exact d) = .ok o ∧ (∃ d', o.st = exact d' ∧ d' <:+ d) ∧
      (o.ret = false → o.n = 0)) := by
  refine ⟨?_, ?_, fun len => ?_, ?_, fun v => ?_, ?_⟩
  · obtain ⟨o, h1, h2, h3, -⟩ := read_size_all strict d
    exact ⟨o, h1, h2, h3⟩
  · obtain ⟨o, h1, h2, -⟩ := read_seq_all strict d
    exact ⟨o, h1, h2⟩
  · obtain ⟨o, h1, h2, h3, h4⟩ := read_int_all len strict d
    refine ⟨o, h1, h2, ?_, h3⟩
    rcases hr : o.ret with _ | _
    · rw [h3 hr]; simp
    · obtain ⟨d', hd, -⟩ := h2
      obtain ⟨_, _, -, -, -, h5, -⟩ := (h4 o.out d').1 (by cases o; simp_all)
      exact h5
  · obtain ⟨o, h1, h2, h3, -⟩ := read_mpz_all strict d
    exact ⟨o, h1, h2, h3⟩
  · rcases strict with _ | _
    · obtain ⟨o, h1, h2, h3, -⟩ := read_mpz_all false d
      rw [asn1_read_version, if_neg (by simp), h1, C.ok_bind]
      split
      · exact ⟨_, rfl, h2⟩
      · exact ⟨_, rfl, h2⟩
    · rw [asn1_read_version, if_pos rfl]
      rcases d with _ | ⟨a, _ | ⟨b, _ | ⟨c, d⟩⟩⟩
      · exact ⟨_, rfl, _, rfl, List.suffix_refl _⟩
      · exact ⟨_, rfl, _, rfl, List.suffix_refl _⟩
      · exact ⟨_, rfl, _, rfl, List.suffix_refl _⟩
      rw [if_neg (by simp), show C.rd (exact (a :: b :: c :: d)).data 0 = .ok a from rfl,
        C.ok_bind, show C.rd (exact (a :: b :: c :: d)).data 1 = .ok b from rfl,
        show C.rd (exact (a :: b :: c :: d)).data 2 = .ok c from rfl]
      split
      · exact ⟨_, rfl, _, rfl, List.suffix_refl _⟩
      rw [C.ok_bind]
      split
      · exact ⟨_, rfl, _, rfl, List.suffix_refl _⟩
      rw [C.ok_bind]
      split
      · exact ⟨_, rfl, _, rfl, List.suffix_refl _⟩
      rw [adv_exact (by simp), C.ok_bind]
      exact ⟨_, rfl, _, rfl, List.drop_suffix _ _⟩
  · obtain ⟨o, h1, h2, h3, -⟩ := read_dumb_all d
    exact ⟨o, h1, h2, h3⟩

/-- The size accumulator is computed in 32 bits without wrapping: an accepted size is the value of
its octets and below 2^32. -/
theorem asn1_size_no_wrap (strict : Bool) (d : List Byte) (n : Nat) (r : List Byte)
    (h : asn1_read_size (exact d) strict = .ok ⟨n, exact r, true⟩) :
    n < 2 ^ 32 ∧ ∃ h t, d = h :: (t ++ r) ∧
      (if h.toNat < 128 then t = [] ∧ n = h.toNat else t.length = h.toNat - 128 ∧ n = beVal t) := by
  obtain ⟨enc, h1, h2, h3⟩ := (asn1_read_size_iff strict d n r).1 h
  have hb : BerLen n enc := by
    rcases strict with _ | _
    · exact h3 rfl
    · obtain ⟨g1, g2⟩ := h2 rfl
      rw [g2]; exact derLen_ber g1
  rcases hb with ⟨hn, rfl⟩ | ⟨bs, hl, rfl, hv, hn⟩
  · refine ⟨by omega, _, [], h1, ?_⟩
    rw [if_pos (by rw [BitVec.toNat_ofNat]; omega), BitVec.toNat_ofNat]
    exact ⟨rfl, by omega⟩
  · refine ⟨hn, _, bs, h1, ?_⟩
    rw [if_neg (by rw [BitVec.toNat_ofNat]; omega), BitVec.toNat_ofNat]
    exact ⟨by omega, hv.symm⟩

/-! ## Concrete cases -/

example : asn1_write_int [0x00, 0x80, 0x01] = .ok [2, 3, 0, 0x80, 1] := by decide +kernel
example : derInt 0x8001 = [2, 3, 0, 0x80, 1] := by decide +kernel
example : asn1_read_int 3 (exact [2, 3, 0, 0x80, 1, 7]) true =
    .ok ⟨[0, 0x80, 1], exact [7], true⟩ := by decide +kernel
example : asn1_read_int 3 (exact [2, 3, 0, 0x7f, 1]) true =
    .ok ⟨[0, 0, 0], exact [0, 0x7f, 1], false⟩ := by decide +kernel
example : asn1_write_size 200 = .ok [0x81, 200] := by decide +kernel
example : asn1_write_seq 3 = .ok [0x30, 3] := by decide +kernel
example : asn1_write_version 2 = .ok [2, 1, 2] := by decide +kernel
example : asn1_read_int 1 (exact [2, 0x82, 0, 1, 5, 9]) false =
    .ok ⟨[5], exact [9], true⟩ := by decide +kernel
example : asn1_write_mpz (2 ^ 64) = .ok [2, 9, 1, 0, 0, 0, 0, 0, 0, 0, 0] := by decide +kernel
example : asn1_write_dumb 258 = .ok [0, 2, 1, 2] := by decide +kernel
example : asn1_read_dumb (exact [0, 1, 5]) = .ok ⟨5, exact [], true⟩ := by decide +kernel
example : asn1_read_seq (exact [0x30, 1, 5]) true = .ok (exact [5], true) := by decide +kernel
example : asn1_read_version (exact [2, 1, 1]) 1 true = .ok (exact [], true) := by decide +kernel
/-- The hypotheses of `asn1_mpz_limit` can be met. -/
example : ∃ b, asn1_write_mpz (256 ^ 2048) = .ok b := by
  refine ⟨derInt (256 ^ 2048), ?_⟩
  rw [asn1_write_mpz_spec, if_pos]
  have : (beBytes (256 ^ 2048)).length ≤ 2049 :=
    (beBytes_len_le _ _).2 (Nat.pow_lt_pow_right (by omega) (by omega))
  rw [derContent]
  split
  · simp
  · rename_i hb
    rw [hb] at this
    split <;> simp at this ⊢ <;> omega

end Torsion
