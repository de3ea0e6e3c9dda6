import Verif.Kdf.ScryptLemmas

/-!
# C27: key derivation functions

`Spec.hash t (hash_output_size t)` is the digest function of hash `t` (see C24) and
`Spec.hmac (Spec.hash t (hash_output_size t)) (hash_block_size t) key` its HMAC (see C26). Lengths are
those of objects in memory, so below 2^64.
-/
namespace Torsion
open Spec

/-- C27. `hkdf_extract` is HMAC with the salt as key; it fails only without a hash back end. -/
theorem hkdf_extract_spec (junk : Junk) (t : HashId) (ikm salt : List Byte) (h1 : ikm.length < 2 ^ 64)
    (h2 : salt.length < 2 ^ 64) :
    hkdf_extract junk t ikm salt = .ok (if hash_has_backend t then
      some (hmac (Spec.hash t (hash_output_size t)) (hash_block_size t) salt ikm) else none) := by
  rw [hkdf_extract]
  cases ht : hash_has_backend t with
  | false => rfl
  | true =>
    obtain ⟨a, e1, r1⟩ := Hsh.hmac_rep_init (junk 0) t ht salt h2
    obtain ⟨b, e2, r2⟩ := Hsh.hmac_rep_update r1 ikm h1
    rw [if_neg (by simp), e1, C.ok_bind, e2, C.ok_bind, Hsh.hmac_rep_final r2 ht]
    rfl

/-- C27. `hkdf_expand` fails exactly when more than 255 blocks are needed (or there is no hash); otherwise
the result is that of RFC 5869. -/
theorem hkdf_expand_spec (junk : Junk) (junk' : Nat → Nat → Byte) (t : HashId) (prk info : List Byte)
    (hp : prk.length = hash_output_size t) (hi : info.length < 2 ^ 64) (len : Nat) (hl : len < 2 ^ 64) :
    hkdf_expand junk junk' t prk info len =
      .ok (if hash_has_backend t ∧ len ≤ 255 * hash_output_size t then
        some (hkdfExpand (hmac (Spec.hash t (hash_output_size t)) (hash_block_size t) prk)
          (hash_output_size t) info len) else none) := by
  rw [hkdf_expand]
  cases ht : hash_has_backend t with
  | false => simp
  | true =>
    obtain ⟨h16, h64, _⟩ := Hsh.sizes ht
    have hpos : 0 < hash_output_size t := by omega
    rw [if_neg (by simp)]
    by_cases hov : 2 ^ 64 ≤ len + hash_output_size t - 1
    · rw [if_pos (by omega), if_neg (by omega)]
    rw [Nat.mod_eq_of_lt (a := len + hash_output_size t - 1) (by omega), if_neg (by omega)]
    by_cases hb : len ≤ 255 * hash_output_size t
    · have : (len + hash_output_size t - 1) / hash_output_size t ≤ 255 := by
        rw [← Nat.lt_succ_iff, Nat.div_lt_iff_lt_mul hpos]; omega
      rw [if_neg (by omega), if_pos (show true = true ∧ len ≤ 255 * hash_output_size t from ⟨rfl, hb⟩)]
      rcases Nat.eq_zero_or_pos len with rfl | hlen
      · rw [if_pos rfl, hkdfExpand, Kdf.cut_zero]
      · obtain ⟨a, e1, r1⟩ := Hsh.hmac_rep_init junk' t ht prk (by omega)
        rw [if_neg (by omega), Hsh.slice_take _ _ (by omega), List.take_of_length_le (by omega), C.ok_bind,
          e1, C.ok_bind]
        have h := Kdf.hkdf_loop_eq ht junk r1 info hi _ 0 (hash_output_size t) len rfl (fun _ => rfl)
        rw [show hkdfT (Hsh.macOf t prk) info 0 = [] from rfl] at h
        change (hkdf_loop junk a info _ [] (BitVec.ofNat 8 0) _ _ >>= _) = _
        rw [h, C.ok_bind, hkdfExpand]
        simp only [Nat.zero_add]
    · have : ¬ (len + hash_output_size t - 1) / hash_output_size t ≤ 255 := by
        intro h
        have := Kdf.ceil_le (len := len) hpos
        have := Nat.mul_le_mul_right (hash_output_size t) h
        omega
      rw [if_pos (by omega), if_neg (by omega)]

/-- The blocks T(i) of HKDF have the digest length. -/
theorem hkdf_block_length (t : HashId) (ht : hash_has_backend t = true) (prk info : List Byte) (i : Nat) :
    (hkdfT (hmac (Spec.hash t (hash_output_size t)) (hash_block_size t) prk) info (i + 1)).length =
      hash_output_size t := Hsh.macOf_len ht _ _

/-- C27. Exactly `len` bytes are written by `hkdf_expand`. -/
theorem hkdf_expand_length (junk : Junk) (junk' : Nat → Nat → Byte) (t : HashId) (prk info : List Byte)
    (hp : prk.length = hash_output_size t) (hi : info.length < 2 ^ 64) (len : Nat) (hl : len < 2 ^ 64)
    (out : List Byte) (h : hkdf_expand junk junk' t prk info len = .ok (some out)) : out.length = len := by
  rw [hkdf_expand_spec junk junk' t prk info hp hi len hl] at h
  split at h
  · rename_i hc
    have hz := Hsh.sizes hc.1
    cases h
    exact Kdf.cut_length _ (by omega) (hkdf_block_length t hc.1 prk info) len
  · cases h

/-- C27. A shorter request gives a prefix of a longer one. -/
theorem hkdf_expand_prefix (junk junk2 : Junk) (junk' junk2' : Nat → Nat → Byte) (t : HashId)
    (prk info : List Byte) (hp : prk.length = hash_output_size t) (hi : info.length < 2 ^ 64)
    (a b : Nat) (hab : a ≤ b) (hb : b < 2 ^ 64) (out : List Byte)
    (h : hkdf_expand junk junk' t prk info b = .ok (some out)) :
    hkdf_expand junk2 junk2' t prk info a = .ok (some (out.take a)) := by
  rw [hkdf_expand_spec junk junk' t prk info hp hi b hb] at h
  rw [hkdf_expand_spec junk2 junk2' t prk info hp hi a (by omega)]
  split at h
  · rename_i hc
    have hz := Hsh.sizes hc.1
    cases h
    rw [if_pos ⟨hc.1, by omega⟩]
    exact congrArg (fun x => C.ok (some x))
      (Kdf.cut_take _ (by omega) (hkdf_block_length t hc.1 prk info) hab)
  · cases h

example : hash_has_backend .SHA256 = true ∧ 255 * hash_output_size .SHA256 = 8160 := by decide

/-- C27. `pbkdf2_derive` fails exactly when more than 2^32 - 1 blocks are needed (or there is no hash);
otherwise the result is that of RFC 8018, with an iteration count of 0 taken as 1. -/
theorem pbkdf2_derive_spec (junk : Nat → Junk) (junk' : Nat → Nat → Byte) (t : HashId)
    (pass salt : List Byte) (hp : pass.length < 2 ^ 64) (hs : salt.length < 2 ^ 64) (iter len : Nat)
    (hl : len < 2 ^ 64) :
    pbkdf2_derive junk junk' t pass salt iter len =
      .ok (if hash_has_backend t ∧ len ≤ (2 ^ 32 - 1) * hash_output_size t then
        some (pbkdf2 (hmac (Spec.hash t (hash_output_size t)) (hash_block_size t) pass)
          (hash_output_size t) salt (max iter 1) len) else none) := by
  rw [pbkdf2_derive]
  cases ht : hash_has_backend t with
  | false => simp
  | true =>
    obtain ⟨h16, h64, _⟩ := Hsh.sizes ht
    have hpos : 0 < hash_output_size t := by omega
    rw [if_neg (by simp)]
    by_cases hov : 2 ^ 64 ≤ len + hash_output_size t - 1
    · rw [if_pos (by omega), if_neg (by omega)]
    rw [Nat.mod_eq_of_lt (a := len + hash_output_size t - 1) (by omega), if_neg (by omega)]
    by_cases hb : len ≤ (2 ^ 32 - 1) * hash_output_size t
    · have : (len + hash_output_size t - 1) / hash_output_size t ≤ 2 ^ 32 - 1 := by
        rw [← Nat.lt_succ_iff, Nat.div_lt_iff_lt_mul hpos]; omega
      rw [if_neg (by omega), if_pos (show true = true ∧ len ≤ (2 ^ 32 - 1) * hash_output_size t from ⟨rfl, hb⟩)]
      rcases Nat.eq_zero_or_pos len with rfl | hlen
      · rw [if_pos rfl, pbkdf2, Kdf.cut_zero]
      · obtain ⟨a, e1, r1⟩ := Hsh.hmac_rep_init junk' t ht pass hp
        obtain ⟨b, e2, r2⟩ := Hsh.hmac_rep_update r1 salt hs
        rw [if_neg (by omega), e1, C.ok_bind, e2, C.ok_bind,
          Kdf.pbkdf2_loop_eq ht junk r1 r2 iter _ 0 (hash_output_size t) len rfl (fun _ => rfl), C.ok_bind, pbkdf2]
        simp only [Nat.zero_add, List.nil_append, show max iter 1 - 1 = iter - 1 by omega]
    · have : ¬ (len + hash_output_size t - 1) / hash_output_size t ≤ 2 ^ 32 - 1 := by
        intro h
        have := Kdf.ceil_le (len := len) hpos
        have := Nat.mul_le_mul_right (hash_output_size t) h
        omega
      rw [if_pos (by omega), if_neg (by omega)]

/-- C27. Exactly `len` bytes are written by `pbkdf2_derive`. -/
theorem pbkdf2_derive_length (junk : Nat → Junk) (junk' : Nat → Nat → Byte) (t : HashId)
    (pass salt : List Byte) (hp : pass.length < 2 ^ 64) (hs : salt.length < 2 ^ 64) (iter len : Nat)
    (hl : len < 2 ^ 64) (out : List Byte)
    (h : pbkdf2_derive junk junk' t pass salt iter len = .ok (some out)) : out.length = len := by
  rw [pbkdf2_derive_spec junk junk' t pass salt hp hs iter len hl] at h
  split at h
  · rename_i hc
    have hz := Hsh.sizes hc.1
    cases h
    exact Kdf.cut_length _ (by omega) (fun i => Kdf.pbkdf2F_len hc.1 _ _ _ _) len
  · cases h

/-- C27. A shorter request gives a prefix of a longer one. -/
theorem pbkdf2_derive_prefix (junk junk2 : Nat → Junk) (junk' junk2' : Nat → Nat → Byte) (t : HashId)
    (pass salt : List Byte) (hp : pass.length < 2 ^ 64) (hs : salt.length < 2 ^ 64) (iter a b : Nat)
    (hab : a ≤ b) (hb : b < 2 ^ 64) (out : List Byte)
    (h : pbkdf2_derive junk junk' t pass salt iter b = .ok (some out)) :
    pbkdf2_derive junk2 junk2' t pass salt iter a = .ok (some (out.take a)) := by
  rw [pbkdf2_derive_spec junk junk' t pass salt hp hs iter b hb] at h
  rw [pbkdf2_derive_spec junk2 junk2' t pass salt hp hs iter a (by omega)]
  split at h
  · rename_i hc
    have hz := Hsh.sizes hc.1
    cases h
    rw [if_pos ⟨hc.1, by omega⟩]
    exact congrArg (fun x => C.ok (some x))
      (Kdf.cut_take _ (by omega) (fun i => Kdf.pbkdf2F_len hc.1 _ _ _ _) hab)
  · cases h

/-- C54. `eb2k_derive`: the key and the initialisation vector are consecutive parts of
D_1 || D_2 || ...; it fails exactly without a hash or with a salt of 1 to 7 bytes. Of a salt only the first 8
bytes count. -/
theorem eb2k_derive_spec (junk : Junk) (t : HashId) (pass salt : List Byte) (hp : pass.length < 2 ^ 64)
    (key_len iv_len : Nat) :
    eb2k_derive junk t pass salt key_len iv_len =
      .ok (if hash_has_backend t ∧ (salt = [] ∨ 8 ≤ salt.length) then
        let D := cut (fun i => eb2kD (Spec.hash t (hash_output_size t)) pass (salt.take 8) (i + 1))
          (hash_output_size t) (key_len + iv_len)
        some (D.take key_len, D.drop key_len) else none) := by
  rw [eb2k_derive]
  have hsalt : (if salt.length > 8 then salt.take 8 else salt) = salt.take 8 := by
    split
    · rfl
    · rw [List.take_of_length_le (by omega)]
  rw [hsalt]
  cases ht : hash_has_backend t with
  | false => simp
  | true =>
    rw [if_neg (by simp)]
    by_cases hc : salt = [] ∨ 8 ≤ salt.length
    · have : ¬ ((salt.take 8).length ≠ 0 ∧ (salt.take 8).length ≠ 8) := by
        rw [List.length_take]
        rcases hc with rfl | hc
        · simp
        · omega
      rw [if_neg this, if_pos ⟨rfl, hc⟩]
      have h := Kdf.eb2k_loop_eq ht junk hp (salt := salt.take 8) (by rw [List.length_take]; omega)
        (key_len + iv_len) 0 key_len iv_len (Nat.le_refl _)
      rw [eb2kD] at h
      rw [h, C.ok_bind]
      simp only [Nat.zero_add]
    · have : ((salt.take 8).length ≠ 0 ∧ (salt.take 8).length ≠ 8) := by
        rw [List.length_take]
        have : salt.length ≠ 0 := fun h => hc (Or.inl (List.length_eq_zero_iff.1 h))
        omega
      rw [if_pos this, if_neg (fun h => hc h.2)]

example : ([1, 2, 3, 4, 5, 6, 7, 8, 9] : List Byte) = [] ∨ 8 ≤ ([1, 2, 3, 4, 5, 6, 7, 8, 9] : List Byte).length := by
  decide

/-- C54. `pgpdf_derive_salted` is the salted S2K of RFC 4880. -/
theorem pgpdf_salted_spec (junk : Junk) (t : HashId) (pass salt : List Byte) (hp : pass.length < 2 ^ 64)
    (hs : salt.length < 2 ^ 64) (len : Nat) :
    pgpdf_derive_salted junk t pass salt len =
      .ok (if hash_has_backend t then
        some (s2k (Spec.hash t (hash_output_size t)) (hash_output_size t) (salt ++ pass) len) else none) := by
  rw [pgpdf_derive_salted]
  cases ht : hash_has_backend t with
  | false => simp
  | true =>
    rw [if_neg (by simp)]
    have h := Kdf.pgpdf_loop_eq ht junk
      (feed := fun h => do
        let h ← hash_update h salt
        hash_update h pass) (f := salt ++ pass) (by
        intro h m hr
        obtain ⟨a, e1, r1⟩ := Hsh.rep_update hr salt hs
        obtain ⟨b, e2, r2⟩ := Hsh.rep_update r1 pass hp
        exact ⟨b, by simp only [e1, C.ok_bind, e2], by simpa using r2⟩)
      len 0 (hash_output_size t) len (Nat.le_refl _) (fun _ => rfl)
    simp only
    rw [h, C.ok_bind, s2k]
    simp only [Nat.zero_add, if_true]

/-- C54. `pgpdf_derive_simple` is the simple S2K of RFC 4880. -/
theorem pgpdf_simple_spec (junk : Junk) (t : HashId) (pass : List Byte) (hp : pass.length < 2 ^ 64) (len : Nat) :
    pgpdf_derive_simple junk t pass len =
      .ok (if hash_has_backend t then
        some (s2k (Spec.hash t (hash_output_size t)) (hash_output_size t) pass len) else none) :=
  pgpdf_salted_spec junk t pass [] hp (by simp) len

/-- C54. `pgpdf_derive_iterated` is the iterated and salted S2K of RFC 4880: `count` bytes of the repeated
salt and passphrase are hashed, but at least one full copy. -/
theorem pgpdf_iterated_spec (junk : Junk) (t : HashId) (pass salt : List Byte)
    (hps : salt.length + pass.length < 2 ^ 64) (hne : 0 < salt.length + pass.length) (count len : Nat) :
    pgpdf_derive_iterated junk t pass salt count len =
      .ok (if hash_has_backend t then
        some (s2k (Spec.hash t (hash_output_size t)) (hash_output_size t)
          (cyc (salt ++ pass) (max count (salt.length + pass.length))) len) else none) := by
  rw [pgpdf_derive_iterated]
  cases ht : hash_has_backend t with
  | false => simp
  | true =>
    rw [if_neg (by simp), Nat.mod_eq_of_lt hps, if_neg (by omega)]
    have hcount : (if count < salt.length + pass.length then salt.length + pass.length else count) =
        max count (salt.length + pass.length) := by split <;> omega
    rw [hcount]
    generalize hN : max count (salt.length + pass.length) = N
    have h := Kdf.pgpdf_loop_eq ht junk
      (feed := fun h => do
          let (h, left) ← pgpdf_feed pass salt (salt.length + pass.length) N N h
          if left > 0 then
            if left > salt.length then do
              let h ← hash_update h salt
              let p ← C.slice pass 0 (left - salt.length)
              hash_update h p
            else do
              let s ← C.slice salt 0 left
              hash_update h s
          else .ok h) (f := cyc (salt ++ pass) N) (by
        intro h m hr
        have hl : (salt ++ pass).length = salt.length + pass.length := List.length_append
        obtain ⟨a, k, e1, hk, w, hw, r1⟩ := Kdf.pgpdf_feed_eq (pass := pass) (salt := salt) (by omega) (by omega)
          (by omega) N N hr (Nat.le_refl _)
        rw [hl] at e1 hk
        simp only [e1, C.ok_bind]
        by_cases h0 : k > 0
        · rw [if_pos h0]
          by_cases h1 : k > salt.length
          · obtain ⟨b, e2, r2⟩ := Hsh.rep_update r1 salt (by omega)
            obtain ⟨c, e3, r3⟩ := Hsh.rep_update r2 (pass.take (k - salt.length)) (by rw [List.length_take]; omega)
            refine ⟨c, ?_, ?_⟩
            · rw [if_pos h1, e2, C.ok_bind, Hsh.slice_take _ _ (by omega), C.ok_bind, e3]
            · rw [hw, List.take_append, List.take_of_length_le (l := salt) (by omega)]
              simpa using r3
          · obtain ⟨b, e2, r2⟩ := Hsh.rep_update r1 (salt.take k) (by rw [List.length_take]; omega)
            refine ⟨b, ?_, ?_⟩
            · rw [if_neg h1, Hsh.slice_take _ _ (by omega), C.ok_bind, e2]
            · rw [hw, List.take_append, Nat.sub_eq_zero_of_le (by omega), List.take_zero, List.append_nil]
              simpa using r2
        · rw [if_neg h0]
          obtain rfl : k = 0 := by omega
          refine ⟨a, rfl, ?_⟩
          rw [hw]; simpa using r1)
      len 0 (hash_output_size t) len (Nat.le_refl _) (fun _ => rfl)
    simp only
    rw [h, C.ok_bind, s2k]
    simp only [Nat.zero_add, if_true]

/-- C54. With an empty salt and passphrase the inner loop of `pgpdf_derive_iterated` never ends: whatever
the number of rounds, it has not left the loop (the model reports `ub`). -/
theorem pgpdf_iterated_empty (junk : Junk) (t : HashId) (ht : hash_has_backend t = true) (count len : Nat)
    (hl : 0 < len) : pgpdf_derive_iterated junk t [] [] count len = .ub := by
  have hfeed : ∀ (n left : Nat) {h : HashCtx} {m : List Byte}, Hsh.HashRep t h m →
      pgpdf_feed [] [] 0 n left h = .ub := by
    intro n
    induction n with
    | zero => intro left h m _; rfl
    | succ n ih =>
      intro left h m hr
      obtain ⟨a, e1, r1⟩ := Hsh.rep_update hr [] (by simp)
      obtain ⟨b, e2, r2⟩ := Hsh.rep_update r1 [] (by simp)
      rw [pgpdf_feed, if_pos (by omega), e1, C.ok_bind, e2, C.ok_bind, ih _ r2]
  obtain ⟨a0, e0, r0⟩ := Kdf.hash_calls ht (junk (len - 1) 0)
  obtain ⟨n, rfl⟩ : ∃ n, len = n + 1 := ⟨len - 1, by omega⟩
  simp only [pgpdf_derive_iterated, ht, List.length_nil, Nat.add_zero, Nat.zero_mod, Nat.not_lt_zero, if_false,
    Bool.true_eq_false]
  rw [pgpdf_loop, if_pos (by omega)]
  rw [Nat.add_sub_cancel] at e0
  rw [e0, C.ok_bind, pgpdf_zeros, C.ok_bind, hfeed _ _ r0]
  rfl

/-- C54. `scrypt_derive` succeeds exactly for parameters within the limits and with enough memory, and then
is the function of RFC 7914. -/
theorem scrypt_derive_spec (junk : Nat → Nat → Junk) (junk' : Nat → Nat → Nat → Byte) (mem : Bool)
    (pass salt : List Byte) (hp : pass.length < 2 ^ 64) (hs : salt.length < 2 ^ 64) (N r p len : Nat)
    (hr : r < 2 ^ 32) (hpp : p < 2 ^ 32) :
    scrypt_derive junk junk' mem pass salt N r p len =
      .ok (if 0 < r ∧ 0 < p ∧ r * p < 2 ^ 30 ∧ N.isPowerOfTwo ∧ 128 * r * N < 2 ^ 64 ∧
          len ≤ (2 ^ 32 - 1) * 32 ∧ (mem = true ∨ len = 0) then
        some (scrypt (hmac (Spec.hash .SHA256 32) 64 pass) salt N r p len) else none) := by
  have hrp : r * p < 2 ^ 64 := by
    calc r * p ≤ (2 ^ 32 - 1) * (2 ^ 32 - 1) := Nat.mul_le_mul (by omega) (by omega)
      _ < 2 ^ 64 := by decide
  rw [scrypt_derive]
  by_cases h0 : N = 0 ∨ r = 0 ∨ p = 0
  · rw [if_pos h0, if_neg]
    rintro ⟨h1, h2, _, ⟨e, rfl⟩, _⟩
    have := Nat.two_pow_pos e
    omega
  rw [if_neg h0]
  have hN : N ≠ 0 := fun h => h0 (Or.inl h)
  have hr0 : 0 < r := by omega
  have hp0 : 0 < p := by omega
  by_cases h1 : len > (2 ^ 32 - 1) * 32
  · rw [if_pos h1, if_neg (by omega)]
  rw [if_neg h1, Nat.mod_eq_of_lt hrp]
  by_cases h2 : r * p ≥ 2 ^ 30
  · rw [if_pos h2, if_neg (by omega)]
  have h3 : ¬ r > (2 ^ 64 - 1) / 128 / p := by
    rw [Nat.not_lt, Nat.le_div_iff_mul_le hp0]; omega
  rw [if_neg h2, if_neg h3, if_neg (by omega)]
  have h4 : N > (2 ^ 64 - 1) / 128 / r ↔ ¬ 128 * r * N < 2 ^ 64 := by
    rw [gt_iff_lt, Nat.div_lt_iff_lt_mul hr0, Nat.div_lt_iff_lt_mul (by decide),
      show N * r * 128 = 128 * r * N by ring]
    omega
  by_cases h5 : 128 * r * N < 2 ^ 64
  swap
  · rw [if_pos (h4.2 h5), if_neg (by omega)]
  rw [if_neg (by rw [h4]; omega)]
  have hpow : N &&& (N - 1) = 0 ↔ ∃ e, N = 2 ^ e := Nat.and_sub_one_eq_zero_iff_isPowerOfTwo hN
  by_cases h6 : ∃ e, N = 2 ^ e
  swap
  · rw [if_pos (by rw [Ne, hpow]; exact h6), if_neg (fun h => h6 h.2.2.2.1)]
  rw [if_neg (by rw [Ne, hpow]; exact not_not_intro h6)]
  by_cases h7 : len = 0
  · rw [if_pos h7, if_pos ⟨hr0, hp0, by omega, h6, h5, by omega, Or.inr h7⟩, h7, scrypt, pbkdf2, Kdf.cut_zero]
  rw [if_neg h7]
  cases mem with
  | false => rw [if_pos rfl, if_neg (by simp [h7])]
  | true =>
    rw [if_neg (by simp), if_pos ⟨hr0, hp0, by omega, h6, h5, by omega, Or.inl rfl⟩]
    have hsz : p * 128 * r = 128 * (r * p) := by ring
    rw [pbkdf2_derive_spec _ _ .SHA256 pass salt hp hs 1 (p * 128 * r) (by omega)]
    rw [show hash_has_backend .SHA256 = true from rfl, show hash_output_size .SHA256 = 32 from rfl,
      show hash_block_size .SHA256 = 64 from rfl, if_pos ⟨rfl, by omega⟩, C.ok_bind]
    obtain ⟨e, rfl⟩ := h6
    have he : e < 64 := by
      have h8 : 2 ^ e < 2 ^ 64 := by
        refine Nat.lt_of_le_of_lt ?_ h5
        exact Nat.le_mul_of_pos_left _ (by omega)
      exact (Nat.pow_lt_pow_iff_right (by omega)).1 h8
    have hB : (pbkdf2 (hmac (Spec.hash .SHA256 32) 64 pass) 32 salt 1 (p * 128 * r)).length = p * 128 * r :=
      Kdf.cut_length _ (by decide) (fun i => Kdf.pbkdf2F_len (t := .SHA256) rfl _ _ _ _) _
    simp only [Nat.max_self]
    rw [Kdf.smix_loop_eq hr0 he p 0 (by rw [hB, Nat.zero_add]), C.ok_bind]
    have hB2 : ((List.range p).flatMap fun k => scryptROMix r (2 ^ e)
        (((pbkdf2 (hmac (Spec.hash .SHA256 32) 64 pass) 32 salt 1 (p * 128 * r)).drop ((0 + k) * 128 * r)).take
          (128 * r))).length < 2 ^ 64 := by
      have : ∀ n, n ≤ p → ((List.range n).flatMap fun k => scryptROMix r (2 ^ e)
        (((pbkdf2 (hmac (Spec.hash .SHA256 32) 64 pass) 32 salt 1 (p * 128 * r)).drop ((0 + k) * 128 * r)).take
          (128 * r))).length = n * (128 * r) := by
        intro n
        induction n with
        | zero => intro _; simp
        | succ n ih =>
          intro hn
          rw [List.range_succ, List.flatMap_append, List.length_append, ih (by omega), List.flatMap_cons,
            List.flatMap_nil, List.append_nil, Kdf.romix_length hr0, Nat.add_mul, Nat.one_mul]
          rw [List.length_take, List.length_drop, hB, Nat.zero_add]
          have : (n + 1) * 128 * r ≤ p * 128 * r := by
            apply Nat.mul_le_mul_right; omega
          have e2 : (n + 1) * 128 * r = n * 128 * r + 128 * r := by ring
          omega
      rw [this p (Nat.le_refl _), show p * (128 * r) = 128 * (r * p) by ring]
      omega
    rw [pbkdf2_derive_spec _ _ .SHA256 pass _ hp hB2 1 len (by omega)]
    rw [show hash_has_backend .SHA256 = true from rfl, show hash_output_size .SHA256 = 32 from rfl,
      show hash_block_size .SHA256 = 64 from rfl, if_pos ⟨rfl, by omega⟩, scrypt]
    simp only [Nat.max_self, Nat.zero_add]

example : 0 < 8 ∧ 0 < 1 ∧ 8 * 1 < 2 ^ 30 ∧ (16384).isPowerOfTwo ∧ 128 * 8 * 16384 < 2 ^ 64 :=
  ⟨by decide, by decide, by decide, ⟨14, rfl⟩, by decide⟩

end Torsion
