import Verif.Hash.PadLemmas

/-!
# Properties of the hash functions and HMAC (C24, C25, C26)

The specification is in Verif/Hash/Spec.lean. `junk` stands for uninitialised memory: the results do
not depend on it.
-/
namespace Torsion
open Spec Hsh Blk Strm

/-! ## C24 -/

/-- C24. For every hash of the enumeration: `hash_init`, any number of `hash_update` calls and
`hash_final` give the digest of the concatenated data, whatever the splitting. (The length argument
matters for SHAKE only, where it must not exceed the 200 bytes of the state.) -/
theorem hash_stream (junk junk' : Nat → Byte) (t : HashId) (ht : ∀ n, t ≠ .other n)
    (chunks : List (List Byte)) (hc : ∀ d ∈ chunks, d.length < 2 ^ 64) (len : Nat)
    (hl : t = .SHAKE128 ∨ t = .SHAKE256 → len ≤ 200) :
    (do
      let h ← hash_init junk t
      let h ← updates hash_update h chunks
      hash_final junk' h len) = .ok (Spec.hash t len chunks.flatten) := by
  obtain ⟨h, e1, r1⟩ := rep_init junk t ht
  obtain ⟨h', e2, r2⟩ := rep_updates chunks r1 hc
  rw [e1, C.ok_bind, e2, C.ok_bind, rep_final r2 junk' len hl, List.nil_append]

example : ∀ n, HashId.SHA256 ≠ .other n := fun n h => by cases h

/-- C24. The same data, split differently, gives the same digest. -/
theorem hash_split (junk junk' junk'' junk''' : Nat → Byte) (t : HashId) (ht : ∀ n, t ≠ .other n)
    (a b : List (List Byte)) (ha : ∀ d ∈ a, d.length < 2 ^ 64) (hb : ∀ d ∈ b, d.length < 2 ^ 64)
    (hab : a.flatten = b.flatten) (len : Nat) (hl : t = .SHAKE128 ∨ t = .SHAKE256 → len ≤ 200) :
    (do
      let h ← hash_init junk t
      let h ← updates hash_update h a
      hash_final junk' h len) =
    (do
      let h ← hash_init junk'' t
      let h ← updates hash_update h b
      hash_final junk''' h len) := by
  rw [hash_stream junk junk' t ht a ha len hl, hash_stream junk'' junk''' t ht b hb len hl, hab]

example : ([[1, 2], [], [3]] : List (List Byte)).flatten = [[1], [2, 3]].flatten := rfl

/-- C24. The number of bytes written: `hash_output_size`, or for SHAKE the number asked for. -/
theorem hash_length (t : HashId) (len : Nat) (m : List Byte)
    (hl : t = .SHAKE128 ∨ t = .SHAKE256 → len ≤ 200) :
    (Spec.hash t len m).length =
      if (t = .SHAKE128 ∨ t = .SHAKE256) ∧ len ≠ 0 then len else hash_output_size t := by
  cases t with
  | SHAKE128 =>
    have := hl (by decide)
    simp only [Spec.hash]
    rw [keccak_len _ _ _ (by split <;> omega)]
    by_cases h : len = 0 <;> simp [h, hash_output_size]
  | SHAKE256 =>
    have := hl (by decide)
    simp only [Spec.hash]
    rw [keccak_len _ _ _ (by split <;> omega)]
    by_cases h : len = 0 <;> simp [h, hash_output_size]
  | MD5SHA1 => simp only [Spec.hash, List.length_append, md5_len, sha1_len]; rfl
  | _ =>
    rw [if_neg (by simp)]
    simp only [Spec.hash, hash_output_size, md4_len, md5_len, sha1_len, sha224_len, sha256_len, sha384_len,
      sha512_len, ripemd160_len, whirlpool_len, gost94_len, md2_len, blake2b_len, blake2s_len, keccak_len,
      Nat.reduceLeDiff, List.length_nil, Nat.le_refl]

/-- A type outside of the enumeration aborts, in every function. -/
theorem hash_other (junk : Nat → Byte) (n : Int) (u : HashU) (data : List Byte) (len : Nat) :
    hash_init junk (.other n) = .abort ∧ hash_update ⟨.other n, u⟩ data = .abort ∧
      hash_final junk ⟨.other n, u⟩ len = .abort := ⟨rfl, rfl, rfl⟩

private theorem b2_updates {w : Nat} {A : B2Alg w} (hbs : 0 < A.bs) {h0 : Vector (BitVec w) 8} {len : Nat} :
    ∀ (chunks : List (List Byte)) {c : B2Ctx w} {d : List Byte}, B2Rep A h0 len c d →
    ∃ c', updates (blake2_update A) c chunks = .ok c' ∧ B2Rep A h0 len c' (d ++ chunks.flatten)
  | [], c, d, h => ⟨c, rfl, by simpa using h⟩
  | x :: xs, c, d, h => by
    obtain ⟨c1, e1, r1⟩ := b2_update hbs h x
    obtain ⟨c2, e2, r2⟩ := b2_updates hbs xs r1
    exact ⟨c2, by rw [updates, e1, C.ok_bind, e2], by simpa using r2⟩

/-- C24. Keyed or unkeyed BLAKE2b with any output length. -/
theorem blake2b_stream (junk : Nat → Byte) (len : Nat) (key : List Byte) (chunks : List (List Byte))
    (h1 : 1 ≤ len) (h2 : len ≤ 64) (h3 : key.length ≤ 64) :
    (do
      let c ← blake2_init blake2bAlg 64 junk len key
      let c ← updates (blake2_update blake2bAlg) c chunks
      blake2_final blake2bAlg c) = .ok (Spec.blake2b len key chunks.flatten) := by
  obtain ⟨c, e1, r1⟩ := blake2b_ini junk len key h1 h2 h3
  obtain ⟨c', e2, r2⟩ := b2_updates (by decide) chunks r1
  rw [e1, C.ok_bind, e2, C.ok_bind]
  refine blake2b_fin h2 ?_
  have : b2data 128 key chunks.flatten = b2data 128 key [] ++ chunks.flatten := by simp [b2data]
  rw [this]
  exact r2

/-- C24. Keyed or unkeyed BLAKE2s with any output length. -/
theorem blake2s_stream (junk : Nat → Byte) (len : Nat) (key : List Byte) (chunks : List (List Byte))
    (h1 : 1 ≤ len) (h2 : len ≤ 32) (h3 : key.length ≤ 32) :
    (do
      let c ← blake2_init blake2sAlg 32 junk len key
      let c ← updates (blake2_update blake2sAlg) c chunks
      blake2_final blake2sAlg c) = .ok (Spec.blake2s len key chunks.flatten) := by
  obtain ⟨c, e1, r1⟩ := blake2s_ini junk len key h1 h2 h3
  obtain ⟨c', e2, r2⟩ := b2_updates (by decide) chunks r1
  rw [e1, C.ok_bind, e2, C.ok_bind]
  refine blake2s_fin h2 ?_
  have : b2data 64 key chunks.flatten = b2data 64 key [] ++ chunks.flatten := by simp [b2data]
  rw [this]
  exact r2

/-- BLAKE2 aborts exactly for the lengths that are not allowed. -/
theorem blake2_init_abort {w : Nat} (A : B2Alg w) (max : Nat) (junk : Nat → Byte) (len : Nat)
    (key : List Byte) (hmax : max ≤ A.bs) :
    blake2_init A max junk len key = .abort ↔ len = 0 ∨ max < len ∨ max < key.length := by
  rw [blake2_init, C.check, C.check]
  by_cases h1 : 1 ≤ len ∧ len ≤ max
  · rw [if_pos (by simpa using h1), C.ok_bind]
    by_cases h2 : key.length ≤ max
    · rw [if_pos (by simpa using h2), C.ok_bind]
      constructor
      · intro h
        dsimp only at h
        split at h
        · rw [blit_eq (by simp; omega)] at h
          simp at h
        · simp at h
      · omega
    · rw [if_neg (by simpa using h2), C.abort_bind]
      exact ⟨fun _ => by omega, fun _ => rfl⟩
  · rw [if_neg (by simpa using h1), C.abort_bind]
    exact ⟨fun _ => by omega, fun _ => rfl⟩

private theorem kec_updates {bs : Nat} : ∀ (chunks : List (List Byte)) {c : KecCtx} {m : List Byte},
    KecRep bs c m → ∃ c', updates keccak_update c chunks = .ok c' ∧ KecRep bs c' (m ++ chunks.flatten)
  | [], c, m, h => ⟨c, rfl, by simpa using h⟩
  | x :: xs, c, m, h => by
    obtain ⟨c1, e1, r1⟩ := kec_update h x
    obtain ⟨c2, e2, r2⟩ := kec_updates xs r1
    exact ⟨c2, by rw [updates, e1, C.ok_bind, e2], by simpa using r2⟩

/-- C24. Keccak with any security level, domain byte and output length the code accepts; zero stands
for the defaults. -/
theorem keccak_stream (junk : Nat → Byte) (bits pad : BitVec 32) (len : Nat) (chunks : List (List Byte))
    (h1 : 32 ≤ bits.toNat) (h2 : bits.toNat ≤ 768) (h3 : bits.toNat % 32 = 0) (hl : len ≤ 200) :
    (do
      let c ← keccak_init junk bits
      let c ← updates keccak_update c chunks
      keccak_final c pad len) =
    .ok (Spec.keccak (200 - bits.toNat / 4) (if pad = 0 then 1 else pad.setWidth 8)
      (if len = 0 then bits.toNat / 8 else len) chunks.flatten) := by
  obtain ⟨c, e1, r1⟩ := kec_init bits junk h1 h2 h3
  obtain ⟨c', e2, r2⟩ := kec_updates chunks r1
  rw [e1, C.ok_bind, e2, C.ok_bind, kec_final r2 pad len hl, List.nil_append]
  have hb : (1600 - 2 * bits.toNat) / 8 = 200 - bits.toNat / 4 := by omega
  have hd : 100 - (1600 - 2 * bits.toNat) / 8 / 2 = bits.toNat / 8 := by omega
  rw [hd, hb]

example : 32 ≤ (256 : BitVec 32).toNat ∧ (256 : BitVec 32).toNat ≤ 768 ∧ (256 : BitVec 32).toNat % 32 = 0 := by
  decide

/-- `keccak_init` aborts exactly for the other levels. -/
theorem keccak_init_abort (junk : Nat → Byte) (bits : BitVec 32) :
    keccak_init junk bits = .abort ↔ bits.toNat < 32 ∨ 768 < bits.toNat ∨ bits.toNat % 32 ≠ 0 := by
  constructor
  · intro h
    by_contra hh
    obtain ⟨c, e, -⟩ := kec_init bits junk (by omega) (by omega) (by omega)
    rw [e] at h
    cases h
  · intro h
    rw [keccak_init]
    simp only [C.check]
    by_cases h1 : 32 ≤ bits.toNat
    · rw [if_pos (by simpa using h1), C.ok_bind]
      by_cases h2 : bits.toNat ≤ 768
      · rw [if_pos (by simpa using h2), C.ok_bind]
        have hz : ((1600 - bits * 2 : BitVec 32) &&& 63 == 0) = false := by
          rw [beq_eq_false_iff_ne]
          intro e
          have e := congrArg BitVec.toNat e
          rw [BitVec.toNat_and, BitVec.toNat_sub, BitVec.toNat_mul,
            show (2 : BitVec 32).toNat = 2 from rfl, show (1600 : BitVec 32).toNat = 1600 from rfl,
            show (63 : BitVec 32).toNat = 2 ^ 6 - 1 from rfl, Nat.and_two_pow_sub_one_eq_mod] at e
          rw [show (0 : BitVec 32).toNat = 0 from rfl] at e
          omega
        rw [hz]
        rfl
      · rw [if_neg (by simpa using h2)]; rfl
    · rw [if_neg (by simpa using h1)]; rfl

/-- An output longer than the state aborts. -/
theorem keccak_final_abort (c : KecCtx) (pad : BitVec 32) (len : Nat) (h : 200 < len) :
    keccak_final c pad len = .abort := by
  rw [keccak_final]
  dsimp only
  rw [if_neg (show ¬ len = 0 by omega), C.check, if_neg (by simpa using h)]
  rfl

/-! ## C25 -/

/-- C25. Merkle–Damgård padding (MD4, MD5, RIPEMD-160, SHA-1, SHA-2, Whirlpool): a whole number of
blocks, and different messages have different padded forms — also above the length limit. -/
theorem md_padding (bs lenOff : Nat) (big : Bool)
    (h : (bs, lenOff) ∈ [(64, 56), (128, 112), (64, 32)]) :
    (∀ m, (mdPad bs lenOff (if big then bigBytes else leBytes) m).length % bs = 0) ∧
    (∀ a b, mdPad bs lenOff (if big then bigBytes else leBytes) a =
      mdPad bs lenOff (if big then bigBytes else leBytes) b → a = b) := by
  have hel : ∀ k v, ((if big then bigBytes else leBytes) k v).length = k := by
    intro k v; cases big
    · exact leBytes_len k v
    · exact bigBytes_len k v
  have hei : ∀ k u v, (if big then bigBytes else leBytes) k u = (if big then bigBytes else leBytes) k v →
      u % 256 ^ k = v % 256 ^ k := by
    intro k u v; cases big
    · exact leBytes_inj k u v
    · exact bigBytes_inj k u v
  simp only [List.mem_cons, Prod.mk.injEq, List.not_mem_nil, or_false] at h
  rcases h with ⟨rfl, rfl⟩ | ⟨rfl, rfl⟩ | ⟨rfl, rfl⟩ <;>
    exact ⟨mdPad_len _ _ _ hel (by decide), mdPad_inj _ _ _ hel hei (by decide) (by decide)⟩

example : (64, 56) ∈ [(64, 56), (128, 112), (64, 32)] := by decide

/-- The lists of blocks that the Merkle–Damgård hashes iterate over. -/
def mdBlocks (bs lenOff : Nat) (enc : Nat → Nat → List Byte) (m : List Byte) : List (Vector Byte bs) :=
  blocks bs (mdPad bs lenOff enc m)

private theorem le32_inj {n : Nat} (a b : Vector (BitVec 32) n) (h : le32Out a = le32Out b) : a = b :=
  words_inj 4 rfl a b h

private theorem bwords_inj {w n : Nat} (k : Nat) (hk : w = 8 * k) (a b : Vector (BitVec w) n)
    (h : (a.toList.flatMap fun x => bigBytes k x.toNat) = b.toList.flatMap fun x => bigBytes k x.toNat) :
    a = b := by
  have key : ∀ (xs ys : List (BitVec w)), xs.length = ys.length →
      (xs.flatMap fun x => bigBytes k x.toNat) = (ys.flatMap fun x => bigBytes k x.toNat) → xs = ys := by
    intro xs
    induction xs with
    | nil => intro ys hl _; exact (List.length_eq_zero_iff.1 hl.symm).symm
    | cons x xs ih =>
      intro ys hl h
      cases ys with
      | nil => simp at hl
      | cons y ys =>
        rw [List.flatMap_cons, List.flatMap_cons] at h
        obtain ⟨h1, h2⟩ := List.append_inj h (by rw [bigBytes_len, bigBytes_len])
        have := bigBytes_inj k _ _ h1
        have hp : 256 ^ k = 2 ^ w := by rw [hk, Nat.pow_mul]
        rw [hp, Nat.mod_eq_of_lt x.isLt, Nat.mod_eq_of_lt y.isLt] at this
        rw [BitVec.eq_of_toNat_eq this, ih ys (by simpa using hl) h2]
  exact Vector.toList_inj.1 (key _ _ (by simp) h)

/-- C25. A collision of MD4 contains a collision of its compression function. -/
theorem md4_collision (a b : List Byte) (ha : a.length < 2 ^ 61) (hb : b.length < 2 ^ 61) (hab : a ≠ b)
    (h : Spec.md4 a = Spec.md4 b) :
    Collide md4Fn #v[0x67452301, 0xefcdab89, 0x98badcfe, 0x10325476]
      (mdBlocks 64 56 leBytes a) (mdBlocks 64 56 leBytes b) :=
  md_collide 64 56 leBytes leBytes_len leBytes_inj (by decide) (by decide) _ _ a b
    (by omega) (by omega) hab (le32_inj _ _ h)

/-- C25. -/
theorem md5_collision (a b : List Byte) (ha : a.length < 2 ^ 61) (hb : b.length < 2 ^ 61) (hab : a ≠ b)
    (h : Spec.md5 a = Spec.md5 b) :
    Collide md5Fn #v[0x67452301, 0xefcdab89, 0x98badcfe, 0x10325476]
      (mdBlocks 64 56 leBytes a) (mdBlocks 64 56 leBytes b) :=
  md_collide 64 56 leBytes leBytes_len leBytes_inj (by decide) (by decide) _ _ a b
    (by omega) (by omega) hab (le32_inj _ _ h)

/-- C25. -/
theorem ripemd160_collision (a b : List Byte) (ha : a.length < 2 ^ 61) (hb : b.length < 2 ^ 61)
    (hab : a ≠ b) (h : Spec.ripemd160 a = Spec.ripemd160 b) :
    Collide ripemd160Fn #v[0x67452301, 0xefcdab89, 0x98badcfe, 0x10325476, 0xc3d2e1f0]
      (mdBlocks 64 56 leBytes a) (mdBlocks 64 56 leBytes b) :=
  md_collide 64 56 leBytes leBytes_len leBytes_inj (by decide) (by decide) _ _ a b
    (by omega) (by omega) hab (le32_inj _ _ h)

/-- C25. -/
theorem sha1_collision (a b : List Byte) (ha : a.length < 2 ^ 61) (hb : b.length < 2 ^ 61) (hab : a ≠ b)
    (h : Spec.sha1 a = Spec.sha1 b) :
    Collide sha1Fn #v[0x67452301, 0xefcdab89, 0x98badcfe, 0x10325476, 0xc3d2e1f0]
      (mdBlocks 64 56 bigBytes a) (mdBlocks 64 56 bigBytes b) :=
  md_collide 64 56 bigBytes bigBytes_len bigBytes_inj (by decide) (by decide) _ _ a b
    (by omega) (by omega) hab (bwords_inj 4 rfl _ _ h)

/-- C25. -/
theorem sha256_collision (a b : List Byte) (ha : a.length < 2 ^ 61) (hb : b.length < 2 ^ 61)
    (hab : a ≠ b) (h : Spec.sha256 a = Spec.sha256 b) :
    Collide sha256Fn
      #v[0x6a09e667, 0xbb67ae85, 0x3c6ef372, 0xa54ff53a, 0x510e527f, 0x9b05688c, 0x1f83d9ab, 0x5be0cd19]
      (mdBlocks 64 56 bigBytes a) (mdBlocks 64 56 bigBytes b) :=
  md_collide 64 56 bigBytes bigBytes_len bigBytes_inj (by decide) (by decide) _ _ a b
    (by omega) (by omega) hab (bwords_inj 4 rfl _ _ h)

/-- C25. -/
theorem sha512_collision (a b : List Byte) (ha : a.length < 2 ^ 125) (hb : b.length < 2 ^ 125)
    (hab : a ≠ b) (h : Spec.sha512 a = Spec.sha512 b) :
    Collide sha512Fn
      #v[0x6a09e667f3bcc908, 0xbb67ae8584caa73b, 0x3c6ef372fe94f82b, 0xa54ff53a5f1d36f1,
        0x510e527fade682d1, 0x9b05688c2b3e6c1f, 0x1f83d9abfb41bd6b, 0x5be0cd19137e2179]
      (mdBlocks 128 112 bigBytes a) (mdBlocks 128 112 bigBytes b) :=
  md_collide 128 112 bigBytes bigBytes_len bigBytes_inj (by decide) (by decide) _ _ a b
    (by omega) (by omega) hab (bwords_inj 8 rfl _ _ h)

/-- C25. -/
theorem whirlpool_collision (a b : List Byte) (ha : a.length < 2 ^ 253) (hb : b.length < 2 ^ 253)
    (hab : a ≠ b) (h : Spec.whirlpool a = Spec.whirlpool b) :
    Collide whirlpoolFn (Vector.replicate 8 0)
      (mdBlocks 64 32 bigBytes a) (mdBlocks 64 32 bigBytes b) :=
  md_collide 64 32 bigBytes bigBytes_len bigBytes_inj (by decide) (by decide) _ _ a b
    (by omega) (by omega) hab (bwords_inj 8 rfl _ _ h)

/-- C25. BLAKE2b with full output, any key. -/
theorem blake2b_collision (key a b : List Byte) (hk : key.length ≤ 64) (ha : a.length < 2 ^ 127)
    (hb : b.length < 2 ^ 127) (hab : a ≠ b) (h : Spec.blake2b 64 key a = Spec.blake2b 64 key b) :
    Collide (blake2Step blake2bFn)
      (Std.blake2bIV.set 0 (Std.blake2bIV[0] ^^^ BitVec.ofNat 64 (0x01010000 + 256 * key.length + 64)))
      (blake2Inputs 64 128 (b2data 128 key a)) (blake2Inputs 64 128 (b2data 128 key b)) := by
  have hl : ∀ m : List Byte, m.length < 2 ^ 127 → (b2data 128 key m).length < 2 ^ (2 * 64) := by
    intro m hm
    rw [b2data]
    split
    · simp; omega
    · simp only [List.length_append, List.length_replicate]; omega
  exact blake2_collide 128 8 rfl (by decide) _ _ key a b (hl a ha) (hl b hb) hab h

/-- C25. BLAKE2s with full output, any key. -/
theorem blake2s_collision (key a b : List Byte) (hk : key.length ≤ 32) (ha : a.length < 2 ^ 63)
    (hb : b.length < 2 ^ 63) (hab : a ≠ b) (h : Spec.blake2s 32 key a = Spec.blake2s 32 key b) :
    Collide (blake2Step blake2sFn)
      (Std.blake2sIV.set 0 (Std.blake2sIV[0] ^^^ BitVec.ofNat 32 (0x01010000 + 256 * key.length + 32)))
      (blake2Inputs 32 64 (b2data 64 key a)) (blake2Inputs 32 64 (b2data 64 key b)) := by
  have hl : ∀ m : List Byte, m.length < 2 ^ 63 → (b2data 64 key m).length < 2 ^ (2 * 32) := by
    intro m hm
    rw [b2data]
    split
    · simp; omega
    · simp only [List.length_append, List.length_replicate]; omega
  exact blake2_collide 64 4 rfl (by decide) _ _ key a b (hl a ha) (hl b hb) hab h

/-- C25. GOST94. -/
theorem gost94_collision (a b : List Byte) (ha : a.length < 2 ^ 253) (hb : b.length < 2 ^ 253)
    (hab : a ≠ b) (h : Spec.gost94 a = Spec.gost94 b) :
    Collide Std.gost94Compress (Vector.replicate 32 0) (gost94Inputs a) (gost94Inputs b) :=
  gost_collide a b (by omega) (by omega) hab h

/-- C25. MD2 padding. -/
theorem md2_padding : (∀ m, (md2Pad m).length % 16 = 0) ∧ ∀ a b, md2Pad a = md2Pad b → a = b :=
  ⟨md2Pad_len, md2Pad_inj⟩

/-- C25. Sponge padding: whole blocks for every domain byte, and unambiguous exactly when the low
seven bits of the domain byte are not all zero. -/
theorem sponge_padding (bs : Nat) (hbs : 1 < bs) (p : Byte) :
    (∀ m, (sponge10 bs p m).length % bs = 0) ∧
    ((∀ a b, sponge10 bs p a = sponge10 bs p b → a = b) ↔ p ≠ 0 ∧ p ≠ 0x80) := by
  refine ⟨sponge_len bs hbs p, ?_, fun h => sponge_inj bs hbs p h.1 h.2⟩
  intro h
  have hm : (List.replicate (bs - 1) (0 : Byte)).length % bs = bs - 1 := by
    rw [List.length_replicate, Nat.mod_eq_of_lt (by omega)]
  constructor
  · rintro rfl
    -- the empty message and bs - 1 zeros
    have := h [] (List.replicate (bs - 1) 0) (by
      rw [sponge10, sponge10, if_pos hm, if_neg (by simp; omega)]
      simp only [List.length_nil, Nat.zero_mod, Nat.sub_zero, List.nil_append]
      rw [show bs - 1 = (bs - 2) + 1 by omega, List.replicate_succ]
      rfl)
    have := congrArg List.length this
    simp at this
    omega
  · rintro rfl
    have := h [] (0x80 :: List.replicate (bs - 2) 0) (by
      have e1 : (0x80 :: List.replicate (bs - 2) (0 : Byte)).length % bs = bs - 1 := by
        rw [List.length_cons, List.length_replicate, Nat.mod_eq_of_lt (by omega)]; omega
      have e0 : ¬ ([] : List Byte).length % bs = bs - 1 := by simp; omega
      rw [sponge10, if_neg e0, sponge10, if_pos e1]
      simp only [List.length_nil, Nat.zero_mod, Nat.sub_zero, List.nil_append]
      rfl)
    have := congrArg List.length this
    simp at this

/-! ## C26 -/

/-- C26. HMAC with every hash that has a back end, for keys of every length and every splitting. -/
theorem hmac_stream (junk junk' : Nat → Nat → Byte) (t : HashId) (ht : hash_has_backend t = true)
    (key : List Byte) (hk : key.length < 2 ^ 64) (chunks : List (List Byte))
    (hc : ∀ d ∈ chunks, d.length < 2 ^ 64) :
    (do
      let h ← hmac_init junk t key
      let h ← updates hmac_update h chunks
      hmac_final junk' h) =
    .ok (Spec.hmac (Spec.hash t (hash_output_size t)) (hash_block_size t) key chunks.flatten) := by
  have hto : ∀ n, t ≠ .other n := by rintro n rfl; cases ht
  have hsz : hash_output_size t ≤ 64 ∧ hash_output_size t ≤ hash_block_size t ∧ hash_block_size t ≤ 168 := by
    cases t <;> first | (cases ht; done) | decide
  obtain ⟨hs1, hs2, hs3⟩ := hsz
  have hout : hash_output_size t ≤ 200 := by omega
  have hlen : ∀ m, (Spec.hash t (hash_output_size t) m).length = hash_output_size t := by
    intro m
    rw [hash_length t _ m (fun _ => hout)]
    split <;> rfl
  -- the key that is used
  have hkey : (if key.length > hash_block_size t then do
        let h ← hash_init (junk 0) t
        let h ← hash_update h key
        let tmp ← hash_final (junk 1) h (hash_output_size t)
        if tmp.length > 64 then .ub
        else C.slice tmp 0 (hash_output_size t)
      else C.ok key) =
      C.ok (if key.length > hash_block_size t then Spec.hash t (hash_output_size t) key else key) := by
    by_cases hlong : key.length > hash_block_size t
    · rw [if_pos hlong, if_pos hlong]
      have := hash_stream (junk 0) (junk 1) t hto [key] (by simpa using hk) (hash_output_size t) (fun _ => hout)
      obtain ⟨h, e1, r1⟩ := rep_init (junk 0) t hto
      obtain ⟨h', e2, r2⟩ := rep_update r1 key hk
      rw [e1, C.ok_bind, e2, C.ok_bind, rep_final r2 (junk 1) _ (fun _ => hout), C.ok_bind, List.nil_append,
        if_neg (by rw [hlen]; omega), slice_take _ _ (by rw [hlen]), List.take_of_length_le (by rw [hlen])]
    · rw [if_neg hlong, if_neg hlong]
  rw [hmac_init]
  rw [hkey, C.ok_bind, Spec.hmac]
  have hkl : (if key.length > hash_block_size t then Spec.hash t (hash_output_size t) key else key).length ≤
      hash_block_size t := by
    split
    · rw [hlen]; exact hs2
    · omega
  generalize (if key.length > hash_block_size t then Spec.hash t (hash_output_size t) key else key) = k at *
  generalize hash_block_size t = bs at *
  have hpad : ∀ b : Byte, ∃ pad, hmac_pad k b = .ok pad ∧ C.slice pad 0 bs =
      .ok ((k ++ List.replicate (bs - k.length) 0).map (· ^^^ b)) := by
    intro b
    refine ⟨_, by rw [hmac_pad, if_pos (by omega)], ?_⟩
    rw [slice_take _ _ (by simp; omega)]
    congr 1
    rw [List.take_append, List.take_of_length_le (by simpa using hkl), List.length_map, List.take_replicate,
      Nat.min_eq_left (by omega), List.map_append, List.map_replicate]
    simp
  obtain ⟨pi, hp1, hp2⟩ := hpad 0x36
  obtain ⟨po, hp3, hp4⟩ := hpad 0x5c
  have hml : ∀ b : Byte, ((k ++ List.replicate (bs - k.length) 0).map (· ^^^ b)).length < 2 ^ 64 := by
    intro b; simp; omega
  obtain ⟨i0, e1, r1⟩ := rep_init (junk 2) t hto
  obtain ⟨i1, e2, r2⟩ := rep_update r1 _ (hml 0x36)
  obtain ⟨o0, e3, r3⟩ := rep_init (junk 3) t hto
  obtain ⟨o1, e4, r4⟩ := rep_update r3 _ (hml 0x5c)
  rw [C.check, if_pos (by simpa using hkl), C.ok_bind, hp1, C.ok_bind, e1, C.ok_bind, hp2, C.ok_bind, e2,
    C.ok_bind, hp3, C.ok_bind, e3, C.ok_bind, hp4, C.ok_bind, e4, C.ok_bind]
  -- the updates
  have hupd : ∀ (ch : List (List Byte)) (h : HmacCtx) (m : List Byte), HashRep t h.inner m →
      (∀ d ∈ ch, d.length < 2 ^ 64) →
      ∃ i', updates hmac_update h ch = .ok ⟨h.type, i', h.outer⟩ ∧ HashRep t i' (m ++ ch.flatten) := by
    intro ch
    induction ch with
    | nil => intro h m hr _; exact ⟨h.inner, rfl, by simpa using hr⟩
    | cons d ds ih =>
      intro h m hr hd
      obtain ⟨i1, e1, r1⟩ := rep_update hr d (hd d (by simp))
      obtain ⟨i2, e2, r2⟩ := ih { h with inner := i1 } _ r1 (fun x hx => hd x (by simp [hx]))
      refine ⟨i2, ?_, by simpa using r2⟩
      rw [updates, hmac_update, e1]
      simp only [C.ok_bind]
      exact e2
  obtain ⟨i', eu, ru⟩ := hupd chunks ⟨t, i1, o1⟩ _ r2 hc
  rw [C.ok_bind, eu, C.ok_bind, hmac_final]
  dsimp only
  rw [rep_final ru (junk' 0) _ (fun _ => hout), C.ok_bind, slice_take _ _ (by rw [hlen]),
    List.take_of_length_le (by rw [hlen]), C.ok_bind]
  obtain ⟨o2, e5, r5⟩ := rep_update r4 (Spec.hash t (hash_output_size t)
    ([] ++ (k ++ List.replicate (bs - k.length) 0).map (· ^^^ 0x36) ++ chunks.flatten)) (by
      rw [hlen]; omega)
  rw [e5, C.ok_bind, rep_final r5 (junk' 1) _ (fun _ => hout)]
  simp only [List.nil_append]

example : hash_has_backend .SHA512 = true := rfl

end Torsion
