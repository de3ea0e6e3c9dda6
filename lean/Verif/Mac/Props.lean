import Verif.Mac.PolyLemmas
import Verif.Mac.SipLemmas

/-!
# Properties of the message authentication codes (C21, C53)

The statements use `Spec.poly1305`, `Spec.siphash` from Verif/Mac/Spec.lean. `wide`
selects one of the two Poly1305 back ends of src/mac.c; `block` is the old contents of the 16-byte buffer of the context.
-/
namespace Torsion
open Spec Mac

/-- A call made between `poly1305_init` and `poly1305_final`. -/
inductive PolyOp where
  | update (data : List Byte)
  | pad

/-- The calls on the model. -/
def polyRun {S : Type} (I : PolyImpl S) : Buf S → List PolyOp → C (Buf S)
  | ctx, [] => .ok ctx
  | ctx, .update d :: ops => do
    let ctx ← poly1305_update I ctx d
    polyRun I ctx ops
  | ctx, .pad :: ops => do
    let ctx ← poly1305_pad I ctx
    polyRun I ctx ops

/-- The message these calls stand for: data is appended, a pad call fills with zeroes up to a
multiple of 16. -/
def polyMsg : List Byte → List PolyOp → List Byte
  | m, [] => m
  | m, .update d :: ops => polyMsg (m ++ d) ops
  | m, .pad :: ops => polyMsg (pad16 m) ops

private theorem run_holds {S : Type} {I : PolyImpl S} {key : Vector Byte 32} :
    ∀ (ops : List PolyOp) {ctx : Buf S} {m : List Byte}, PHolds I key ctx m →
    ∃ ctx', polyRun I ctx ops = .ok ctx' ∧ PHolds I key ctx' (polyMsg m ops)
  | [], ctx, m, h => ⟨ctx, rfl, h⟩
  | .update d :: ops, ctx, m, h => by
    obtain ⟨c1, h1, h2⟩ := pholds_update h d
    obtain ⟨c2, h3, h4⟩ := run_holds ops h2
    exact ⟨c2, by rw [polyRun, h1, C.ok_bind, h3], h4⟩
  | .pad :: ops, ctx, m, h => by
    obtain ⟨c1, h1, h2⟩ := pholds_pad h
    obtain ⟨c2, h3, h4⟩ := run_holds ops h2
    exact ⟨c2, by rw [polyRun, h1, C.ok_bind, h3], h4⟩

private theorem ops_of {S : Type} {I : PolyImpl S} {key : Vector Byte 32} {Rep : S → Nat → Prop}
    (g : Good I key Rep) (block : List Byte) (hb : block.length = 16) (ops : List PolyOp) :
    (do
      let ctx ← polyRun I (poly1305_init I block key) ops
      poly1305_final I ctx) = .ok (poly1305 key.toList (polyMsg [] ops)) := by
  obtain ⟨c, h1, h2⟩ := run_holds ops (pholds_init (I := I) (key := key) hb)
  rw [h1, C.ok_bind, pholds_final g h2]

/-- C21: for either back end, every key and every sequence of update and pad calls the tag is the
Poly1305 tag of the message; no call touches memory outside its buffer. -/
theorem poly1305_spec (wide : Bool) (key : Vector Byte 32) (block : List Byte)
    (hb : block.length = 16) (ops : List PolyOp) :
    (do
      let ctx ← polyRun (polyImpl wide) (poly1305_init (polyImpl wide) block key) ops
      poly1305_final (polyImpl wide) ctx) = .ok (poly1305 key.toList (polyMsg [] ops)) := by
  obtain ⟨_, g⟩ := good wide key
  exact ops_of g block hb ops

/-- C21: splitting does not matter: chunks fed one by one give the tag of their concatenation. -/
theorem poly1305_chunks (wide : Bool) (key : Vector Byte 32) (block : List Byte)
    (hb : block.length = 16) (chunks : List (List Byte)) :
    (do
      let ctx ← updates (poly1305_update (polyImpl wide)) (poly1305_init (polyImpl wide) block key)
        chunks
      poly1305_final (polyImpl wide) ctx) = .ok (poly1305 key.toList chunks.flatten) := by
  obtain ⟨_, g⟩ := good wide key
  obtain ⟨c, h1, h2⟩ := pholds_updates chunks (pholds_init (I := polyImpl wide) (key := key) hb)
  rw [h1, C.ok_bind, pholds_final g h2, List.nil_append]

/-- The value inside the specification is the polynomial: with pieces `c₁ … cₙ` (each with its
final 1 byte) the accumulator is `c₁ rⁿ + … + cₙ r` modulo 2^130 - 5. -/
theorem poly_accumulator (r : Nat) (cs : List (List Byte)) :
    cs.foldl (poly1305Step r) 0 =
      ((List.range cs.length).map fun i => leVal (cs.getD i [] ++ [1]) * r ^ (cs.length - i)).sum %
        polyP := by
  have gen : ∀ (cs : List (List Byte)) (acc : Nat), acc < polyP → cs.foldl (poly1305Step r) acc =
      (acc * r ^ cs.length + ((List.range cs.length).map fun i =>
        leVal (cs.getD i [] ++ [1]) * r ^ (cs.length - i)).sum) % polyP := by
    intro cs
    induction cs with
    | nil => intro acc h; simpa using (Nat.mod_eq_of_lt h).symm
    | cons c cs ih =>
      intro acc h
      have hp : 0 < polyP := by decide
      rw [List.foldl_cons, ih _ (by rw [poly1305Step]; exact Nat.mod_lt _ hp), List.length_cons,
        List.range_succ_eq_map, List.map_cons, List.sum_cons, List.map_map]
      have e : ((fun i => leVal ((c :: cs).getD i [] ++ [1]) * r ^ (cs.length + 1 - i)) ∘ Nat.succ) =
          fun i => leVal (cs.getD i [] ++ [1]) * r ^ (cs.length - i) := by
        funext i
        simp [Nat.add_sub_add_right]
      rw [e, poly1305Step]
      generalize (List.map (fun i => leVal (cs.getD i [] ++ [1]) * r ^ (cs.length - i))
        (List.range cs.length)).sum = S
      rw [List.getD_cons_zero, Nat.sub_zero, Nat.pow_succ, ← Nat.add_assoc, Nat.add_mod,
        Nat.mul_mod, Nat.mod_mod, ← Nat.mul_mod, ← Nat.add_mod]
      congr 2
      ring
  have := gen cs 0 (by decide)
  rw [this, Nat.zero_mul, Nat.zero_add]

/-- RFC 7539 2.5.2, in three chunks, on both back ends. -/
example :
    let key : Vector Byte 32 := #v[0x85, 0xd6, 0xbe, 0x78, 0x57, 0x55, 0x6d, 0x33, 0x7f, 0x44, 0x52,
      0xfe, 0x42, 0xd5, 0x06, 0xa8, 0x01, 0x03, 0x80, 0x8a, 0xfb, 0x0d, 0xb2, 0xfd, 0x4a, 0xbf, 0xf6,
      0xaf, 0x41, 0x49, 0xf5, 0x1b]
    let msg : List (List Byte) := [[0x43, 0x72, 0x79, 0x70, 0x74, 0x6f, 0x67, 0x72, 0x61, 0x70, 0x68,
      0x69, 0x63, 0x20, 0x46, 0x6f, 0x72, 0x75], [], [0x6d, 0x20, 0x52, 0x65, 0x73, 0x65, 0x61, 0x72,
      0x63, 0x68, 0x20, 0x47, 0x72, 0x6f, 0x75, 0x70]]
    let tag : List Byte := [0xa8, 0x06, 0x1d, 0xc1, 0x30, 0x51, 0x36, 0xc6, 0xc2, 0x2b, 0x8b, 0xaf,
      0x0c, 0x01, 0x27, 0xa9]
    (∀ wide : Bool, (do
      let ctx ← updates (poly1305_update (polyImpl wide))
        (poly1305_init (polyImpl wide) (List.replicate 16 7) key) msg
      poly1305_final (polyImpl wide) ctx) = .ok tag) ∧ poly1305 key.toList msg.flatten = tag := by
  decide +kernel

/-! ### SipHash -/

/-- `siphash_sum` is SipHash-2-4 for every key and message. -/
theorem siphash_sum_spec (data : List Byte) (key : Vector Byte 16) :
    siphash_sum data key = .ok (siphash key.toList data) :=
  siphash_sum_eq data key

/-- `siphash128_sum` and `siphash256_sum` absorb the single word `num`; the latter takes its whole
initial state from the key. -/
theorem siphash_word_spec (num : BitVec 64) (key : Vector Byte 16) (key2 : Vector Byte 32) :
    siphash128_sum num key = sipFinish (sipAbsorb (sipKey key.toList) num) ∧
    siphash256_sum num key2 = sipFinish (sipAbsorb (word64 key2.toList 0, word64 key2.toList 1,
      word64 key2.toList 2, word64 key2.toList 3) num) := by
  constructor
  · rw [siphash128_sum, end_eq, word_eq, init_eq]
  · rw [siphash256_sum, end_eq, word_eq, ← read64_word key2 0 (by decide),
      ← read64_word key2 1 (by decide), ← read64_word key2 2 (by decide),
      ← read64_word key2 3 (by decide)]
    rfl

/-- `siphash_mod` scales the hash to the range: `⌊h * mod / 2^64⌋`, below `mod` unless `mod` is 0;
the portable multiplication gives the same. -/
theorem siphash_mod_spec (data : List Byte) (key : Vector Byte 16) (mod : BitVec 64) :
    ∃ r : BitVec 64, siphash_mod sip_mulhi data key mod = .ok r ∧
      siphash_mod sip_mulhi_portable data key mod = .ok r ∧
      r.toNat = (siphash key.toList data).toNat * mod.toNat / 2 ^ 64 ∧
      (0 < mod.toNat → r.toNat < mod.toNat) ∧ (mod = 0 → r = 0) := by
  have hlt : (siphash key.toList data).toNat * mod.toNat < 2 ^ 64 * 2 ^ 64 :=
    Nat.lt_of_le_of_lt (Nat.mul_le_mul_left _ (Nat.le_of_lt mod.isLt))
      (Nat.mul_lt_mul_of_pos_right (siphash key.toList data).isLt (by decide))
  have hr : (sip_mulhi (siphash key.toList data) mod).toNat =
      (siphash key.toList data).toNat * mod.toNat / 2 ^ 64 := by
    rw [sip_mulhi, BitVec.toNat_ofNat, Nat.shiftRight_eq_div_pow, Nat.mod_eq_of_lt]
    exact (Nat.div_lt_iff_lt_mul (by decide)).2 hlt
  refine ⟨sip_mulhi (siphash key.toList data) mod, ?_, ?_, hr, ?_, ?_⟩
  · rw [siphash_mod, siphash_sum_eq, C.ok_bind]
  · rw [siphash_mod, siphash_sum_eq, C.ok_bind, mulhi_portable_eq]
  · intro h0
    rw [hr, Nat.div_lt_iff_lt_mul (by decide), Nat.mul_comm]
    exact Nat.mul_lt_mul_of_pos_left (siphash key.toList data).isLt h0
  · intro h0
    subst h0
    simp [sip_mulhi]

/-- `siphash_mod` can return every value below `mod` (for the hash value `⌈r * 2^64 / mod⌉`). -/
theorem sip_mulhi_onto (r mod : BitVec 64) (h : r.toNat < mod.toNat) :
    ∃ a : BitVec 64, sip_mulhi a mod = r := by
  have hm := mod.isLt
  generalize hM : mod.toNat = m at *
  generalize hR : r.toNat = x at *
  refine ⟨BitVec.ofNat 64 ((x * 2 ^ 64 + (m - 1)) / m), ?_⟩
  have hm0 : 0 < m := by omega
  have hq : (x * 2 ^ 64 + (m - 1)) / m < 2 ^ 64 := by
    rw [Nat.div_lt_iff_lt_mul hm0]
    have : (x + 1) * 2 ^ 64 ≤ m * 2 ^ 64 := Nat.mul_le_mul_right _ h
    omega
  apply BitVec.eq_of_toNat_eq
  rw [sip_mulhi, BitVec.toNat_ofNat, BitVec.toNat_ofNat, Nat.mod_eq_of_lt hq, hM, hR,
    Nat.shiftRight_eq_div_pow]
  have h1 := Nat.div_add_mod (x * 2 ^ 64 + (m - 1)) m
  have h2 := Nat.mod_lt (x * 2 ^ 64 + (m - 1)) hm0
  rw [Nat.mul_comm] at h1
  generalize (x * 2 ^ 64 + (m - 1)) / m * m = q at *
  omega

/-- The test vector of the SipHash paper: key 00 … 0f, message 00 … 0e. -/
example : siphash_sum [0, 1, 2, 3, 4, 5, 6, 7, 8, 9, 10, 11, 12, 13, 14]
    #v[0, 1, 2, 3, 4, 5, 6, 7, 8, 9, 10, 11, 12, 13, 14, 15] = .ok 0xa129ca6149be45e5 := by
  decide +kernel

end Torsion
