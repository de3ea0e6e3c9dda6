import Verif.Cipher.GhashLemmas

/-!
# GHASH over messages, and GCM
-/
namespace Torsion.Ciph
open Spec Blk
open Asn1 (beVal_append beVal_inj)

theorem gval_toNat (x : Gfe) : (gval x).toNat = x.lo.toNat * 256 ^ 8 + x.hi.toNat := by
  rw [show 256 ^ 8 = 2 ^ 64 from rfl, gval, BitVec.toNat_append, Nat.shiftLeft_eq, Nat.mul_comm, Nat.two_pow_add_eq_or_of_lt x.hi.isLt]

/-- A block read as a field element. -/
def gfeOf (b : Vector Byte 16) : Gfe := ⟨read64be (vsub b 0 8), read64be (vsub b 8 8)⟩

theorem vsub_split (b : Vector Byte 16) : b.toList = (vsub b 0 8).toList ++ (vsub b 8 8).toList := by
  apply List.ext_getElem
  · simp
  intro i h1 h2
  rw [List.getElem_append]
  split
  · simp [vsub]
  · simp [vsub]
    congr 1
    simp at *
    omega

theorem gval_gfeOf (b : Vector Byte 16) : gval (gfeOf b) = blockBits b := by
  apply BitVec.eq_of_toNat_eq
  have h := beVal_lt b.toList
  rw [Vector.length_toList] at h
  rw [gval_toNat, blockBits, BitVec.toNat_ofNat, Nat.mod_eq_of_lt (by simpa using h), gfeOf]
  dsimp only
  rw [(read64_val _).2, (read64_val _).2, vsub_split b, beVal_append, Vector.length_toList]

theorem beBlock_mod (n v : Nat) : beBlock n v = beBlock n (v % 256 ^ n) := by
  apply Vector.ext
  intro i hi
  simp only [beBlock, Vector.getElem_ofFn]
  apply BitVec.eq_of_toNat_eq
  rw [BitVec.toNat_ofNat, BitVec.toNat_ofNat]
  have h : 256 ^ n = 256 ^ (n - 1 - i) * (256 * 256 ^ i) := by
    rw [← Nat.pow_succ', ← Nat.pow_add]; congr 1; omega
  rw [h, Nat.mod_mul_right_div_self, show 2 ^ 8 = 256 from rfl, Nat.mod_mul_right_mod]

theorem beVal_beBlock' (n v : Nat) : beVal (beBlock n v).toList = v % 256 ^ n := by
  rw [beBlock_mod, beVal_beBlock (Nat.mod_lt _ (by positivity))]

/-- What `ghash_final` writes. -/
theorem write_gfe (x : Gfe) : (write64be x.lo).toList ++ (write64be x.hi).toList = (beBlock 16 (gval x).toNat).toList := by
  apply beVal_inj
  · simp
  have hx : (gval x).toNat < 256 ^ 16 := (gval x).isLt
  rw [beVal_append, (write64_val _).2, (write64_val _).2, beVal_beBlock hx, gval_toNat, Vector.length_toList]

/-! ## Absorbing -/

variable {key : Vector Byte 16}

theorem transform_eq (st : Gfe) (b : Vector Byte 16) :
    gval (ghash_transform (ghash_init key).table st b) = gcmMul (gval st ^^^ blockBits b) (blockBits key) := by
  rw [ghash_transform, table_eq, gfe_mul_eq (gtab_table _), ← gval_gfeOf b, ← gval_gfeOf key, ← gval_add]
  rfl

theorem transform_fold (bl : List (Vector Byte 16)) : ∀ st : Gfe,
    gval (bl.foldl (ghash_transform (ghash_init key).table) st) =
      bl.foldl (fun y b => gcmMul (y ^^^ blockBits b) (blockBits key)) (gval st) := by
  induction bl with
  | nil => intro st; rfl
  | cons b bl ih => intro st; rw [List.foldl_cons, ih, transform_eq, List.foldl_cons]

/-- The state holds the string `m`. -/
def GHolds (key : Vector Byte 16) (ctx : Ghash) (m : List Byte) : Prop :=
  ctx.table = (ghash_init key).table ∧ Holds 16 (ghash_transform (ghash_init key).table) ⟨0, 0⟩ ctx.buf m

theorem gholds_init : GHolds key (ghash_init key) [] := ⟨rfl, holds_nil (by simp) (by decide)⟩

theorem gholds_absorb {ctx : Ghash} {m : List Byte} (h : GHolds key ctx m) (data : List Byte) :
    ∃ buf, ghash_absorb ctx data = .ok { ctx with buf := buf } ∧ GHolds key { ctx with buf := buf } (m ++ data) := by
  obtain ⟨h1, h2⟩ := h
  obtain ⟨buf, h3, h4⟩ := holds_update (by decide) h2 data
  exact ⟨buf, by rw [ghash_absorb, h1, h3, C.ok_bind], h1, h4⟩

theorem gholds_pad {ctx : Ghash} {m : List Byte} (h : GHolds key ctx m) :
    ∃ buf, ghash_pad ctx = .ok { ctx with buf := buf } ∧ GHolds key { ctx with buf := buf } (pad16 m) := by
  obtain ⟨h1, bl, t, hm, ht, hst, hpos, hblk, htk⟩ := h
  have hmod : m.length % 16 = t.length := by rw [hm, List.length_append, cat_length]; omega
  rw [ghash_pad, pad16, hmod]
  by_cases hp : ctx.buf.pos > 0
  · have hz := Mac.zero_loop_eq 16 16 ctx.buf.block ctx.buf.pos (by omega) hblk.symm (by omega)
    obtain ⟨v, hv1, hv2⟩ := vec_ok (n := 16)
      (xs := ctx.buf.block.take ctx.buf.pos ++ List.replicate (16 - ctx.buf.pos) 0) (by simp; omega)
    rw [if_pos hp, hz, C.ok_bind]
    dsimp only
    rw [hv1, C.ok_bind]
    have hv : v.toList = t ++ List.replicate (16 - t.length) 0 := by
      rw [hv2, List.take_of_length_le (by simp; omega), htk, hpos]
    refine ⟨_, rfl, h1, bl ++ [v], [], ?_, by simp, by simp [hst, h1], rfl, by simp; omega, rfl⟩
    rw [cat_append, cat_cons, hv, hm, show (16 - t.length) % 16 = 16 - t.length by omega]
    simp
  · rw [if_neg hp]
    have h0 : t.length = 0 := by omega
    refine ⟨ctx.buf, rfl, h1, bl, t, ?_, ht, hst, hpos, hblk, htk⟩
    rw [h0]
    simpa using hm

theorem pad16_len (m : List Byte) : (pad16 m).length % 16 = 0 := by
  rw [pad16, List.length_append, List.length_replicate]; omega

theorem pad16_mid (a c : List Byte) : pad16 (pad16 a ++ c) = pad16 a ++ pad16 c := by
  have := pad16_len a
  rw [pad16, List.length_append, show ((pad16 a).length + c.length) % 16 = c.length % 16 by omega,
    List.append_assoc]
  rfl

theorem pad16_nil : pad16 [] = [] := rfl

theorem pad16_aligned {m : List Byte} (h : m.length % 16 = 0) : pad16 m = m := by
  rw [pad16, h]; simp

/-- The state after data `a` and ciphertext `c`. -/
structure GState (key : Vector Byte 16) (ctx : Ghash) (a c : List Byte) : Prop where
  ad : ctx.adlen = BitVec.ofNat 64 a.length
  ct : ctx.ctlen = BitVec.ofNat 64 c.length
  holds : (c = [] ∧ GHolds key ctx a) ∨ GHolds key ctx (pad16 a ++ c)

theorem gstate_init : GState key (ghash_init key) [] [] := ⟨rfl, rfl, .inl ⟨rfl, gholds_init⟩⟩

theorem gstate_aad {ctx : Ghash} {a : List Byte} (h : GState key ctx a []) (hh : GHolds key ctx a) (data : List Byte) :
    ∃ ctx', ghash_aad ctx data = .ok ctx' ∧ GState key ctx' (a ++ data) [] ∧ GHolds key ctx' (a ++ data) := by
  obtain ⟨buf, h1, h2⟩ := gholds_absorb (ctx := { ctx with adlen := ctx.adlen + BitVec.ofNat 64 data.length })
    (m := a) hh data
  refine ⟨_, h1, ⟨?_, h.ct, .inl ⟨rfl, h2⟩⟩, h2⟩
  show ctx.adlen + _ = _
  rw [h.ad, List.length_append, BitVec.ofNat_add]

theorem gstate_update {ctx : Ghash} {a c : List Byte} (h : GState key ctx a c) (data : List Byte) :
    ∃ ctx', ghash_update ctx data = .ok ctx' ∧ GState key ctx' a (c ++ data) := by
  have hpre : ∃ buf, (if ctx.ctlen = 0 then ghash_pad ctx else .ok ctx) = .ok { ctx with buf := buf } ∧
      GHolds key { ctx with buf := buf } (pad16 a ++ c) := by
    by_cases h0 : ctx.ctlen = 0
    · rw [if_pos h0]
      rcases h.holds with ⟨rfl, hh⟩ | hh
      · obtain ⟨buf, h1, h2⟩ := gholds_pad hh
        exact ⟨buf, h1, by simpa using h2⟩
      · obtain ⟨buf, h1, h2⟩ := gholds_pad hh
        refine ⟨buf, h1, ?_⟩
        have : c.length % 2 ^ 64 = 0 := by
          have := congrArg BitVec.toNat (h.ct.symm.trans h0)
          simpa using this
        rwa [pad16_mid, pad16_aligned (m := c) (by omega)] at h2
    · rw [if_neg h0]
      rcases h.holds with ⟨rfl, hh⟩ | hh
      · exact absurd (by rw [h.ct]; rfl) h0
      · exact ⟨ctx.buf, rfl, hh⟩
  obtain ⟨buf, h1, h2⟩ := hpre
  obtain ⟨buf', h3, h4⟩ := gholds_absorb
    (ctx := { ctx with buf := buf, ctlen := ctx.ctlen + BitVec.ofNat 64 data.length }) h2 data
  refine ⟨⟨buf', ctx.table, ctx.adlen, ctx.ctlen + BitVec.ofNat 64 data.length⟩,
    by rw [ghash_update, h1, C.ok_bind]; exact h3, h.ad, ?_, .inr (by simpa using h4)⟩
  show ctx.ctlen + _ = _
  rw [h.ct, List.length_append, BitVec.ofNat_add]

theorem shl3 (k : Nat) : (BitVec.ofNat 64 k <<< 3).toNat = 8 * k % 256 ^ 8 := by
  rw [BitVec.toNat_shiftLeft, BitVec.toNat_ofNat, Nat.shiftLeft_eq]; omega

theorem blocks_snoc (P : List Byte) (hP : P.length % 16 = 0) (v : Vector Byte 16) :
    blocks 16 (P ++ v.toList) = blocks 16 P ++ [v] := by
  obtain ⟨bl, t, rfl, ht⟩ := split 16 (by decide) P
  have : t = [] := by
    rw [List.length_append, cat_length] at hP
    exact List.eq_nil_of_length_eq_zero (by omega)
  subst this
  have h1 := blocks_cat bl [] (by decide)
  have h2 := blocks_cat (bl ++ [v]) [] (by decide)
  rw [h1]
  rw [cat_append] at h2
  simpa using h2

/-- The block of the lengths. -/
theorem len_block {ctx : Ghash} {a c : List Byte} (h : GState key ctx a c) :
    ∃ v : Vector Byte 16, v.toList = (beBlock 8 (8 * a.length)).toList ++ (beBlock 8 (8 * c.length)).toList ∧
      blockBits v = gval ⟨ctx.adlen <<< 3, ctx.ctlen <<< 3⟩ := by
  have hx : (gval ⟨ctx.adlen <<< 3, ctx.ctlen <<< 3⟩).toNat < 256 ^ 16 := (gval _).isLt
  refine ⟨beBlock 16 (gval ⟨ctx.adlen <<< 3, ctx.ctlen <<< 3⟩).toNat, ?_, ?_⟩
  · apply beVal_inj
    · simp
    rw [beVal_beBlock hx, beVal_append, beVal_beBlock', beVal_beBlock', gval_toNat]
    dsimp only
    rw [h.ad, h.ct, shl3, shl3, Vector.length_toList]
  · rw [blockBits, beVal_beBlock hx, BitVec.ofNat_toNat, BitVec.setWidth_eq]

theorem final_mul {ctx : Ghash} {P : List Byte} (h : GHolds key ctx P) (x : Gfe) :
    gval (gfe_mul ⟨ctx.buf.st.lo ^^^ x.lo, ctx.buf.st.hi ^^^ x.hi⟩ ctx.table) =
      gcmMul (gcmHash (blockBits key) (blocks 16 P) ^^^ gval x) (blockBits key) := by
  obtain ⟨h2, h3⟩ := h
  obtain ⟨hst, -, -, -⟩ := holds_blocks h3
  have hf := transform_fold (key := key) (blocks 16 P) ⟨0, 0⟩
  rw [← hst, show gval ⟨0, 0⟩ = 0 by decide] at hf
  rw [h2, table_eq, gfe_mul_eq (gtab_table _), gcmHash, ← hf, ← gval_add]
  exact congrArg _ (gval_gfeOf key)

theorem gstate_final {ctx : Ghash} {a c : List Byte} (h : GState key ctx a c) :
    ghash_final ctx = .ok (gcmDigest (blockBits key) a c).toList := by
  have hpad : ∃ buf, ghash_pad ctx = .ok { ctx with buf := buf } ∧ GHolds key { ctx with buf := buf } (pad16 a ++ pad16 c) := by
    rcases h.holds with ⟨rfl, hh⟩ | hh
    · obtain ⟨buf, h1, h2⟩ := gholds_pad hh
      exact ⟨buf, h1, by simpa [pad16_nil] using h2⟩
    · obtain ⟨buf, h1, h2⟩ := gholds_pad hh
      exact ⟨buf, h1, by rwa [pad16_mid] at h2⟩
  obtain ⟨buf, h1, h2⟩ := hpad
  obtain ⟨v, hv, hvb⟩ := len_block h
  have hm := final_mul h2 ⟨ctx.adlen <<< 3, ctx.ctlen <<< 3⟩
  rw [ghash_final, h1, C.ok_bind]
  dsimp only at hm ⊢
  rw [write_gfe, hm, gcmDigest, List.append_assoc, ← hv, blocks_snoc _ (by
    rw [List.length_append]
    have := pad16_len a
    have := pad16_len c
    omega), ← hvb]
  simp only [gcmHash, List.foldl_append, List.foldl_cons, List.foldl_nil]

end Torsion.Ciph
