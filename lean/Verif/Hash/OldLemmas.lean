import Verif.Hash.KecLemmas

/-!
# Lemmas about MD2 and GOST94
-/
namespace Torsion.Hsh
open Spec Blk Strm

/-! ## MD2 -/

/-- The context has absorbed `m`. -/
def Md2Rep (c : Md2Ctx) (m : List Byte) : Prop :=
  Holds 16 md2_transform (Vector.replicate 16 0, Vector.replicate 16 0) c m

theorem md2_rep_init : Md2Rep md2_init [] := holds_nil (by simp) (by decide)

theorem md2_rep_update {c : Md2Ctx} {m : List Byte} (h : Md2Rep c m) (data : List Byte) :
    ∃ c', md2_update c data = .ok c' ∧ Md2Rep c' (m ++ data) := holds_update (by decide) h data

theorem md2_fill_eq (left : Byte) : ∀ (k : Nat) (block : List Byte) (pos : Nat), 16 - pos ≤ k →
    block.length = 16 → pos ≤ 16 →
    md2_fill left k block pos = .ok (block.take pos ++ List.replicate (16 - pos) left)
  | 0, block, pos, h, hl, hp => by
    have : pos = 16 := by omega
    subst this
    rw [md2_fill, List.take_of_length_le (by omega)]
    simp
  | k + 1, block, pos, h, hl, hp => by
    rw [md2_fill]
    by_cases hlt : pos < 16
    · rw [if_pos hlt, C.wr, if_pos (by omega)]
      simp only [C.ok_bind]
      rw [md2_fill_eq left k _ _ (by omega) (by simpa using hl) (by omega),
        List.take_add_one, List.take_set_of_le (by omega), List.getElem?_set_self (by omega),
        show 16 - pos = (16 - (pos + 1)) + 1 by omega, List.replicate_succ]
      simp
    · have : pos = 16 := by omega
      subst this
      rw [if_neg hlt, List.take_of_length_le (by omega)]
      simp

theorem md2_rep_final {c : Md2Ctx} {m : List Byte} (h : Md2Rep c m) :
    md2_final c = .ok (Spec.md2 m) := by
  obtain ⟨bl, t, hm, ht, hst, hpos, hblk, htk⟩ := h
  rw [hpos] at htk
  have hmod : m.length % 16 = t.length := by
    rw [hm, List.length_append, cat_length, Nat.mul_comm, Nat.mul_add_mod, Nat.mod_eq_of_lt ht]
  obtain ⟨v, hv1, hv2⟩ := exists_vec (n := 16)
    (xs := t ++ List.replicate (16 - t.length) (BitVec.ofNat 8 (16 - t.length))) (by simp; omega)
  rw [md2_final, hpos]
  dsimp only
  rw [md2_fill_eq _ _ _ _ (by omega) hblk (by omega), htk]
  simp only [C.ok_bind]
  rw [hv2]
  simp only [C.ok_bind]
  have hp : md2Pad m = cat (bl ++ [v]) := by
    rw [md2Pad, hmod, cat_append, cat_cons, cat_nil, hv1, hm]
    simp only [List.append_assoc, List.append_nil]
  rw [Spec.md2, Cmp.md2_fn, hp, blocks_of_cat (by decide), List.foldl_append, ← hst]
  rfl

/-! ## GOST94 -/

theorem sum_loop_val : ∀ (c : Nat) (s m : List Byte), s.length = m.length →
    leVal (gost94_sum_loop c s m) = (leVal s + leVal m + c) % 256 ^ s.length
  | c, [], [], _ => by simp [gost94_sum_loop, leVal_nil, Nat.mod_one]
  | c, x :: xs, y :: ys, h => by
    rw [gost94_sum_loop, leVal_cons, sum_loop_val _ xs ys (by simpa using h), leVal_cons, leVal_cons, List.length_cons,
      Nat.pow_succ, Nat.mul_comm (256 ^ _) 256, Nat.mod_mul, BitVec.toNat_ofNat]
    generalize leVal xs = a
    generalize leVal ys = b
    generalize 256 ^ xs.length = p
    have h1 : (x.toNat + 256 * a + (y.toNat + 256 * b) + c) % 256 = (c + x.toNat + y.toNat) % 2 ^ 8 := by
      omega
    have h2 : (x.toNat + 256 * a + (y.toNat + 256 * b) + c) / 256 =
        a + b + (c + x.toNat + y.toNat) / 256 := by omega
    rw [h1, h2]

theorem gost_sum_val (s m : Vector Byte 32) :
    leVal (gost94_sum s m).toList = (leVal s.toList + leVal m.toList) % 2 ^ 256 := by
  rw [gost94_sum, Vector.toList_mk, List.toList_toArray, sum_loop_val _ _ _ (by simp)]
  simp

theorem gost_fold : ∀ (bl : List (Vector Byte 32)) (a s : Vector Byte 32),
    (bl.foldl gost94_transform (a, s)).1 = bl.foldl gost94_compress a ∧
    leVal (bl.foldl gost94_transform (a, s)).2.toList =
      (leVal s.toList + (bl.map fun b => leVal b.toList).sum) % 2 ^ 256
  | [], a, s => by
    refine ⟨rfl, ?_⟩
    have := leVal_lt s.toList
    rw [Vector.length_toList] at this
    simp only [List.foldl_nil, List.map_nil, List.sum_nil, Nat.add_zero]
    exact (Nat.mod_eq_of_lt this).symm
  | v :: bl, a, s => by
    obtain ⟨h1, h2⟩ := gost_fold bl (gost94_compress a v) (gost94_sum s v)
    rw [List.foldl_cons, List.foldl_cons, gost94_transform]
    refine ⟨h1, ?_⟩
    rw [h2, gost_sum_val, List.map_cons, List.sum_cons]
    omega

theorem vec_of_val (v : Vector Byte 32) (n : Nat) (h : leVal v.toList = n % 2 ^ 256) :
    v = Vector.ofFn fun i : Fin 32 => BitVec.ofNat 8 (n / 256 ^ i.val) := by
  apply Vector.toList_inj.1
  have : (Vector.ofFn fun i : Fin 32 => BitVec.ofNat 8 (n / 256 ^ i.val)).toList = leBytes 32 n := by
    rw [leBytes]
    apply List.ext_getElem
    · simp
    · intro i h1 h2
      simp
  rw [this]
  apply leVal_inj
  · rw [leBytes_len]; simp
  · rw [h, leVal_leBytes]; rfl

structure GostRep (c : GostCtx) (m : List Byte) : Prop where
  hold : Holds 32 gost94_transform (Vector.replicate 32 0, Vector.replicate 32 0)
    ⟨c.st, c.block, m.length % 32⟩ m
  size : val4 c.size % 2 ^ 256 = m.length % 2 ^ 256

theorem gost_rep_init : GostRep gost94_init [] := ⟨holds_nil (by simp [gost94_init]) (by decide), rfl⟩

theorem gost_mask {c : GostCtx} {m : List Byte} (h : GostRep c m) :
    maskNat c.size.1 31 = m.length % 32 := mask4 c.size m.length 5 (by decide) h.size

theorem gost_rep_update {c : GostCtx} {m : List Byte} (h : GostRep c m) (data : List Byte)
    (hd : data.length < 2 ^ 64) :
    ∃ c', gost94_update c data = .ok c' ∧ GostRep c' (m ++ data) := by
  obtain ⟨r, h1, h2⟩ := holds_update (by decide) h.hold data
  rw [gost94_update, gost_mask h, h1]
  simp only [C.ok_bind]
  refine ⟨_, rfl, ?_, ?_⟩
  · dsimp only
    rw [← (holds_blocks h2).2.1]
    exact h2
  · dsimp only
    have := h.size
    rw [incr4 _ _ hd, List.length_append]
    generalize val4 c.size = x at *
    omega

theorem gost_length_eq (z : BitVec 64 × BitVec 64 × BitVec 64 × BitVec 64) (n : Nat)
    (h : val4 z % 2 ^ 256 = n % 2 ^ 256) : gost94_length z = leBytes 32 (8 * n) := by
  obtain ⟨h1, h2, h3, h4⟩ := len4 z n h
  rw [gost94_length, show (32 : Nat) = 8 + (8 + (8 + 8)) from rfl, leBytes_append, leBytes_append,
    leBytes_append, write64le_eq, write64le_eq, write64le_eq, write64le_eq]
  simp only [Nat.div_div_eq_div_mul, List.append_assoc]
  refine congrArg₂ _ ?_ (congrArg₂ _ ?_ (congrArg₂ _ ?_ ?_)) <;> exact leBytes_mod_eq (by assumption)

theorem gost_rep_final {c : GostCtx} {m : List Byte} (h : GostRep c m) :
    gost94_final c = .ok (Spec.gost94 m) := by
  have hmask := gost_mask h
  obtain ⟨⟨bl, t, hm, ht, hst, hpos, hblk, htk⟩, hsz⟩ := h
  dsimp only at hst hpos hblk htk
  rw [hpos] at htk
  have hlen := gost_length_eq _ _ hsz
  have hll : (leBytes 32 (8 * m.length)).length = 32 := leBytes_len _ _
  -- the tail, for any list of blocks
  have key : ∀ (bl' : List (Vector Byte 32)) (block : List Byte), block.length = 32 →
      zeroPad 32 m = cat bl' →
      (do
        let block ← C.blit block 0 (gost94_length c.size)
        let v ← C.vec 32 block
        let s := gost94_compress
          (bl'.foldl gost94_transform (Vector.replicate 32 0, Vector.replicate 32 0)).1 v
        let s := gost94_compress s
          (bl'.foldl gost94_transform (Vector.replicate 32 0, Vector.replicate 32 0)).2
        .ok s.toList) = C.ok (Spec.gost94 m) := by
    intro bl' block hb hz
    obtain ⟨g1, g2⟩ := gost_fold bl' (Vector.replicate 32 0) (Vector.replicate 32 0)
    rw [hlen, blit_eq (by omega)]
    simp only [C.ok_bind]
    rw [List.drop_of_length_le (by omega), List.take_zero, List.nil_append, List.append_nil]
    obtain ⟨v, hv1, hv2⟩ := exists_vec (n := 32) (xs := leBytes 32 (8 * m.length)) hll
    rw [hv2]
    simp only [C.ok_bind]
    rw [g1, Spec.gost94, Cmp.gost94_fn, hz, blocks_of_cat (by decide)]
    have e0 : leVal (Vector.replicate 32 (0 : Byte)).toList = 0 := by decide
    rw [e0, Nat.zero_add] at g2
    rw [← vec_of_val _ _ g2, ← vec_of_val v (8 * m.length) (by rw [hv1, leVal_leBytes]; rfl)]
  rw [gost94_final, hmask, hpos]
  dsimp only
  by_cases h0 : 0 < t.length
  · rw [if_pos h0, zero_loop_to 32 32 _ _ (by omega) (by omega) (by omega)]
    simp only [C.ok_bind]
    rw [htk, List.drop_of_length_le (by omega), List.append_nil]
    obtain ⟨v, hv1, hv2⟩ := exists_vec (n := 32) (xs := t ++ List.replicate (32 - t.length) 0)
      (by simp; omega)
    rw [hv2]
    simp only [C.ok_bind]
    have := key (bl ++ [v]) (t ++ List.replicate (32 - t.length) 0) (by simp; omega) (by
      rw [zeroPad, hpos, Nat.mod_eq_of_lt (a := 32 - t.length) (by omega), cat_append, cat_cons, cat_nil,
        hv1, hm]
      simp only [List.append_assoc, List.append_nil])
    rw [List.foldl_append, ← hst] at this
    exact this
  · rw [if_neg h0]
    simp only [C.ok_bind]
    have ht0 : t = [] := List.length_eq_zero_iff.1 (by omega)
    have := key bl c.block hblk (by
      rw [zeroPad, hpos, ht0, hm, ht0]
      simp)
    rw [← hst] at this
    exact this

end Torsion.Hsh
