import Verif.Block.Blowfish
import Verif.Block.BlowfishSpec
import Verif.Util.Props
import Mathlib.Data.Fin.Basic
import Mathlib.Tactic.Ring

/-!
# Lemmas: Blowfish
-/
namespace Torsion.Bf
open Torsion.Spec

/-- The subkeys of a context. -/
def ofCtx (ctx : Blowfish) : BfState := fun i =>
  if h : i < 18 then ctx.P[i] else if h : i - 18 < 1024 then ctx.S[i - 18] else 0

theorem ofCtx_P (ctx : Blowfish) {i : Nat} (h : i < 18) : ofCtx ctx i = ctx.P[i] := dif_pos h
theorem ofCtx_S (ctx : Blowfish) {i : Nat} (h : i < 1024) : ofCtx ctx (18 + i) = ctx.S[i] := by
  unfold ofCtx
  rw [dif_neg (by omega), dif_pos (by omega)]
  simp only [Nat.add_sub_cancel_left]

theorem byt_toNat (x : BitVec 32) (n : Nat) : (byt x n).toNat = x.toNat / 2 ^ n % 256 := by
  unfold byt
  rw [BitVec.truncate_eq_setWidth, BitVec.toNat_setWidth, BitVec.toNat_ushiftRight, Nat.shiftRight_eq_div_pow]

theorem at_eq (ctx : Blowfish) (i : Fin 4) (b : Byte) : blowfish_at ctx i b = bfBox (ofCtx ctx) i b.toNat := by
  unfold bfBox
  rw [Nat.add_assoc, ofCtx_S ctx (by omega)]
  rfl

theorem sub_eq (ctx : Blowfish) (x : BitVec 32) : blowfish_sub ctx x = bfF (ofCtx ctx) x := by
  unfold blowfish_sub bfF
  simp only [at_eq, byt_toNat]
  rw [show x.toNat / 2 ^ 0 = x.toNat by simp]
  rfl

/-- Two rounds. -/
theorem two_eq (ctx : Blowfish) (y : BitVec 32 × BitVec 32) (t : Nat) (h : t + 2 < 18) :
    blowfish_two ctx ⟨y.1 ^^^ ofCtx ctx t, y.2⟩ (⟨t + 1, by omega⟩, ⟨t + 2, h⟩) =
      ⟨(bfRound (ofCtx ctx) (bfRound (ofCtx ctx) y t) (t + 1)).1 ^^^ ofCtx ctx (t + 2),
        (bfRound (ofCtx ctx) (bfRound (ofCtx ctx) y t) (t + 1)).2⟩ := by
  unfold blowfish_two bfRound
  simp only [sub_eq, ofCtx_P ctx h, ofCtx_P ctx (show t + 1 < 18 by omega), Fin.getElem_fin, BitVec.xor_assoc]

theorem encipher_eq (ctx : Blowfish) (x : Two) :
    blowfish_encipher ctx x = ⟨(bfEncrypt (ofCtx ctx) (x.l, x.r)).1, (bfEncrypt (ofCtx ctx) (x.l, x.r)).2⟩ := by
  unfold blowfish_encipher bfEncrypt
  have h0 : x.l ^^^ ctx.P[0] = (x.l, x.r).1 ^^^ ofCtx ctx 0 := by rw [ofCtx_P ctx (by omega)]
  have hl : ∀ y : BitVec 32 × BitVec 32, (List.range 16).foldl (bfRound (ofCtx ctx)) y =
      [0, 1, 2, 3, 4, 5, 6, 7, 8, 9, 10, 11, 12, 13, 14, 15].foldl (bfRound (ofCtx ctx)) y := fun _ => rfl
  rw [hl]
  simp only [List.foldl_cons, List.foldl_nil]
  rw [h0]
  have e := fun y t h => two_eq ctx y t h
  rw [show ((1, 2) : Fin 18 × Fin 18) = (⟨0 + 1, by omega⟩, ⟨0 + 2, by omega⟩) from rfl,
    show ((3, 4) : Fin 18 × Fin 18) = (⟨2 + 1, by omega⟩, ⟨2 + 2, by omega⟩) from rfl,
    show ((5, 6) : Fin 18 × Fin 18) = (⟨4 + 1, by omega⟩, ⟨4 + 2, by omega⟩) from rfl,
    show ((7, 8) : Fin 18 × Fin 18) = (⟨6 + 1, by omega⟩, ⟨6 + 2, by omega⟩) from rfl,
    show ((9, 10) : Fin 18 × Fin 18) = (⟨8 + 1, by omega⟩, ⟨8 + 2, by omega⟩) from rfl,
    show ((11, 12) : Fin 18 × Fin 18) = (⟨10 + 1, by omega⟩, ⟨10 + 2, by omega⟩) from rfl,
    show ((13, 14) : Fin 18 × Fin 18) = (⟨12 + 1, by omega⟩, ⟨12 + 2, by omega⟩) from rfl,
    show ((15, 16) : Fin 18 × Fin 18) = (⟨14 + 1, by omega⟩, ⟨14 + 2, by omega⟩) from rfl]
  have hr : x.r = (x.l, x.r).2 := rfl
  rw [show (⟨(x.l, x.r).1 ^^^ ofCtx ctx 0, x.r⟩ : Two) = ⟨(x.l, x.r).1 ^^^ ofCtx ctx 0, (x.l, x.r).2⟩ from rfl]
  rw [e, e, e, e, e, e, e, e, ofCtx_P ctx (show 17 < 18 by omega)]

/-! ### Words of a cyclic string -/

theorem word4 (a b c d : Byte) :
    (a.zeroExtend 32 <<< 24) ||| (b.zeroExtend 32 <<< 16) ||| (c.zeroExtend 32 <<< 8) ||| (d.zeroExtend 32 <<< 0) =
      BitVec.ofNat 32 (256 * (256 * (256 * (256 * 0 + a.toNat) + b.toNat) + c.toNat) + d.toNat) := by
  have ha := a.isLt
  have hb := b.isLt
  have hc := c.isLt
  have hd := d.isLt
  apply BitVec.eq_of_toNat_eq
  rw [BitVec.toNat_or, BitVec.toNat_or, BitVec.toNat_or, zx_shl _ _ (by decide), zx_shl _ _ (by decide), zx_shl _ _ (by decide),
    zx_shl _ _ (by decide), or4 _ _ _ _ hb hc hd, BitVec.toNat_ofNat]
  omega

/-- The offset after `i` words. -/
def pos (m : List Byte) (i : Nat) : Nat := if m.length = 0 then 0 else 4 * i % m.length

theorem pos_zero (m : List Byte) : pos m 0 = 0 := by unfold pos; split <;> simp

theorem stream_eq (m : List Byte) (i : Nat) : blowfish_stream2word m (pos m i) = (cycWord m i, pos m (i + 1)) := by
  unfold blowfish_stream2word cycWord pos
  by_cases h : m.length = 0
  · rw [dif_pos h, if_pos (List.length_eq_zero_iff.1 h), if_pos h]
  · rw [dif_neg h, if_neg (fun e => h (List.length_eq_zero_iff.2 e)), if_neg h, if_neg h]
    have hg : ∀ k (hk : (4 * i % m.length + k) % m.length < m.length), m[(4 * i % m.length + k) % m.length] = m.getD ((4 * i + k) % m.length) 0 := by
      intro k hk
      rw [List.getD_eq_getElem?_getD, ← Nat.mod_add_mod (4 * i) m.length k, List.getElem?_eq_getElem hk]
      rfl
    simp only [hg]
    rw [word4]
    refine Prod.ext rfl ?_
    show (4 * i % m.length + 4) % m.length = _
    rw [Nat.mod_add_mod]
    rfl

/-! ### The key schedule -/

theorem key_eq (key : List Byte) : ∀ (is : List (Fin 18)) (j : Nat) (P : Vector (BitVec 32) 18),
    is.map Fin.val = List.range' j is.length → ∀ i (hi : i < 18),
    (blowfish_key key is (pos key j) P)[i] = if j ≤ i ∧ i < j + is.length then P[i] ^^^ cycWord key i else P[i]
  | [], j, P, _, i, hi => by
    rw [blowfish_key, if_neg (by simp)]
  | a :: is, j, P, h, i, hi => by
    rw [List.map_cons, List.length_cons, List.range'_succ, List.cons.injEq] at h
    obtain ⟨h1, h2⟩ := h
    rw [blowfish_key, stream_eq]
    dsimp only
    rw [key_eq key is (j + 1) _ h2 i hi]
    simp only [Fin.getElem_fin, h1]
    rw [Vector.getElem_set, List.length_cons]
    by_cases e : j = i
    · subst e
      rw [if_neg (by omega), if_pos rfl, if_pos (by omega)]
    · rw [if_neg e]
      by_cases c : j + 1 ≤ i ∧ i < j + 1 + is.length
      · rw [if_pos c, if_pos (by omega)]
      · rw [if_neg c, if_neg (by omega)]

/-- The state of the loops. -/
structure LoopRep (data : List Byte) (s : BfLoop) (t : BfState × (BitVec 32 × BitVec 32)) (k : Nat) : Prop where
  ctx : ofCtx s.ctx = t.1
  x : (s.x.l, s.x.r) = t.2
  off : s.off = pos data (2 * k)

theorem next_eq {data : List Byte} {s : BfLoop} {t : BfState × (BitVec 32 × BitVec 32)} {k : Nat} (h : LoopRep data s t k) :
    (blowfish_next data s).ctx = s.ctx ∧ ((blowfish_next data s).x.l, (blowfish_next data s).x.r) = (bfStep data t k).2 ∧
      (blowfish_next data s).off = pos data (2 * (k + 1)) := by
  unfold blowfish_next bfStep
  rw [h.off, stream_eq]
  dsimp only
  rw [stream_eq]
  dsimp only
  rw [← h.x, ← h.ctx, encipher_eq]
  exact ⟨rfl, rfl, rfl⟩

theorem fillP_eq {data : List Byte} {s : BfLoop} {t : BfState × (BitVec 32 × BitVec 32)} {i : Fin 9} (h : LoopRep data s t i) :
    LoopRep data (blowfish_fillP data s i) (bfStep data t i) (i + 1) := by
  obtain ⟨h1, h2, h3⟩ := next_eq h
  refine ⟨?_, h2, h3⟩
  unfold blowfish_fillP
  have hs : (bfStep data t i).1 = bfSet t.1 i (bfStep data t i).2 := rfl
  rw [hs, ← h2, ← h.ctx]
  funext j
  dsimp only
  rw [h1]
  unfold ofCtx bfSet
  dsimp only
  have hi := i.isLt
  by_cases c : j < 18
  · rw [dif_pos c, dif_pos c, Vector.getElem_set, Vector.getElem_set]
    by_cases c1 : j = 2 * i
    · rw [if_pos c1, if_neg (by omega), if_pos c1.symm]
    · rw [if_neg c1]
      by_cases c2 : j = 2 * i + 1
      · rw [if_pos c2, if_pos c2.symm]
      · rw [if_neg c2, if_neg (fun e => c2 e.symm), if_neg (fun e => c1 e.symm)]
  · rw [dif_neg c, dif_neg c, if_neg (by omega), if_neg (by omega)]

theorem fillS_eq {data : List Byte} {s : BfLoop} {t : BfState × (BitVec 32 × BitVec 32)} {i : Fin 512} (h : LoopRep data s t (9 + i)) :
    LoopRep data (blowfish_fillS data s i) (bfStep data t (9 + i)) (9 + i + 1) := by
  obtain ⟨h1, h2, h3⟩ := next_eq h
  refine ⟨?_, h2, h3⟩
  unfold blowfish_fillS
  have hs : (bfStep data t (9 + i)).1 = bfSet t.1 (9 + i) (bfStep data t (9 + i)).2 := rfl
  rw [hs, ← h2, ← h.ctx]
  funext j
  dsimp only
  rw [h1]
  unfold ofCtx bfSet
  dsimp only
  have hi := i.isLt
  by_cases c : j < 18
  · rw [dif_pos c, dif_pos c, if_neg (by omega), if_neg (by omega)]
  · rw [dif_neg c, dif_neg c]
    by_cases c0 : j - 18 < 1024
    · rw [dif_pos c0, dif_pos c0, Vector.getElem_set, Vector.getElem_set]
      by_cases c1 : j = 2 * (9 + i)
      · rw [if_pos c1, if_neg (by omega), if_pos (by omega)]
      · rw [if_neg c1]
        by_cases c2 : j = 2 * (9 + i) + 1
        · rw [if_pos c2, if_pos (by omega)]
        · rw [if_neg c2, if_neg (by omega), if_neg (by omega)]
    · rw [dif_neg c0, dif_neg c0, if_neg (by omega), if_neg (by omega)]

theorem foldP (data : List Byte) : ∀ (is : List (Fin 9)) (k : Nat) (s : BfLoop) (t : BfState × (BitVec 32 × BitVec 32)),
    is.map Fin.val = List.range' k is.length → LoopRep data s t k →
    LoopRep data (is.foldl (blowfish_fillP data) s) ((List.range' k is.length).foldl (bfStep data) t) (k + is.length)
  | [], _, _, _, _, h => h
  | i :: is, k, s, t, h, hr => by
    rw [List.map_cons, List.length_cons, List.range'_succ, List.cons.injEq] at h
    obtain ⟨h1, h2⟩ := h
    rw [List.length_cons, List.range'_succ, List.foldl_cons, List.foldl_cons, show k + (is.length + 1) = (k + 1) + is.length by omega]
    refine foldP data is (k + 1) _ _ h2 ?_
    subst h1
    exact fillP_eq hr

theorem foldS (data : List Byte) : ∀ (is : List (Fin 512)) (k : Nat) (s : BfLoop) (t : BfState × (BitVec 32 × BitVec 32)),
    is.map Fin.val = List.range' k is.length → LoopRep data s t (9 + k) →
    LoopRep data (is.foldl (blowfish_fillS data) s) ((List.range' (9 + k) is.length).foldl (bfStep data) t) (9 + k + is.length)
  | [], _, _, _, _, h => h
  | i :: is, k, s, t, h, hr => by
    rw [List.map_cons, List.length_cons, List.range'_succ, List.cons.injEq] at h
    obtain ⟨h1, h2⟩ := h
    rw [List.length_cons, List.range'_succ, List.foldl_cons, List.foldl_cons, show 9 + k + (is.length + 1) = 9 + (k + 1) + is.length by omega]
    refine foldS data is (k + 1) _ _ h2 ?_
    subst h1
    exact fillS_eq hr

theorem fin_range (n : Nat) : (List.finRange n).map Fin.val = List.range' 0 (List.finRange n).length := by
  rw [List.length_finRange, ← List.range_eq_range']
  exact List.map_coe_finRange_eq_range

theorem expand_eq (ctx : Blowfish) (key data : List Byte) :
    ofCtx (blowfish_expandstate ctx key data) = bfExpand (ofCtx ctx) data key := by
  unfold blowfish_expandstate bfExpand
  dsimp only
  have h0 : LoopRep data ⟨{ ctx with P := blowfish_key key (List.finRange 18) 0 ctx.P }, ⟨0, 0⟩, 0⟩
      ((fun i => if i < 18 then ofCtx ctx i ^^^ cycWord key i else ofCtx ctx i), (0, 0)) 0 := by
    refine ⟨?_, rfl, (pos_zero data).symm⟩
    funext i
    unfold ofCtx
    dsimp only
    by_cases c : i < 18
    · rw [dif_pos c, if_pos c, dif_pos c, ← pos_zero key, key_eq key _ 0 _ (fin_range 18) i c, if_pos (by rw [List.length_finRange]; omega)]
    · rw [dif_neg c, if_neg c, dif_neg c]
  have h1 := foldP data (List.finRange 9) 0 _ _ (fin_range 9) h0
  rw [List.length_finRange] at h1
  have h2 := foldS data (List.finRange 512) 0 _ _ (fin_range 512) h1
  rw [List.length_finRange] at h2
  rw [h2.ctx, ← List.foldl_append, List.range'_append, List.range_eq_range']

end Torsion.Bf
