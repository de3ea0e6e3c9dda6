import Verif.Mac.Poly32Lemmas
import Verif.Common.Blocks
import Verif.Common.Calls

/-!
# Poly1305: buffering, padding and the last block, for any back end
-/
namespace Torsion.Mac
open Spec Blk

/-- What a back end has to satisfy: a relation between its states and the accumulator of the
specification. -/
structure Good {S : Type} (I : PolyImpl S) (key : Vector Byte 32) (Rep : S → Nat → Prop) : Prop where
  init : Rep (I.init key) 0
  block : ∀ st acc final v, Rep st acc → Rep (I.block final st v)
    ((acc + leVal v.toList + if final then 0 else 2 ^ 128) * polyR key.toList % polyP)
  out : ∀ st acc, Rep st acc → I.out st = leBytes 16 ((acc + polyS key.toList) % 2 ^ 128)

theorem good64 (key : Vector Byte 32) : Good poly64 key (Rep64 key) :=
  ⟨rep64_init key, fun st acc f v h => rep64_block key st acc f v h, fun st acc h => rep64_out key st acc h⟩

theorem good32 (key : Vector Byte 32) : Good poly32 key (Rep32 key) :=
  ⟨rep32_init key, fun st acc f v h => rep32_block key st acc f v h, fun st acc h => rep32_out key st acc h⟩

theorem good (wide : Bool) (key : Vector Byte 32) : ∃ Rep, Good (polyImpl wide) key Rep := by
  cases wide
  · exact ⟨_, good32 key⟩
  · exact ⟨_, good64 key⟩

theorem zero_loop_eq : ∀ (k lim : Nat) (block : List Byte) (pos : Nat), lim - pos ≤ k →
    lim = block.length → pos ≤ lim →
    zero_loop k lim block pos = .ok (block.take pos ++ List.replicate (lim - pos) 0, lim)
  | 0, lim, block, pos, h, hl, hp => by
    have : pos = lim := by omega
    rw [zero_loop, this, Nat.sub_self, hl, List.take_length]; simp
  | k + 1, lim, block, pos, h, hl, hp => by
    rw [zero_loop]
    by_cases hlt : pos < lim
    · rw [if_pos hlt, C.wr, if_pos (by omega)]
      simp only [C.ok_bind]
      rw [zero_loop_eq k lim _ (pos + 1) (by omega) (by simpa using hl) (by omega)]
      congr 2
      rw [show lim - pos = (lim - (pos + 1)) + 1 by omega, List.replicate_succ,
        List.take_add_one, List.take_set_of_le (by omega), List.getElem?_set_self (by omega)]
      simp
    · rw [if_neg hlt]
      have : pos = lim := by omega
      rw [this, Nat.sub_self, hl, List.take_length]; simp

theorem pieces_cat (bl : List (Vector Byte 16)) (t : List Byte) (ht : t.length < 16) :
    pieces (cat bl ++ t) = bl.map Vector.toList ++ (if t = [] then [] else [t]) := by
  rw [pieces]
  have hlen : ((cat bl ++ t).length + 15) / 16 = bl.length + (if t = [] then 0 else 1) := by
    rw [List.length_append, cat_length]
    split
    · next h => subst h; simp; omega
    · next h =>
      have : 0 < t.length := List.length_pos_iff.2 h
      omega
  rw [hlen]
  clear hlen
  induction bl with
  | nil =>
    by_cases h : t = []
    · simp [h]
    · have : t.take 16 = t := List.take_of_length_le (by omega)
      simp [h, this]
  | cons v bl ih =>
    rw [List.length_cons, Nat.add_right_comm, List.range_succ_eq_map, List.map_cons, List.map_map,
      cat_cons, List.append_assoc, List.map_cons, List.cons_append, ← ih]
    congr 1
    · rw [Nat.mul_zero, List.drop_zero, List.take_left' (by simp)]
    · apply List.map_congr_left
      intro i _
      simp only [Function.comp, Nat.succ_eq_add_one]
      rw [show 16 * (i + 1) = v.toList.length + 16 * i by simp; omega, List.drop_append, List.drop_of_length_le (Nat.le_add_right _ _), Nat.add_sub_cancel_left,
        List.nil_append]

theorem step_block (r acc : Nat) (v : Vector Byte 16) :
    poly1305Step r acc v.toList = (acc + leVal v.toList + 2 ^ 128) * r % polyP := by
  rw [poly1305Step, leVal_append, Vector.length_toList, Nat.add_assoc]
  congr 1

variable {S : Type} {I : PolyImpl S} {key : Vector Byte 32} {Rep : S → Nat → Prop}

theorem rep_fold (g : Good I key Rep) : ∀ (bl : List (Vector Byte 16)) (st : S) (acc : Nat), Rep st acc →
    Rep (bl.foldl (I.block false) st)
      ((bl.map Vector.toList).foldl (poly1305Step (polyR key.toList)) acc)
  | [], _, _, h => h
  | v :: bl, st, acc, h => by
    rw [List.foldl_cons, List.map_cons, List.foldl_cons]
    apply rep_fold g bl
    rw [step_block]
    exact g.block st acc false v h

/-- The context has absorbed message `m`. -/
abbrev PHolds (I : PolyImpl S) (key : Vector Byte 32) (ctx : Buf S) (m : List Byte) : Prop :=
  Holds 16 (I.block false) (I.init key) ctx m

theorem pholds_init {block : List Byte} (h : block.length = 16) :
    PHolds I key (poly1305_init I block key) [] :=
  holds_nil h (by decide)

theorem pholds_update {ctx : Buf S} {m : List Byte} (h : PHolds I key ctx m) (data : List Byte) :
    ∃ ctx', poly1305_update I ctx data = .ok ctx' ∧ PHolds I key ctx' (m ++ data) :=
  holds_update (by decide) h data

theorem pholds_updates : ∀ (chunks : List (List Byte)) {ctx : Buf S} {m : List Byte}, PHolds I key ctx m →
    ∃ ctx', updates (poly1305_update I) ctx chunks = .ok ctx' ∧
      PHolds I key ctx' (m ++ chunks.flatten)
  | [], ctx, m, h => ⟨ctx, rfl, by simpa using h⟩
  | c :: cs, ctx, m, h => by
    obtain ⟨c1, h1, h2⟩ := pholds_update h c
    obtain ⟨c2, h3, h4⟩ := pholds_updates cs h2
    refine ⟨c2, by rw [updates, h1, C.ok_bind, h3], by simpa using h4⟩

theorem pholds_pad {ctx : Buf S} {m : List Byte} (h : PHolds I key ctx m) :
    ∃ ctx', poly1305_pad I ctx = .ok ctx' ∧ PHolds I key ctx' (pad16 m) := by
  obtain ⟨bl, t, hm, ht, hst, hpos, hblk, htk⟩ := h
  have hmod : m.length % 16 = t.length := by rw [hm, List.length_append, cat_length]; omega
  rw [poly1305_pad, pad16, hmod]
  by_cases hp : ctx.pos > 0
  · have hz := zero_loop_eq 16 16 ctx.block ctx.pos (by omega) hblk.symm (by omega)
    obtain ⟨v, hv1, hv2⟩ := vec_ok (n := 16)
      (xs := ctx.block.take ctx.pos ++ List.replicate (16 - ctx.pos) 0) (by simp; omega)
    rw [if_pos hp, hz, C.ok_bind]
    dsimp only
    rw [hv1, C.ok_bind]
    have hv : v.toList = t ++ List.replicate (16 - t.length) 0 := by
      rw [hv2, List.take_of_length_le (by simp; omega), htk, hpos]
    refine ⟨_, rfl, bl ++ [v], [], ?_, by simp, by simp [hst], rfl, by simp; omega, rfl⟩
    rw [cat_append, cat_cons, hv, hm, show (16 - t.length) % 16 = 16 - t.length by omega]
    simp
  · rw [if_neg hp]
    have h0 : t.length = 0 := by omega
    refine ⟨ctx, rfl, bl, t, ?_, ht, hst, hpos, hblk, htk⟩
    rw [h0]
    simpa using hm

theorem leVal_zeros (n : Nat) : leVal (List.replicate n 0) = 0 := by
  induction n with
  | zero => rfl
  | succ n ih => rw [List.replicate_succ, leVal_cons, ih]; rfl

theorem pholds_final (g : Good I key Rep) {ctx : Buf S} {m : List Byte} (h : PHolds I key ctx m) :
    poly1305_final I ctx = .ok (poly1305 key.toList m) := by
  obtain ⟨bl, t, hm, ht, hst, hpos, hblk, htk⟩ := h
  have hr := rep_fold g bl (I.init key) 0 g.init
  rw [← hst] at hr
  rw [poly1305_final, poly1305, hm, pieces_cat bl t ht]
  by_cases hp : ctx.pos > 0
  · have hz := zero_loop_eq 16 16 (ctx.block.set ctx.pos 1) (ctx.pos + 1) (by omega)
      (by simpa using hblk.symm) (by omega)
    obtain ⟨v, hv1, hv2⟩ := vec_ok (n := 16) (xs := (ctx.block.set ctx.pos 1).take (ctx.pos + 1) ++
      List.replicate (16 - (ctx.pos + 1)) 0) (by simp; omega)
    rw [if_pos hp, C.wr, if_pos (by omega), C.ok_bind, hz, C.ok_bind]
    dsimp only
    rw [hv1, C.ok_bind, C.ok_bind, g.out _ _ (g.block _ _ true v hr)]
    have hv : v.toList = t ++ [1] ++ List.replicate (16 - (t.length + 1)) 0 := by
      rw [hv2, List.take_of_length_le (by simp; omega), List.take_add_one,
        List.take_set_of_le (by omega), List.getElem?_set_self (by omega), htk, hpos]
      rfl
    have hne : t ≠ [] := by
      intro h; subst h
      simp only [List.length_nil] at hpos
      omega
    rw [if_neg hne, List.foldl_append, List.foldl_cons, List.foldl_nil, poly1305Step, if_pos rfl,
      Nat.add_zero, hv, leVal_append (t ++ [1]), leVal_zeros, Nat.mul_zero, Nat.add_zero]
  · have h0 : t = [] := by
      have : t.length = 0 := by omega
      simpa using this
    rw [if_neg hp, C.ok_bind, g.out _ _ hr, if_pos h0, List.append_nil]

end Torsion.Mac
