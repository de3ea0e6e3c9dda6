import Verif.Common.Buffer

/-!
# Blocks of a byte string, and what the buffered update computes
-/
namespace Torsion

namespace Spec

/-- The complete `n`-byte blocks of a byte string, in order (a shorter rest is dropped). -/
def blocks (n : Nat) (m : List Byte) : List (Vector Byte n) :=
  (List.range (m.length / n)).map fun i => Vector.ofFn fun j : Fin n => m.getD (i * n + j) 0

end Spec

namespace Blk
open Spec

/-- Concatenation of blocks. -/
def cat {n : Nat} (bl : List (Vector Byte n)) : List Byte := bl.flatMap Vector.toList

@[simp] theorem cat_nil {n : Nat} : cat ([] : List (Vector Byte n)) = [] := rfl
@[simp] theorem cat_cons {n : Nat} (v : Vector Byte n) (bl : List (Vector Byte n)) :
    cat (v :: bl) = v.toList ++ cat bl := by simp [cat]
theorem cat_append {n : Nat} (a b : List (Vector Byte n)) : cat (a ++ b) = cat a ++ cat b := by
  simp [cat]
theorem cat_length {n : Nat} (bl : List (Vector Byte n)) : (cat bl).length = bl.length * n := by
  induction bl with
  | nil => simp
  | cons v bl ih => rw [cat_cons, List.length_append, ih, Vector.length_toList, List.length_cons,
      Nat.add_mul]; omega

theorem cat_getD {n : Nat} (hn : 0 < n) : ∀ (bl : List (Vector Byte n)) (t : List Byte) (i : Nat)
    (hi : i < bl.length) (j : Fin n), (cat bl ++ t).getD (i * n + j) 0 = bl[i][j.val]
  | [], t, i, hi, j => by simp at hi
  | v :: bl, t, 0, hi, j => by
    simp only [cat_cons, List.append_assoc, Nat.zero_mul, Nat.zero_add, List.getElem_cons_zero]
    rw [List.getD_eq_getElem?_getD, List.getElem?_append_left (by simp)]
    simp
  | v :: bl, t, i + 1, hi, j => by
    have := cat_getD hn bl t i (by simpa using hi) j
    rw [cat_cons, List.append_assoc, List.getElem_cons_succ, ← this,
      List.getD_eq_getElem?_getD, List.getElem?_append_right (by simp; rw [Nat.add_mul]; omega),
      List.getD_eq_getElem?_getD]
    congr 2
    simp only [Vector.length_toList]
    rw [Nat.add_mul]; omega

/-- The blocks of a concatenation of blocks with a short rest are those blocks. -/
theorem blocks_cat {n : Nat} (bl : List (Vector Byte n)) (t : List Byte) (ht : t.length < n) :
    blocks n (cat bl ++ t) = bl := by
  have hn : 0 < n := by omega
  have hlen : (cat bl ++ t).length / n = bl.length := by
    rw [List.length_append, cat_length, Nat.mul_comm, Nat.mul_add_div hn, Nat.div_eq_of_lt ht]; rfl
  rw [blocks, hlen]
  apply List.ext_getElem
  · simp
  · intro i h1 h2
    simp only [List.getElem_map, List.getElem_range]
    apply Vector.ext
    intro j hj
    rw [Vector.getElem_ofFn]
    exact cat_getD hn bl t i h2 ⟨j, hj⟩

theorem vec_ok {n : Nat} {xs : List Byte} (h : n ≤ xs.length) :
    ∃ v : Vector Byte n, C.vec n xs = .ok v ∧ v.toList = xs.take n := by
  have : (xs.take n).length = n := by simp; omega
  exact ⟨⟨(xs.take n).toArray, by simpa using this⟩, by rw [C.vec, dif_pos this], by simp⟩

/-- Every string is a list of blocks and a short rest. -/
theorem split (n : Nat) (hn : 0 < n) (m : List Byte) :
    ∃ (bl : List (Vector Byte n)) (t : List Byte), m = cat bl ++ t ∧ t.length < n := by
  induction hk : m.length using Nat.strongRecOn generalizing m with
  | ind k ih =>
    by_cases h : m.length < n
    · exact ⟨[], m, rfl, h⟩
    · obtain ⟨v, -, hv⟩ := vec_ok (n := n) (xs := m) (by omega)
      obtain ⟨bl, t, h1, h2⟩ := ih (m.drop n).length (by simp; omega) _ rfl
      refine ⟨v :: bl, t, ?_, h2⟩
      rw [cat_cons, List.append_assoc, ← h1, hv, List.take_append_drop]

variable {S : Type} {bs : Nat} {f : S → Vector Byte bs → S}

theorem blocks_loop_eq (hbs : 0 < bs) (f : S → Vector Byte bs → S) :
    ∀ (bl : List (Vector Byte bs)) (k : Nat) (st : S) (t : List Byte),
    t.length < bs → bl.length ≤ k →
    blocks_loop bs f k st (cat bl ++ t) = .ok (bl.foldl f st, t)
  | [], 0, st, t, _, _ => rfl
  | [], k + 1, st, t, ht, _ => by
    rw [blocks_loop, if_neg (by simpa using ht)]; rfl
  | v :: bl, 0, st, t, _, hk => by simp at hk
  | v :: bl, k + 1, st, t, ht, hk => by
    obtain ⟨v', h1, h2⟩ := vec_ok (n := bs) (xs := cat (v :: bl) ++ t) (by simp)
    have hv : v' = v := by
      apply Vector.toList_inj.1
      rw [h2, cat_cons, List.append_assoc, List.take_left' (by simp)]
    rw [blocks_loop, if_pos (by simp), h1, C.ok_bind, hv, cat_cons, List.append_assoc,
      List.drop_left' (by simp), blocks_loop_eq hbs f bl k (f st v) t ht (by simpa using hk)]
    rfl

/-- The context holds message `m`: the state has absorbed the complete blocks, the buffer starts
with the rest. -/
def Holds (bs : Nat) (f : S → Vector Byte bs → S) (init : S) (ctx : Buf S) (m : List Byte) : Prop :=
  ∃ (bl : List (Vector Byte bs)) (t : List Byte), m = cat bl ++ t ∧ t.length < bs ∧
    ctx.st = bl.foldl f init ∧ ctx.pos = t.length ∧ ctx.block.length = bs ∧
    ctx.block.take ctx.pos = t

theorem holds_nil {init : S} {block : List Byte} (h : block.length = bs) (hbs : 0 < bs) :
    Holds bs f init ⟨init, block, 0⟩ [] :=
  ⟨[], [], rfl, hbs, rfl, rfl, h, rfl⟩

theorem blit_eq {block src : List Byte} {pos : Nat} (h : pos + src.length ≤ block.length) :
    C.blit block pos src = .ok (block.take pos ++ src ++ block.drop (pos + src.length)) := by
  rw [C.blit, if_pos h]

/-- An update appends to the message held. -/
theorem holds_update (hbs : 0 < bs) {init : S} {ctx : Buf S} {m : List Byte}
    (h : Holds bs f init ctx m) (data : List Byte) :
    ∃ ctx', buf_update bs f ctx data = .ok ctx' ∧ Holds bs f init ctx' (m ++ data) := by
  obtain ⟨bl, t, hm, ht, hst, hpos, hblk, htk⟩ := h
  rw [hpos] at htk
  -- the part after the loop
  have tail : ∀ (bl' : List (Vector Byte bs)) (t' : List Byte) (c : Buf S) (raw : List Byte),
      c.st = bl'.foldl f init → c.block.length = bs → c.block.take t'.length = t' →
      t'.length + raw.length < bs → m ++ data = cat bl' ++ t' ++ raw →
      ∃ ctx', (if raw.length > 0 then do
          let block ← C.blit c.block t'.length raw
          .ok { c with block := block, pos := t'.length + raw.length }
        else .ok { c with pos := t'.length } : C (Buf S)) = .ok ctx' ∧
        Holds bs f init ctx' (m ++ data) := by
    intro bl' t' c raw h1 h2 h3 h4 h5
    by_cases hr : raw.length > 0
    · rw [if_pos hr, blit_eq (by omega)]
      refine ⟨_, rfl, bl', t' ++ raw, by rw [h5, List.append_assoc], by simpa using h4, h1,
        by simp, ?_, ?_⟩
      · simp; omega
      · dsimp only
        rw [h3, List.take_left' (by simp)]
    · rw [if_neg hr]
      have : raw = [] := by simpa using hr
      subst this
      exact ⟨_, rfl, bl', t', by simpa using h5, by simpa using h4, h1, rfl, h2, h3⟩
  rw [buf_update]
  dsimp only
  rw [hpos]
  by_cases hw : data.length ≥ bs - t.length
  · rw [if_pos hw]
    by_cases hp : t.length > 0
    · obtain ⟨v, hv1, hv2⟩ := vec_ok (n := bs)
        (xs := ctx.block.take t.length ++ data.take (bs - t.length) ++
          ctx.block.drop (t.length + (data.take (bs - t.length)).length)) (by simp; omega)
      rw [if_pos hp, C.slice, if_pos (by omega), C.ok_bind, List.drop_zero,
        blit_eq (by simp; omega), C.ok_bind, hv1, C.ok_bind, C.ok_bind]
      have hv3 : v.toList = t ++ data.take (bs - t.length) := by
        rw [hv2, htk, List.take_left' (by simp; omega)]
      obtain ⟨bl2, t2, hs1, hs2⟩ := split bs hbs (data.drop (bs - t.length))
      dsimp only
      rw [hs1, blocks_loop_eq hbs f bl2 _ _ t2 hs2 (by
        rw [List.length_append, cat_length]
        exact Nat.le_trans (Nat.le_mul_of_pos_right _ hbs) (Nat.le_add_right _ _)), C.ok_bind,
        C.ok_bind]
      have := tail (bl ++ v :: bl2) [] { ctx with
        block := ctx.block.take t.length ++ data.take (bs - t.length) ++
          ctx.block.drop (t.length + (data.take (bs - t.length)).length),
        st := bl2.foldl f (f ctx.st v) } t2 (by simp [hst]) (by simp; omega) rfl
        (by simpa using hs2) (by
          have hd : data = data.take (bs - t.length) ++ (cat bl2 ++ t2) := by
            rw [← hs1, List.take_append_drop]
          rw [hm, cat_append, cat_cons, hv3]
          refine (congrArg (cat bl ++ t ++ ·) hd).trans ?_
          simp)
      simpa using this
    · rw [if_neg hp]
      have ht0 : t = [] := by simpa using hp
      subst ht0
      obtain ⟨bl2, t2, hs1, hs2⟩ := split bs hbs data
      simp only [C.ok_bind]
      rw [hs1, blocks_loop_eq hbs f bl2 _ _ t2 hs2 (by
        rw [List.length_append, cat_length]
        exact Nat.le_trans (Nat.le_mul_of_pos_right _ hbs) (Nat.le_add_right _ _)), C.ok_bind,
        C.ok_bind]
      have := tail (bl ++ bl2) [] { ctx with st := bl2.foldl f ctx.st } t2 (by simp [hst]) hblk rfl
        (by simpa using hs2) (by rw [hm, hs1, cat_append]; simp)
      simpa [hs1] using this
  · rw [if_neg hw, C.ok_bind]
    exact tail bl t ctx data hst hblk htk (by omega) (by rw [hm])

/-- What a context holds determines its state, its position and the used part of its buffer. -/
theorem holds_blocks {init : S} {ctx : Buf S} {m : List Byte} (h : Holds bs f init ctx m) :
    ctx.st = (blocks bs m).foldl f init ∧ ctx.pos = m.length % bs ∧ ctx.block.length = bs ∧
      ctx.block.take ctx.pos = m.drop (m.length / bs * bs) := by
  obtain ⟨bl, t, hm, ht, hst, hpos, hblk, htk⟩ := h
  have h0 : 0 < bs := by omega
  have hd : m.length / bs = bl.length := by
    rw [hm, List.length_append, cat_length, Nat.mul_comm, Nat.mul_add_div h0, Nat.div_eq_of_lt ht]
    rfl
  refine ⟨by rw [hm, blocks_cat bl t ht, hst], ?_, hblk, ?_⟩
  · rw [hpos, hm, List.length_append, cat_length, Nat.mul_comm, Nat.mul_add_mod,
      Nat.mod_eq_of_lt ht]
  · rw [htk, hd, hm, List.drop_left' (by rw [cat_length])]

end Blk
end Torsion
