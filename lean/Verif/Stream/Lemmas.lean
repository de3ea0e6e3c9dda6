import Verif.Stream.Model
import Verif.Stream.Spec
import Verif.Util.Props
import Verif.Common.Blocks

/-!
# Lemmas about src/stream.c
-/
namespace Torsion.Strm
open Spec

/-! ## The generic keystream machine -/

abbrev St := Vector (BitVec 32) 16

section generic
variable (blk : St → List Byte × St)

/-- Byte `i` of the key stream from state `s`. -/
def ks (s : St) (i : Nat) : Byte :=
  (blk ((fun s => (blk s).2)^[i / 64] s)).1.getD (i % 64) 0

def keyBytes (s : St) (off n : Nat) : List Byte := (List.range n).map fun i => ks blk s (off + i)

variable {blk}

theorem keyBytes_len (s : St) (off n : Nat) : (keyBytes blk s off n).length = n := by
  simp [keyBytes]

theorem keyBytes_add (s : St) (off a b : Nat) :
    keyBytes blk s off (a + b) = keyBytes blk s off a ++ keyBytes blk s (off + a) b := by
  simp only [keyBytes, List.range_add, List.map_append, List.map_map]
  congr 1
  apply List.map_congr_left
  intro i _
  simp [Nat.add_assoc]

theorem xorStream_eq (s : St) (off : Nat) (m : List Byte) :
    xorStream (ks blk s) off m = memxor3 m (keyBytes blk s off m.length) := by
  apply List.ext_getElem
  · simp [xorStream, memxor3, keyBytes_len]
  · intro i h1 h2
    simp [xorStream, memxor3, keyBytes]

theorem memxor3_append {a b c d : List Byte} (h : a.length = c.length) :
    memxor3 (a ++ b) (c ++ d) = memxor3 a c ++ memxor3 b d := by
  rw [memxor3, List.zipWith_append h]; rfl

theorem slice_eq (hlen : ∀ s, (blk s).1.length = 64) (s : St) (k pos n : Nat) (h : pos + n ≤ 64) :
    C.slice (blk ((fun s => (blk s).2)^[k] s)).1 pos n = .ok (keyBytes blk s (64 * k + pos) n) := by
  have hl := hlen ((fun s => (blk s).2)^[k] s)
  rw [C.slice, if_pos (by omega)]
  congr 1
  apply List.ext_getElem
  · rw [keyBytes_len]; simp; omega
  · intro i h1 h2
    rw [keyBytes_len] at h2
    have e1 : (64 * k + pos + i) / 64 = k := by omega
    have e2 : (64 * k + pos + i) % 64 = pos + i := by omega
    simp only [List.getElem_take, List.getElem_drop, keyBytes, List.getElem_map, List.getElem_range,
      ks, e1, e2]
    rw [List.getD_eq_getElem?_getD, List.getElem?_eq_getElem (by omega)]
    rfl

/-- The context is at position `off` of the key stream of `s`. -/
def At (blk : St → List Byte × St) (ctx : StreamCtx) (s : St) (off : Nat) : Prop :=
  ctx.pos = off % 64 ∧
  ((ctx.pos = 0 ∧ ctx.state = (fun s => (blk s).2)^[off / 64] s) ∨
   (ctx.pos ≠ 0 ∧ ctx.state = (fun s => (blk s).2)^[off / 64 + 1] s ∧
     ctx.stream = (blk ((fun s => (blk s).2)^[off / 64] s)).1))

theorem stream_loop_eq (hlen : ∀ s, (blk s).1.length = 64) (s : St) :
    ∀ (k : Nat) (ctx : StreamCtx) (q : Nat) (src : List Byte),
    ctx.state = (fun s => (blk s).2)^[q] s → src.length ≤ k →
    ∃ ctx', stream_loop blk k ctx src = .ok
        (memxor3 (src.take (64 * (src.length / 64))) (keyBytes blk s (64 * q) (64 * (src.length / 64))),
          ctx', src.drop (64 * (src.length / 64))) ∧
      ctx'.state = (fun s => (blk s).2)^[q + src.length / 64] s ∧ ctx'.pos = ctx.pos
  | 0, ctx, q, src, hs, hk => by
    have : src = [] := by simpa using hk
    subst this
    exact ⟨ctx, rfl, hs, rfl⟩
  | k + 1, ctx, q, src, hs, hk => by
    rw [stream_loop]
    by_cases hl : src.length ≥ 64
    · rw [if_pos hl]
      dsimp only
      rw [hs, slice_eq hlen s q 0 64 (by omega), C.ok_bind]
      obtain ⟨ctx', h1, h2, h3⟩ := stream_loop_eq hlen s k
        { ctx with state := (blk ((fun s => (blk s).2)^[q] s)).2,
                   stream := (blk ((fun s => (blk s).2)^[q] s)).1 } (q + 1) (src.drop 64)
        (by rw [Function.iterate_succ_apply']) (by simp; omega)
      have e1 : (src.drop 64).length / 64 = src.length / 64 - 1 := by simp; omega
      have e2 : 1 + (src.length / 64 - 1) = src.length / 64 := by omega
      rw [h1, C.ok_bind]
      refine ⟨ctx', ?_, ?_, h3⟩
      · simp only [C.ok.injEq, Prod.mk.injEq, true_and, e1, List.drop_drop]
        have e3 : 64 * (src.length / 64) = 64 + 64 * (src.length / 64 - 1) := by omega
        refine ⟨?_, by rw [e3]⟩
        rw [e3, keyBytes_add, List.take_add, memxor3_append (by simp [keyBytes_len]; omega)]
        rfl
      · rw [h2, e1, Nat.add_assoc, e2]
    · rw [if_neg hl]
      have e : src.length / 64 = 0 := by omega
      rw [e]
      exact ⟨ctx, rfl, hs, rfl⟩

theorem crypt_at (hlen : ∀ s, (blk s).1.length = 64) {ctx : StreamCtx} {s : St} {off : Nat}
    (h : At blk ctx s off) (src : List Byte) :
    ∃ ctx', stream_crypt blk ctx src = .ok (xorStream (ks blk s) off src, ctx') ∧
      At blk ctx' s (off + src.length) := by
  obtain ⟨hpos, hst⟩ := h
  rw [xorStream_eq]
  -- the part after the loop
  have tail : ∀ (out : List Byte) (c : StreamCtx) (rest : List Byte) (o : Nat), c.pos = o % 64 →
      At blk c s o → o % 64 + rest.length < 64 →
      ∃ ctx', (if rest.length > 0 then do
          let ctx := if o % 64 = 0 then
              let b := blk c.state
              { c with state := b.2, stream := b.1 }
            else c
          let ks ← C.slice ctx.stream (o % 64) rest.length
          .ok (out ++ memxor3 rest ks, { ctx with pos := o % 64 + rest.length })
        else .ok (out, { c with pos := o % 64 }) : C (List Byte × StreamCtx)) =
          .ok (out ++ memxor3 rest (keyBytes blk s o rest.length), ctx') ∧
        At blk ctx' s (o + rest.length) := by
    intro out c rest o hp hat hlt
    have hdiv : (o + rest.length) / 64 = o / 64 := by omega
    have hmod : (o + rest.length) % 64 = o % 64 + rest.length := by omega
    have ho : 64 * (o / 64) + o % 64 = o := by omega
    by_cases hr : rest.length > 0
    · rw [if_pos hr]
      dsimp only
      rcases hat.2 with ⟨h0, hs⟩ | ⟨h0, hs, hks⟩
      · rw [if_pos (by omega)]
        dsimp only
        rw [hs, slice_eq hlen s _ _ _ (by omega), C.ok_bind, ho]
        refine ⟨_, rfl, hmod.symm, .inr ⟨?_, ?_, ?_⟩⟩
        · dsimp only; omega
        · rw [hdiv, Function.iterate_succ_apply']
        · rw [hdiv]
      · rw [if_neg (by omega), hks, slice_eq hlen s _ _ _ (by omega), C.ok_bind, ho]
        refine ⟨_, rfl, hmod.symm, .inr ⟨?_, ?_, ?_⟩⟩
        · dsimp only; omega
        · rw [hdiv, ← hs]
        · rw [hdiv]
    · rw [if_neg hr]
      have : rest = [] := by simpa using hr
      subst this
      refine ⟨_, by simp [memxor3]; rfl, ?_⟩
      rw [← hp]; exact hat
  rw [stream_crypt]
  dsimp only
  by_cases hw : src.length ≥ 64 - ctx.pos
  · rw [if_pos hw]
    rcases hst with ⟨h0, hs⟩ | ⟨h0, hs, hks⟩
    · rw [if_neg (by omega), C.ok_bind]
      obtain ⟨c', hc1, hc2, hc3⟩ := stream_loop_eq hlen s src.length ctx (off / 64) src hs
        (Nat.le_refl _)
      rw [hc1, C.ok_bind, C.ok_bind]
      dsimp only
      have hoff : 64 * (off / 64) = off := by omega
      rw [hoff, List.nil_append]
      have hm0 : (off + 64 * (src.length / 64)) % 64 = 0 := by omega
      obtain ⟨ctx', ht1, ht2⟩ := tail
        (memxor3 (src.take (64 * (src.length / 64))) (keyBytes blk s off (64 * (src.length / 64))))
        c' (src.drop (64 * (src.length / 64))) (off + 64 * (src.length / 64)) (by omega)
        ⟨by omega, .inl ⟨by omega, by rw [hc2]; congr 1; omega⟩⟩ (by simp; omega)
      rw [hm0] at ht1
      rw [h0, ht1]
      refine ⟨ctx', ?_, ?_⟩
      · congr 2
        rw [← memxor3_append (by simp [keyBytes_len]; omega), List.take_append_drop, ← keyBytes_add]
        congr 2; simp; omega
      · have : off + 64 * (src.length / 64) + (src.drop (64 * (src.length / 64))).length =
          off + src.length := by simp; omega
        rw [this] at ht2; exact ht2
    · rw [if_pos (by omega), hks, slice_eq hlen s _ _ _ (by omega), C.ok_bind, C.ok_bind]
      obtain ⟨c', hc1, hc2, hc3⟩ := stream_loop_eq hlen s (src.drop (64 - ctx.pos)).length ctx
        (off / 64 + 1) (src.drop (64 - ctx.pos)) hs (Nat.le_refl _)
      dsimp only
      rw [hc1, C.ok_bind, C.ok_bind]
      dsimp only
      have hoff : 64 * (off / 64) + ctx.pos = off := by omega
      have hoff2 : 64 * (off / 64 + 1) = off + (64 - ctx.pos) := by omega
      rw [hoff, hoff2]
      generalize hn : 64 * ((src.drop (64 - ctx.pos)).length / 64) = n
      have hn' : n ≤ src.length - (64 - ctx.pos) := by rw [← hn]; simp; omega
      have hnr : src.length - (64 - ctx.pos) - n < 64 := by rw [← hn]; simp; omega
      have hm0 : (off + (64 - ctx.pos) + n) % 64 = 0 := by omega
      obtain ⟨ctx', ht1, ht2⟩ := tail
        (memxor3 (src.take (64 - ctx.pos)) (keyBytes blk s off (64 - ctx.pos)) ++
          memxor3 ((src.drop (64 - ctx.pos)).take n) (keyBytes blk s (off + (64 - ctx.pos)) n))
        { c' with pos := 0 } ((src.drop (64 - ctx.pos)).drop n) (off + (64 - ctx.pos) + n) (by simp [hm0])
        ⟨by simp [hm0], .inl ⟨rfl, by rw [hc2]; congr 1; omega⟩⟩ (by simp; omega)
      rw [hm0] at ht1
      refine ⟨ctx', Eq.trans rfl (ht1.trans ?_), ?_⟩
      · congr 2
        have e1 : (src.drop (64 - ctx.pos)).length = n + ((src.drop (64 - ctx.pos)).drop n).length := by
          simp; omega
        have e2 : src.length = (64 - ctx.pos) + (src.drop (64 - ctx.pos)).length := by simp; omega
        rw [List.append_assoc, ← memxor3_append (by simp [keyBytes_len]; omega),
          List.take_append_drop, ← keyBytes_add, ← e1, ← memxor3_append (by simp [keyBytes_len]; omega),
          List.take_append_drop, ← keyBytes_add, ← e2]
      · have : off + (64 - ctx.pos) + n + ((src.drop (64 - ctx.pos)).drop n).length =
          off + src.length := by simp; omega
        rw [this] at ht2; exact ht2
  · rw [if_neg hw, C.ok_bind]
    obtain ⟨ctx', h1, h2⟩ := tail [] ctx src off hpos ⟨hpos, hst⟩ (by omega)
    rw [← hpos] at h1
    exact ⟨ctx', h1, h2⟩

end generic

end Torsion.Strm
