import Verif.Block.Base
import Verif.Util.Props

/-!
Lemmas shared by the block ciphers: loading and storing blocks, folding rounds forwards and
backwards.
-/
namespace Torsion.Blkc

theorem foldl_undo {α σ : Type} (f g : σ → α → σ) (h : ∀ s a, g (f s a) a = s) :
    ∀ (l : List α) (s : σ), l.reverse.foldl g (l.foldl f s) = s
  | [], s => rfl
  | a :: l, s => by
    rw [List.reverse_cons, List.foldl_append]
    show g (l.reverse.foldl g (l.foldl f (f s a))) a = s
    rw [foldl_undo f g h l]
    exact h s a

theorem foldl_undo' {α σ : Type} (f g : σ → α → σ) (h : ∀ s a, g (f s a) a = s) (l l' : List α)
    (hl : l' = l.reverse) (s : σ) : l'.foldl g (l.foldl f s) = s := by
  subst hl; exact foldl_undo f g h l s

theorem app4 {n : Nat} (a b c d : Vector Byte n) (i : Nat) (h : i < n) :
    (a ++ b ++ c ++ d)[0 + i] = a[i] ∧ (a ++ b ++ c ++ d)[n + i] = b[i] ∧
    (a ++ b ++ c ++ d)[n + n + i] = c[i] ∧ (a ++ b ++ c ++ d)[n + n + n + i] = d[i] := by
  refine ⟨?_, ?_, ?_, ?_⟩
  · rw [Vector.getElem_append_left (by omega), Vector.getElem_append_left (by omega),
      Vector.getElem_append_left (by omega)]
    simp
  · rw [Vector.getElem_append_left (by omega), Vector.getElem_append_left (by omega),
      Vector.getElem_append_right (by omega) (by omega)]
    simp
  · rw [Vector.getElem_append_left (by omega), Vector.getElem_append_right (by omega) (by omega)]
    simp
  · rw [Vector.getElem_append_right (by omega) (by omega)]
    simp

theorem vsub_app4 (a b c d : Vector Byte 4) (v : Vector Byte 16)
    (hv : v = (a ++ b ++ c ++ d : Vector Byte (4 + 4 + 4 + 4))) :
    vsub v 0 4 = a ∧ vsub v 4 4 = b ∧ vsub v 8 4 = c ∧ vsub v 12 4 = d := by
  subst hv
  refine ⟨?_, ?_, ?_, ?_⟩ <;> ext1 i hi <;> rw [vsub, Vector.getElem_ofFn]
  · exact (app4 a b c d i hi).1
  · exact (app4 a b c d i hi).2.1
  · exact (app4 a b c d i hi).2.2.1
  · exact (app4 a b c d i hi).2.2.2

theorem vsub_app2 (a b c d : Vector Byte 2) (v : Vector Byte 8)
    (hv : v = (a ++ b ++ c ++ d : Vector Byte (2 + 2 + 2 + 2))) :
    vsub v 0 2 = a ∧ vsub v 2 2 = b ∧ vsub v 4 2 = c ∧ vsub v 6 2 = d := by
  subst hv
  refine ⟨?_, ?_, ?_, ?_⟩ <;> ext1 i hi <;> rw [vsub, Vector.getElem_ofFn]
  · exact (app4 a b c d i hi).1
  · exact (app4 a b c d i hi).2.1
  · exact (app4 a b c d i hi).2.2.1
  · exact (app4 a b c d i hi).2.2.2

theorem vsub_app42 (a b : Vector Byte 4) (v : Vector Byte 8)
    (hv : v = (a ++ b : Vector Byte (4 + 4))) : vsub v 0 4 = a ∧ vsub v 4 4 = b := by
  subst hv
  refine ⟨?_, ?_⟩ <;> ext1 i hi <;> rw [vsub, Vector.getElem_ofFn]
  · rw [Vector.getElem_append_left (by omega)]; simp
  · rw [Vector.getElem_append_right (by omega) (by omega)]; simp

theorem rw16 (w : BitVec 16) : read16le (write16le w) = w ∧ read16be (write16be w) = w := by
  exact ⟨(read_write w 0 0).1, (read_write w 0 0).2.1⟩

theorem rw32 (w : BitVec 32) : read32le (write32le w) = w ∧ read32be (write32be w) = w := by
  exact ⟨(read_write 0 w 0).2.2.1, (read_write 0 w 0).2.2.2.1⟩

theorem wr16 (s : Vector Byte 2) : write16le (read16le s) = s ∧ write16be (read16be s) = s := by
  have h := write_read s (Vector.replicate _ 0) (Vector.replicate _ 0)
  exact ⟨h.1, h.2.1⟩

theorem wr32 (s : Vector Byte 4) : write32le (read32le s) = s ∧ write32be (read32be s) = s := by
  have h := write_read (Vector.replicate _ 0) s (Vector.replicate _ 0)
  exact ⟨h.2.2.1, h.2.2.2.1⟩

theorem app_vsub4 (v : Vector Byte 16) :
    (vsub v 0 4 ++ vsub v 4 4 ++ vsub v 8 4 ++ vsub v 12 4 : Vector Byte (4 + 4 + 4 + 4)) = v := by
  refine Vector.ext fun i hi => ?_
  rcases (show i < 4 ∨ (4 ≤ i ∧ i < 8) ∨ (8 ≤ i ∧ i < 12) ∨ 12 ≤ i by omega) with h | h | h | h
  · have := (app4 (vsub v 0 4) (vsub v 4 4) (vsub v 8 4) (vsub v 12 4) i h).1
    simp only [Nat.zero_add] at this
    rw [this, vsub, Vector.getElem_ofFn]; simp
  · obtain ⟨j, rfl⟩ := Nat.exists_eq_add_of_le h.1
    rw [(app4 (vsub v 0 4) (vsub v 4 4) (vsub v 8 4) (vsub v 12 4) j (by omega)).2.1, vsub,
      Vector.getElem_ofFn]
  · obtain ⟨j, rfl⟩ := Nat.exists_eq_add_of_le h.1
    exact (app4 (vsub v 0 4) (vsub v 4 4) (vsub v 8 4) (vsub v 12 4) j (by omega)).2.2.1.trans
      (by rw [vsub, Vector.getElem_ofFn])
  · obtain ⟨j, rfl⟩ := Nat.exists_eq_add_of_le h
    exact (app4 (vsub v 0 4) (vsub v 4 4) (vsub v 8 4) (vsub v 12 4) j (by omega)).2.2.2.trans
      (by rw [vsub, Vector.getElem_ofFn])

theorem app_vsub2 (v : Vector Byte 8) :
    (vsub v 0 2 ++ vsub v 2 2 ++ vsub v 4 2 ++ vsub v 6 2 : Vector Byte (2 + 2 + 2 + 2)) = v := by
  refine Vector.ext fun i hi => ?_
  rcases (show i < 2 ∨ (2 ≤ i ∧ i < 4) ∨ (4 ≤ i ∧ i < 6) ∨ 6 ≤ i by omega) with h | h | h | h
  · have := (app4 (vsub v 0 2) (vsub v 2 2) (vsub v 4 2) (vsub v 6 2) i h).1
    simp only [Nat.zero_add] at this
    rw [this, vsub, Vector.getElem_ofFn]; simp
  · obtain ⟨j, rfl⟩ := Nat.exists_eq_add_of_le h.1
    exact (app4 (vsub v 0 2) (vsub v 2 2) (vsub v 4 2) (vsub v 6 2) j (by omega)).2.1.trans
      (by rw [vsub, Vector.getElem_ofFn])
  · obtain ⟨j, rfl⟩ := Nat.exists_eq_add_of_le h.1
    exact (app4 (vsub v 0 2) (vsub v 2 2) (vsub v 4 2) (vsub v 6 2) j (by omega)).2.2.1.trans
      (by rw [vsub, Vector.getElem_ofFn])
  · obtain ⟨j, rfl⟩ := Nat.exists_eq_add_of_le h
    exact (app4 (vsub v 0 2) (vsub v 2 2) (vsub v 4 2) (vsub v 6 2) j (by omega)).2.2.2.trans
      (by rw [vsub, Vector.getElem_ofFn])

theorem app_vsub42 (v : Vector Byte 8) :
    (vsub v 0 4 ++ vsub v 4 4 : Vector Byte (4 + 4)) = v := by
  refine Vector.ext fun i hi => ?_
  rcases (show i < 4 ∨ 4 ≤ i by omega) with h | h
  · rw [Vector.getElem_append_left (by omega), vsub, Vector.getElem_ofFn]; simp
  · rw [Vector.getElem_append_right (by omega) (by omega), vsub, Vector.getElem_ofFn]
    congr 1; show 4 + (i - 4) = i; omega

@[simp] theorem load_store4be (q : Quad) : load4be (store4be q) = q := by
  have h := vsub_app4 _ _ _ _ (store4be q) rfl
  rw [load4be, h.1, h.2.1, h.2.2.1, h.2.2.2, (rw32 _).2, (rw32 _).2, (rw32 _).2, (rw32 _).2]

@[simp] theorem load_store4le (q : Quad) : load4le (store4le q) = q := by
  have h := vsub_app4 _ _ _ _ (store4le q) rfl
  rw [load4le, h.1, h.2.1, h.2.2.1, h.2.2.2, (rw32 _).1, (rw32 _).1, (rw32 _).1, (rw32 _).1]

@[simp] theorem load_store2be (q : Two) : load2be (store2be q) = q := by
  have h := vsub_app42 _ _ (store2be q) rfl
  rw [load2be, h.1, h.2, (rw32 _).2, (rw32 _).2]

@[simp] theorem load_store4x16le (q : Quad16) : load4x16le (store4x16le q) = q := by
  have h := vsub_app2 _ _ _ _ (store4x16le q) rfl
  rw [load4x16le, h.1, h.2.1, h.2.2.1, h.2.2.2, (rw16 _).1, (rw16 _).1, (rw16 _).1, (rw16 _).1]

@[simp] theorem load_store4x16be (q : Quad16) : load4x16be (store4x16be q) = q := by
  have h := vsub_app2 _ _ _ _ (store4x16be q) rfl
  rw [load4x16be, h.1, h.2.1, h.2.2.1, h.2.2.2, (rw16 _).2, (rw16 _).2, (rw16 _).2, (rw16 _).2]

@[simp] theorem store_load4be (v : Vector Byte 16) : store4be (load4be v) = v := by
  rw [store4be, load4be, (wr32 _).2, (wr32 _).2, (wr32 _).2, (wr32 _).2, app_vsub4]

@[simp] theorem store_load4le (v : Vector Byte 16) : store4le (load4le v) = v := by
  rw [store4le, load4le, (wr32 _).1, (wr32 _).1, (wr32 _).1, (wr32 _).1, app_vsub4]

@[simp] theorem store_load2be (v : Vector Byte 8) : store2be (load2be v) = v := by
  rw [store2be, load2be, (wr32 _).2, (wr32 _).2, app_vsub42]

@[simp] theorem store_load4x16le (v : Vector Byte 8) : store4x16le (load4x16le v) = v := by
  rw [store4x16le, load4x16le, (wr16 _).1, (wr16 _).1, (wr16 _).1, (wr16 _).1, app_vsub2]

@[simp] theorem store_load4x16be (v : Vector Byte 8) : store4x16be (load4x16be v) = v := by
  rw [store4x16be, load4x16be, (wr16 _).2, (wr16 _).2, (wr16 _).2, (wr16 _).2, app_vsub2]

theorem xx {w : Nat} (a b : BitVec w) : a ^^^ b ^^^ b = a := by
  rw [BitVec.xor_assoc, BitVec.xor_self, BitVec.xor_zero]

end Torsion.Blkc
