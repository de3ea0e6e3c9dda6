import Verif.Encoding.BechTable
import Mathlib.Data.List.Basic

/-!
# Kernel-evaluated check of the Bech32 residue table (whole table, no sampling)
-/
namespace Torsion

/-! ## The finite check -/

/-- Look-up in the search tree (0 when absent); written with recursors so that the kernel
evaluates it quickly. -/
noncomputable def KTree.find (t : KTree) : Nat → Nat :=
  KTree.rec (fun _ => 0)
    (fun _ k v _ fa fb x => cond (Nat.beq x k) v (cond (Nat.ble x k) (fa x) (fb x))) t

noncomputable def check4col (t : KTree) (y : Nat) (col : List Nat) : Bool :=
  List.rec true (fun z _ ih => cond (Nat.beq (t.find (Nat.div (Nat.xor y z) 32)) 0) ih false) col

noncomputable def check4row (t : KTree) (y : Nat) (cols : List (List Nat)) : Bool :=
  List.rec true (fun c _ ih => cond (check4col t y c) ih false) cols

noncomputable def check4 (t : KTree) (cols : List (List Nat)) : List (List Nat) → Bool :=
  List.rec (fun _ => true)
    (fun col _ ih prev => cond (check4row t (col.headD 0) prev) (ih (col :: prev)) false) cols

theorem check4col_spec {t : KTree} {y : Nat} : ∀ {col : List Nat}, check4col t y col = true →
    ∀ z ∈ col, t.find ((y ^^^ z) / 32) = 0
  | [], _, z, hz => by simp at hz
  | w :: col, h, z, hz => by
    have h' : cond (Nat.beq (t.find ((y ^^^ w) / 32)) 0) (check4col t y col) false = true := h
    rcases hb : Nat.beq (t.find ((y ^^^ w) / 32)) 0 with _ | _
    · rw [hb] at h'; simp at h'
    · rw [hb] at h'
      rcases List.mem_cons.1 hz with rfl | hz
      · exact Nat.eq_of_beq_eq_true hb
      · exact check4col_spec h' z hz

theorem check4row_spec {t : KTree} {y : Nat} : ∀ {cols : List (List Nat)},
    check4row t y cols = true → ∀ col ∈ cols, ∀ z ∈ col, t.find ((y ^^^ z) / 32) = 0
  | [], _, c, hc => by simp at hc
  | w :: cols, h, c, hc => by
    have h' : cond (check4col t y w) (check4row t y cols) false = true := h
    rcases hb : check4col t y w with _ | _
    · rw [hb] at h'; simp at h'
    · rw [hb] at h'
      rcases List.mem_cons.1 hc with rfl | hc
      · exact check4col_spec hb
      · exact check4row_spec h' c hc

theorem check4_spec {t : KTree} : ∀ {cols prev : List (List Nat)}, check4 t cols prev = true →
    ∀ (j : Nat) (hj : j < cols.length) (i : Nat) (hi : i < j),
      ∀ z ∈ cols[i]'(by omega), t.find (((cols[j]'hj).headD 0 ^^^ z) / 32) = 0 := by
  have main : ∀ {cols prev : List (List Nat)}, check4 t cols prev = true →
      ∀ (j : Nat) (hj : j < cols.length),
        (∀ col ∈ prev, ∀ z ∈ col, t.find (((cols[j]'hj).headD 0 ^^^ z) / 32) = 0) ∧
        ∀ (i : Nat) (hi : i < j), ∀ z ∈ cols[i]'(by omega),
          t.find (((cols[j]'hj).headD 0 ^^^ z) / 32) = 0 := by
    intro cols
    induction cols with
    | nil => intro prev _ j hj; simp at hj
    | cons col cols ih =>
      intro prev h j hj
      have h' : cond (check4row t (col.headD 0) prev) (check4 t cols (col :: prev)) false = true := h
      rcases hb : check4row t (col.headD 0) prev with _ | _
      · rw [hb] at h'; simp at h'
      · rw [hb] at h'
        rcases j with _ | j
        · exact ⟨check4row_spec hb, fun i hi => by omega⟩
        · obtain ⟨i1, i2⟩ := ih h' j (by simpa using hj)
          refine ⟨fun c hc => i1 c (by simp [hc]), ?_⟩
          intro i hi
          rcases i with _ | i
          · exact i1 col (by simp)
          · exact i2 i (by omega)
  intro cols prev h j hj i hi
  exact (main h j hj).2 i hi

theorem check4_append {t : KTree} : ∀ {a b p : List (List Nat)}, check4 t a p = true →
    check4 t b (a.reverse ++ p) = true → check4 t (a ++ b) p = true
  | [], b, p, _, h => h
  | c :: a, b, p, h1, h2 => by
    have h' : cond (check4row t (c.headD 0) p) (check4 t a (c :: p)) false = true := h1
    show cond (check4row t (c.headD 0) p) (check4 t (a ++ b) (c :: p)) false = true
    rcases hb : check4row t (c.headD 0) p with _ | _
    · rw [hb] at h'; simp at h'
    · rw [hb] at h'
      exact check4_append h' (by simpa using h2)

/-- The check can be done in segments, which keeps the kernel's memory small. -/
theorem check4_segment {t : KTree} {cols : List (List Nat)} (a k : Nat)
    (h1 : check4 t (cols.take a) [] = true)
    (h2 : check4 t ((cols.drop a).take k) (cols.take a).reverse = true) :
    check4 t (cols.take (a + k)) [] = true := by
  rw [List.take_add]
  exact check4_append h1 (by simpa using h2)

set_option maxRecDepth 100000 in
theorem bech_check_0 :
    check4 bechTree ((bechCols.drop 0).take 32) (bechCols.take 0).reverse = true := by
  decide +kernel

set_option maxRecDepth 100000 in
theorem bech_check_1 :
    check4 bechTree ((bechCols.drop 32).take 13) (bechCols.take 32).reverse = true := by
  decide +kernel

set_option maxRecDepth 100000 in
theorem bech_check_2 :
    check4 bechTree ((bechCols.drop 45).take 11) (bechCols.take 45).reverse = true := by
  decide +kernel

set_option maxRecDepth 100000 in
theorem bech_check_3 :
    check4 bechTree ((bechCols.drop 56).take 9) (bechCols.take 56).reverse = true := by
  decide +kernel

set_option maxRecDepth 100000 in
theorem bech_check_4 :
    check4 bechTree ((bechCols.drop 65).take 8) (bechCols.take 65).reverse = true := by
  decide +kernel

set_option maxRecDepth 100000 in
theorem bech_check_5 :
    check4 bechTree ((bechCols.drop 73).take 7) (bechCols.take 73).reverse = true := by
  decide +kernel

set_option maxRecDepth 100000 in
theorem bech_check_6 :
    check4 bechTree ((bechCols.drop 80).take 20) (bechCols.take 80).reverse = true := by
  decide +kernel

theorem bech_cols_length : bechCols.length ≤ 100 := by decide +kernel

/-- No residue `x^c + x^b e` agrees above the lowest symbol with a residue `x^a e'`. -/
theorem bech_check : check4 bechTree bechCols [] = true := by
  have h0 : check4 bechTree (bechCols.take 0) [] = true := rfl
  have h1 := check4_segment 0 32 h0 bech_check_0
  have h2 := check4_segment 32 13 h1 bech_check_1
  have h3 := check4_segment 45 11 h2 bech_check_2
  have h4 := check4_segment 56 9 h3 bech_check_3
  have h5 := check4_segment 65 8 h4 bech_check_4
  have h6 := check4_segment 73 7 h5 bech_check_5
  have h7 := check4_segment 80 20 h6 bech_check_6
  rwa [List.take_of_length_le bech_cols_length] at h7

/-- Every entry is found under its own key, with its own exponent and symbol. -/
noncomputable def checkKeys (t : KTree) (col : List Nat) : Nat → Bool :=
  List.rec (fun _ => true)
    (fun z _ ih v => cond (Nat.beq (t.find (Nat.div z 32)) v) (ih (Nat.succ v)) false) col

noncomputable def checkAll (t : KTree) (cols : List (List Nat)) : Nat → Bool :=
  List.rec (fun _ => true)
    (fun c _ ih v => cond (checkKeys t c (Nat.add v 1)) (ih (Nat.add v 32)) false) cols

set_option maxRecDepth 100000 in
theorem bech_keys : checkAll bechTree bechCols 32 = true := by decide +kernel

theorem checkKeys_spec {t : KTree} : ∀ {col : List Nat} {v : Nat}, checkKeys t col v = true →
    ∀ (i : Nat) (hi : i < col.length), t.find (col[i] / 32) = v + i
  | [], _, _, i, hi => by simp at hi
  | z :: col, v, h, i, hi => by
    have h' : cond (Nat.beq (t.find (z / 32)) v) (checkKeys t col (v + 1)) false = true := h
    rcases hb : Nat.beq (t.find (z / 32)) v with _ | _
    · rw [hb] at h'; simp at h'
    · rw [hb] at h'
      rcases i with _ | i
      · exact Nat.eq_of_beq_eq_true hb
      · have := checkKeys_spec h' i (by simpa using hi)
        rw [List.getElem_cons_succ, this]; omega

theorem checkAll_spec {t : KTree} : ∀ {cols : List (List Nat)} {v : Nat},
    checkAll t cols v = true → ∀ (j : Nat) (hj : j < cols.length) (i : Nat)
      (hi : i < (cols[j]).length), t.find ((cols[j])[i] / 32) = v + 32 * j + 1 + i
  | [], _, _, j, hj => by simp at hj
  | c :: cols, v, h, j, hj => by
    have h' : cond (checkKeys t c (v + 1)) (checkAll t cols (v + 32)) false = true := h
    rcases hb : checkKeys t c (v + 1) with _ | _
    · rw [hb] at h'; simp at h'
    · rw [hb] at h'
      rcases j with _ | j
      · intro i hi
        have := checkKeys_spec hb i hi
        simp only [List.getElem_cons_zero]
        rw [this]
      · intro i hi
        have := checkAll_spec h' j (by simpa using hj) i hi
        simp only [List.getElem_cons_succ]
        rw [this]
        omega

end Torsion
