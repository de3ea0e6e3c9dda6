import Verif.Hash.StdKec

/-!
# The compression functions against their standards: Whirlpool
-/
namespace Torsion.Cmp
open Spec Spec.Std Mac Strm

/-- Byte `j` of a row, the first byte the highest. -/
def rowByte (w : BitVec 64) (j : Fin 8) : Byte := w.extractLsb' (56 - 8 * j.val) 8

/-- The table number `k` of the library. -/
def whC (k : Fin 8) : Vector (BitVec 64) 256 :=
  match k with
  | 0 => whirlpool_C0
  | 1 => whirlpool_C1
  | 2 => whirlpool_C2
  | 3 => whirlpool_C3
  | 4 => whirlpool_C4
  | 5 => whirlpool_C5
  | 6 => whirlpool_C6
  | 7 => whirlpool_C7

/-- The bytes that table `k` must hold for the byte `x`. -/
def whLine (k : Fin 8) (x : Nat) : List Byte :=
  (List.finRange 8).map fun j : Fin 8 => whMul (whS (BitVec.ofNat 8 x)) whCir[j - k]

theorem wh_table0 : (whC 0).toList.map (fun w => (List.finRange 8).map (rowByte w)) =
    (List.range 256).map (whLine 0) := by
  set_option maxRecDepth 100000 in decide +kernel

theorem wh_table1 : (whC 1).toList.map (fun w => (List.finRange 8).map (rowByte w)) =
    (List.range 256).map (whLine 1) := by
  set_option maxRecDepth 100000 in decide +kernel

theorem wh_table2 : (whC 2).toList.map (fun w => (List.finRange 8).map (rowByte w)) =
    (List.range 256).map (whLine 2) := by
  set_option maxRecDepth 100000 in decide +kernel

theorem wh_table3 : (whC 3).toList.map (fun w => (List.finRange 8).map (rowByte w)) =
    (List.range 256).map (whLine 3) := by
  set_option maxRecDepth 100000 in decide +kernel

theorem wh_table4 : (whC 4).toList.map (fun w => (List.finRange 8).map (rowByte w)) =
    (List.range 256).map (whLine 4) := by
  set_option maxRecDepth 100000 in decide +kernel

theorem wh_table5 : (whC 5).toList.map (fun w => (List.finRange 8).map (rowByte w)) =
    (List.range 256).map (whLine 5) := by
  set_option maxRecDepth 100000 in decide +kernel

theorem wh_table6 : (whC 6).toList.map (fun w => (List.finRange 8).map (rowByte w)) =
    (List.range 256).map (whLine 6) := by
  set_option maxRecDepth 100000 in decide +kernel

theorem wh_table7 : (whC 7).toList.map (fun w => (List.finRange 8).map (rowByte w)) =
    (List.range 256).map (whLine 7) := by
  set_option maxRecDepth 100000 in decide +kernel

theorem wh_table : ∀ k : Fin 8, (whC k).toList.map (fun w => (List.finRange 8).map (rowByte w)) =
    (List.range 256).map (whLine k)
  | 0 => wh_table0
  | 1 => wh_table1
  | 2 => wh_table2
  | 3 => wh_table3
  | 4 => wh_table4
  | 5 => wh_table5
  | 6 => wh_table6
  | 7 => wh_table7

theorem wh_entry (k : Fin 8) (x : Fin 256) (j : Fin 8) :
    rowByte (whC k)[x] j = whMul (whS (BitVec.ofNat 8 x.val)) whCir[j - k] := by
  have h := congrArg (fun l => l[x.val]?) (wh_table k)
  simp only [List.getElem?_map] at h
  rw [List.getElem?_eq_getElem (by simp), List.getElem?_eq_getElem (by simp)] at h
  simp only [Option.map_some, Option.some.injEq, List.getElem_range] at h
  have h2 := congrArg (fun l => l[j.val]?) h
  simp only [whLine, List.getElem?_map] at h2
  rw [List.getElem?_eq_getElem (by simp)] at h2
  simp only [Option.map_some, Option.some.injEq, List.getElem_finRange] at h2
  exact h2

theorem rowByte_xor (a b : BitVec 64) (j : Fin 8) : rowByte (a ^^^ b) j = rowByte a j ^^^ rowByte b j := by
  apply BitVec.eq_of_getLsbD_eq
  intro i hi
  simp [rowByte, hi]

theorem rowByte_ext (a b : BitVec 64) (h : ∀ j, rowByte a j = rowByte b j) : a = b := by
  apply BitVec.eq_of_getLsbD_eq
  intro i hi
  have h1 := congrArg (fun w => w.getLsbD (i % 8)) (h ⟨7 - i / 8, by omega⟩)
  simp only [rowByte, BitVec.getLsbD_extractLsb'] at h1
  have e : 56 - 8 * (7 - i / 8) + i % 8 = i := by omega
  rw [e] at h1
  simpa [Nat.mod_lt] using h1

theorem byteAt_eq (x : BitVec 64) (k : Fin 8) :
    BitVec.ofNat 8 (byteAt x (56 - 8 * k.val)).val = rowByte x k := by
  apply BitVec.eq_of_getLsbD_eq
  intro i hi
  simp only [byteAt, rowByte, BitVec.getLsbD_ofNat, BitVec.getLsbD_extractLsb']
  rw [BitVec.testBit_toNat]
  have : (255#64).getLsbD i = true := by
    interval_cases i <;> rfl
  simp [hi, this]

/-- The matrix of a vector of words. -/
def vMat (v : Vector (BitVec 64) 8) : WMat := whMat fun i => v[i]

theorem vMat_get (v : Vector (BitVec 64) 8) (i j : Fin 8) : vMat v i j = rowByte v[i] j := rfl

theorem wh_item (K : Vector (BitVec 64) 8) (i j k : Fin 8) (m : Nat) (hm : m = (8 - k.val + i.val) % 8)
    (h : m < 8) : rowByte (whC k)[byteAt K[m] (56 - 8 * k.val)] j =
      whMul (whPi (whGamma (vMat K)) i k) whCir[j - k] := by
  rw [wh_entry, byteAt_eq]
  have e : (i - k).val = m := by rw [hm, Fin.sub_def]
  simp only [whPi, whGamma, vMat_get, Fin.getElem_fin, e]

theorem row_eq (K : Vector (BitVec 64) 8) (i j : Fin 8) :
    rowByte (whirlpool_row K i.val) j = whTheta (whPi (whGamma (vMat K))) i j := by
  unfold whirlpool_row whTheta
  have hf : List.finRange 8 = [0, 1, 2, 3, 4, 5, 6, 7] := by decide
  rw [hf]
  simp only [List.foldl_cons, List.foldl_nil, rowByte_xor]
  have h0 := wh_item K i j 0 ((0 + i.val) % 8) (by simp) (by omega)
  have h1 := wh_item K i j 1 ((7 + i.val) % 8) (by simp) (by omega)
  have h2 := wh_item K i j 2 ((6 + i.val) % 8) (by simp) (by omega)
  have h3 := wh_item K i j 3 ((5 + i.val) % 8) (by simp) (by omega)
  have h4 := wh_item K i j 4 ((4 + i.val) % 8) (by simp) (by omega)
  have h5 := wh_item K i j 5 ((3 + i.val) % 8) (by simp) (by omega)
  have h6 := wh_item K i j 6 ((2 + i.val) % 8) (by simp) (by omega)
  have h7 := wh_item K i j 7 ((1 + i.val) % 8) (by simp) (by omega)
  have z : ∀ x : Byte, (0 : Byte) ^^^ x = x := fun x => BitVec.zero_xor
  rw [← h0, ← h1, ← h2, ← h3, ← h4, ← h5, ← h6, ← h7, z]
  rfl

theorem wh_rc : ∀ r : Fin 10, ∀ j : Fin 8,
    rowByte whirlpool_RC[r] j = whS (BitVec.ofNat 8 (8 * r.val + j.val)) := by
  set_option maxRecDepth 100000 in decide +kernel

theorem wh_round (s : Vector (BitVec 64) 8 × Vector (BitVec 64) 8) (r : Fin 10) :
    vMat (whirlpool_round s whirlpool_RC[r]).1 = whRho (whRC r.val) (vMat s.1) ∧
      vMat (whirlpool_round s whirlpool_RC[r]).2 =
        whRho (vMat (whirlpool_round s whirlpool_RC[r]).1) (vMat s.2) := by
  constructor
  · funext i j
    rw [vMat_get]
    unfold whirlpool_round whRho whSigma whRC
    simp only [Fin.getElem_fin]
    rw [Vector.getElem_set]
    by_cases e : i = 0
    · subst e
      have := wh_rc r j
      rw [if_pos (by rfl), if_pos rfl, rowByte_xor, ← this, ← row_eq]
      simp
    · have e' : 0 ≠ i.val := fun h => e (Fin.ext h.symm)
      rw [if_neg e', if_neg e, ← row_eq]
      simp
  · funext i j
    rw [vMat_get]
    unfold whRho whSigma
    rw [vMat_get, ← row_eq, ← rowByte_xor]
    congr 1
    unfold whirlpool_round
    simp

theorem wh_xor (a b : Vector (BitVec 64) 8) :
    vMat (Vector.ofFn fun i => b[i] ^^^ a[i]) = whSigma (vMat a) (vMat b) := by
  funext i j
  unfold whSigma
  rw [vMat_get, vMat_get, vMat_get, ← rowByte_xor]
  simp

theorem rowByte_row (r : Fin 8 → Byte) (j : Fin 8) : rowByte (whRow r) j = r j := by
  apply BitVec.eq_of_getLsbD_eq
  intro i hi
  unfold rowByte whRow
  simp only [BitVec.getLsbD_extractLsb', hi, decide_true, Bool.true_and, BitVec.getLsbD_append]
  fin_cases j <;> simp only [] <;> split_ifs <;> first | omega | (congr 1; omega)

theorem wh_rcs : whirlpool_RC.toList = (List.finRange 10).map fun r => whirlpool_RC[r] := by
  set_option maxRecDepth 100000 in decide +kernel

theorem whirlpool_eq (st : Vector (BitVec 64) 8) (c : Vector Byte 64) :
    whirlpool_transform st c = whirlpoolCompress st c.toList := by
  have hB : ∀ v, (∀ i : Fin 8, v i = (words64be (n := 8) c)[i]) → whMat v = vMat (words64be (n := 8) c) := by
    intro v hv
    unfold vMat
    congr 1
    exact funext hv
  apply Vector.ext
  intro i hi
  apply rowByte_ext
  intro j
  unfold whirlpoolCompress
  rw [Vector.getElem_ofFn, rowByte_row, hB _ fun i => (word64be (n := 8) c i).symm]
  unfold whirlpool_transform whCompress
  simp only [Vector.getElem_ofFn]
  rw [wh_rcs, List.foldl_map, show (whMat fun i => st[i]) = vMat st from rfl]
  have key := foldl_finRange 10
    (fun s (t : Fin 10) => whirlpool_round s whirlpool_RC[t])
    (fun (r : Nat) (_ : Fin 10) => r + 1)
    (fun t s r => r = t ∧ vMat s.1 = whKey (vMat st) t ∧
      vMat s.2 = whEnc (vMat st) (vMat (words64be (n := 8) c)) t)
    (st, Vector.ofFn fun i => (words64be (n := 8) c)[i] ^^^ st[i]) 0
    ⟨rfl, rfl, wh_xor _ _⟩
    (fun t s r ih => by
      obtain ⟨h1, h2, h3⟩ := ih
      have w := wh_round s t
      refine ⟨by omega, ?_, ?_⟩
      · rw [w.1, h2, whKey]
      · rw [w.2, w.1, h2, h3, whEnc, whKey])
  have k2 := key.2.2
  rw [← k2, rowByte_xor, rowByte_xor]
  simp only [vMat_get]
  generalize List.foldl _ _ _ = z
  simp only [Fin.getElem_fin]
  ac_rfl

end Torsion.Cmp
