import Verif.Hash.StdSha

/-!
# The compression functions against their standards: BLAKE2, Keccak, MD2
-/
namespace Torsion.Cmp
open Spec Spec.Std Mac Strm

/-! ## BLAKE2 -/

theorem blake2G_eq {w : Nat} (rt : BitVec w → Nat → BitVec w) (R1 R2 R3 R4 : Nat)
    (h1 : ∀ x, rt x R1 = x.rotateRight R1) (h2 : ∀ x, rt x R2 = x.rotateRight R2)
    (h3 : ∀ x, rt x R3 = x.rotateRight R3) (h4 : ∀ x, rt x R4 = x.rotateRight R4)
    (V : Vector (BitVec w) 16) (x y : BitVec w) (a b c d : Fin 16) :
    blake2_G rt R1 R2 R3 R4 x y V a b c d = blake2G #v[R1, R2, R3, R4] V a b c d x y := by
  unfold blake2_G blake2G
  simp only [h1, h2, h3, h4, ← BitVec.add_assoc]
  rfl

theorem blake2R_eq {w : Nat} (rt : BitVec w → Nat → BitVec w) (R1 R2 R3 R4 : Nat)
    (h1 : ∀ x, rt x R1 = x.rotateRight R1) (h2 : ∀ x, rt x R2 = x.rotateRight R2)
    (h3 : ∀ x, rt x R3 = x.rotateRight R3) (h4 : ∀ x, rt x R4 = x.rotateRight R4)
    (W : Vector (BitVec w) 16) (m : Fin 16 → BitVec w) (hm : ∀ i : Fin 16, W[i] = m i)
    (S : Fin 16 → Fin 16) (i : Nat) (hS : ∀ j : Fin 16, S j = blake2Sigma[i % 10][j])
    (V : Vector (BitVec w) 16) :
    blake2_R rt R1 R2 R3 R4 W S V = blake2Round #v[R1, R2, R3, R4] m V i := by
  unfold blake2_R blake2Round
  simp only [blake2G_eq rt R1 R2 R3 R4 h1 h2 h3 h4, hm, hS]
  rfl

theorem blake2b_table : ∀ (r : Fin 12) (j : Fin 16),
    blake2b_S[16 * r.val + j.val] = blake2Sigma[r.val % 10][j] := by decide +kernel

theorem blake2s_table : ∀ (r : Fin 10) (j : Fin 16),
    blake2s_S[16 * r.val + j.val] = blake2Sigma[r.val % 10][j] := by decide +kernel

theorem foldl_range {α : Type} (n : Nat) (f : α → Nat → α) (a : α) :
    (List.range n).foldl f a = (List.finRange n).foldl (fun a t => f a t.val) a := by
  rw [← List.map_coe_finRange_eq_range, List.foldl_map]

theorem blake2b_eq (h : Vector (BitVec 64) 8) (t0 t1 : BitVec 64) (c : Vector Byte 128)
    (f0 : BitVec 64) : blake2b_compress h t0 t1 c f0 = blake2bF h t0 t1 c.toList f0 := by
  have e : ∀ V, (List.finRange 12).foldl (fun V r => blake2_R rotr64 32 24 16 63 (words64le (n := 16) c)
      (fun i => blake2b_S[16 * r.val + i.val]) V) V =
      (List.range 12).foldl (blake2Round #v[32, 24, 16, 63] fun i => leWord 64 c.toList i) V := by
    intro V
    rw [foldl_range]
    exact foldl_finRange 12 _ _ (fun _ a b => a = b) V V rfl fun t a b hab => by
      rw [hab]
      exact blake2R_eq rotr64 32 24 16 63 (fun x => rotr64_eq x _ (by decide))
        (fun x => rotr64_eq x _ (by decide)) (fun x => rotr64_eq x _ (by decide))
        (fun x => rotr64_eq x _ (by decide)) _ _ (word64le (n := 16) c) _ t.val (blake2b_table t) b
  unfold blake2b_compress blake2bF blake2F
  simp only [e]
  have v : (#v[h[0], h[1], h[2], h[3], h[4], h[5], h[6], h[7], blake2b_iv[0], blake2b_iv[1],
      blake2b_iv[2], blake2b_iv[3], blake2b_iv[4] ^^^ t0, blake2b_iv[5] ^^^ t1, blake2b_iv[6] ^^^ f0,
      blake2b_iv[7]] : Vector (BitVec 64) 16) =
      (let v : Vector (BitVec 64) 16 := h ++ blake2bIV
      let v := v.set 12 (v[12] ^^^ t0)
      let v := v.set 13 (v[13] ^^^ t1)
      v.set 14 (v[14] ^^^ f0)) := by
    obtain ⟨⟨l⟩, hl⟩ := h
    match l, hl with
    | [s0, s1, s2, s3, s4, s5, s6, s7], _ => rfl
  rw [v]
  simp only [BitVec.xor_assoc]

theorem blake2s_eq (h : Vector (BitVec 32) 8) (t0 t1 : BitVec 32) (c : Vector Byte 64)
    (f0 : BitVec 32) : blake2s_compress h t0 t1 c f0 = blake2sF h t0 t1 c.toList f0 := by
  have e : ∀ V, (List.finRange 10).foldl (fun V r => blake2_R rotr32 16 12 8 7 (words32le (n := 16) c)
      (fun i => blake2s_S[16 * r.val + i.val]) V) V =
      (List.range 10).foldl (blake2Round #v[16, 12, 8, 7] fun i => leWord 32 c.toList i) V := by
    intro V
    rw [foldl_range]
    exact foldl_finRange 10 _ _ (fun _ a b => a = b) V V rfl fun t a b hab => by
      rw [hab]
      exact blake2R_eq rotr32 16 12 8 7 (fun x => rotr32_eq x _ (by decide))
        (fun x => rotr32_eq x _ (by decide)) (fun x => rotr32_eq x _ (by decide))
        (fun x => rotr32_eq x _ (by decide)) _ _ (word32le c) _ t.val (blake2s_table t) b
  unfold blake2s_compress blake2sF blake2F
  simp only [e]
  have v : (#v[h[0], h[1], h[2], h[3], h[4], h[5], h[6], h[7], blake2s_iv[0], blake2s_iv[1],
      blake2s_iv[2], blake2s_iv[3], blake2s_iv[4] ^^^ t0, blake2s_iv[5] ^^^ t1, blake2s_iv[6] ^^^ f0,
      blake2s_iv[7]] : Vector (BitVec 32) 16) =
      (let v : Vector (BitVec 32) 16 := h ++ blake2sIV
      let v := v.set 12 (v[12] ^^^ t0)
      let v := v.set 13 (v[13] ^^^ t1)
      v.set 14 (v[14] ^^^ f0)) := by
    obtain ⟨⟨l⟩, hl⟩ := h
    match l, hl with
    | [s0, s1, s2, s3, s4, s5, s6, s7], _ => rfl
  rw [v]
  simp only [BitVec.xor_assoc]

/-! ## Keccak -/

theorem kec_theta (A : Vector (BitVec 64) 25) : kLanes (keccak_theta A) = kTheta (kLanes A) := by
  funext x y
  unfold keccak_theta kTheta
  simp only [rotl64_eq _ 1 (by decide)]
  fin_cases x <;> fin_cases y <;> rfl

theorem rho_get (l : List (Fin 25 × Nat)) (A : Vector (BitVec 64) 25) (i : Fin 25) :
    (l.foldl (fun A p => A.set p.1 (rotl64 A[p.1] p.2)) A)[i] =
      (l.filter fun p => p.1 = i).foldl (fun w p => rotl64 w p.2) A[i] := by
  induction l generalizing A with
  | nil => rfl
  | cons p l ih =>
    rw [List.foldl_cons, ih, List.filter_cons]
    by_cases e : p.1 = i
    · subst e; simp
    · have e' : p.1.val ≠ i.val := fun h => e (Fin.ext h)
      simp [e, e']

/-- The index of the lane `(x, y)`. -/
def lane (x y : Fin 5) : Fin 25 := ⟨5 * y.val + x.val, by omega⟩

theorem rho_table : ∀ x y : Fin 5, keccak_rho_list.filter (fun p => p.1 = lane x y) =
    if x = 0 ∧ y = 0 then [] else [(lane x y, kOffset x y % 64)] := by
  set_option maxRecDepth 100000 in decide +kernel

theorem kec_rho (A : Vector (BitVec 64) 25) : kLanes (keccak_rho A) = kRho (kLanes A) := by
  funext x y
  have h := rho_get keccak_rho_list A (lane x y)
  rw [rho_table] at h
  refine h.trans ?_
  unfold kRho
  by_cases e : x = 0 ∧ y = 0
  · obtain ⟨rfl, rfl⟩ := e
    rw [if_pos ⟨rfl, rfl⟩, show kOffset 0 0 = 0 by decide +kernel]
    have e : (kLanes A 0 0).rotateLeft 0 = kLanes A 0 0 := by
      rw [BitVec.rotateLeft_def]; simp [BitVec.ushiftRight_eq_zero]
    rw [e]
    rfl
  · rw [if_neg e, List.foldl_cons, List.foldl_nil, rotl64_eq _ _ (Nat.mod_lt _ (by decide)),
      BitVec.rotateLeft_mod_eq_rotateLeft]
    rfl

/-- The moves of the step `π` on any vector. -/
def piMoves {α : Type} (l : List (Fin 25 × Fin 25)) (A : Vector α 25) : Vector α 25 :=
  l.foldl (fun A p => A.set p.1 A[p.2]) A

theorem piMoves_map {α β : Type} (f : α → β) (l : List (Fin 25 × Fin 25)) (A : Vector α 25) :
    piMoves l (A.map f) = (piMoves l A).map f := by
  induction l generalizing A with
  | nil => rfl
  | cons p l ih =>
    unfold piMoves at ih ⊢
    rw [List.foldl_cons, List.foldl_cons, ← ih]
    congr 1
    rw [Vector.map_set]
    simp

theorem pi_table : ∀ x y : Fin 5,
    ((piMoves keccak_pi_list (Vector.ofFn fun i : Fin 25 => i)).set 10 1)[lane x y] =
      lane (x + 3 * y) x := by
  set_option maxRecDepth 100000 in decide +kernel

theorem kec_pi (A : Vector (BitVec 64) 25) : kLanes (keccak_pi A) = kPi (kLanes A) := by
  funext x y
  have hA : A = (Vector.ofFn fun i : Fin 25 => i).map fun i => A[i] := by
    apply Vector.ext
    intro i hi
    simp
  have h : keccak_pi A =
      ((piMoves keccak_pi_list (Vector.ofFn fun i : Fin 25 => i)).set 10 1).map fun i => A[i] := by
    rw [Vector.map_set, ← piMoves_map, ← hA]
    rfl
  have h2 : kLanes (keccak_pi A) x y = (keccak_pi A)[lane x y] := rfl
  have h3 := pi_table x y
  simp only [Fin.getElem_fin] at h2 h3
  rw [h2, h, Vector.getElem_map, h3]
  rfl

theorem kec_chi (A : Vector (BitVec 64) 25) : kLanes (keccak_chi A) = kChi (kLanes A) := by
  funext x y
  unfold keccak_chi kChi
  fin_cases x <;> fin_cases y <;> rfl

theorem kec_table : ∀ i : Fin 24, keccak_RC[i] = kRC i.val := by
  set_option maxRecDepth 100000 in decide +kernel

theorem kec_round (A : Vector (BitVec 64) 25) (i : Nat) :
    kLanes (keccak_round A (kRC i)) = kRound (kLanes A) i := by
  unfold keccak_round kRound
  rw [← kec_theta, ← kec_rho, ← kec_pi, ← kec_chi]
  generalize keccak_chi (keccak_pi (keccak_rho (keccak_theta A))) = B
  funext x y
  simp only [kIota, kLanes]
  by_cases e : x = 0 ∧ y = 0
  · obtain ⟨rfl, rfl⟩ := e
    rw [if_pos ⟨rfl, rfl⟩]
    simp
  · rw [if_neg e, Vector.getElem_set_ne]
    intro h
    apply e
    constructor <;> apply Fin.ext <;> simp <;> omega

theorem kec_eq (A : Vector (BitVec 64) 25) : kLanes (keccak_compress A) = keccakF (kLanes A) := by
  unfold keccak_compress keccakF
  have h : keccak_RC.toList = (List.finRange 24).map fun i => kRC i.val := by
    set_option maxRecDepth 100000 in decide +kernel
  rw [h, List.foldl_map, foldl_range]
  exact foldl_finRange 24 _ _ (fun _ A B => kLanes A = B) A (kLanes A) rfl fun t a b hab => by
    rw [kec_round, hab]

theorem keccak_eq (A : Vector (BitVec 64) 25) : keccak_compress A = keccakPerm A := by
  apply Vector.ext
  intro i hi
  unfold keccakPerm
  rw [Vector.getElem_ofFn, ← kec_eq]
  simp only [kLanes]
  congr 1
  omega

/-! ## MD2 -/

theorem md2_table : md2_K.toList = md2Table.map (BitVec.ofNat 8) := by
  set_option maxRecDepth 100000 in decide +kernel

theorem md2_k_eq (t : Byte) : md2_k t = md2S t := by
  unfold md2_k md2S
  have h : md2_K.toList[t.toNat]? = (md2Table.map (BitVec.ofNat 8))[t.toNat]? := by rw [md2_table]
  rw [List.getElem?_map] at h
  have hl : t.toNat < 256 := t.isLt
  rw [List.getElem?_eq_getElem (by simpa using hl)] at h
  rw [List.getD_eq_getElem?_getD]
  cases hh : md2Table[t.toNat]? with
  | none => rw [hh] at h; simp at h
  | some v => rw [hh] at h; simpa using h

theorem md2_pass_eq (X : Nat → Byte) (j : Nat) : ∀ n k,
    md2_pass ((List.range' k n).map (md2X X j)) (md2t X j k) =
      (md2t X j (k + n), (List.range' k n).map (md2X X (j + 1)))
  | 0, k => rfl
  | n + 1, k => by
    have h1 : md2X X j k ^^^ md2_k (md2t X j k) = md2X X (j + 1) k := by
      rw [md2_k_eq, md2X]
    have h2 : md2X X (j + 1) k = md2t X j (k + 1) := by rw [md2t]
    rw [List.range'_succ, List.map_cons, md2_pass]
    simp only [h1]
    rw [h2, md2_pass_eq X j n (k + 1), List.map_cons, h2]
    simp only [Nat.add_assoc, Nat.add_comm 1 n]

theorem md2_rounds_eq (X : Nat → Byte) : ∀ n j,
    md2_rounds n j (md2t X j 0) ((List.range' 0 48).map (md2X X j)) =
      (List.range' 0 48).map (md2X X (j + n))
  | 0, j => rfl
  | n + 1, j => by
    rw [md2_rounds, md2_pass_eq X j 48 0]
    simp only
    have h : md2t X j (0 + 48) + BitVec.ofNat 8 j = md2t X (j + 1) 0 := by
      rw [md2t, md2t]
    rw [h, md2_rounds_eq X n (j + 1)]
    congr 2
    omega

theorem md2_check_eq (c b : Vector Byte 16) : ∀ n k l, n + k = 16 →
    (∀ h : k < 16, c[k] ^^^ md2S (b[k] ^^^ l) = md2C c b k) →
    md2_check l (c.toList.drop k) (b.toList.drop k) = (List.range' k n).map (md2C c b)
  | 0, k, l, h, _ => by
    rw [List.drop_of_length_le (by simp; omega)]
    rfl
  | n + 1, k, l, h, hk => by
    have hkl : k < 16 := by omega
    rw [List.drop_eq_getElem_cons (l := c.toList) (by simpa using hkl),
      List.drop_eq_getElem_cons (l := b.toList) (by simpa using hkl), md2_check, List.range'_succ,
      List.map_cons]
    simp only [md2_k_eq, Vector.getElem_toList]
    rw [hk hkl, md2_check_eq c b n (k + 1) _ (by omega) (fun h => by rw [md2C, dif_pos h])]

theorem md2_eq (s : Vector Byte 16 × Vector Byte 16) (b : Vector Byte 16) :
    md2_transform s b = md2Step s b := by
  have hb : s.1.toList ++ b.toList ++ List.zipWith (· ^^^ ·) b.toList s.1.toList =
      (List.range' 0 48).map (md2X (md2Buf s.1 b) 0) := by
    apply List.ext_getElem
    · simp
    · intro i h1 h2
      simp only [List.getElem_map, List.getElem_range', md2X, md2Buf]
      simp at h2
      by_cases e : i < 16
      · simp [e]
      · by_cases e2 : i < 32
        · simp [e, e2, List.getElem_append, show i - 16 < 16 by omega]
        · simp [e, e2, List.getElem_append, show ¬ i - 16 < 16 by omega, h2, Nat.sub_sub]
  have h0 : (0 : Byte) = md2t (md2Buf s.1 b) 0 0 := by rw [md2t]
  unfold md2_transform md2Step md2State
  refine Prod.ext ?_ ?_
  · apply Vector.ext
    intro i hi
    simp only [Vector.getElem_ofFn]
    simp only [hb]
    simp only [h0, md2_rounds_eq, List.getElem_map, List.getElem_range']
    simp
  · apply Vector.ext
    intro i hi
    have := md2_check_eq s.2 b 16 0 s.2[15] rfl (fun _ => by rw [md2C])
    simp only [List.drop_zero] at this
    simp only [Vector.getElem_ofFn, this, List.getElem_map, List.getElem_range']
    simp

end Torsion.Cmp
