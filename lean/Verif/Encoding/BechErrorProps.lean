import Verif.Encoding.BechErrors
import Verif.Encoding.Bech32Props

/-!
# Error detection of bech32 (C11)
-/
namespace Torsion
open Spec

/-- Number of positions where two strings differ. -/
def Spec.hamming (s t : List Byte) : Nat := (List.zip s t).countP (fun p => p.1 ≠ p.2)

theorem accepted_vals {s a b rest : List Byte} {const : BitVec 32} {out : DesOut}
    (h0 : NoNul s) (hs : s = a ++ 49 :: b) (hb : (49 : Byte) ∉ b)
    (h : bech32_deserialize (s ++ 0 :: rest) const = .ok out) (hr : out.ret = true) :
    ∃ vs : List Byte, (∀ v ∈ vs, v.toNat < 32) ∧ a.length + 1 + vs.length ≤ 90 ∧ 1 ≤ a.length ∧
      b.map lower = vs.map (fun d => bechChar d.toNat) ∧
      (vs.map (·.toNat)).foldl (polyStep 25 bech32Gen)
        ((hrpExpand (a.map lower)).foldl (polyStep 25 bech32Gen) 1) = const.toNat := by
  obtain ⟨out', ho', -, -, -, hret⟩ := bech32_deserialize_bounds h0 rest const
  rw [h] at ho'
  cases ho'
  obtain ⟨hrp, hh⟩ := hret hr
  have : out = ⟨hrp ++ [0], out.data, true⟩ := by cases out; simp_all
  rw [this, bech32_deserialize_iff h0] at h
  obtain ⟨-, g1, g2, g3, g4, chk, g5, g6, g7, g8⟩ := h
  have hlow : s.map lower = a.map lower ++ 49 :: b.map lower := by rw [hs]; simp [lower]
  have g36 : ∀ d ∈ out.data ++ chk, d.toNat < 32 := by
    intro d hd
    rcases List.mem_append.1 hd with h | h
    exacts [g3 d h, g6 d h]
  rw [hlow] at g7
  have n1 : (49 : Byte) ∉ b.map lower := by
    intro h
    obtain ⟨x, hx, he⟩ := List.mem_map.1 h
    rw [lower_one] at he
    exact hb (he ▸ hx)
  have n2 : (49 : Byte) ∉ (out.data ++ chk).map (fun d => bechChar d.toNat) := by
    intro hc
    obtain ⟨d, hd, he⟩ := List.mem_map.1 hc
    exact (bechChar_props ⟨d.toNat, g36 d hd⟩).1 he
  obtain ⟨e1, e2⟩ := split_unique g7 n1 n2
  have hlen : b.length = (out.data ++ chk).length := by
    have := congrArg List.length e2
    simpa using this
  have ha : a.length = hrp.length := by
    have := congrArg List.length e1
    simpa using this
  refine ⟨out.data ++ chk, g36, ?_, by omega, e2, ?_⟩
  · rw [hs] at g4
    simp at g4
    rw [← hlen]; omega
  · rw [e1, ← g8, polymod, List.foldl_append]

theorem hamming_vals : ∀ (vs ws : List Byte), (∀ v ∈ vs, v.toNat < 32) → (∀ v ∈ ws, v.toNat < 32) →
    (List.zipWith (· ^^^ ·) (vs.map (·.toNat)) (ws.map (·.toNat))).countP (· ≠ 0) =
      hamming (vs.map (fun d => bechChar d.toNat)) (ws.map (fun d => bechChar d.toNat))
  | [], _, _, _ => rfl
  | _ :: _, [], _, _ => rfl
  | v :: vs, w :: ws, hv, hw => by
    have ih := hamming_vals vs ws (fun x hx => hv x (by simp [hx])) (fun x hx => hw x (by simp [hx]))
    have hiff : (v.toNat ^^^ w.toNat ≠ 0) ↔ bechChar v.toNat ≠ bechChar w.toNat := by
      constructor
      · intro h h'
        apply h
        have := bechChar_inj ⟨_, hv v (by simp)⟩ ⟨_, hw w (by simp)⟩ h'
        simp only [Fin.mk.injEq] at this
        rw [this, Nat.xor_self]
      · intro h h'
        apply h
        rw [xor_zero_eq h']
    simp only [hamming] at ih
    simp only [List.map_cons, List.zipWith_cons_cons, List.countP_cons, hamming,
      List.zip_cons_cons, ih, decide_eq_true_eq]
    simp only [hiff]

theorem zip_xor_zero : ∀ (vs ws : List Byte), vs.length = ws.length →
    (∀ e ∈ List.zipWith (· ^^^ ·) (vs.map (·.toNat)) (ws.map (·.toNat)), e = 0) → vs = ws
  | [], [], _, _ => rfl
  | v :: vs, w :: ws, hl, h => by
    simp only [List.map_cons, List.zipWith_cons_cons, List.forall_mem_cons] at h
    rw [BitVec.eq_of_toNat_eq (xor_zero_eq h.1), zip_xor_zero vs ws (by simpa using hl) h.2]
  | [], _ :: _, h, _ => by simp at h
  | _ :: _, [], h, _ => by simp at h

theorem zip_xor_lt {vs ws : List Byte} (hv : ∀ v ∈ vs, v.toNat < 32) (hw : ∀ v ∈ ws, v.toNat < 32) :
    ∀ e ∈ List.zipWith (· ^^^ ·) (vs.map (·.toNat)) (ws.map (·.toNat)), e < 32 := by
  intro e he
  obtain ⟨i, hi, rfl⟩ := List.getElem_of_mem he
  rw [List.getElem_zipWith]
  simp only [List.length_zipWith, List.length_map] at hi
  simp only [List.getElem_map]
  exact Nat.xor_lt_two_pow (n := 5) (hv _ (List.getElem_mem _)) (hw _ (List.getElem_mem _))

theorem accepted_error {a b b' : List Byte} {const : BitVec 32}
    {r r' : List Byte} {o o' : DesOut}
    (h0 : NoNul (a ++ 49 :: b)) (h0' : NoNul (a ++ 49 :: b'))
    (hb : (49 : Byte) ∉ b) (hb' : (49 : Byte) ∉ b') (hl : b.length = b'.length)
    (h : bech32_deserialize ((a ++ 49 :: b) ++ 0 :: r) const = .ok o) (hr : o.ret = true)
    (h' : bech32_deserialize ((a ++ 49 :: b') ++ 0 :: r') const = .ok o') (hr' : o'.ret = true) :
    ∃ vs ws : List Byte, (∀ v ∈ vs, v.toNat < 32) ∧ (∀ v ∈ ws, v.toNat < 32) ∧
      b.map lower = vs.map (fun d => bechChar d.toNat) ∧
      b'.map lower = ws.map (fun d => bechChar d.toNat) ∧ vs.length ≤ 88 ∧
      vs.length = ws.length ∧
      (List.zipWith (· ^^^ ·) (vs.map (·.toNat)) (ws.map (·.toNat))).foldl
        (polyStep 25 bech32Gen) 0 = 0 := by
  obtain ⟨vs, v1, v2, v3, v4, v5⟩ := accepted_vals h0 rfl hb h hr
  obtain ⟨ws, w1, w2, w3, w4, w5⟩ := accepted_vals h0' rfl hb' h' hr'
  have e1 := congrArg List.length v4
  have e2 := congrArg List.length w4
  simp only [List.length_map] at e1 e2
  refine ⟨vs, ws, v1, w1, v4, w4, by omega, by omega, ?_⟩
  have := polyFold_diff 25 bech32Gen (vs.map (·.toNat)) (ws.map (·.toNat))
    ((hrpExpand (a.map lower)).foldl (polyStep 25 bech32Gen) 1)
    ((hrpExpand (a.map lower)).foldl (polyStep 25 bech32Gen) 1) (by simp; omega)
  rw [v5, w5, Nat.xor_self, Nat.xor_self] at this
  exact this.symm

/-- C11 (BIP 173): two accepted strings with the same prefix and data parts of equal length that
differ (ignoring case) in at most four characters of the data part are the same. Hence changing
one to four data characters of a valid string to other characters (different from the separator
`1`) is always detected. -/
theorem bech32_detects_four {a b b' : List Byte} {const : BitVec 32}
    {r r' : List Byte} {o o' : DesOut}
    (h0 : NoNul (a ++ 49 :: b)) (h0' : NoNul (a ++ 49 :: b'))
    (hb : (49 : Byte) ∉ b) (hb' : (49 : Byte) ∉ b') (hl : b.length = b'.length)
    (h : bech32_deserialize ((a ++ 49 :: b) ++ 0 :: r) const = .ok o) (hr : o.ret = true)
    (h' : bech32_deserialize ((a ++ 49 :: b') ++ 0 :: r') const = .ok o') (hr' : o'.ret = true)
    (hd : hamming (b.map lower) (b'.map lower) ≤ 4) :
    b.map lower = b'.map lower := by
  obtain ⟨vs, ws, v1, w1, v4, w4, hle, hlen, hz⟩ := accepted_error h0 h0' hb hb' hl h hr h' hr'
  rw [v4, w4, ← hamming_vals vs ws v1 w1] at hd
  have := bech_distance (by simp [hlen]; omega) (zip_xor_lt v1 w1) hd hz
  rw [v4, w4, zip_xor_zero vs ws hlen this]

/-- C11: changes confined to six consecutive characters of the data part are always detected. -/
theorem bech32_detects_burst {a b b' : List Byte} {const : BitVec 32}
    {r r' : List Byte} {o o' : DesOut}
    (h0 : NoNul (a ++ 49 :: b)) (h0' : NoNul (a ++ 49 :: b'))
    (hb : (49 : Byte) ∉ b) (hb' : (49 : Byte) ∉ b') (hl : b.length = b'.length)
    (h : bech32_deserialize ((a ++ 49 :: b) ++ 0 :: r) const = .ok o) (hr : o.ret = true)
    (h' : bech32_deserialize ((a ++ 49 :: b') ++ 0 :: r') const = .ok o') (hr' : o'.ret = true)
    (i : Nat) (hpre : b.take i = b'.take i) (hpost : b.drop (i + 6) = b'.drop (i + 6)) :
    b.map lower = b'.map lower := by
  obtain ⟨vs, ws, v1, w1, v4, w4, hle, hlen, hz⟩ := accepted_error h0 h0' hb hb' hl h hr h' hr'
  have hp1 : vs.take i = ws.take i := by
    have e : (vs.take i).map (fun d => bechChar d.toNat) =
        (ws.take i).map (fun d => bechChar d.toNat) := by
      rw [List.map_take, List.map_take, ← v4, ← w4, ← List.map_take, ← List.map_take, hpre]
    exact map_bechChar_inj (fun d hd => v1 d (List.mem_of_mem_take hd))
      (fun d hd => w1 d (List.mem_of_mem_take hd)) e
  have hp2 : vs.drop (i + 6) = ws.drop (i + 6) := by
    have e : (vs.drop (i + 6)).map (fun d => bechChar d.toNat) =
        (ws.drop (i + 6)).map (fun d => bechChar d.toNat) := by
      rw [List.map_drop, List.map_drop, ← v4, ← w4, ← List.map_drop, ← List.map_drop, hpost]
    exact map_bechChar_inj (fun d hd => v1 d (List.mem_of_mem_drop hd))
      (fun d hd => w1 d (List.mem_of_mem_drop hd)) e
  generalize hes : List.zipWith (· ^^^ ·) (vs.map (·.toNat)) (ws.map (·.toNat)) = es at hz
  have hself : ∀ l : List Byte, List.zipWith (· ^^^ ·) (l.map (·.toNat)) (l.map (·.toNat)) =
      List.replicate l.length 0 := by
    intro l
    induction l with
    | nil => rfl
    | cons x l ih =>
      rw [List.map_cons, List.zipWith_cons_cons, ih, Nat.xor_self, List.length_cons,
        List.replicate_succ]
  have t1 : es.take i = List.replicate (vs.take i).length 0 := by
    rw [← hes, List.take_zipWith, ← List.map_take, ← List.map_take, ← hp1, hself]
  have t2 : es.drop (i + 6) = List.replicate (vs.drop (i + 6)).length 0 := by
    rw [← hes, List.drop_zipWith, ← List.map_drop, ← List.map_drop, ← hp2, hself]
  have hdec : es = List.replicate (vs.take i).length 0 ++ (es.drop i).take 6 ++
      List.replicate (vs.drop (i + 6)).length 0 := by
    rw [← t1, ← t2]
    conv_lhs => rw [← List.take_append_drop i es, ← List.take_append_drop 6 (es.drop i),
      List.drop_drop, ← List.append_assoc]
  have hlt := zip_xor_lt v1 w1
  rw [hes] at hlt
  rw [hdec] at hz
  have hmid := bech_burst rfl (by rw [List.length_take]; omega)
    (fun v hv => hlt v (List.mem_of_mem_drop (List.mem_of_mem_take hv))) hz
  have hall : ∀ e ∈ es, e = 0 := by
    intro e he
    rw [hdec] at he
    rcases List.mem_append.1 he with he | he
    · rcases List.mem_append.1 he with he | he
      · exact List.eq_of_mem_replicate he
      · exact hmid e he
    · exact List.eq_of_mem_replicate he
  rw [v4, w4, zip_xor_zero vs ws hlen (by rw [hes]; exact hall)]

/-- Non-vacuity: a valid string, and one changed in four characters, which is rejected. -/
example : bech32_is (str "bc1qw508d6qejxtdg4y5r3zarvary0c5xw7kv8f3t4" ++ [0]) 1 = .ok true ∧
    bech32_is (str "bc1qq508d6qejxtdq4y5r3zarvary0c5xq7kv8f3q4" ++ [0]) 1 = .ok false ∧
    hamming (str "qw508d6qejxtdg4y5r3zarvary0c5xw7kv8f3t4")
      (str "qq508d6qejxtdq4y5r3zarvary0c5xq7kv8f3q4") = 4 := by decide +kernel

end Torsion
