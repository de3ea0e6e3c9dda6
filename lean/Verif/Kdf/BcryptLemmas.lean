import Verif.Kdf.Bcrypt
import Verif.Kdf.BcryptSpec
import Verif.Block.BlowfishProps
import Verif.Encoding.Base64Lemmas

/-!
Lemmas: bcrypt.
-/
namespace Torsion.Bcr
open Torsion.Spec Torsion.Bf

/-! ### Base 64 -/

set_option maxRecDepth 8000 in
theorem alpha : Alpha 6 bcrypt_charset bcrypt_table bcryptChar id where
  cs_ok := by decide +kernel
  tab := by decide +kernel
  inj := by decide +kernel
  fold_eq := by decide +kernel
  al_eq := by decide +kernel

theorem m15 : ∀ b : Byte, (b >>> 4) &&& (15 : Byte) = b >>> 4 := by decide +kernel
theorem m3 : ∀ b : Byte, (b >>> 6) &&& (3 : Byte) = b >>> 6 := by decide +kernel

theorem enc_same : ∀ src : List Byte, bcrypt_base64_encode src = base64_encode0 bcrypt_charset false src
  | [] => rfl
  | [a] => rfl
  | [a, b] => by
    rw [bcrypt_base64_encode, base64_encode0, m15]
    rfl
  | a :: b :: c :: r => by
    rw [bcrypt_base64_encode, base64_encode0, m15, m3, enc_same r]

theorem enc_eq (src : List Byte) : bcrypt_base64_encode src = .ok (encode 6 4 bcryptChar false src) := by
  rw [enc_same, base64_encode0_eq alpha]

theorem small : ∀ t : Byte, t.toNat < 64 → (t &&& (0x80 : Byte) == 0) = true ∧ (t &&& (48 : Byte)) >>> 4 = t >>> 4 ∧ (t &&& (60 : Byte)) >>> 2 = t >>> 2 := by
  decide +kernel
theorem low : ∀ t : Byte, (t &&& (15 : Byte)) <<< 4 = t <<< 4 ∧ (t &&& (3 : Byte)) <<< 6 = t <<< 6 ∧ t >>> 0 = t := by
  decide +kernel

theorem drop_cons {str t : List Byte} {i : Nat} {c : Byte} (h : str.drop i = c :: t) : str[i]? = some c ∧ str.drop (i + 1) = t := by
  have h1 : (str.drop i)[0]? = some c := by rw [h]; rfl
  rw [List.getElem?_drop, Nat.add_zero] at h1
  refine ⟨h1, ?_⟩
  have h2 := congrArg (List.drop 1) h
  rw [List.drop_drop] at h2
  exact h2

theorem drop_get {str : List Byte} {i : Nat} {c : Byte} (h : str[i]? = some c) : str.drop i = c :: str.drop (i + 1) := by
  obtain ⟨hl, e⟩ := List.getElem?_eq_some_iff.1 h
  rw [List.drop_eq_getElem_cons hl, e]

theorem rd_some {str : List Byte} {i : Nat} {c : Byte} (h : str[i]? = some c) : C.rd str i = .ok c := by
  obtain ⟨hl, e⟩ := List.getElem?_eq_some_iff.1 h
  rw [rd_of_lt hl, e]

theorem sym_cases {str : List Byte} {i : Nat} {c : Byte} (h : str[i]? = some c) :
    (∃ v, v < 64 ∧ c = bcryptChar v ∧ bcrypt_sym str i = .ok (BitVec.ofNat 8 v)) ∨
      (bcrypt_sym str i = .fail ∧ ∀ v, v < 64 → c ≠ bcryptChar v) := by
  unfold bcrypt_sym
  rw [rd_some h]
  simp only [R.liftM_eq, R.lift_ok, R.ok_bind]
  rcases alpha.tab c with ⟨h1, h2⟩ | ⟨h1, h2⟩
  · right
    rw [h1]
    exact ⟨rfl, fun v hv e => h2 v hv e.symm⟩
  · left
    refine ⟨_, h1, h2.symm, ?_⟩
    rw [(small _ h1).1, R.need_true, R.ok_bind, BitVec.ofNat_toNat, BitVec.setWidth_eq]

theorem sym_ok {str : List Byte} {i v : Nat} (h : str[i]? = some (bcryptChar v)) (hv : v < 64) :
    bcrypt_sym str i = .ok (BitVec.ofNat 8 v) := by
  rcases sym_cases h with ⟨w, hw, e, hs⟩ | ⟨_, hn⟩
  · rw [hs, alpha.inj v hv w hw e]
  · exact absurd rfl (hn v hv)

theorem char_ne0 : ∀ v, v < 64 → bcryptChar v ≠ 0 := by decide +kernel

theorem toN {v : Nat} (hv : v < 64) : (BitVec.ofNat 8 v).toNat = v := by
  rw [BitVec.toNat_ofNat, Nat.mod_eq_of_lt (by omega)]

/-- The characters at a place spell bytes. -/
theorem dec_ok (str : List Byte) : ∀ (n : Nat) (vs : List Nat) (i : Nat) (rest : List Byte),
    (∀ v ∈ vs, v < 64) → vs.length = (4 * n + 2) / 3 → str.drop i = vs.map bcryptChar ++ rest →
    ∃ b, bcrypt_base64_decode str n i = .ok (b, i + vs.length) ∧ b.length = n ∧ bits b = (bitsK 6 vs).take (8 * n)
  | 0, vs, i, rest, _, hl, _ => by
    rw [List.length_eq_zero_iff.1 hl]
    exact ⟨[], rfl, rfl, rfl⟩
  | 1, vs, i, rest, hv, hl, hd => by
    match vs, hl with
    | [v1, v2], _ =>
      obtain ⟨g1, d1⟩ := drop_cons hd
      obtain ⟨g2, d2⟩ := drop_cons d1
      have l1 := hv v1 (by simp)
      have l2 := hv v2 (by simp)
      rw [bcrypt_base64_decode, sym_ok g1 l1, R.ok_bind, sym_ok g2 l2, R.ok_bind]
      refine ⟨_, rfl, rfl, ?_⟩
      have hx := dec2 (BitVec.ofNat 8 v1) (BitVec.ofNat 8 v2) (by rw [toN l2]; exact l2)
      rw [toN l1, toN l2] at hx
      rw [(small _ (by rw [toN l2]; exact l2)).2.1, bitsK_cons, bitsK_cons, bitsK_nil, List.append_nil, hx, bits_cons]
      rw [List.take_left' (by simp)]
      rw [show bits [] = [] from rfl, List.append_nil]
  | 2, vs, i, rest, hv, hl, hd => by
    match vs, hl with
    | [v1, v2, v3], _ =>
      obtain ⟨g1, d1⟩ := drop_cons hd
      obtain ⟨g2, d2⟩ := drop_cons d1
      obtain ⟨g3, d3⟩ := drop_cons d2
      have l1 := hv v1 (by simp)
      have l2 := hv v2 (by simp)
      have l3 := hv v3 (by simp)
      rw [bcrypt_base64_decode, sym_ok g1 l1, R.ok_bind, sym_ok g2 l2, R.ok_bind, sym_ok g3 l3, R.ok_bind]
      refine ⟨_, rfl, rfl, ?_⟩
      have hx := dec3 (BitVec.ofNat 8 v1) (BitVec.ofNat 8 v2) (BitVec.ofNat 8 v3) (by rw [toN l2]; exact l2) (by rw [toN l3]; exact l3)
      rw [toN l1, toN l2, toN l3] at hx
      rw [(small _ (by rw [toN l2]; exact l2)).2.1, (small _ (by rw [toN l3]; exact l3)).2.2, (low _).1, bitsK_cons, bitsK_cons, bitsK_cons,
        bitsK_nil, List.append_nil, hx, bits_cons, bits_cons, show bits [] = [] from rfl, List.append_nil]
      rw [← List.append_assoc (byteBits _) (byteBits _) (natBits 2 v3), List.take_left' (by simp)]
  | n + 3, vs, i, rest, hv, hl, hd => by
    match vs, hl with
    | [], hl => exact absurd hl (by simp only [List.length_nil]; omega)
    | [_], hl => exact absurd hl (by simp only [List.length_cons, List.length_nil]; omega)
    | [_, _], hl => exact absurd hl (by simp only [List.length_cons, List.length_nil]; omega)
    | [_, _, _], hl => exact absurd hl (by simp only [List.length_cons, List.length_nil]; omega)
    | v1 :: v2 :: v3 :: v4 :: ws, hl =>
      obtain ⟨g1, d1⟩ := drop_cons hd
      obtain ⟨g2, d2⟩ := drop_cons d1
      obtain ⟨g3, d3⟩ := drop_cons d2
      obtain ⟨g4, d4⟩ := drop_cons d3
      have l1 := hv v1 (by simp)
      have l2 := hv v2 (by simp)
      have l3 := hv v3 (by simp)
      have l4 := hv v4 (by simp)
      obtain ⟨b, hb, hbl, hbb⟩ := dec_ok str n ws (i + 4) rest (fun v h => hv v (by simp [h])) (by simp only [List.length_cons] at hl; omega) d4
      rw [bcrypt_base64_decode, sym_ok g1 l1, R.ok_bind, sym_ok g2 l2, R.ok_bind, sym_ok g3 l3, R.ok_bind, sym_ok g4 l4, R.ok_bind, hb, R.ok_bind]
      rw [show i + (v1 :: v2 :: v3 :: v4 :: ws).length = i + 4 + ws.length by simp only [List.length_cons]; omega]
      refine ⟨_, rfl, by rw [List.length_cons, List.length_cons, List.length_cons, hbl], ?_⟩
      · have hx := dec4 (BitVec.ofNat 8 v1) (BitVec.ofNat 8 v2) (BitVec.ofNat 8 v3) (BitVec.ofNat 8 v4) (by rw [toN l2]; exact l2)
          (by rw [toN l3]; exact l3) (by rw [toN l4]; exact l4)
        rw [toN l1, toN l2, toN l3, toN l4] at hx
        rw [(small _ (by rw [toN l2]; exact l2)).2.1, (small _ (by rw [toN l3]; exact l3)).2.2, (low _).1, (low _).2.1, bitsK_cons, bitsK_cons,
          bitsK_cons, bitsK_cons, bits_cons, bits_cons, bits_cons, hbb]
        have hy : natBits 6 v1 ++ (natBits 6 v2 ++ (natBits 6 v3 ++ (natBits 6 v4 ++ bitsK 6 ws))) =
            (natBits 6 v1 ++ (natBits 6 v2 ++ (natBits 6 v3 ++ natBits 6 v4))) ++ bitsK 6 ws := by simp only [List.append_assoc]
        have ht : ∀ P Q : List Bool, P.length = 24 → (P ++ Q).take (8 * (n + 3)) = P ++ Q.take (8 * n) := by
          intro P Q hP
          rw [List.take_append, List.take_of_length_le (by omega), hP, show 8 * (n + 3) - 24 = 8 * n by omega]
        rw [hy, hx, (low _).2.2, ht _ _ rfl]
        simp only [List.append_assoc]

/-- Reading stops at the NUL. -/
theorem rdz {mem : List Byte} {z k : Nat} (hz : mem[z]? = some 0) (hk : k ≤ z) :
    ∃ c, mem[k]? = some c ∧ C.rd mem k = .ok c ∧ (c ≠ 0 → k + 1 ≤ z) := by
  obtain ⟨hl, e⟩ := List.getElem?_eq_some_iff.1 hz
  have hkl : k < mem.length := by omega
  refine ⟨mem[k], List.getElem?_eq_getElem hkl, rd_of_lt hkl, fun hc => ?_⟩
  rcases Nat.lt_or_ge k z with h | h
  · exact h
  · exact absurd (show mem[k] = 0 by have : k = z := by omega
                                     subst this; exact e) hc

theorem symz {mem : List Byte} {z k : Nat} (hz : mem[z]? = some 0) (hk : k ≤ z) :
    (∃ v, v < 64 ∧ mem[k]? = some (bcryptChar v) ∧ bcrypt_sym mem k = .ok (BitVec.ofNat 8 v) ∧ k + 1 ≤ z) ∨ bcrypt_sym mem k = .fail := by
  obtain ⟨c, hc, _, hn⟩ := rdz hz hk
  rcases sym_cases hc with ⟨v, hv, e, hs⟩ | ⟨hs, _⟩
  · left
    refine ⟨v, hv, by rw [hc, e], hs, hn ?_⟩
    rw [e]
    exact char_ne0 v hv
  · exact Or.inr hs

theorem dec_cases {mem : List Byte} {z : Nat} (hz : mem[z]? = some 0) : ∀ (n i : Nat), i ≤ z →
    bcrypt_base64_decode mem n i = .fail ∨
      ∃ (vs : List Nat) (rest : List Byte), (∀ v ∈ vs, v < 64) ∧ vs.length = (4 * n + 2) / 3 ∧ mem.drop i = vs.map bcryptChar ++ rest ∧ i + vs.length ≤ z
  | 0, i, hi => Or.inr ⟨[], mem.drop i, by simp, rfl, rfl, hi⟩
  | 1, i, hi => by
    rw [bcrypt_base64_decode]
    rcases symz hz hi with ⟨v1, l1, g1, s1, k1⟩ | s1
    · rcases symz hz k1 with ⟨v2, l2, g2, s2, k2⟩ | s2
      · exact Or.inr ⟨[v1, v2], mem.drop (i + 2), by simp [l1, l2], rfl, by rw [drop_get g1, drop_get g2]; rfl, k2⟩
      · rw [s1, R.ok_bind, s2]; exact Or.inl rfl
    · rw [s1]; exact Or.inl rfl
  | 2, i, hi => by
    rw [bcrypt_base64_decode]
    rcases symz hz hi with ⟨v1, l1, g1, s1, k1⟩ | s1
    · rcases symz hz k1 with ⟨v2, l2, g2, s2, k2⟩ | s2
      · rcases symz hz k2 with ⟨v3, l3, g3, s3, k3⟩ | s3
        · exact Or.inr ⟨[v1, v2, v3], mem.drop (i + 3), by simp [l1, l2, l3], rfl, by rw [drop_get g1, drop_get g2, drop_get g3]; rfl, k3⟩
        · rw [s1, R.ok_bind, s2, R.ok_bind, s3]; exact Or.inl rfl
      · rw [s1, R.ok_bind, s2]; exact Or.inl rfl
    · rw [s1]; exact Or.inl rfl
  | n + 3, i, hi => by
    rw [bcrypt_base64_decode]
    rcases symz hz hi with ⟨v1, l1, g1, s1, k1⟩ | s1
    · rcases symz hz k1 with ⟨v2, l2, g2, s2, k2⟩ | s2
      · rcases symz hz k2 with ⟨v3, l3, g3, s3, k3⟩ | s3
        · rcases symz hz k3 with ⟨v4, l4, g4, s4, k4⟩ | s4
          · rcases dec_cases hz n (i + 4) k4 with h | ⟨ws, rest, hv, hl, hd, hk⟩
            · rw [s1, R.ok_bind, s2, R.ok_bind, s3, R.ok_bind, s4, R.ok_bind, h]; exact Or.inl rfl
            · refine Or.inr ⟨v1 :: v2 :: v3 :: v4 :: ws, rest, ?_, ?_, ?_, ?_⟩
              · simp only [List.mem_cons, forall_eq_or_imp]
                exact ⟨l1, l2, l3, l4, hv⟩
              · simp only [List.length_cons]; omega
              · rw [drop_get g1, drop_get g2, drop_get g3, drop_get g4, hd]; rfl
              · simp only [List.length_cons]; omega
          · rw [s1, R.ok_bind, s2, R.ok_bind, s3, R.ok_bind, s4]; exact Or.inl rfl
        · rw [s1, R.ok_bind, s2, R.ok_bind, s3]; exact Or.inl rfl
      · rw [s1, R.ok_bind, s2]; exact Or.inl rfl
    · rw [s1]; exact Or.inl rfl

/-! ### The hash -/

theorem fold_iter {α : Type} (f : α → α) : ∀ (n : Nat) (x : α), (List.range n).foldl (fun s _ => f s) x = f^[n] x := by
  intro n
  induction n with
  | zero => intro x; rfl
  | succ n ih =>
    intro x
    rw [List.range_succ, List.foldl_append, ih, Function.iterate_succ_apply']
    rfl

theorem iter_ctx {g : Blowfish → Blowfish} {h : BfState → BfState} (H : ∀ c, ofCtx (g c) = h (ofCtx c)) (n : Nat) (c : Blowfish) :
    ofCtx (g^[n] c) = h^[n] (ofCtx c) := by
  induction n with
  | zero => rfl
  | succ n ih => rw [Function.iterate_succ_apply', Function.iterate_succ_apply', H, ih]

theorem cdata_eq (m : List Byte) : ∀ (n i : Nat), bcrypt_cdata m n (pos m i) = (List.range' i n).map (cycWord m)
  | 0, _ => rfl
  | n + 1, i => by
    rw [bcrypt_cdata, stream_eq, List.range'_succ, List.map_cons]
    dsimp only
    rw [cdata_eq m n (i + 1)]

/-- The words of blocks. -/
def flat (bs : List (BitVec 32 × BitVec 32)) : List (BitVec 32) := bs.flatMap fun p => [p.1, p.2]

theorem enc_flat (ctx : Blowfish) : ∀ bs, blowfish_enc ctx (flat bs) = flat (bs.map (bfEncrypt (ofCtx ctx)))
  | [] => rfl
  | b :: bs => by
    show blowfish_enc ctx (b.1 :: b.2 :: flat bs) = _
    rw [blowfish_enc, encipher_eq, enc_flat ctx bs]
    rfl

theorem enc_iter (ctx : Blowfish) (n : Nat) (bs : List (BitVec 32 × BitVec 32)) :
    (blowfish_enc ctx)^[n] (flat bs) = flat (bs.map (bfEncrypt (ofCtx ctx))^[n]) := by
  induction n with
  | zero => simp
  | succ n ih =>
    rw [Function.iterate_succ_apply', ih, enc_flat, List.map_map]
    congr 2
    funext x
    rw [Function.comp, Function.iterate_succ_apply']

theorem pairs_eq (m : List Byte) (n : Nat) :
    (List.range (2 * n)).map (cycWord m) = flat ((List.range n).map fun i => (cycWord m (2 * i), cycWord m (2 * i + 1))) := by
  induction n with
  | zero => rfl
  | succ n ih =>
    rw [show 2 * (n + 1) = 2 * n + 1 + 1 by ring, List.range_succ, List.range_succ, List.map_append, List.map_append, ih, List.range_succ,
      List.map_append]
    unfold flat
    rw [List.flatMap_append, List.append_assoc]
    rfl

theorem write32le_le32 (w : BitVec 32) : (write32le w).toList = le32 w := by
  unfold write32le le32
  simp only [Vector.toList_mk, List.map_cons, List.map_nil, List.cons.injEq, and_true]
  refine ⟨?_, ?_, ?_, ?_⟩ <;>
    (apply BitVec.eq_of_toNat_eq
     simp [Nat.shiftRight_eq_div_pow])

/-- Encryption of the text, 64 times. -/
theorem out_eq (ctx : Blowfish) (m : List Byte) (n : Nat) (f : BitVec 32 → List Byte) :
    ((List.range 64).foldl (fun cd _ => blowfish_enc ctx cd) (bcrypt_cdata m (2 * n) 0)).flatMap f =
      (List.range n).flatMap fun i => f (bfEncrypt64 (ofCtx ctx) m i).1 ++ f (bfEncrypt64 (ofCtx ctx) m i).2 := by
  rw [fold_iter, ← pos_zero m, cdata_eq, ← List.range_eq_range', pairs_eq, enc_iter, List.map_map]
  unfold flat
  rw [List.flatMap_assoc, List.flatMap_map]
  congr 1
  funext i
  simp only [Function.comp, List.flatMap_cons, List.flatMap_nil, List.append_nil]
  rfl

end Torsion.Bcr
