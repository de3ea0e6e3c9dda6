import Verif.Cipher.AeadLemmas

/-!
# CBC-MAC and CMAC
-/
namespace Torsion.Ciph
open Spec Blk
open Asn1 (beVal_append beVal_inj)

variable {n : Nat}

/-! ## Doubling -/

/-- A block backwards. -/
def rv (v : Vector Byte n) : Vector Byte n := Vector.ofFn fun i : Fin n => v[n - 1 - i.val]

theorem rv_toList (v : Vector Byte n) : (rv v).toList = v.toList.reverse := by
  apply List.ext_getElem
  · simp
  · intro i h1 h2
    simp [rv]

theorem cmacDouble_rv (v : Vector Byte n) : cmacDouble v = rv (xtsNext (rv v)) := by
  rw [cmacDouble, xtsNext, rv_toList, ← beVal_eq]
  apply Vector.ext
  intro i hi
  simp [beBlock, rv, leBlock]

theorem rv_shift (v : Vector Byte n) {i : Nat} (hi : i < n) :
    (v[n - 1 - (n - 1 - i)] <<< (1 : Nat) ||| (if n - 1 - i = 0 then (0 : Byte) else
      v[n - 1 - (n - 1 - i - 1)] >>> (7 : Nat))) =
    (v[i] <<< (1 : Nat) ||| (if h : i + 1 < n then v[i + 1] >>> (7 : Nat) else (0 : Byte))) := by
  have e1 : v[n - 1 - (n - 1 - i)] = v[i] := by congr 1; omega
  rw [e1]
  by_cases h1 : i + 1 < n
  · have e2 : v[n - 1 - (n - 1 - i - 1)] = v[i + 1] := by congr 1; omega
    rw [dif_pos h1, if_neg (by omega), e2]
  · rw [dif_neg h1, if_pos (by omega)]

theorem cmac_shift_eq (hn : Size n) (v : Vector Byte n) : cmac_shift v = .ok (cmacDouble v) := by
  have hn8 : 8 ≤ n := by rcases hn with rfl | rfl <;> omega
  have h := xts_shift_eq hn (rv v)
  unfold xts_shift at h
  rw [poly_rd hn, C.ok_bind, C.rd, List.getElem?_eq_getElem (show n - 1 < (rv v).toList.length by simp; omega)] at h
  simp only [C.ok_bind] at h
  rw [C.xorat, if_pos (by simp; omega)] at h
  rw [cmacDouble_rv, cmac_shift, poly_rd hn, C.ok_bind, C.rd, List.getElem?_eq_getElem (show 0 < v.toList.length by simp; omega)]
  simp only [C.ok_bind]
  rw [C.xorat, if_pos (by simp; omega)]
  rw [← C.ok.inj h]
  clear h
  congr 1
  apply Vector.ext
  intro i hi
  have e0 : (rv v).toList[n - 1]'(by simp; omega) = v.toList[0]'(by simp; omega) := by
    simp only [rv, Vector.getElem_toList, Vector.getElem_ofFn]
    congr 1; omega
  rw [e0]
  generalize -(v.toList[0]'(by simp; omega) >>> 7) = msk
  simp only [rv, Vector.getElem_ofFn, List.length_cons, List.length_nil]
  rw [rv_shift v hi]
  generalize (v[i] <<< (1 : Nat) ||| _) = y
  by_cases h1 : n - 3 ≤ i
  · rw [if_pos (by omega), if_pos (by omega)]
    rcases (by omega : i = n - 3 ∨ i = n - 2 ∨ i = n - 1) with h2 | h2 | h2
    · rw [show i - (n - 3) = 0 by omega, show n - 1 - i - 0 = 2 by omega]; rfl
    · rw [show i - (n - 3) = 1 by omega, show n - 1 - i - 0 = 1 by omega]; rfl
    · rw [show i - (n - 3) = 2 by omega, show n - 1 - i - 0 = 0 by omega]; rfl
  · rw [if_neg (by omega), if_neg (by omega)]

/-! ## Chaining -/

theorem xorat_padXor (x : Vector Byte n) (t s : List Byte) (h : t.length + s.length ≤ n) :
    C.xorat (padXor x t) t.length s = .ok (padXor x (t ++ s)) := by
  rw [C.xorat, if_pos h]
  congr 1
  apply Vector.ext
  intro i hi
  simp only [padXor, Vector.getElem_ofFn]
  by_cases h1 : i < t.length
  · rw [if_neg (by omega)]
    simp [List.getElem?_append_left h1]
  · rw [show t.getD i 0 = 0 by simp [show t.length ≤ i by omega]]
    by_cases h2 : i < t.length + s.length
    · rw [if_pos ⟨by omega, h2⟩, List.getD_eq_getElem?_getD (l := t ++ s), List.getElem?_append_right (by omega)]
      simp
    · rw [if_neg (by omega), List.getD_eq_getElem?_getD, List.getElem?_eq_none (by simp; omega)]; rfl

theorem padXor_vec (x v : Vector Byte n) : padXor x v.toList = bxor x v := by
  apply Vector.ext
  intro i hi
  simp [padXor, bxor]

theorem padXor_nil (x : Vector Byte n) : padXor x [] = x := by
  apply Vector.ext
  intro i hi
  simp [padXor]

theorem padXor_zeros (x : Vector Byte n) (t : List Byte) (k : Nat) : padXor x (t ++ List.replicate k 0) = padXor x t := by
  apply Vector.ext
  intro i hi
  simp only [padXor, Vector.getElem_ofFn]
  congr 1
  simp only [List.getD_eq_getElem?_getD]
  by_cases h : i < t.length
  · rw [List.getElem?_append_left h]
  · rw [List.getElem?_append_right (by omega), List.getElem?_eq_none (show t.length ≤ i by omega), List.getElem?_replicate]
    split <;> rfl

/-- The comparison of `cmac_update` (`lazy`) and `cbcmac_update`. -/
def more (lz : Bool) (len lim : Nat) : Bool := if lz then len > lim else len ≥ lim

/-- The rest kept by the two. -/
def RestOk (n : Nat) (lz : Bool) (t : List Byte) : Prop := if lz then 0 < t.length ∧ t.length ≤ n else t.length < n

theorem mac_loop (hn : 0 < n) (c : Cipher n) (lz : Bool) {t : List Byte} (ht : RestOk n lz t) :
    ∀ (bl : List (Vector Byte n)) (k : Nat) (mac : Vector Byte n), bl.length ≤ k →
    cbcmac_loop c (fun len => more lz len n) k mac (cat bl ++ t) =
      .ok (bl.foldl (fun x b => c.enc (bxor x b)) mac, t)
  | [], k, mac, _ => by
    have hm : more lz ([] ++ t).length n = false := by
      rw [more]
      unfold RestOk at ht
      cases lz <;> simp at ht ⊢ <;> omega
    cases k with
    | zero => rw [cbcmac_loop, cat_nil, hm]; rfl
    | succ k => rw [cbcmac_loop, cat_nil, hm]; rfl
  | v :: bl, 0, mac, h => by simp at h
  | v :: bl, k + 1, mac, h => by
    have hm : more lz (cat (v :: bl) ++ t).length n = true := by
      rw [more]
      unfold RestOk at ht
      cases lz <;> simp at ht ⊢ <;> omega
    rw [cbcmac_loop, hm, if_pos rfl, slice_take _ (by simp), C.ok_bind, cat_cons, List.append_assoc,
      List.take_left' (by simp), List.drop_left' (by simp), xorat_eq _ (by simp), C.ok_bind, padXor_vec,
      mac_loop hn c lz ht bl k _ (by simpa using h)]
    rfl

theorem split_rest (hn : 0 < n) (lz : Bool) (m : List Byte) (h : lz = true → m ≠ []) :
    ∃ (bl : List (Vector Byte n)) (t : List Byte), m = cat bl ++ t ∧ RestOk n lz t := by
  obtain ⟨bl, t, h1, h2⟩ := split n hn m
  cases lz with
  | false => exact ⟨bl, t, h1, h2⟩
  | true =>
    by_cases h0 : t = []
    · subst h0
      have hbl : bl ≠ [] := by
        intro hb
        exact h rfl (by rw [h1, hb]; rfl)
      refine ⟨bl.dropLast, (bl.getLast hbl).toList, ?_, ?_⟩
      · conv_lhs => rw [h1, ← List.dropLast_append_getLast hbl, cat_append]
        simp
      · simp only [RestOk, if_true, Vector.length_toList]
        exact ⟨hn, Nat.le_refl _⟩
    · exact ⟨bl, t, h1, by
        have := List.length_pos_of_ne_nil h0
        simp only [RestOk, if_true]
        omega⟩

/-- The context holds the string `m`. -/
def MHolds (lz : Bool) (c : Cipher n) (ctx : Cmac n) (m : List Byte) : Prop :=
  ∃ bl t, m = cat bl ++ t ∧ (RestOk n lz t ∨ (bl = [] ∧ t = [])) ∧ ctx.pos = t.length ∧
    ctx.mac = padXor (macChain c.enc bl) t

theorem mac_tail (c : Cipher n) (lz : Bool) {bl : List (Vector Byte n)} {t : List Byte} (h : RestOk n lz t) :
    (if t.length > 0 then do
      let mac ← C.xorat (macChain c.enc bl) 0 t
      C.ok (⟨mac, 0 + t.length⟩ : Cmac n)
    else .ok ⟨macChain c.enc bl, 0⟩) = .ok ⟨padXor (macChain c.enc bl) t, t.length⟩ := by
  have hle : t.length ≤ n := by
    unfold RestOk at h
    cases lz <;> simp at h <;> omega
  by_cases h0 : t.length > 0
  · rw [if_pos h0, xorat_eq _ hle, C.ok_bind, Nat.zero_add]
  · have : t = [] := List.eq_nil_of_length_eq_zero (by omega)
    rw [if_neg h0, this, padXor_nil]
    rfl

theorem mholds_update (hn : 0 < n) {lz : Bool} {c : Cipher n} {ctx : Cmac n} {m : List Byte} (h : MHolds lz c ctx m)
    (data : List Byte) : ∃ ctx', mac_update c (more lz) ctx data = .ok ctx' ∧ MHolds lz c ctx' (m ++ data) := by
  obtain ⟨bl, t, rfl, ht, hpos, hmac⟩ := h
  have htn : t.length ≤ n := by
    rcases ht with ht | ⟨-, rfl⟩
    · unfold RestOk at ht
      cases lz <;> simp at ht <;> omega
    · simp
  rw [mac_update, hpos, hmac]
  by_cases hmore : more lz data.length (n - t.length) = true
  · rw [if_pos hmore]
    by_cases hp : t.length > 0
    · have hlen : n - t.length ≤ data.length := by
        unfold more at hmore
        cases lz <;> simp at hmore <;> omega
      obtain ⟨w, -, hw⟩ := vec_ok (n := n) (xs := t ++ data.take (n - t.length)) (by simp; omega)
      rw [List.take_of_length_le (by simp; omega)] at hw
      rw [if_pos hp, slice_take _ hlen, C.ok_bind, xorat_padXor _ _ _ (by simp; omega), C.ok_bind, C.ok_bind, ← hw, padXor_vec]
      have hch : c.enc (bxor (macChain c.enc bl) w) = macChain c.enc (bl ++ [w]) := by simp [macChain]
      have hraw : lz = true → data.drop (n - t.length) ≠ [] := by
        intro hl
        subst hl
        have : data.length > n - t.length := by simpa [more] using hmore
        intro hd
        have := congrArg List.length hd
        simp at this
        omega
      obtain ⟨bl', t', h1, h2⟩ := split_rest hn lz _ hraw
      dsimp only
      rw [h1, mac_loop hn c lz h2 bl' _ _ (by rw [List.length_append, cat_length]; nlinarith), C.ok_bind, C.ok_bind, hch]
      have hf : bl'.foldl (fun x b => c.enc (bxor x b)) (macChain c.enc (bl ++ [w])) = macChain c.enc (bl ++ [w] ++ bl') := by
        simp only [macChain, List.foldl_append]
      dsimp only
      rw [hf, mac_tail c lz h2]
      refine ⟨_, rfl, bl ++ [w] ++ bl', t', ?_, .inl h2, rfl, rfl⟩
      have hd : data = data.take (n - t.length) ++ (cat bl' ++ t') := by rw [← h1, List.take_append_drop]
      rw [cat_append, cat_append, cat_cons, hw]
      conv_lhs => rw [hd]
      simp
    · have h0 : t = [] := List.eq_nil_of_length_eq_zero (by omega)
      subst h0
      rw [if_neg hp, C.ok_bind]
      have hraw : lz = true → data ≠ [] := by
        intro hl hd
        subst hl hd
        simp [more] at hmore
      obtain ⟨bl', t', h1, h2⟩ := split_rest hn lz data hraw
      dsimp only
      rw [h1, mac_loop hn c lz h2 bl' _ _ (by rw [List.length_append, cat_length]; nlinarith), C.ok_bind, C.ok_bind, padXor_nil]
      have hf : bl'.foldl (fun x b => c.enc (bxor x b)) (macChain c.enc bl) = macChain c.enc (bl ++ bl') := by
        simp only [macChain, List.foldl_append]
      dsimp only
      rw [hf]
      have := mac_tail c lz (bl := bl ++ bl') h2
      rw [List.length_nil, this]
      refine ⟨_, rfl, bl ++ bl', t', ?_, .inl h2, rfl, rfl⟩
      rw [cat_append]
      simp
  · have hle : t.length + data.length ≤ n ∧ (lz = false → t.length + data.length < n) := by
      unfold more at hmore
      cases lz <;> simp at hmore ⊢ <;> omega
    rw [if_neg hmore, C.ok_bind]
    dsimp only
    by_cases h0 : data.length > 0
    · rw [if_pos h0, xorat_padXor _ _ _ hle.1, C.ok_bind]
      refine ⟨_, rfl, bl, t ++ data, by simp, .inl ?_, by simp, rfl⟩
      unfold RestOk
      cases lz
      · simpa using hle.2 rfl
      · simp; omega
    · have : data = [] := List.eq_nil_of_length_eq_zero (by omega)
      subst this
      rw [if_neg h0]
      exact ⟨_, rfl, bl, t, by simp, ht, rfl, rfl⟩

/-! ## CMAC -/

theorem lastBlock_app (bl : List (Vector Byte n)) (w d : Vector Byte n) : lastBlock d (bl ++ [w]) = w := by
  simp [lastBlock]

theorem cmac_final_eq (hn : Size n) {c : Cipher n} {ctx : Cmac n} {m : List Byte} (h : MHolds true c ctx m) :
    cmac_final c ctx = .ok (cmac c.enc m) := by
  have hn0 := size_pos hn
  obtain ⟨bl, t, rfl, ht, hpos, hmac⟩ := h
  have htn : t.length ≤ n := by
    rcases ht with ht | ⟨-, rfl⟩
    · simp [RestOk] at ht; omega
    · simp
  have hlen : (cat bl ++ t).length = bl.length * n + t.length := by rw [List.length_append, cat_length]
  rw [cmac_final, cmac_shift_eq hn, C.ok_bind, hpos, hmac]
  by_cases hp : t.length < n
  · rw [if_pos hp, xorat_padXor _ _ _ (by simp; omega), C.ok_bind, cmac_shift_eq hn, C.ok_bind, cmac, if_neg]
    · have hmod : (cat bl ++ t).length % n = t.length := by
        rw [hlen, Nat.mul_comm, Nat.mul_add_mod, Nat.mod_eq_of_lt hp]
      obtain ⟨w, -, hw⟩ := vec_ok (n := n) (xs := t ++ [0x80] ++ List.replicate (n - 1 - t.length) 0) (by simp; omega)
      rw [List.take_of_length_le (by simp; omega)] at hw
      have hb : blocks n (cat bl ++ t ++ [0x80] ++ List.replicate (n - 1 - (cat bl ++ t).length % n) 0) = bl ++ [w] := by
        rw [hmod]
        have := blocks_cat (bl ++ [w]) [] (by simpa using hn0)
        rw [cat_append, cat_cons, hw] at this
        simpa using this
      dsimp only
      rw [hb, List.dropLast_concat, lastBlock_app, ← padXor_zeros _ _ (n - 1 - t.length), ← hw, padXor_vec, vxor_eq]
      congr 2
      apply Vector.ext
      intro i hi
      simp [bxor, BitVec.xor_assoc, cmacKey]
    · rintro ⟨hne, hd⟩
      rw [hlen] at hd
      have hd' : n ∣ t.length := (Nat.dvd_add_right (Nat.dvd_mul_left n bl.length)).1 hd
      have h0 : t.length = 0 := Nat.eq_zero_of_dvd_of_lt hd' hp
      have : t = [] := List.eq_nil_of_length_eq_zero h0
      subst this
      rcases ht with ht | ⟨rfl, -⟩
      · simp [RestOk] at ht
      · exact hne rfl
  · rw [if_neg hp]
    have htl : t.length = n := by omega
    obtain ⟨w, -, hw⟩ := vec_ok (n := n) (xs := t) (by omega)
    rw [List.take_of_length_le (by omega)] at hw
    rw [cmac, if_pos]
    · have hb : blocks n (cat bl ++ t) = bl ++ [w] := by
        have := blocks_cat (bl ++ [w]) [] (by simpa using hn0)
        rw [cat_append, cat_cons, hw] at this
        simpa using this
      dsimp only
      rw [hb, List.dropLast_concat, lastBlock_app, ← hw, padXor_vec, vxor_eq]
      congr 2
      apply Vector.ext
      intro i hi
      simp [bxor, BitVec.xor_assoc, cmacKey]
    · refine ⟨?_, ?_⟩
      · intro h
        have := congrArg List.length h
        rw [hlen, List.length_nil] at this
        omega
      · rw [hlen, htl]
        exact Dvd.dvd.add (Nat.dvd_mul_left n bl.length) (Nat.dvd_refl n)

theorem cmac_init_holds (hn : 0 < n) (c : Cipher n) (k : Byte) :
    ∃ ctx, cmac_init n (some k) = .ok ctx ∧ MHolds true c ctx (beBlock n k.toNat).toList := by
  rw [cmac_init, C.xorat, if_pos (by simp; omega), C.ok_bind]
  refine ⟨_, rfl, [], (beBlock n k.toNat).toList, rfl, .inl ?_, by simp, ?_⟩
  · simp only [RestOk, if_true, Vector.length_toList]
    omega
  · dsimp only
    rw [padXor_vec]
    apply Vector.ext
    intro i hi
    simp only [bxor, beBlock, macChain, List.foldl_nil, Vector.getElem_ofFn]
    by_cases h : i = n - 1
    · subst h
      simp [show n - 1 < n - 1 + 1 by omega]
    · rw [if_neg (by simp; omega)]
      have : k.toNat / 256 ^ (n - 1 - i) = 0 := by
        apply Nat.div_eq_of_lt
        have h1 := k.isLt
        have h2 : 256 ^ 1 ≤ 256 ^ (n - 1 - i) := Nat.pow_le_pow_right (by decide) (by omega)
        omega
      simp [this]

end Torsion.Ciph
