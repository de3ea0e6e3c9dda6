import Verif.Hash.MdLemmas
import Verif.Hash.StdUse

/-!
# Lemmas about Keccak, MD2 and GOST94
-/
namespace Torsion.Hsh
open Spec Blk Strm

/-! ## Output loops -/

theorem flat_len {α : Type} (g : α → List Byte) (k : Nat) (hg : ∀ x, (g x).length = k) (h : List α) :
    (h.flatMap g).length = h.length * k := by
  induction h with
  | nil => simp
  | cons x xs ih => rw [List.flatMap_cons, List.length_append, ih, hg, List.length_cons, Nat.add_mul]
                    omega

theorem words_out_eq {w : Nat} (wr : BitVec w → List Byte) (h : List (BitVec w)) :
    ∀ n i : Nat, i + n ≤ h.length →
      words_out wr h n i = .ok (((h.drop i).take n).flatMap wr)
  | 0, i, _ => by simp [words_out]
  | n + 1, i, hi => by
    have hlt : i < h.length := by omega
    rw [words_out, C.rd, List.getElem?_eq_getElem hlt]
    simp only [C.ok_bind]
    rw [words_out_eq wr h n (i + 1) (by omega)]
    simp only [C.ok_bind]
    rw [List.drop_eq_getElem_cons hlt, List.take_succ_cons, List.flatMap_cons]

theorem flat_get {w : Nat} (k : Nat) (hk : 0 < k) : ∀ (h : List (BitVec w)) (i : Nat)
    (hi : i < h.length * k),
    (h.flatMap fun x => leBytes k x.toNat)[i]? =
      some (BitVec.ofNat 8 ((h[i / k]'(Nat.div_lt_of_lt_mul (by rwa [Nat.mul_comm] at hi))).toNat /
        256 ^ (i % k)))
  | [], i, hi => by simp at hi
  | x :: xs, i, hi => by
    rw [List.flatMap_cons]
    by_cases hlt : i < k
    · rw [List.getElem?_append_left (by rw [leBytes_len]; exact hlt)]
      have h0 : i / k = 0 := Nat.div_eq_of_lt hlt
      simp only [h0, List.getElem_cons_zero, Nat.mod_eq_of_lt hlt]
      rw [leBytes, List.getElem?_map, List.getElem?_range hlt]
      rfl
    · rw [List.getElem?_append_right (by rw [leBytes_len]; omega), leBytes_len]
      have hi' : i - k < xs.length * k := by
        rw [List.length_cons, Nat.add_mul] at hi; omega
      rw [flat_get k hk xs (i - k) hi']
      have h1 : i / k = (i - k) / k + 1 := by
        rw [← Nat.add_div_right _ hk]; congr 1; omega
      have h2 : i % k = (i - k) % k := by
        rw [← Nat.add_mod_right (i - k) k]; congr 1; omega
      simp only [h1, List.getElem_cons_succ, h2]

theorem bytes_out_eq {w : Nat} (k : Nat) (hk : 0 < k) (h : List (BitVec w)) :
    ∀ n i : Nat, i + n ≤ h.length * k →
      bytes_out k h n i = .ok (((h.flatMap fun x => leBytes k x.toNat).drop i).take n)
  | 0, i, _ => by simp [bytes_out]
  | n + 1, i, hi => by
    have hlt : i / k < h.length := Nat.div_lt_of_lt_mul (by rw [Nat.mul_comm]; omega)
    rw [bytes_out, C.rd, List.getElem?_eq_getElem hlt]
    simp only [C.ok_bind]
    rw [bytes_out_eq k hk h n (i + 1) (by omega)]
    have hf := flat_get k hk h i (by omega)
    have hfl := flat_len (fun x : BitVec w => leBytes k x.toNat) k (fun x => leBytes_len _ _) h
    have hlt2 : i < (h.flatMap fun x => leBytes k x.toNat).length := by omega
    rw [List.getElem?_eq_getElem hlt2, Option.some_inj] at hf
    simp only [C.ok_bind]
    rw [List.drop_eq_getElem_cons hlt2, List.take_succ_cons, hf]
    refine congrArg (fun x => C.ok (x :: _)) ?_
    apply BitVec.eq_of_toNat_eq
    rw [BitVec.toNat_setWidth, BitVec.toNat_ushiftRight, BitVec.toNat_ofNat, Nat.shiftRight_eq_div_pow,
      Nat.pow_mul]

theorem state_out_eq {w k : Nat} (hk : 0 < k) (wr : BitVec w → List Byte)
    (hwr : ∀ x, wr x = leBytes k x.toNat) (h : List (BitVec w)) (len : Nat)
    (hl : len ≤ h.length * k) :
    state_out k wr h len = .ok ((h.flatMap fun x => leBytes k x.toNat).take len) := by
  have hc : len / k * k ≤ len := Nat.div_mul_le_self len k
  rw [state_out]
  rw [words_out_eq wr h (len / k) 0 (by
    rw [Nat.zero_add]
    exact Nat.div_le_of_le_mul (by rwa [Nat.mul_comm] at hl))]
  simp only [C.ok_bind]
  rw [bytes_out_eq k hk h _ _ (by omega)]
  simp only [C.ok_bind, List.drop_zero]
  have hwr' : wr = fun x => leBytes k x.toNat := funext hwr
  have h1 : ((h.take (len / k)).flatMap wr) = (h.flatMap wr).take (len / k * k) := by
    conv => rhs; rw [← List.take_append_drop (len / k) h]
    rw [List.flatMap_append, List.take_left']
    rw [flat_len wr k (fun x => by rw [hwr, leBytes_len]), List.length_take, Nat.min_eq_left]
    exact Nat.div_le_of_le_mul (by rwa [Nat.mul_comm] at hl)
  rw [h1, ← hwr', ← List.take_add, show len / k * k + (len - len / k * k) = len by omega]

/-! ## Keccak -/

theorem keccak_absorbs_add (chunk : List Byte) : ∀ (a b i : Nat) (A : Vector (BitVec 64) 25),
    keccak_absorbs chunk (a + b) i A = keccak_absorbs chunk a i A >>= keccak_absorbs chunk b (i + a)
  | 0, b, i, A => by rw [Nat.zero_add]; rfl
  | a + 1, b, i, A => by
    rw [show a + 1 + b = (a + b) + 1 by omega, keccak_absorbs, keccak_absorbs, C.bind_assoc]
    refine congrArg _ (funext fun A' => ?_)
    rw [keccak_absorbs_add chunk a b (i + 1) A', show i + 1 + a = i + (a + 1) by omega]

theorem keccak_absorbs_eq (chunk : List Byte) : ∀ (n i : Nat) (A : Vector (BitVec 64) 25),
    i + n ≤ 25 → 8 * (i + n) ≤ chunk.length →
    keccak_absorbs chunk n i A = .ok (Vector.ofFn fun j : Fin 25 =>
      if i ≤ j.val ∧ j.val < i + n then
        A[j] ^^^ BitVec.ofNat 64 (leVal ((chunk.drop (8 * j.val)).take 8))
      else A[j])
  | 0, i, A, _, _ => by
    rw [keccak_absorbs]
    refine congrArg C.ok (Vector.ext fun j hj => ?_)
    rw [Vector.getElem_ofFn, if_neg (by omega)]
    rfl
  | n + 1, i, A, h1, h2 => by
    have hi : i < 25 := by omega
    obtain ⟨v, hv1, hv2⟩ := vec_ok (n := 8) (xs := chunk.drop (8 * i)) (by
      rw [List.length_drop]; omega)
    rw [keccak_absorbs, keccak_absorb, dif_pos hi, hv1]
    simp only [C.ok_bind]
    rw [keccak_absorbs_eq chunk n (i + 1) _ (by omega) (by omega)]
    refine congrArg C.ok (Vector.ext fun j hj => ?_)
    rw [Vector.getElem_ofFn, Vector.getElem_ofFn]
    have hw : read64le v = BitVec.ofNat 64 (leVal ((chunk.drop (8 * i)).take 8)) := by
      rw [← hv2]
      apply BitVec.eq_of_toNat_eq
      rw [(read64_val v).1, BitVec.toNat_ofNat, Nat.mod_eq_of_lt]
      have := leVal_lt v.toList
      rw [Vector.length_toList] at this
      exact this
    by_cases hij : i = j
    · subst hij
      dsimp only [Fin.getElem_fin]
      rw [if_neg (by omega), if_pos (by omega), Vector.getElem_set_self, hw]
    · dsimp only [Fin.getElem_fin]
      rw [Vector.getElem_set_ne _ _ hij]
      by_cases hc : i ≤ j ∧ j < i + (n + 1)
      · rw [if_pos (by omega), if_pos (by omega)]
      · rw [if_neg (by omega), if_neg (by omega)]

/-- The block sizes for which the unrolled code is used. -/
def stdSizes : List Nat := [72, 104, 136, 144, 152, 160, 168]

theorem keccak_transform_eq (std : Bool) (bs : Nat) (hs : std = true → bs ∈ stdSizes)
    (A : Vector (BitVec 64) 25) (chunk : List Byte) :
    keccak_transform std bs A chunk = keccak_transform1 bs A chunk := by
  cases std with
  | false => rfl
  | true =>
    have h := hs rfl
    simp only [stdSizes, List.mem_cons, List.not_mem_nil, or_false] at h
    rw [keccak_transform, if_pos rfl, keccak_transform0, keccak_transform1]
    rcases h with rfl | rfl | rfl | rfl | rfl | rfl | rfl
    · simp
    · rw [show (104 / 8 : Nat) = 9 + 4 from rfl, keccak_absorbs_add, C.bind_assoc]
      simp
    · rw [show (136 / 8 : Nat) = 9 + (4 + 4) from rfl, keccak_absorbs_add]
      simp only [keccak_absorbs_add, C.bind_assoc]
      simp
    · rw [show (144 / 8 : Nat) = 9 + (4 + (4 + 1)) from rfl]
      simp only [keccak_absorbs_add, C.bind_assoc]
      simp
    · rw [show (152 / 8 : Nat) = 9 + (4 + (4 + (1 + 1))) from rfl]
      simp only [keccak_absorbs_add, C.bind_assoc]
      simp
    · rw [show (160 / 8 : Nat) = 9 + (4 + (4 + (1 + (1 + 1)))) from rfl]
      simp only [keccak_absorbs_add, C.bind_assoc]
      simp
    · rw [show (168 / 8 : Nat) = 9 + (4 + (4 + (1 + (1 + (1 + 1))))) from rfl]
      simp only [keccak_absorbs_add, C.bind_assoc]
      simp

theorem keccak_f_eq (std : Bool) (bs : Nat) (hs : std = true → bs ∈ stdSizes) (h200 : bs ≤ 200)
    (A : Vector (BitVec 64) 25) (v : Vector Byte bs) :
    keccak_transform std bs A v.toList = .ok (absorb bs A v) := by
  rw [keccak_transform_eq std bs hs, keccak_transform1,
    keccak_absorbs_eq _ _ _ _ (by omega) (by rw [Vector.length_toList]; omega)]
  simp only [C.ok_bind, absorb, Cmp.keccak_fn, Nat.zero_add, Nat.zero_le, true_and]

theorem keccak_fold (std : Bool) (bs : Nat) (hs : std = true → bs ∈ stdSizes) (h200 : bs ≤ 200) :
    ∀ (bl : List (Vector Byte bs)) (A : Vector (BitVec 64) 25),
      bl.foldl (keccak_f std bs) (.ok A) = .ok (bl.foldl (absorb bs) A)
  | [], A => rfl
  | v :: bl, A => by
    rw [List.foldl_cons, List.foldl_cons, keccak_f]
    simp only [C.ok_bind]
    rw [keccak_f_eq std bs hs h200, keccak_fold std bs hs h200]

/-- The context has absorbed `m`. -/
structure KecRep (bs : Nat) (c : KecCtx) (m : List Byte) : Prop where
  size : c.bs = bs
  std : c.std = true → bs ∈ stdSizes
  pos : 0 < bs
  le : bs ≤ 200
  hold : Holds bs (keccak_f c.std bs) (.ok (Vector.replicate 25 0)) ⟨.ok c.st, c.block, c.pos⟩ m

theorem kec_update {bs : Nat} {c : KecCtx} {m : List Byte} (h : KecRep bs c m) (data : List Byte) :
    ∃ c', keccak_update c data = .ok c' ∧ KecRep bs c' (m ++ data) := by
  obtain ⟨hb, hs, h0, h200, hh⟩ := h
  subst hb
  obtain ⟨r, h1, h2⟩ := holds_update h0 hh data
  rw [keccak_update, h1]
  simp only [C.ok_bind]
  have hst := (holds_blocks h2).1
  rw [keccak_fold _ _ hs h200] at hst
  rw [hst]
  simp only [C.ok_bind]
  refine ⟨_, rfl, rfl, hs, h0, h200, ?_⟩
  dsimp only
  rw [← hst]
  exact h2

theorem kec_init (bits : BitVec 32) (junk : Nat → Byte) (h1 : 32 ≤ bits.toNat) (h2 : bits.toNat ≤ 768)
    (h3 : bits.toNat % 32 = 0) :
    ∃ c, keccak_init junk bits = .ok c ∧ KecRep ((1600 - 2 * bits.toNat) / 8) c [] := by
  have hrate : (1600 - bits * 2 : BitVec 32).toNat = 1600 - 2 * bits.toNat := by
    rw [BitVec.toNat_sub, BitVec.toNat_mul]
    rw [show (2 : BitVec 32).toNat = 2 from rfl, show (1600 : BitVec 32).toNat = 1600 from rfl]
    omega
  rw [keccak_init]
  simp only [C.check]
  rw [decide_eq_true h1, decide_eq_true h2]
  have hz : ((1600 - bits * 2 : BitVec 32) &&& 63 == 0) = true := by
    rw [beq_iff_eq]
    apply BitVec.eq_of_toNat_eq
    rw [BitVec.toNat_and, hrate]
    show (1600 - 2 * bits.toNat) &&& (2 ^ 6 - 1) = 0
    rw [Nat.and_two_pow_sub_one_eq_mod]
    omega
  rw [hz]
  simp only [if_true, C.ok_bind]
  have hbs : ((1600 - bits * 2 : BitVec 32) >>> 3).toNat = (1600 - 2 * bits.toNat) / 8 := by
    rw [BitVec.toNat_ushiftRight, hrate, Nat.shiftRight_eq_div_pow]
  rw [hbs]
  refine ⟨_, rfl, rfl, ?_, by omega, by omega, ?_⟩
  · intro hstd
    simp only [Bool.or_eq_true, beq_iff_eq] at hstd
    rcases hstd with (((((h | h) | h) | h) | h) | h) | h <;> (subst h; decide)
  · exact holds_nil (by simp [rawBytes]) (by omega)

theorem kec_final {bs : Nat} {c : KecCtx} {m : List Byte} (h : KecRep bs c m) (pad : BitVec 32)
    (len : Nat) (hl : len ≤ 200) :
    keccak_final c pad len = .ok (keccak bs (if pad = 0 then 1 else pad.setWidth 8)
      (if len = 0 then 100 - bs / 2 else len) m) := by
  obtain ⟨hb, hs, h0, h200, hh⟩ := h
  subst hb
  have hst := (holds_blocks hh).1
  rw [keccak_fold _ _ hs h200] at hst
  obtain ⟨bl, t, hm, ht, hst', hpos, hblk, htk⟩ := hh
  dsimp only at hst' hpos hblk htk hst
  rw [hpos] at htk
  rw [keccak_fold _ _ hs h200] at hst'
  have hst2 : c.st = bl.foldl (absorb c.bs) (Vector.replicate 25 0) := by
    injection hst'
  rw [keccak_final]
  dsimp only
  have hl' : (if len = 0 then 100 - c.bs / 2 else len) ≤ 200 := by split <;> omega
  generalize (if len = 0 then 100 - c.bs / 2 else len) = L at *
  have hpd : BitVec.setWidth 8 (if pad = 0 then 1 else pad) =
      (if pad = 0 then 1 else BitVec.setWidth 8 pad : Byte) := by split <;> rfl
  rw [hpd]
  generalize (if pad = 0 then 1 else BitVec.setWidth 8 pad : Byte) = p
  rw [C.check, if_pos (by simpa using hl'), C.ok_bind, hpos, C.wr, if_pos (by omega), C.ok_bind]
  have htk1 : (c.block.set t.length p).take (t.length + 1) = t ++ [p] := by
    rw [List.take_add_one, List.take_set_of_le (by omega), List.getElem?_set_self (by omega), htk]
    rfl
  rw [zero_loop_to c.bs c.bs _ _ (by omega) (by simp; omega) (by omega)]
  simp only [C.ok_bind]
  rw [htk1, List.drop_of_length_le (by simp; omega), List.append_nil]
  have hmod : m.length % c.bs = t.length := by
    rw [hm, List.length_append, cat_length, Nat.mul_comm, Nat.mul_add_mod, Nat.mod_eq_of_lt ht]
  -- the last block
  have key : ∀ (last : Byte) (blk : List Byte) (vv : Vector Byte c.bs),
      (t ++ [p] ++ List.replicate (c.bs - (t.length + 1)) 0)[c.bs - 1]? = some last →
      (t ++ [p] ++ List.replicate (c.bs - (t.length + 1)) 0).set (c.bs - 1) (last ||| 0x80) = blk →
      vv.toList = blk → sponge10 c.bs p m = cat (bl ++ [vv]) →
      (do
        let last ← C.rd (t ++ [p] ++ List.replicate (c.bs - (t.length + 1)) 0) (c.bs - 1)
        let block ← C.wr (t ++ [p] ++ List.replicate (c.bs - (t.length + 1)) 0) (c.bs - 1)
          (last ||| 0x80)
        let A ← keccak_transform c.std c.bs c.st block
        state_out 8 (fun x => (write64le x).toList) A.toList L) = .ok (keccak c.bs p L m) := by
    intro last blk vv e1 e2 e3 e4
    rw [C.rd, e1]
    simp only [C.ok_bind]
    rw [C.wr, if_pos (by simp; omega), C.ok_bind, e2, ← e3, keccak_f_eq _ _ hs h200]
    simp only [C.ok_bind]
    rw [state_out_eq (by decide) _ (fun x => write64le_eq x) _ _ (by simp; omega), keccak, e4,
      blocks_of_cat h0, List.foldl_append, ← hst2, List.foldl_cons, List.foldl_nil]
  by_cases hfull : t.length = c.bs - 1
  · have e0 : List.replicate (c.bs - (t.length + 1)) (0 : Byte) = [] := by
      rw [show c.bs - (t.length + 1) = 0 by omega]; rfl
    obtain ⟨vv, hv1, -⟩ := exists_vec (n := c.bs) (xs := t ++ [p ||| 0x80]) (by simp; omega)
    refine key p (t ++ [p ||| 0x80]) vv ?_ ?_ hv1 ?_
    · rw [e0, List.append_nil, ← hfull, List.getElem?_append_right (by omega)]; simp
    · rw [e0, List.append_nil, ← hfull, List.set_append_right _ _ (by omega)]; simp
    · rw [sponge10, if_pos (by omega), cat_append, cat_cons, cat_nil, hv1, hm]; simp
  · obtain ⟨vv, hv1, -⟩ := exists_vec (n := c.bs)
      (xs := t ++ [p] ++ (List.replicate (c.bs - 2 - t.length) 0 ++ [0x80])) (by simp; omega)
    have e0 : t ++ [p] ++ List.replicate (c.bs - (t.length + 1)) (0 : Byte) =
        (t ++ [p] ++ List.replicate (c.bs - 2 - t.length) 0) ++ [0] := by
      rw [show c.bs - (t.length + 1) = (c.bs - 2 - t.length) + 1 by omega, List.replicate_succ']
      simp only [List.append_assoc]
    have e1 : (t ++ [p] ++ List.replicate (c.bs - 2 - t.length) (0 : Byte)).length = c.bs - 1 := by
      simp; omega
    refine key 0 _ vv ?_ rfl ?_ ?_
    · rw [e0, List.getElem?_append_right (by omega), e1, Nat.sub_self]; rfl
    · rw [hv1, e0, List.set_append_right _ _ (by omega), e1, Nat.sub_self]
      simp
    · rw [sponge10, if_neg (by omega), cat_append, cat_cons, cat_nil, hv1, hm, ← hm, hmod]
      simp [hm]

end Torsion.Hsh
