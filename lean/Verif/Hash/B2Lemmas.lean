import Verif.Hash.KecLemmas

/-!
# Lemmas about BLAKE2

The buffer is lazy: a full block is kept until more data arrives, since the last block is compressed
differently.
-/
namespace Torsion.Hsh
open Spec Blk Strm

/-- Every non-empty string is a list of blocks and a non-empty rest of at most a block. -/
theorem lsplit (n : Nat) (hn : 0 < n) (m : List Byte) (hm : m ≠ []) :
    ∃ (bl : List (Vector Byte n)) (t : List Byte), m = cat bl ++ t ∧ t ≠ [] ∧ t.length ≤ n := by
  induction hk : m.length using Nat.strongRecOn generalizing m with
  | ind k ih =>
    by_cases h : m.length ≤ n
    · exact ⟨[], m, rfl, hm, h⟩
    · obtain ⟨v, -, hv⟩ := vec_ok (n := n) (xs := m) (by omega)
      obtain ⟨bl, t, h1, h2, h3⟩ := ih (m.drop n).length (by rw [List.length_drop]; omega) (m.drop n)
        (by rw [Ne, ← List.length_eq_zero_iff, List.length_drop]; omega) rfl
      refine ⟨v :: bl, t, ?_, h2, h3⟩
      rw [cat_cons, hv, List.append_assoc, ← h1, List.take_append_drop]

variable {w : Nat} {A : B2Alg w}

theorem b2_loop_eq : ∀ (bl : List (Vector Byte A.bs)) (k : Nat) (st : B2St w) (t : List Byte),
    t ≠ [] → t.length ≤ A.bs → bl.length ≤ k →
    blake2_loop A k st (cat bl ++ t) = .ok (bl.foldl (blake2_transform A) st, t)
  | [], 0, st, t, _, _, _ => rfl
  | [], k + 1, st, t, _, ht, _ => by
    rw [blake2_loop, if_neg (by simpa using ht)]; rfl
  | v :: bl, 0, st, t, _, _, hk => by simp at hk
  | v :: bl, k + 1, st, t, h0, ht, hk => by
    have : 0 < t.length := List.length_pos_iff.2 h0
    rw [blake2_loop, if_pos (by simp; omega), cat_cons, List.append_assoc]
    obtain ⟨v', h1, h2⟩ := vec_ok (n := A.bs) (xs := v.toList ++ (cat bl ++ t)) (by simp)
    have hv : v' = v := Vector.toList_inj.1 (by rw [h2, List.take_left' (by simp)])
    subst hv
    rw [h1]
    simp only [C.ok_bind]
    rw [List.drop_left' (by simp), b2_loop_eq bl k _ t h0 ht (by simpa using hk)]
    rfl

/-- The context has absorbed the data `d`, key block included. -/
def B2Rep (A : B2Alg w) (h0 : Vector (BitVec w) 8) (len : Nat) (c : B2Ctx w) (d : List Byte) : Prop :=
  ∃ (bl : List (Vector Byte A.bs)) (t : List Byte), d = cat bl ++ t ∧ t.length ≤ A.bs ∧
    (t = [] → bl = []) ∧ c.st = bl.foldl (blake2_transform A) ⟨h0, 0, 0⟩ ∧ c.pos = t.length ∧
    c.block.length = A.bs ∧ c.block.take c.pos = t ∧ c.len = len

theorem b2_update (hbs : 0 < A.bs) {h0 : Vector (BitVec w) 8} {len : Nat} {c : B2Ctx w} {d : List Byte}
    (h : B2Rep A h0 len c d) (data : List Byte) :
    ∃ c', blake2_update A c data = .ok c' ∧ B2Rep A h0 len c' (d ++ data) := by
  obtain ⟨bl, t, hd, ht, hemp, hst, hpos, hblk, htk, hlen⟩ := h
  rw [hpos] at htk
  rw [blake2_update]
  dsimp only
  rw [hpos]
  by_cases hlong : data.length > A.bs - t.length
  · rw [if_pos hlong]
    -- the part after the first block
    have tail : ∀ (bl' : List (Vector Byte A.bs)) (c' : B2Ctx w) (raw : List Byte) (pos : Nat),
        raw ≠ [] → d ++ data = cat bl' ++ raw →
        c'.st = bl'.foldl (blake2_transform A) ⟨h0, 0, 0⟩ → pos = 0 → c'.block.length = A.bs →
        c'.len = len →
        ∃ c'', (do
          let (st, raw) ← blake2_loop A raw.length c'.st raw
          let (ctx, raw, pos) ← C.ok ({ c' with st := st }, raw, pos)
          if raw.length > 0 then do
            let block ← C.blit ctx.block pos raw
            .ok { ctx with block := block, pos := pos + raw.length }
          else .ok { ctx with pos := pos }) = .ok c'' ∧ B2Rep A h0 len c'' (d ++ data) := by
      intro bl' c' raw pos hraw hdd hst' hp0 hblk' hlen'
      obtain ⟨b2, t2, e1, e2, e3⟩ := lsplit A.bs hbs raw hraw
      have e4 : 0 < t2.length := List.length_pos_iff.2 e2
      have hloop := b2_loop_eq b2 raw.length c'.st t2 e2 e3 (by
        have := congrArg List.length e1
        rw [List.length_append, cat_length] at this
        have : b2.length ≤ b2.length * A.bs := Nat.le_mul_of_pos_right _ hbs
        omega)
      rw [← e1] at hloop
      rw [hloop]
      simp only [C.ok_bind]
      rw [if_pos e4, hp0, blit_eq (by omega)]
      simp only [C.ok_bind]
      refine ⟨_, rfl, bl' ++ b2, t2, ?_, e3, fun h => absurd h e2, ?_, by simp, ?_, ?_, hlen'⟩
      · rw [hdd, e1, cat_append, List.append_assoc]
      · rw [List.foldl_append, ← hst']
      · simp; omega
      · simp
    by_cases hp : t.length > 0
    · rw [if_pos hp]
      have hs : C.slice data 0 (A.bs - t.length) = .ok (data.take (A.bs - t.length)) := by
        rw [C.slice, if_pos (by omega)]; rfl
      have hl1 : (data.take (A.bs - t.length)).length = A.bs - t.length := by simp; omega
      rw [hs]
      simp only [C.ok_bind]
      rw [blit_eq (by omega)]
      simp only [C.ok_bind]
      rw [htk, List.drop_of_length_le (by omega), List.append_nil]
      obtain ⟨v, hv1, hv2⟩ := exists_vec (n := A.bs) (xs := t ++ data.take (A.bs - t.length))
        (by rw [List.length_append]; omega)
      rw [hv2]
      simp only [C.ok_bind]
      have := tail (bl ++ [v]) { c with block := t ++ data.take (A.bs - t.length), st := blake2_transform A c.st v }
        (data.drop (A.bs - t.length)) 0
        (by rw [Ne, ← List.length_eq_zero_iff, List.length_drop]; omega)
        (by
          rw [cat_append, cat_cons, cat_nil, hv1, hd]
          simp only [List.append_assoc, List.append_nil, List.take_append_drop])
        (by rw [List.foldl_append, ← hst]; rfl) rfl (by rw [List.length_append]; omega) hlen
      rw [C.bind_assoc]
      exact this
    · rw [if_neg hp]
      simp only [C.ok_bind]
      have ht0 : t = [] := List.length_eq_zero_iff.1 (by omega)
      have := tail bl c data t.length (by rw [Ne, ← List.length_eq_zero_iff]; omega)
        (by rw [hd, ht0, List.append_nil]) hst (by omega) hblk hlen
      rw [C.bind_assoc]
      exact this
  · rw [if_neg hlong]
    simp only [C.ok_bind]
    by_cases h0' : data.length > 0
    · rw [if_pos h0', blit_eq (by omega)]
      simp only [C.ok_bind]
      refine ⟨_, rfl, bl, t ++ data, by rw [hd, List.append_assoc], by simp; omega, ?_, hst, by simp, ?_, ?_, hlen⟩
      · intro he
        have : data = [] := (List.append_eq_nil_iff.1 he).2
        rw [this] at h0'
        simp at h0'
      · simp; omega
      · dsimp only
        rw [htk, List.take_left' (by simp)]
    · have hde : data = [] := List.length_eq_zero_iff.1 (by omega)
      rw [if_neg h0']
      exact ⟨_, rfl, bl, t, by rw [hd, hde, List.append_nil], ht, hemp, hst, rfl, hblk, htk, hlen⟩

/-! ## The counter -/

theorem b2_incr (s : B2St w) (n c : Nat) (hc : c < 2 ^ w) (h0 : s.t0 = BitVec.ofNat w n)
    (h1 : s.t1 = BitVec.ofNat w (n / 2 ^ w)) :
    (blake2_increment s c).h = s.h ∧ (blake2_increment s c).t0 = BitVec.ofNat w (n + c) ∧
      (blake2_increment s c).t1 = BitVec.ofNat w ((n + c) / 2 ^ w) := by
  rw [blake2_increment]
  dsimp only
  have e0 : s.t0 + BitVec.ofNat w c = BitVec.ofNat w (n + c) := by rw [h0, BitVec.ofNat_add]
  refine ⟨rfl, e0, ?_⟩
  rw [e0, h1]
  have hp : 0 < 2 ^ w := Nat.two_pow_pos w
  have hdm := Nat.div_add_mod n (2 ^ w)
  have hlt := Nat.mod_lt n hp
  have hcmp : BitVec.ofNat w (n + c) < BitVec.ofNat w c ↔ 2 ^ w ≤ n % 2 ^ w + c := by
    rw [BitVec.lt_def, BitVec.toNat_ofNat, BitVec.toNat_ofNat, Nat.mod_eq_of_lt hc]
    have : (n + c) % 2 ^ w = (n % 2 ^ w + c) % 2 ^ w := by rw [Nat.mod_add_mod]
    rw [this]
    constructor
    · intro h
      by_contra hh
      rw [Nat.mod_eq_of_lt (by omega)] at h
      omega
    · intro h
      rw [Nat.mod_eq_sub_mod h, Nat.mod_eq_of_lt (by omega)]
      omega
  have hdiv : (n + c) / 2 ^ w = n / 2 ^ w + (n % 2 ^ w + c) / 2 ^ w := by
    conv => lhs; rw [← hdm, Nat.add_assoc, Nat.mul_add_div hp]
  by_cases hh : 2 ^ w ≤ n % 2 ^ w + c
  · have e : (n % 2 ^ w + c) / 2 ^ w = 1 := by
      rw [Nat.div_eq_sub_div hp hh, Nat.div_eq_of_lt (a := n % 2 ^ w + c - 2 ^ w) (by omega)]
    rw [if_pos (hcmp.2 hh), hdiv, e, BitVec.ofNat_add]
    rfl
  · have e : (n % 2 ^ w + c) / 2 ^ w = 0 := Nat.div_eq_of_lt (by omega)
    rw [if_neg (fun x => hh (hcmp.1 x)), hdiv, e, Nat.add_zero]
    simp

theorem b2_fold (hbs : A.bs < 2 ^ w) (h0 : Vector (BitVec w) 8) (bl : List (Vector Byte A.bs)) :
    (bl.foldl (blake2_transform A) ⟨h0, 0, 0⟩).h = bl.zipIdx.foldl (fun h b =>
      A.compress h (BitVec.ofNat w ((b.2 + 1) * A.bs)) (BitVec.ofNat w ((b.2 + 1) * A.bs / 2 ^ w)) b.1 0) h0 ∧
    (bl.foldl (blake2_transform A) ⟨h0, 0, 0⟩).t0 = BitVec.ofNat w (bl.length * A.bs) ∧
    (bl.foldl (blake2_transform A) ⟨h0, 0, 0⟩).t1 = BitVec.ofNat w (bl.length * A.bs / 2 ^ w) := by
  induction bl using List.reverseRecOn with
  | nil => simp
  | append_singleton bl v ih =>
    obtain ⟨i1, i2, i3⟩ := ih
    rw [List.foldl_append, List.zipIdx_append, List.foldl_append]
    generalize bl.foldl (blake2_transform A) ⟨h0, 0, 0⟩ = s at *
    obtain ⟨e1, e2, e3⟩ := b2_incr s _ _ hbs i2 i3
    simp only [List.foldl_cons, List.foldl_nil, List.zipIdx_cons, List.zipIdx_nil, blake2_transform,
      List.length_append, List.length_singleton, Nat.zero_add]
    rw [e1, e2, e3, ← i1, Nat.add_mul, Nat.one_mul]
    exact ⟨rfl, rfl, rfl⟩

theorem b2_final (hbs : 0 < A.bs) (hbw : A.bs < 2 ^ w) (k : Nat) (hk : w = 8 * k) (hk0 : 0 < k)
    (hwr : ∀ x, A.wr x = leBytes k x.toNat) {iv : Vector (BitVec w) 8} {len : Nat} (hlen : len ≤ w)
    {c : B2Ctx w} {key m : List Byte}
    (h : B2Rep A (iv.set 0 (iv[0] ^^^ BitVec.ofNat w (0x01010000 + 256 * key.length + len))) len c
      ((if key = [] then [] else key ++ List.replicate (A.bs - key.length) 0) ++ m)) :
    blake2_final A c = .ok (Spec.blake2 A.bs A.compress iv len key m) := by
  rw [Spec.blake2]
  generalize (if key = [] then [] else key ++ List.replicate (A.bs - key.length) 0) ++ m = d at *
  generalize iv.set 0 (iv[0] ^^^ BitVec.ofNat w (0x01010000 + 256 * key.length + len)) = h0 at *
  obtain ⟨bl, t, hd, ht, hemp, hst, hpos, hblk, htk, hlen'⟩ := h
  rw [hpos] at htk
  obtain ⟨f1, f2, f3⟩ := b2_fold (A := A) hbw h0 bl
  rw [← hst] at f1 f2 f3
  have hdl : d.length = bl.length * A.bs + t.length := by rw [hd, List.length_append, cat_length]
  have hn : (d.length - 1) / A.bs = bl.length := by
    by_cases he : t = []
    · have : bl = [] := hemp he
      rw [hdl, this, he]; simp
    · have : 0 < t.length := List.length_pos_iff.2 he
      rw [hdl, Nat.add_sub_assoc this, Nat.mul_comm, Nat.mul_add_div hbs, Nat.div_eq_of_lt (by omega),
        Nat.add_zero]
  rw [hn]
  have htake : d.take (bl.length * A.bs) = cat bl := by
    rw [hd, List.take_left' (cat_length bl)]
  rw [htake, blocks_of_cat hbs, ← f1, blake2_final, hpos,
    zero_loop_to A.bs A.bs _ _ (by omega) (by omega) ht]
  simp only [C.ok_bind]
  rw [htk, List.drop_of_length_le (by omega), List.append_nil]
  obtain ⟨v, hv1, hv2⟩ := exists_vec (n := A.bs) (xs := t ++ List.replicate (A.bs - t.length) 0)
    (by simp; omega)
  rw [hv2]
  simp only [C.ok_bind]
  obtain ⟨e1, e2, e3⟩ := b2_incr c.st _ t.length (by omega) f2 f3
  rw [e1, e2, e3, ← hdl]
  have hv : v = Vector.ofFn fun j : Fin A.bs => d.getD (bl.length * A.bs + j.val) 0 := by
    apply Vector.toList_inj.1
    rw [hv1]
    apply List.ext_getElem
    · simp; omega
    · intro i h1 h2
      have hi : i < A.bs := by simpa using h2
      simp only [Vector.getElem_toList, Vector.getElem_ofFn]
      rw [List.getD_eq_getElem?_getD, hd, List.getElem?_append_right (by rw [cat_length]; omega), cat_length,
        show bl.length * A.bs + i - bl.length * A.bs = i by omega]
      by_cases hit : i < t.length
      · rw [List.getElem_append_left hit, List.getElem?_eq_getElem hit]; rfl
      · rw [List.getElem_append_right (by omega), List.getElem?_eq_none (by omega), List.getElem_replicate]; rfl
  rw [← hv]
  have hkw : w / 8 = k := by omega
  rw [hkw, state_out_eq hk0 _ hwr _ _ (by rw [Vector.length_toList, hlen']; omega), hlen']

theorem b2_param (w klen len : Nat) (hk : klen < 256) (hl : len < 256) :
    BitVec.ofNat w 0x01010000 ||| (BitVec.ofNat w klen <<< 8) ||| BitVec.ofNat w len =
      BitVec.ofNat w (0x01010000 + 256 * klen + len) := by
  have h1 : (0x01010000 + 256 * klen + len : Nat) = 0x01010000 ||| (klen <<< 8) ||| len := by
    have e1 : (0x01010000 : Nat) ||| klen <<< 8 = 0x01010000 + 256 * klen := by
      rw [Nat.shiftLeft_eq, show (0x01010000 : Nat) = 0x0101 * 2 ^ 16 by decide, Nat.or_comm]
      rw [show (0x0101 * 2 ^ 16 : Nat) = 2 ^ 16 * 0x0101 by decide, Nat.or_comm,
        ← Nat.two_pow_add_eq_or_of_lt (i := 16) (by omega)]
      omega
    rw [e1, show 0x01010000 + 256 * klen = 2 ^ 8 * (0x010100 + klen) by omega,
      ← Nat.two_pow_add_eq_or_of_lt (i := 8) (by omega)]
  rw [h1]
  apply BitVec.eq_of_getLsbD_eq
  intro i hi
  simp only [BitVec.getLsbD_or, BitVec.getLsbD_shiftLeft, BitVec.getLsbD_ofNat, Nat.testBit_or,
    Nat.testBit_shiftLeft, hi, decide_true, Bool.true_and]
  by_cases h8 : i < 8
  · simp [h8, show ¬ (8 ≤ i) by omega]
  · simp [h8, show 8 ≤ i by omega, show i - 8 < w by omega]

theorem b2_init (max : Nat) (hmax : max ≤ A.bs) (hm2 : max < 256) (junk : Nat → Byte)
    (len : Nat) (key : List Byte) (h1 : 1 ≤ len) (h2 : len ≤ max) (h3 : key.length ≤ max) :
    ∃ c, blake2_init A max junk len key = .ok c ∧
      B2Rep A (A.iv.set 0 (A.iv[0] ^^^ BitVec.ofNat w (0x01010000 + 256 * key.length + len))) len c
        ((if key = [] then [] else key ++ List.replicate (A.bs - key.length) 0) ++ []) := by
  rw [blake2_init, C.check, if_pos (by simp [h1, h2]), C.ok_bind, C.check, if_pos (by simp [h3]), C.ok_bind]
  dsimp only
  rw [b2_param w _ _ (by omega) (by omega)]
  by_cases hk : key = []
  · rw [if_neg (by rw [hk]; simp), if_pos hk]
    exact ⟨_, rfl, [], [], rfl, by simp, fun _ => rfl, rfl, rfl, by simp [rawBytes], rfl, rfl⟩
  · have hkl : 0 < key.length := List.length_pos_iff.2 hk
    rw [if_pos hkl, if_neg hk, blit_eq (by simp; omega)]
    simp only [C.ok_bind]
    refine ⟨_, rfl, [], key ++ List.replicate (A.bs - key.length) 0, by simp, by simp; omega, ?_, rfl,
      by simp; omega, by simp; omega, ?_, rfl⟩
    · intro h; exact absurd (List.append_eq_nil_iff.1 h).1 hk
    · dsimp only
      rw [List.take_of_length_le (by simp; omega)]
      simp

end Torsion.Hsh
