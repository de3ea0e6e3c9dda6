import Verif.Drbg.HashLemmas

/-!
# Lemmas for the CTR-DRBG of src/drbg.c
-/
namespace Torsion.Drb
open Torsion Spec Hsh Kdf

/-- `enc` computes the block cipher `E` for keys of `kl` bytes and blocks of 16 bytes. -/
structure IsCipher (enc : List Byte → List Byte → C (List Byte)) (E : List Byte → List Byte → List Byte)
    (kl : Nat) : Prop where
  ok : ∀ k b, k.length = kl → b.length = 16 → enc k b = .ok (E k b)
  len : ∀ k b, k.length = kl → b.length = 16 → (E k b).length = 16

/-- The state of the program `d` is the state (Key, V) `s`. -/
structure CtrSt (kl : Nat) (df : Bool) (d : CtrDrbg) (s : List Byte × Nat) : Prop where
  key : d.key = s.1
  key_size : d.key_size = kl
  ent_size : d.ent_size = kl + 16
  derivation : d.derivation = df
  KV : d.KV.length = 48
  state : d.state = bigBytes 16 s.2
  keyl : s.1.length = kl
  lt : s.2 < 2 ^ 128

theorem increment_big (v : Nat) : increment_be (bigBytes 16 v) = .ok (bigBytes 16 (v + 1)) := by
  obtain ⟨y, e, hl, hv⟩ := increment_be_spec (bigBytes 16 v)
  rw [bigBytes_len] at hl hv
  rw [e, ← bigBytes_beVal hl, hv, bigBytes_mod, beVal_bigBytes, ← bigBytes_mod, Nat.mod_add_mod, bigBytes_mod]

section
variable {enc : List Byte → List Byte → C (List Byte)} {E : List Byte → List Byte → List Byte} {kl : Nat}

theorem ctr_encrypt_eq (hE : IsCipher enc E kl) {key : List Byte} (hk : key.length = kl) (v : Nat) :
    ctr_drbg_encrypt enc key (bigBytes 16 v) = .ok (E key (bigBytes 16 (v + 1)), bigBytes 16 (v + 1)) := by
  rw [ctr_drbg_encrypt, increment_big, C.ok_bind, hE.ok _ _ hk (bigBytes_len _ _), C.ok_bind]

/-- The blocks without reduction of the counter. -/
abbrev raw (E : List Byte → List Byte → List Byte) (key : List Byte) (v : Nat) (i : Nat) : List Byte :=
  E key (bigBytes 16 (v + 1 + i))

theorem ctrBlocks_eq (s : List Byte × Nat) : ctrBlocks E s = raw E s.1 s.2 := by
  funext i
  rw [ctrBlocks, show (2 : Nat) ^ 128 = 256 ^ 16 by decide, bigBytes_mod]

theorem raw_len (hE : IsCipher enc E kl) {key : List Byte} (hk : key.length = kl) (v i : Nat) :
    (raw E key v i).length = 16 := hE.len _ _ hk (bigBytes_len _ _)

theorem raw_succ (key : List Byte) (v : Nat) : (fun k => raw E key v (k + 1)) = raw E key (v + 1) := by
  funext k; rw [raw, raw, show v + 1 + (k + 1) = v + 1 + 1 + k by omega]

theorem ctr_fill_eq (hE : IsCipher enc E kl) {key : List Byte} (hk : key.length = kl) {ent : Nat}
    (hent : ent ≤ 48) : ∀ (n j v : Nat) (KV : List Byte), ent ≤ 16 * j + n → KV.length = 48 →
    ∃ KV' st, ctr_drbg_fill enc key ent n (16 * j) KV (bigBytes 16 v) = .ok (KV', st) ∧ KV'.length = 48 ∧
      KV'.take ent = (KV.take (16 * j) ++ cut (raw E key v) 16 (ent - 16 * j)).take ent
  | 0, j, v, KV, hn, hKV => by
    refine ⟨KV, _, rfl, hKV, ?_⟩
    rw [show ent - 16 * j = 0 by omega, cut_zero, List.append_nil, List.take_take, Nat.min_eq_left (by omega)]
  | n + 1, j, v, KV, hn, hKV => by
    rw [ctr_drbg_fill]
    by_cases hi : 16 * j < ent
    · have hb : (E key (bigBytes 16 (v + 1))).length = 16 := raw_len hE hk v 0
      rw [if_pos hi, ctr_encrypt_eq hE hk, C.ok_bind]
      dsimp only
      rw [C.blit, if_pos (by omega), C.ok_bind, hb, show 16 * j + 16 = 16 * (j + 1) by omega]
      obtain ⟨KV', st, e, hl, ht⟩ := ctr_fill_eq hE hk hent n (j + 1) (v + 1)
        (KV.take (16 * j) ++ E key (bigBytes 16 (v + 1)) ++ KV.drop (16 * (j + 1))) (by omega)
        (by simp [hb]; omega)
      refine ⟨KV', st, e, hl, ?_⟩
      have htl : List.take (16 * (j + 1)) (KV.take (16 * j) ++ E key (bigBytes 16 (v + 1)) ++
          KV.drop (16 * (j + 1))) = KV.take (16 * j) ++ E key (bigBytes 16 (v + 1)) :=
        List.take_left' (by simp [hb]; omega)
      rw [ht, htl, cut_step (raw E key v) (by omega) (by omega) (by exact hb),
        raw_succ, show ent - 16 * j - 16 = ent - 16 * (j + 1) by omega]
      rw [show raw E key v 0 = E key (bigBytes 16 (v + 1)) from rfl]
      by_cases hc : 16 ≤ ent - 16 * j
      · rw [List.take_of_length_le (l := E key (bigBytes 16 (v + 1))) (by omega), List.append_assoc]
      · rw [show ent - 16 * (j + 1) = 0 by omega, cut_zero, List.append_nil, List.append_nil, List.take_append,
          List.take_append, List.take_take, List.length_take, Nat.min_eq_left (a := 16 * j) (by omega),
          List.take_take, Nat.min_self]
    · rw [if_neg hi]
      refine ⟨KV, _, rfl, hKV, ?_⟩
      rw [show ent - 16 * j = 0 by omega, cut_zero, List.append_nil, List.take_take, Nat.min_eq_left (by omega)]

theorem fitTo_len (n : Nat) (x : List Byte) : (fitTo n x).length = n := by
  rw [fitTo, List.length_append, List.length_take, List.length_replicate]; omega

theorem fitTo_self {n : Nat} {x : List Byte} (h : x.length = n) : fitTo n x = x := by
  rw [fitTo, List.take_of_length_le (by omega), h, Nat.sub_self]; simp

theorem xor_zeros : ∀ (x : List Byte) (n : Nat), x.length ≤ n →
    List.zipWith (· ^^^ ·) x (List.replicate n (0 : Byte)) = x
  | [], n, _ => by simp
  | a :: x, 0, h => by simp at h
  | a :: x, n + 1, h => by
    rw [List.replicate_succ, List.zipWith_cons_cons, xor_zeros x n (by simpa using h)]; simp

theorem drbg_xor_eq (dst src : List Byte) {ent : Nat} (h : ent ≤ dst.length) :
    ∃ y, drbg_xor dst src (if src.length > ent then ent else src.length) = .ok y ∧
      y.length = dst.length ∧ y.take ent = xorBytes (dst.take ent) (fitTo ent src) := by
  have hlen : (if src.length > ent then ent else src.length) = min ent src.length := by split <;> omega
  rw [hlen, drbg_xor, slice_take _ _ (by omega), C.ok_bind, slice_take _ _ (by omega), C.ok_bind]
  refine ⟨_, rfl, by simp; omega, ?_⟩
  rw [List.take_append, xorBytes, fitTo, List.length_zipWith, List.length_take, List.length_take]
  have e1 : dst.take ent = dst.take (min ent src.length) ++ (dst.drop (min ent src.length)).take
      (ent - min ent src.length) := by
    rw [← List.take_append_drop (min ent src.length) (dst.take ent), List.take_take, List.drop_take,
      Nat.min_eq_left (by omega)]
  have e2 : src.take ent = src.take (min ent src.length) := by
    by_cases hc : ent ≤ src.length
    · rw [Nat.min_eq_left hc]
    · rw [Nat.min_eq_right (by omega), List.take_of_length_le (by omega), List.take_of_length_le (by omega)]
  conv_rhs => rw [e1, e2]
  rw [List.zipWith_append (by simp; omega), xor_zeros _ _ (by simp)]
  congr 1
  · rw [List.take_of_length_le (by simp)]
  · congr 1; omega

theorem ctr_update_eq (hE : IsCipher enc E kl) (hkl : kl ≤ 32) {df : Bool} {d : CtrDrbg} {s : List Byte × Nat}
    (h : CtrSt kl df d s) (seed : List Byte) :
    ∃ d', ctr_drbg_update enc d seed = .ok d' ∧ CtrSt kl df d' (ctrUpdate E kl seed s) := by
  rw [ctr_drbg_update, h.ent_size, h.state, h.key]
  dsimp only
  obtain ⟨KV, st, e, hl, ht⟩ := ctr_fill_eq hE h.keyl (show kl + 16 ≤ 48 by omega) (kl + 16) 0 s.2 d.KV
    (by omega) h.KV
  obtain ⟨KV2, e2, hl2, ht2⟩ := drbg_xor_eq KV seed (ent := kl + 16) (by omega)
  rw [Nat.mul_zero] at e ht
  rw [Nat.sub_zero, List.take_zero, List.nil_append,
    List.take_of_length_le (l := cut (raw E s.1 s.2) 16 (kl + 16))] at ht
  · have h48 : KV2.length = 48 := by omega
    rw [e, C.ok_bind]
    dsimp only
    rw [e2, C.ok_bind, ctr_drbg_rekey]
    dsimp only
    rw [h.key_size, slice_take _ _ (by omega), C.ok_bind, C.slice, if_pos (by omega), C.ok_bind]
    have hT : xorBytes (cut (ctrBlocks E s) 16 (kl + 16)) (fitTo (kl + 16) seed) = KV2.take (kl + 16) := by
      rw [ht2, ht, ctrBlocks_eq]
    refine ⟨_, rfl, ?_, rfl, rfl, h.derivation, h48, ?_, ?_, ?_⟩
    · rw [ctrUpdate, hT]; dsimp only
      rw [List.take_take, Nat.min_eq_left (by omega)]
    · rw [ctrUpdate, hT]; dsimp only
      rw [List.drop_take, Nat.add_sub_cancel_left, bigBytes_beVal (by simp; omega)]
    · rw [ctrUpdate, hT]; simp; omega
    · rw [ctrUpdate, hT]; dsimp only
      have := beVal_lt ((KV2.take (kl + 16)).drop kl)
      refine lt_of_lt_of_eq this ?_
      rw [show ((KV2.take (kl + 16)).drop kl).length = 16 by simp; omega]; decide
  · rw [cut_length _ (by omega) (raw_len hE h.keyl _)]

/-! ### Derivation function -/

theorem blit_front (a src : List Byte) {n : Nat} (h : src.length ≤ n) :
    C.blit (a ++ List.replicate n 0) a.length src = .ok (a ++ src ++ List.replicate (n - src.length) 0) := by
  rw [C.blit, if_pos (by simp; omega), List.take_left' rfl, List.drop_append,
    List.drop_eq_nil_of_le (by omega), List.nil_append, Nat.add_sub_cancel_left, List.drop_replicate]

theorem serialize_eq (ent : Nat) (hent : ent < 2 ^ 32) (nonce pers : List Byte) :
    ctr_drbg_serialize ent nonce pers =
      (let input := nonce.take 512 ++ pers.take 512
       let S := bigBytes 4 input.length ++ bigBytes 4 ent ++ input ++ [0x80]
       .ok (List.replicate 16 0 ++ (S ++ List.replicate ((16 - S.length % 16) % 16) 0))) := by
  have hcut : ∀ x : List Byte, (if x.length > 512 then x.take 512 else x) = x.take 512 := by
    intro x; split
    · rfl
    · rw [List.take_of_length_le (by omega)]
  rw [ctr_drbg_serialize, hcut, hcut]
  have hn : (nonce.take 512).length ≤ 512 := by simp
  have hp : (pers.take 512).length ≤ 512 := by simp
  generalize nonce.take 512 = N at *
  generalize pers.take 512 = P at *
  dsimp only
  have hL : (bigBytes 4 (N ++ P).length ++ bigBytes 4 ent ++ (N ++ P) ++ [0x80] : List Byte).length =
      9 + (N.length + P.length) := by
    simp [bigBytes_len]; omega
  rw [hL]
  have hsize : (if (16 + 4 + 4 + (N.length + P.length) + 1) % 16 ≠ 0 then
      16 + 4 + 4 + (N.length + P.length) + 1 + (16 - (16 + 4 + 4 + (N.length + P.length) + 1) % 16)
      else 16 + 4 + 4 + (N.length + P.length) + 1) =
      16 + (9 + (N.length + P.length) + (16 - (9 + (N.length + P.length)) % 16) % 16) := by
    split <;> omega
  rw [hsize]
  generalize hz : (16 - (9 + (N.length + P.length)) % 16) % 16 = z at *
  have hw : ∀ v : Nat, v < 2 ^ 32 → (write32be (BitVec.ofNat 32 v)).toList = bigBytes 4 v := by
    intro v hv; rw [write32be_eq, BitVec.toNat_ofNat, Nat.mod_eq_of_lt hv]
  rw [C.check, if_pos (by simp; omega), C.ok_bind, C.check, if_pos (by simp; omega), C.ok_bind,
    hw _ (by omega), hw _ hent, ← List.replicate_append_replicate]
  have b1 := blit_front (List.replicate 16 0) (bigBytes 4 (N.length + P.length))
    (n := 9 + (N.length + P.length) + z) (by rw [bigBytes_len]; omega)
  rw [List.length_replicate] at b1
  rw [b1, C.ok_bind, bigBytes_len]
  have b2 := blit_front (List.replicate 16 0 ++ bigBytes 4 (N.length + P.length)) (bigBytes 4 ent)
    (n := 9 + (N.length + P.length) + z - 4) (by rw [bigBytes_len]; omega)
  rw [List.length_append, List.length_replicate, bigBytes_len] at b2
  rw [b2, C.ok_bind, bigBytes_len]
  have b3 := blit_front (List.replicate 16 0 ++ bigBytes 4 (N.length + P.length) ++ bigBytes 4 ent) N
    (n := 9 + (N.length + P.length) + z - 4 - 4) (by omega)
  rw [List.length_append, List.length_append, List.length_replicate, bigBytes_len, bigBytes_len] at b3
  rw [b3, C.ok_bind]
  have b4 := blit_front (List.replicate 16 0 ++ bigBytes 4 (N.length + P.length) ++ bigBytes 4 ent ++ N) P
    (n := 9 + (N.length + P.length) + z - 4 - 4 - N.length) (by omega)
  rw [List.length_append, List.length_append, List.length_append, List.length_replicate, bigBytes_len,
    bigBytes_len] at b4
  rw [b4, C.ok_bind, show 9 + (N.length + P.length) + z - 4 - 4 - N.length - P.length = z + 1 by omega,
    List.replicate_succ (n := z)]
  have b5 := wr_mid (List.replicate 16 0 ++ bigBytes 4 (N.length + P.length) ++ bigBytes 4 ent ++ N ++ P) (0 : Byte)
    0x80 (List.replicate z 0)
  rw [List.length_append, List.length_append, List.length_append, List.length_append, List.length_replicate,
    bigBytes_len, bigBytes_len] at b5
  rw [b5]
  simp

theorem bcc_len (hE : IsCipher enc E kl) {K : List Byte} (hk : K.length = kl) (S : List Byte) :
    ∀ n, 16 * n ≤ S.length → (bcc E K S n).length = 16
  | 0, _ => by simp [bcc]
  | n + 1, h => by
    have := bcc_len hE hk S n (by omega)
    rw [bcc]
    exact hE.len _ _ hk (by rw [xorBytes, List.length_zipWith, this]; simp; omega)

theorem ctr_bcc_eq (hE : IsCipher enc E kl) {K : List Byte} (hk : K.length = kl) (S : List Byte) :
    ∀ (n j : Nat), 16 * (j + n) ≤ S.length →
      ctr_drbg_bcc enc K S n j (bcc E K S j) = .ok (bcc E K S (j + n))
  | 0, j, _ => rfl
  | n + 1, j, h => by
    have hl := bcc_len hE hk S j (by omega)
    rw [ctr_drbg_bcc, C.slice, if_pos (by omega), C.ok_bind, hE.ok _ _ hk (by
      rw [List.length_zipWith, hl]; simp; omega), C.ok_bind]
    have := ctr_bcc_eq hE hk S n (j + 1) (by omega)
    rw [bcc, xorBytes, Nat.mul_comm 16 j] at this
    rw [this, show j + 1 + n = j + (n + 1) by omega]

theorem ctr_chains_eq (hE : IsCipher enc E kl) {K : List Byte} (hk : K.length = kl) (T : List Byte) :
    ∀ (n i : Nat) (a : List Byte), a.length = 4 → i + n < 2 ^ 32 →
      ctr_drbg_chains enc K (a ++ T) n i = .ok ((List.range n).flatMap fun k =>
        bcc E K (bigBytes 4 (i + k) ++ T) ((4 + T.length) / 16))
  | 0, i, a, _, _ => rfl
  | n + 1, i, a, ha, hi => by
    have hw : (write32be (BitVec.ofNat 32 i)).toList = bigBytes 4 i := by
      rw [write32be_eq, BitVec.toNat_ofNat, Nat.mod_eq_of_lt (by omega)]
    have hS : (bigBytes 4 i ++ T).length = 4 + T.length := by rw [List.length_append, bigBytes_len]
    have hb := ctr_bcc_eq hE hk (bigBytes 4 i ++ T) ((4 + T.length) / 16) 0 (by rw [hS]; omega)
    rw [show bcc E K (bigBytes 4 i ++ T) 0 = List.replicate 16 0 from rfl, Nat.zero_add] at hb
    rw [ctr_drbg_chains, hw, C.blit, if_pos (by simp [bigBytes_len, ha]), C.ok_bind, List.take_zero,
      List.nil_append, bigBytes_len, Nat.zero_add, List.drop_left' ha, hS, hb, C.ok_bind,
      ctr_chains_eq hE hk T n (i + 1) _ (bigBytes_len _ _) (by omega), C.ok_bind, List.range_succ_eq_map,
      List.flatMap_cons, List.flatMap_map]
    simp only [Nat.add_zero, Nat.succ_eq_add_one, show ∀ k, i + 1 + k = i + (k + 1) by omega]

theorem ctr_expand_eq (hE : IsCipher enc E kl) {K : List Byte} (hk : K.length = kl) :
    ∀ (n : Nat) (x : List Byte), x.length = 16 →
      ctr_drbg_expand enc K n x = .ok ((List.range n).flatMap fun i => (E K)^[i + 1] x)
  | 0, _, _ => rfl
  | n + 1, x, hx => by
    rw [ctr_drbg_expand, hE.ok _ _ hk hx, C.ok_bind, ctr_expand_eq hE hk n _ (hE.len _ _ hk hx), C.ok_bind,
      List.range_succ_eq_map, List.flatMap_cons, List.flatMap_map]
    rfl

theorem iter_len (hE : IsCipher enc E kl) {K : List Byte} (hk : K.length = kl) :
    ∀ (n : Nat) (x : List Byte), x.length = 16 → ((E K)^[n] x).length = 16
  | 0, _, h => h
  | n + 1, x, h => by rw [Function.iterate_succ_apply]; exact iter_len hE hk n _ (hE.len _ _ hk h)

theorem flat_len (T : Nat → List Byte) : ∀ (n : Nat), (∀ i, i < n → (T i).length = 16) →
    ((List.range n).flatMap T).length = n * 16
  | 0, _ => by simp
  | n + 1, h => by
    rw [List.range_succ, List.flatMap_append, List.length_append, flat_len T n (fun i hi => h i (by omega))]
    simp [h n (by omega)]; omega

theorem ctr_derive_eq (hE : IsCipher enc E kl) (hkl : kl ≤ 32) (nonce pers : List Byte) :
    ctr_drbg_derive enc kl (kl + 16) nonce pers = .ok (ctrDf E kl (nonce.take 512 ++ pers.take 512)) := by
  rw [ctr_drbg_derive, serialize_eq _ (by omega)]
  dsimp only
  rw [C.ok_bind, ctrDf]
  generalize nonce.take 512 ++ pers.take 512 = input
  generalize hS0 : bigBytes 4 input.length ++ bigBytes 4 (kl + 16) ++ input ++ [0x80] = S0
  generalize hS1 : S0 ++ List.replicate ((16 - S0.length % 16) % 16) 0 = S
  have hSl : S.length % 16 = 0 := by
    rw [← hS1, List.length_append, List.length_replicate]; omega
  have hK : ((List.range kl).map (BitVec.ofNat 8)).length = kl := by simp
  have hrep : (List.replicate 16 0 ++ S : List Byte) = List.replicate 4 0 ++ (List.replicate 12 0 ++ S) := by
    rw [← List.append_assoc, List.replicate_append_replicate]
  generalize hb : (kl + 16 + 16 - 1) / 16 = blocks
  have hb1 : kl + 16 ≤ blocks * 16 := by omega
  have hb2 : blocks * 16 ≤ 64 := by omega
  rw [fits_ok (by omega), C.ok_bind, hrep, ctr_chains_eq hE hK _ _ 0 _ (by simp) (by omega), C.ok_bind]
  simp only [Nat.zero_add]
  have hdiv : (4 + (List.replicate 12 (0 : Byte) ++ S).length) / 16 = 1 + S.length / 16 := by
    simp; omega
  rw [hdiv]
  simp only [← List.append_assoc]
  generalize hT : (fun k => bcc E ((List.range kl).map (BitVec.ofNat 8))
    (bigBytes 4 k ++ List.replicate 12 0 ++ S) (1 + S.length / 16)) = T
  have hTl : ∀ i, (T i).length = 16 := by
    intro i
    rw [← hT]
    exact bcc_len hE hK _ _ (by simp [bigBytes_len]; omega)
  have hfl := flat_length T hTl blocks
  have hcut : cut T 16 (kl + 16) = ((List.range blocks).flatMap T).take (kl + 16) := by rw [cut, hb]
  rw [fits_ok (by omega), C.ok_bind, slice_take _ _ (by omega), C.ok_bind, C.slice, if_pos (by omega), C.ok_bind,
    hcut]
  generalize (List.range blocks).flatMap T = slab at *
  have e1 : (slab.take (kl + 16)).take kl = slab.take kl := by rw [List.take_take, Nat.min_eq_left (by omega)]
  have e2 : (slab.take (kl + 16)).drop kl = (slab.drop kl).take 16 := by
    rw [List.drop_take, Nat.add_sub_cancel_left]
  rw [e1, e2]
  have hk1 : (slab.take kl).length = kl := by simp; omega
  have hx1 : ((slab.drop kl).take 16).length = 16 := by simp; omega
  rw [ctr_expand_eq hE hk1 _ _ hx1, C.ok_bind]
  have hfl2 := flat_len (fun i => (E (slab.take kl))^[i + 1] ((slab.drop kl).take 16)) blocks
    (fun i _ => iter_len hE hk1 _ _ hx1)
  rw [fits_ok (by omega), C.ok_bind, slice_take _ _ (by omega), cut, hb]

theorem ctr_plain_eq (hkl : kl ≤ 32) (nonce pers : List Byte) :
    ctr_drbg_plain (kl + 16) nonce pers =
      .ok (xorBytes (fitTo (kl + 16) nonce) (fitTo (kl + 16) pers)) := by
  rw [ctr_drbg_plain, fits_ok (by simp; omega), C.ok_bind]
  dsimp only
  have htake : nonce.take (if nonce.length > kl + 16 then kl + 16 else nonce.length) = nonce.take (kl + 16) := by
    split
    · rfl
    · rw [List.take_of_length_le (by omega), List.take_of_length_le (by omega)]
  have hb := blit_front [] (nonce.take (kl + 16)) (n := kl + 16) (by simp)
  rw [List.length_nil, List.nil_append, List.nil_append] at hb
  rw [htake, hb, C.ok_bind]
  have hfit : nonce.take (kl + 16) ++ List.replicate (kl + 16 - (nonce.take (kl + 16)).length) 0 =
      fitTo (kl + 16) nonce := by
    rw [fitTo, List.length_take]; congr 2; omega
  rw [hfit]
  obtain ⟨y, e, hl, ht⟩ := drbg_xor_eq (fitTo (kl + 16) nonce) pers (ent := kl + 16) (by rw [fitTo_len])
  rw [fitTo_len] at hl
  rw [List.take_of_length_le (by omega), List.take_of_length_le (by rw [fitTo_len])] at ht
  rw [e, ht]

theorem ctr_seed_eq (hE : IsCipher enc E kl) (hkl : kl ≤ 32) (df : Bool) (nonce pers : List Byte) :
    (if df then ctr_drbg_derive enc kl (kl + 16) nonce pers else ctr_drbg_plain (kl + 16) nonce pers) =
      .ok (ctrSeed E kl df nonce pers) := by
  cases df
  · exact ctr_plain_eq hkl nonce pers
  · exact ctr_derive_eq hE hkl nonce pers

theorem ctr_init_eq {bits : Nat} (hb : bits = 128 ∨ bits = 192 ∨ bits = 256) (hE : IsCipher enc E (bits / 8))
    (junk : Nat → Byte) (df : Bool) (nonce pers : List Byte) :
    ∃ d, ctr_drbg_init enc junk bits df nonce pers = .ok d ∧
      CtrSt (bits / 8) df d (ctrInit E (bits / 8) df nonce pers) := by
  have hkl : bits / 8 ≤ 32 := by omega
  rw [ctr_drbg_init, C.check, if_pos (by simpa using hb), C.ok_bind]
  dsimp only
  generalize bits / 8 = kl at *
  have hr : ((List.range 48).map junk).length = 48 := by simp
  rw [ctr_seed_eq hE hkl, C.ok_bind, C.blit, if_pos (by simp; omega), C.ok_bind, ctr_drbg_rekey]
  dsimp only
  rw [List.take_zero, List.nil_append, List.length_replicate, Nat.zero_add,
    slice_take _ _ (by simp; omega), C.ok_bind, C.slice, if_pos (by simp), C.ok_bind, C.ok_bind]
  refine ctr_update_eq hE hkl (s := (List.replicate kl 0, 0)) ⟨?_, rfl, rfl, rfl, by simp; omega, ?_, by simp, (by decide : 0 < 2 ^ 128)⟩ _
  · show List.take kl _ = _
    rw [List.take_append, List.take_replicate, List.length_replicate, Nat.min_eq_left (by omega),
      Nat.sub_eq_zero_of_le (by omega)]
    simp
  · show List.take 16 (List.drop kl _) = _
    rw [List.drop_append, List.drop_replicate, List.take_append, List.take_replicate]
    simp only [List.length_replicate]
    rw [show min 16 (kl + 16 - kl) = 16 by omega, show 16 - (kl + 16 - kl) = 0 by omega, List.take_zero,
      List.append_nil]
    decide

theorem ctr_reseed_eq (hE : IsCipher enc E kl) (hkl : kl ≤ 32) {df : Bool} {d : CtrDrbg} {s : List Byte × Nat}
    (h : CtrSt kl df d s) (nonce add : List Byte) :
    ∃ d', ctr_drbg_reseed enc d nonce add = .ok d' ∧ CtrSt kl df d' (ctrReseed E kl df s nonce add) := by
  rw [ctr_drbg_reseed, h.key_size, h.ent_size, h.derivation, ctr_seed_eq hE hkl, C.ok_bind]
  exact ctr_update_eq hE hkl h _

theorem ctr_loop_eq (hE : IsCipher enc E kl) {key : List Byte} (hk : key.length = kl) :
    ∀ (n len v : Nat), len ≤ n → ctr_drbg_loop enc key n len (bigBytes 16 v) =
      .ok (cut (raw E key v) 16 len, bigBytes 16 (v + (len + 15) / 16))
  | 0, len, v, hn => by
    obtain rfl : len = 0 := by omega
    rw [cut_zero]; rfl
  | n + 1, len, v, hn => by
    by_cases hlen : len > 0
    · have hb : (E key (bigBytes 16 (v + 1))).length = 16 := raw_len hE hk v 0
      rw [ctr_drbg_loop, if_pos hlen, ctr_encrypt_eq hE hk, C.ok_bind,
        cut_step _ (by omega) hlen (by exact hb), raw_succ]
      dsimp only
      rw [show raw E key v 0 = E key (bigBytes 16 (v + 1)) from rfl]
      by_cases hc : len < 16
      · rw [if_pos hc, slice_take _ _ (by omega), C.ok_bind, show len - 16 = 0 by omega, cut_zero,
          List.append_nil, show (len + 15) / 16 = 1 by omega]
      · rw [if_neg hc, ctr_loop_eq hE hk n (len - 16) (v + 1) (by omega), C.ok_bind,
          List.take_of_length_le (by omega), show v + 1 + (len - 16 + 15) / 16 = v + (len + 15) / 16 by omega]
    · obtain rfl : len = 0 := by omega
      rw [ctr_drbg_loop, if_neg (by omega), cut_zero]; rfl

theorem ctr_generate_eq (hE : IsCipher enc E kl) (hkl : kl ≤ 32) {df : Bool} {d : CtrDrbg} {s : List Byte × Nat}
    (h : CtrSt kl df d s) (len : Nat) (add : List Byte) :
    ∃ d', ctr_drbg_generate enc d len add = .ok ((ctrGenerate E kl df s len add).1, d') ∧
      CtrSt kl df d' (ctrGenerate E kl df s len add).2 := by
  obtain ⟨d1, e1, r1⟩ : ∃ d1, (if add.length > 0 then
      if d.derivation then do
        let tmp ← ctr_drbg_derive enc d.key_size d.ent_size add []
        let drbg ← ctr_drbg_update enc d tmp
        .ok (drbg, tmp)
      else do
        let drbg ← ctr_drbg_update enc d add
        .ok (drbg, add)
      else C.ok (d, add)) =
      .ok (d1, if add = [] then [] else if df then ctrDf E kl (add.take 512) else add) ∧
      CtrSt kl df d1 (if add = [] then s else
        ctrUpdate E kl (if add = [] then [] else if df then ctrDf E kl (add.take 512) else add) s) := by
    by_cases h0 : add = []
    · subst h0
      exact ⟨d, by simp, by simpa using h⟩
    · rw [if_pos (List.length_pos_iff.2 h0), if_neg h0, if_neg h0, h.derivation, h.key_size, h.ent_size]
      cases df
      · obtain ⟨d1, e, r⟩ := ctr_update_eq hE hkl h add
        exact ⟨d1, by simp [e], by simpa using r⟩
      · obtain ⟨d1, e, r⟩ := ctr_update_eq hE hkl h (ctrDf E kl (add.take 512))
        refine ⟨d1, ?_, by simpa using r⟩
        simp only [if_true]
        rw [ctr_derive_eq hE hkl, C.ok_bind, List.take_nil, List.append_nil, e, C.ok_bind]
  rw [ctr_drbg_generate, e1, C.ok_bind, ctrGenerate]
  dsimp only
  generalize (if add = [] then [] else if df then ctrDf E kl (add.take 512) else add) = data at *
  generalize (if add = [] then s else ctrUpdate E kl data s) = s1 at *
  rw [r1.key, r1.state, ctr_loop_eq hE r1.keyl _ _ _ (Nat.le_refl _), C.ok_bind, ctrBlocks_eq]
  dsimp only
  obtain ⟨d2, e2, r2⟩ := ctr_update_eq hE hkl
    (d := { d1 with key := s1.1, state := bigBytes 16 (s1.2 + (len + 15) / 16) })
    (s := (s1.1, (s1.2 + (len + 15) / 16) % 2 ^ 128))
    ⟨rfl, r1.key_size, r1.ent_size, r1.derivation, r1.KV, by
      rw [show (2 : Nat) ^ 128 = 256 ^ 16 by decide, bigBytes_mod], r1.keyl, Nat.mod_lt _ (by decide)⟩ data
  refine ⟨d2, ?_, r2⟩
  have hd : ({ d1 with state := bigBytes 16 (s1.2 + (len + 15) / 16) } : CtrDrbg) =
      { d1 with key := s1.1, state := bigBytes 16 (s1.2 + (len + 15) / 16) } := by
    rw [← r1.key]
  rw [← r1.key] at e2 ⊢
  rw [e2, C.ok_bind]

end

end Torsion.Drb
