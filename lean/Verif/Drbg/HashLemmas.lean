import Verif.Drbg.HmacLemmas

/-!
# Lemmas for the Hash-DRBG of src/drbg.c
-/
namespace Torsion.Drb
open Torsion Spec Hsh Kdf

/-! ## Addition of byte strings -/

def addLe : Nat → List Byte → List Byte → Nat × List Byte
  | c, s :: ss, d :: ds =>
    let v := c + (s.toNat + d.toNat)
    ((addLe (v / 256) ss ds).1, BitVec.ofNat 8 v :: (addLe (v / 256) ss ds).2)
  | c, _, _ => (c, [])

theorem addLe_val : ∀ (ss ds : List Byte) (c : Nat), ss.length = ds.length → c ≤ 1 →
    (addLe c ss ds).1 ≤ 1 ∧ (addLe c ss ds).2.length = ds.length ∧
      leVal (addLe c ss ds).2 + 256 ^ ds.length * (addLe c ss ds).1 = c + leVal ss + leVal ds
  | [], [], c, _, hc => by simp [addLe, leVal_nil, hc]
  | s :: ss, d :: ds, c, h, hc => by
    have hs := s.isLt
    have hd := d.isLt
    obtain ⟨a, b, e⟩ := addLe_val ss ds ((c + (s.toNat + d.toNat)) / 256) (by simpa using h) (by omega)
    refine ⟨by simpa [addLe] using a, by simpa [addLe] using b, ?_⟩
    simp only [addLe, leVal_cons, List.length_cons, Nat.pow_succ, BitVec.toNat_ofNat] at e ⊢
    have := Nat.div_add_mod (c + (s.toNat + d.toNat)) 256
    generalize (addLe ((c + (s.toNat + d.toNat)) / 256) ss ds).1 = q at *
    generalize leVal (addLe ((c + (s.toNat + d.toNat)) / 256) ss ds).2 = r at *
    have e2 : 256 ^ ds.length * 256 * q = 256 * (256 ^ ds.length * q) := by
      rw [Nat.mul_comm (256 ^ ds.length), Nat.mul_assoc]
    rw [e2]
    generalize 256 ^ ds.length * q = z at *
    omega
  | [], _ :: _, _, h, _ => by simp at h
  | _ :: _, [], _, h, _ => by simp at h

theorem accumulate_src_eq : ∀ (ss ds : List Byte), ss.length = ds.length → ∀ (c : Nat) (pre t u : List Byte),
    accumulate_src (ss.reverse ++ u) pre.length ss.length c (pre ++ (ds.reverse ++ t)) =
      .ok ((addLe c ss ds).1, pre ++ ((addLe c ss ds).2.reverse ++ t))
  | [], [], _, c, pre, t, u => by simp [addLe, accumulate_src]
  | s :: ss, d :: ds, h, c, pre, t, u => by
    have h' : ss.length = ds.length := by simpa using h
    have hd : pre.length + ss.length = (pre ++ ds.reverse).length := by simp [h']
    have e1 : C.rd ((s :: ss).reverse ++ u) ss.length = .ok s := by
      rw [List.reverse_cons, List.append_assoc, List.singleton_append]
      conv_lhs => rw [show ss.length = ss.reverse.length by simp]
      exact rd_mid _ _ _
    have e2 : pre ++ ((d :: ds).reverse ++ t) = (pre ++ ds.reverse) ++ d :: t := by simp
    have e3 : (s :: ss).reverse ++ u = ss.reverse ++ (s :: u) := by simp
    rw [List.length_cons, accumulate_src, e1, C.ok_bind, e2, hd, rd_mid, C.ok_bind]
    dsimp only
    rw [wr_mid, C.ok_bind, e3, List.append_assoc, accumulate_src_eq ss ds h']
    simp [addLe]
  | [], _ :: _, h, _, _, _, _ => by simp at h
  | _ :: _, [], h, _, _, _, _ => by simp at h

theorem accumulate_rest_eq : ∀ (n c : Nat) (x : List Byte), accumulate_rest n c x = increment_be_loop n c x
  | 0, _, _ => rfl
  | n + 1, c, x => by
    rw [accumulate_rest, increment_be_loop]
    cases h : C.rd x n with
    | ok d =>
      simp only [C.ok_bind]
      cases h2 : C.wr x n (BitVec.ofNat 8 (c + d.toNat)) with
      | ok y => simp only [C.ok_bind]; exact accumulate_rest_eq n _ _
      | abort => rfl
      | ub => rfl
    | abort => rfl
    | ub => rfl

/-- `accumulate` adds modulo `256 ^ dlen`, for a source that is not longer. -/
theorem accumulate_val (dst src : List Byte) (h : src.length ≤ dst.length) :
    ∃ y, accumulate dst src = .ok y ∧ y.length = dst.length ∧
      beVal y = (beVal dst + beVal src) % 256 ^ dst.length := by
  obtain ⟨pre, ds, rfl, hp⟩ : ∃ pre ds, dst = pre ++ ds ∧ ds.length = src.length :=
    ⟨dst.take (dst.length - src.length), dst.drop (dst.length - src.length), by simp, by simp; omega⟩
  have hoff : (pre ++ ds).length - src.length = pre.length := by simp; omega
  have e1 := accumulate_src_eq src.reverse ds.reverse (by simp [hp]) 0 pre [] []
  obtain ⟨v1, v2, v3⟩ := addLe_val src.reverse ds.reverse 0 (by simp [hp]) (by omega)
  simp only [List.reverse_reverse, List.append_nil, List.length_reverse] at e1 v2 v3
  rw [accumulate, C.check, if_pos (by simpa using h), C.ok_bind]
  dsimp only
  rw [hoff, e1, C.ok_bind]
  dsimp only
  generalize (addLe 0 src.reverse ds.reverse).1 = c at *
  generalize (addLe 0 src.reverse ds.reverse).2 = o at *
  have e2 := increment_be_loop_eq pre.reverse c o.reverse
  obtain ⟨w1, w2⟩ := increment_le_loop_val pre.reverse c v1
  rw [List.length_reverse, List.reverse_reverse] at e2
  rw [accumulate_rest_eq, e2]
  refine ⟨_, rfl, by simp [w1, v2], ?_⟩
  rw [beVal_eq, beVal_eq, beVal_eq, List.reverse_append, List.reverse_append, List.reverse_reverse,
    List.reverse_reverse, leVal_append, leVal_append, w2, v2, List.length_append, List.length_reverse,
    List.length_reverse]
  have hlt := leVal_lt o
  rw [v2] at hlt
  rw [Nat.zero_add] at v3
  have hkey : leVal o + 256 ^ ds.length * (leVal pre.reverse + c) =
      leVal ds.reverse + 256 ^ ds.length * leVal pre.reverse + leVal src.reverse := by
    rw [Nat.mul_add]; omega
  rw [← hkey, Nat.add_comm pre.length, Nat.pow_add, Nat.mod_mul]
  generalize leVal pre.reverse + c = z
  congr 1
  · rw [Nat.add_mul_mod_self_left, Nat.mod_eq_of_lt hlt]
  · rw [Nat.add_mul_div_left _ _ (Nat.pos_of_ne_zero (by simp)), Nat.div_eq_of_lt hlt, Nat.zero_add]

theorem accumulate_long (dst src : List Byte) (h : dst.length < src.length) :
    accumulate dst src = .abort := by
  rw [accumulate, C.check, if_neg (by simpa using h)]; rfl

theorem beVal_bigBytes (n v : Nat) : beVal (bigBytes n v) = v % 256 ^ n := by
  rw [beVal_eq, bigBytes, List.reverse_reverse, Strm.leVal_leBytes]

theorem bigBytes_beVal {n : Nat} {x : List Byte} (h : x.length = n) : bigBytes n (beVal x) = x := by
  apply List.reverse_injective
  apply leVal_inj
  · simp [bigBytes_len, h]
  · rw [← beVal_eq, ← beVal_eq, beVal_bigBytes, Nat.mod_eq_of_lt]
    rw [beVal_eq, ← h, ← List.length_reverse]; exact leVal_lt _

theorem bigBytes_mod (n v : Nat) : bigBytes n (v % 256 ^ n) = bigBytes n v := by
  rw [bigBytes, bigBytes, leBytes_mod_eq (Nat.mod_mod _ _)]

theorem accumulate_big {n : Nat} (a : Nat) {src : List Byte} (h : src.length ≤ n) :
    accumulate (bigBytes n a) src = .ok (bigBytes n (a + beVal src)) := by
  obtain ⟨y, e, hl, hv⟩ := accumulate_val (bigBytes n a) src (by rw [bigBytes_len]; exact h)
  rw [bigBytes_len] at hl hv
  rw [e, ← bigBytes_beVal hl, hv, bigBytes_mod, beVal_bigBytes]
  congr 1
  rw [← bigBytes_mod, ← bigBytes_mod n (a + _), Nat.mod_add_mod]

/-! ## The generator -/

theorem hash_rep_updates {t : HashId} : ∀ (msgs : List (List Byte)) {h : HashCtx} {m : List Byte},
    HashRep t h m → (∀ x ∈ msgs, x.length < 2 ^ 64) →
    ∃ h', msgs.foldlM hash_update h = .ok h' ∧ HashRep t h' (m ++ msgs.flatten)
  | [], h, m, hr, _ => ⟨h, rfl, by simpa using hr⟩
  | x :: xs, h, m, hr, hx => by
    obtain ⟨h1, e1, r1⟩ := rep_update hr x (hx x (by simp))
    obtain ⟨h2, e2, r2⟩ := hash_rep_updates xs r1 (fun y hy => hx y (by simp [hy]))
    refine ⟨h2, ?_, by simpa using r2⟩
    rw [List.foldlM_cons, e1, C.ok_bind, e2]

/-- The hash function of `t`. -/
abbrev hashOf (t : HashId) : List Byte → List Byte := Spec.hash t (hash_output_size t)

theorem drbg_hash_eq {t : HashId} (ht : hash_has_backend t = true) (junk : Nat → Nat → Byte)
    (msgs : List (List Byte)) (hm : ∀ x ∈ msgs, x.length < 2 ^ 64) :
    drbg_hash junk t (hash_output_size t) msgs = .ok (hashOf t msgs.flatten) := by
  obtain ⟨h1, h2, _⟩ := sizes ht
  have hl := hash_len ht
  obtain ⟨a, e, r⟩ := hash_calls ht (junk 0)
  obtain ⟨b, e', r'⟩ := hash_rep_updates msgs r hm
  rw [drbg_hash, e, C.ok_bind, e', C.ok_bind, rep_final r' _ _ (fun _ => by omega), C.ok_bind,
    fits_ok (by rw [hl]), C.ok_bind, slice_take _ _ (by rw [hl]), List.take_of_length_le (by rw [hl]),
    List.nil_append]

/-- Length of V: 440 bits for digests up to 256 bits, else 888 bits. -/
def seedLen (t : HashId) : Nat := if hash_output_size t ≤ 32 then 55 else 111

theorem hash_drbg_state_eq {t : HashId} (i : Nat) :
    hash_drbg_state (BitVec.ofNat 8 (i + 1)) (seedLen t) = bigBytes 1 (i + 1) ++ bigBytes 4 (8 * seedLen t) := by
  have hone : bigBytes 1 (i + 1) = [BitVec.ofNat 8 (i + 1)] := by
    simp [bigBytes, leBytes]
  rw [seedLen]
  split
  · have : bigBytes 4 (8 * 55) = [0x00, 0x00, 0x01, 0xb8] := by decide
    rw [this, hone]; rfl
  · have : bigBytes 4 (8 * 111) = [0x00, 0x00, 0x03, 0x78] := by decide
    rw [this, hone]; rfl

theorem hash_drbg_df_eq {t : HashId} (ht : hash_has_backend t = true) (junk : Junk)
    (msgs : List (List Byte)) (hm : ∀ x ∈ msgs, x.length < 2 ^ 64) :
    ∀ (n i : Nat), hash_drbg_df junk t (hash_output_size t) (seedLen t) msgs n (BitVec.ofNat 8 (i + 1)) =
      .ok ((List.range n).flatMap fun k =>
        hashOf t (bigBytes 1 (i + k + 1) ++ bigBytes 4 (8 * seedLen t) ++ msgs.flatten))
  | 0, i => rfl
  | n + 1, i => by
    have hc : (BitVec.ofNat 8 (i + 1) + 1 : Byte) = BitVec.ofNat 8 (i + 1 + 1) := by
      exact (BitVec.ofNat_add _ _).symm
    rw [hash_drbg_df, hash_drbg_state_eq, drbg_hash_eq ht, C.ok_bind, hc,
      hash_drbg_df_eq ht junk msgs hm n (i + 1), C.ok_bind, List.range_succ_eq_map, List.flatMap_cons,
      List.flatMap_map]
    · simp only [List.flatten_cons, Nat.add_zero, Nat.succ_eq_add_one,
        show ∀ k, i + 1 + k + 1 = i + (k + 1) + 1 by omega]
    · intro x hx
      rcases List.mem_cons.1 hx with rfl | hx
      · rw [List.length_append, bigBytes_len, bigBytes_len]; decide
      · exact hm x hx

theorem seedLen_facts {t : HashId} (ht : hash_has_backend t = true) :
    8 ≤ seedLen t ∧ hash_output_size t ≤ seedLen t ∧ seedLen t ≤ 111 ∧
      (seedLen t + hash_output_size t - 1) / hash_output_size t * hash_output_size t ≤ 165 := by
  cases t <;> first | (cases ht; done) | decide

theorem hash_drbg_df_cut {t : HashId} (ht : hash_has_backend t = true) (junk : Junk)
    (msgs : List (List Byte)) (hm : ∀ x ∈ msgs, x.length < 2 ^ 64) :
    (do let output ← hash_drbg_df junk t (hash_output_size t) (seedLen t) msgs
          ((seedLen t + hash_output_size t - 1) / hash_output_size t) 0x01
        C.slice output 0 (seedLen t)) =
      .ok (hashDf (hashOf t) (hash_output_size t) (seedLen t) msgs.flatten) := by
  obtain ⟨h1, h2, _⟩ := sizes ht
  have := hash_drbg_df_eq ht junk msgs hm ((seedLen t + hash_output_size t - 1) / hash_output_size t) 0
  rw [show (BitVec.ofNat 8 (0 + 1)) = (0x01 : Byte) by rfl] at this
  rw [this, C.ok_bind, slice_take, hashDf, cut]
  · simp only [Nat.zero_add]
  · rw [flat_length _ (hs := hash_output_size t) (fun i => hash_len ht _)]
    exact ceil_le (by omega)

theorem hashDf_len {t : HashId} (ht : hash_has_backend t = true) (n : Nat) (m : List Byte) :
    (hashDf (hashOf t) (hash_output_size t) n m).length = n := by
  obtain ⟨h1, h2, _⟩ := sizes ht
  exact cut_length _ (by omega) (fun i => hash_len ht _) n

/-- The state of the program `d` is the working state `s`. -/
structure HashSt (t : HashId) (d : HashDrbg) (s : HashDrbgState) : Prop where
  type : d.type = t
  size : d.size = hash_output_size t
  length : d.length = seedLen t
  V : d.V = bigBytes (seedLen t) s.V
  C : d.C = bigBytes (seedLen t) s.C
  rounds : d.rounds = BitVec.ofNat 64 s.ctr
  Vlt : s.V < 256 ^ seedLen t
  Clt : s.C < 256 ^ seedLen t
  ctr : s.ctr < 2 ^ 64

theorem beVal_lt (x : List Byte) : beVal x < 256 ^ x.length := by
  rw [beVal_eq, ← List.length_reverse]; exact leVal_lt _

theorem hash_seed_eq {t : HashId} (ht : hash_has_backend t = true) (junk : Nat → Junk)
    (msgs : List (List Byte)) (hm : ∀ x ∈ msgs, x.length < 2 ^ 64) :
    ∃ d, (do
      let output ← hash_drbg_df (junk 0) t (hash_output_size t) (seedLen t) msgs
        ((seedLen t + hash_output_size t - 1) / hash_output_size t) 0x01
      let V ← C.slice output 0 (seedLen t)
      let output ← hash_drbg_df (junk 1) t (hash_output_size t) (seedLen t) [[0x00], V]
        ((seedLen t + hash_output_size t - 1) / hash_output_size t) 0x01
      let c ← C.slice output 0 (seedLen t)
      C.ok (⟨t, hash_output_size t, seedLen t, V, c, 1⟩ : HashDrbg)) = .ok d ∧
      HashSt t d (hashInit (hashOf t) (hash_output_size t) (seedLen t) msgs.flatten) := by
  obtain ⟨_, _, f3, _⟩ := seedLen_facts ht
  have hl := hashDf_len ht (seedLen t)
  rw [← C.bind_assoc, hash_drbg_df_cut ht (junk 0) msgs hm, C.ok_bind, ← C.bind_assoc,
    hash_drbg_df_cut ht (junk 1), C.ok_bind]
  · refine ⟨_, rfl, rfl, rfl, rfl, ?_, ?_, rfl, ?_, ?_, (by decide : 1 < 2 ^ 64)⟩
    · exact (bigBytes_beVal (hl _)).symm
    · simp only [List.flatten_cons, List.flatten_nil, List.append_nil, List.singleton_append]
      exact (bigBytes_beVal (hl _)).symm
    · have := beVal_lt (hashDf (hashOf t) (hash_output_size t) (seedLen t) msgs.flatten)
      rwa [hl] at this
    · have := beVal_lt (hashDf (hashOf t) (hash_output_size t) (seedLen t)
        (0 :: hashDf (hashOf t) (hash_output_size t) (seedLen t) msgs.flatten))
      rwa [hl] at this
  · intro x hx
    simp only [List.mem_cons, List.not_mem_nil, or_false] at hx
    rcases hx with rfl | rfl
    · simp
    · rw [hl]; omega

theorem hash_drbg_init_eq {t : HashId} (ht : hash_has_backend t = true) (junk : Nat → Junk)
    (seed : List Byte) (hs : seed.length < 2 ^ 64) :
    ∃ d, hash_drbg_init junk t seed = .ok d ∧
      HashSt t d (hashInit (hashOf t) (hash_output_size t) (seedLen t) seed) := by
  obtain ⟨h1, h2, _⟩ := sizes ht
  obtain ⟨_, _, _, f4⟩ := seedLen_facts ht
  obtain ⟨d, e, r⟩ := hash_seed_eq ht junk [seed] (by simpa using hs)
  refine ⟨d, ?_, by simpa using r⟩
  rw [hash_drbg_init, C.check, if_pos (by simp; omega), C.ok_bind]
  dsimp only
  rw [show (if hash_output_size t ≤ 32 then 55 else 111) = seedLen t from rfl, C.check,
    if_pos (by simpa using f4), C.ok_bind]
  exact e

theorem hash_drbg_reseed_eq {t : HashId} (ht : hash_has_backend t = true) (junk : Nat → Junk)
    {d : HashDrbg} {s : HashDrbgState} (h : HashSt t d s) (seed : List Byte) (hs : seed.length < 2 ^ 64) :
    ∃ d', hash_drbg_reseed junk d seed = .ok d' ∧
      HashSt t d' (hashReseed (hashOf t) (hash_output_size t) (seedLen t) s seed) := by
  obtain ⟨h1, h2, _⟩ := sizes ht
  obtain ⟨_, _, f3, f4⟩ := seedLen_facts ht
  obtain ⟨d', e, r⟩ := hash_seed_eq ht junk [[0x01], bigBytes (seedLen t) s.V, seed] (by
    intro x hx
    simp only [List.mem_cons, List.not_mem_nil, or_false] at hx
    rcases hx with rfl | rfl | rfl
    · simp
    · rw [bigBytes_len]; omega
    · exact hs)
  refine ⟨d', ?_, by rw [hashReseed]; simpa using r⟩
  rw [hash_drbg_reseed, h.size, h.length, h.type, h.V]
  rw [C.check, if_pos (by simpa using f4), C.ok_bind, slice_take _ _ (by rw [bigBytes_len]), C.ok_bind,
    List.take_of_length_le (by rw [bigBytes_len])]
  exact e

theorem hash_drbg_loop_eq {t : HashId} (ht : hash_has_backend t = true) (junk : Junk) (V : Nat) :
    ∀ (n k len : Nat), len ≤ n →
      hash_drbg_loop junk t (hash_output_size t) n len (bigBytes (seedLen t) (V + k)) =
        .ok (cut (fun i => hashOf t (bigBytes (seedLen t) ((V + (k + i)) % 256 ^ seedLen t)))
          (hash_output_size t) len)
  | 0, k, len, hn => by
    obtain rfl : len = 0 := by omega
    rw [cut_zero]; rfl
  | n + 1, k, len, hn => by
    obtain ⟨h1, h2, _⟩ := sizes ht
    obtain ⟨_, f2, f3, f4⟩ := seedLen_facts ht
    have hpos : 0 < hash_output_size t := by omega
    have hl := hash_len ht
    by_cases hlen : len > 0
    · rw [hash_drbg_loop, if_pos hlen, drbg_hash_eq ht _ _ (by
        intro x hx
        simp only [List.mem_cons, List.not_mem_nil, or_false] at hx
        subst hx; rw [bigBytes_len]; omega), C.ok_bind, cut_step _ hpos hlen (by exact hl _)]
      simp only [List.flatten_cons, List.flatten_nil, List.append_nil, Nat.add_zero, bigBytes_mod]
      by_cases hc : len < hash_output_size t
      · rw [if_pos hc, fits_ok (by rw [hl]; omega), C.ok_bind, slice_take _ _ (by rw [hl]; omega),
          show len - hash_output_size t = 0 by omega, cut_zero, List.append_nil]
      · rw [if_neg hc, accumulate_big _ (by simp; omega), C.ok_bind,
          show V + k + beVal [0x01] = V + (k + 1) by rfl,
          hash_drbg_loop_eq ht junk V n (k + 1) (len - hash_output_size t) (by omega), C.ok_bind,
          List.take_of_length_le (by rw [hl]; omega)]
        simp only [bigBytes_mod, show ∀ i, k + 1 + i = k + (i + 1) by omega]
    · obtain rfl : len = 0 := by omega
      rw [hash_drbg_loop, if_neg (by omega), cut_zero]

theorem hash_drbg_update_eq {t : HashId} (ht : hash_has_backend t = true) (junk : Junk)
    {d : HashDrbg} {s : HashDrbgState} (h : HashSt t d s) :
    hash_drbg_update junk d = .ok { d with V := (bigBytes (seedLen t)
      ((s.V + beVal (hashOf t (0x03 :: bigBytes (seedLen t) s.V)) + s.C + s.ctr) % 256 ^ seedLen t)) } := by
  obtain ⟨h1, h2, _⟩ := sizes ht
  obtain ⟨f1, f2, f3, f4⟩ := seedLen_facts ht
  have hl := hash_len ht
  have hw : (write64be d.rounds).toList = bigBytes 8 s.ctr := by
    rw [write64be_eq, h.rounds, BitVec.toNat_ofNat, Nat.mod_eq_of_lt h.ctr]
  rw [hash_drbg_update, h.size, h.length, h.type, h.V, h.C, slice_take _ _ (by rw [bigBytes_len]), C.ok_bind,
    List.take_of_length_le (by rw [bigBytes_len]), drbg_hash_eq ht _ _ (by
        intro x hx
        simp only [List.mem_cons, List.not_mem_nil, or_false] at hx
        rcases hx with rfl | rfl
        · simp
        · rw [bigBytes_len]; omega), C.ok_bind, fits_ok (by rw [hl]; omega), C.ok_bind]
  dsimp only
  rw [hw, accumulate_big _ (by rw [hl]; omega), C.ok_bind, slice_take _ _ (by rw [bigBytes_len]), C.ok_bind,
    List.take_of_length_le (by rw [bigBytes_len]), accumulate_big _ (by rw [bigBytes_len]), C.ok_bind,
    accumulate_big _ (by rw [bigBytes_len]; omega), C.ok_bind, beVal_bigBytes, beVal_bigBytes,
    Nat.mod_eq_of_lt h.Clt, Nat.mod_eq_of_lt (a := s.ctr) (lt_of_lt_of_eq h.ctr (by decide)), bigBytes_mod]
  simp only [List.flatten_cons, List.flatten_nil, List.append_nil, List.singleton_append]

theorem hash_drbg_generate_eq {t : HashId} (ht : hash_has_backend t = true) (junk : Nat → Junk)
    {d : HashDrbg} {s : HashDrbgState} (h : HashSt t d s) (len : Nat) (add : List Byte)
    (hs : add.length < 2 ^ 64) :
    ∃ d', hash_drbg_generate junk d len add =
        .ok ((hashGenerate (hashOf t) (hash_output_size t) (seedLen t) s len add).1, d') ∧
      HashSt t d' (hashGenerate (hashOf t) (hash_output_size t) (seedLen t) s len add).2 := by
  obtain ⟨h1, h2, _⟩ := sizes ht
  obtain ⟨f1, f2, f3, f4⟩ := seedLen_facts ht
  have hl := hash_len ht
  have hpow : 0 < 256 ^ seedLen t := Nat.pos_of_ne_zero (by simp)
  have e1 : (if add.length > 0 then do
      let H ← drbg_hash (junk 0 0) d.type d.size [[0x02], bigBytes (seedLen t) s.V, add]
      let H ← C.fits 64 H
      accumulate (bigBytes (seedLen t) s.V) H
    else .ok (bigBytes (seedLen t) s.V)) = .ok (bigBytes (seedLen t) (if add = [] then s.V else
      (s.V + beVal (hashOf t (0x02 :: (bigBytes (seedLen t) s.V ++ add)))) % 256 ^ seedLen t)) := by
    by_cases h0 : add = []
    · rw [if_pos h0, if_neg (by simp [h0])]
    · rw [if_pos (List.length_pos_iff.2 h0), if_neg h0, h.type, h.size, drbg_hash_eq ht _ _ (by
        intro x hx
        simp only [List.mem_cons, List.not_mem_nil, or_false] at hx
        rcases hx with rfl | rfl | rfl
        · simp
        · rw [bigBytes_len]; omega
        · exact hs), C.ok_bind, fits_ok (by rw [hl]; omega), C.ok_bind,
        accumulate_big _ (by rw [hl]; omega), bigBytes_mod]
      simp
  rw [hash_drbg_generate, h.length, h.V, slice_take _ _ (by rw [bigBytes_len]), C.ok_bind,
    List.take_of_length_le (by rw [bigBytes_len]), e1, C.ok_bind, fits_ok (by rw [bigBytes_len]; omega),
    C.ok_bind, hashGenerate]
  have hVlt : (if add = [] then s.V else
      (s.V + beVal (hashOf t (0x02 :: (bigBytes (seedLen t) s.V ++ add)))) % 256 ^ seedLen t) <
      256 ^ seedLen t := by
    split
    · exact h.Vlt
    · exact Nat.mod_lt _ hpow
  dsimp only
  generalize (if add = [] then s.V else
      (s.V + beVal (hashOf t (0x02 :: (bigBytes (seedLen t) s.V ++ add)))) % 256 ^ seedLen t) = V1 at *
  have e2 := hash_drbg_loop_eq ht (junk 1) V1 len 0 len (Nat.le_refl _)
  rw [Nat.add_zero] at e2
  rw [h.type, h.size, e2, C.ok_bind, hash_drbg_update_eq ht (junk 2) (s := ⟨V1, s.C, s.ctr⟩)
    (d := ⟨t, hash_output_size t, seedLen t, bigBytes (seedLen t) V1, d.C, d.rounds⟩)
    ⟨rfl, rfl, rfl, rfl, h.C, h.rounds, hVlt, h.Clt, h.ctr⟩, C.ok_bind]
  simp only [Nat.zero_add]
  refine ⟨_, rfl, rfl, rfl, rfl, rfl, h.C, ?_, Nat.mod_lt _ hpow, h.Clt,
    Nat.mod_lt _ (by decide)⟩
  rw [show d.rounds = _ from h.rounds]
  apply BitVec.eq_of_toNat_eq
  simp
end Torsion.Drb
