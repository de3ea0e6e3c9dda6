import Verif.Rsa.PssLemmas
import Verif.Rsa.EncLemmas

/-!
# Lemmas: OAEP
-/
namespace Torsion.Rsa
open Torsion.Spec Mpi
open Torsion.Drb Hsh Kdf

theorem oaepDb_len {t : HashId} (ht : hash_has_backend t = true) {k : Nat} {label m : List Byte}
    (h : m.length + 2 * hash_output_size t + 2 ≤ k) :
    (oaepDb (hashOf t) (hash_output_size t) k label m).length = k - hash_output_size t - 1 := by
  unfold oaepDb
  rw [List.length_append, show (hashOf t label).length = hash_output_size t from hash_len ht _]
  simp only [List.length_append, List.length_replicate, List.length_cons, List.length_nil]
  omega

theorem emeOaep_len {t : HashId} (ht : hash_has_backend t = true) {k : Nat} {label seed m : List Byte}
    (h : m.length + 2 * hash_output_size t + 2 ≤ k) (hs : seed.length = hash_output_size t) :
    (emeOaep (hashOf t) (hash_output_size t) k label seed m).length = k := by
  unfold emeOaep
  have h1 := oaepDb_len ht (label := label) h
  have h2 := mgf1_len ht seed (k - hash_output_size t - 1)
  have h3 := xor_len (h1.trans h2.symm)
  dsimp only
  rw [List.length_append, List.length_append, h3, h1, xor_len (by rw [mgf1_len ht, hs]), hs, List.length_singleton]
  omega

/-- The program which builds the encoded message. -/
theorem oaep_encode {t : HashId} (ht : hash_has_backend t = true) (junk : Nat → Nat → Byte)
    {out msg label sd : List Byte} {klen : Nat} (hl : label.length < 2 ^ 64)
    (hk : klen < 2 ^ 64) (hm : msg.length + 2 * hash_output_size t + 2 ≤ klen) (hs : sd.length = hash_output_size t)
    (ho : klen ≤ out.length) {α : Type} (f : List Byte → R α) :
    (do
      let lhash ← (drbg_hash junk t (hash_output_size t) [label] : R (List Byte))
      let dlen := klen - (1 + hash_output_size t)
      let em ← C.wr out 0 0x00
      let em ← C.blit em 1 sd
      let em ← C.blit em (1 + hash_output_size t) lhash
      let em ← C.blit em (1 + hash_output_size t + hash_output_size t)
        (List.replicate (dlen - msg.length - 1 - hash_output_size t) 0x00)
      let em ← C.wr em (1 + hash_output_size t + (dlen - msg.length - 1)) 0x01
      let em ← (if msg.length > 0 then C.blit em (1 + hash_output_size t + (dlen - msg.length)) msg else .ok em)
      let seed ← C.slice em 1 (hash_output_size t)
      let db ← C.slice em (1 + hash_output_size t) dlen
      let db ← mgf1xor junk t db seed
      let seed ← mgf1xor junk t seed db
      let em ← C.blit em (1 + hash_output_size t) db
      let em ← C.blit em 1 seed
      let em ← C.slice em 0 klen
      f em) = f (emeOaep (hashOf t) (hash_output_size t) klen label sd msg) := by
  obtain ⟨s1, s2, -⟩ := sizes ht
  have hlh : (hashOf t label).length = hash_output_size t := hash_len ht _
  have hdl := oaepDb_len ht (label := label) hm
  have hgl := mgf1_len ht sd (klen - hash_output_size t - 1)
  unfold emeOaep
  dsimp only
  have hd : drbg_hash junk t (hash_output_size t) [label] = .ok (hashOf t label) := by
    rw [drbg_hash_eq ht]
    · simp
    · intro x hx
      rw [List.mem_singleton] at hx
      rw [hx]; exact hl
  obtain ⟨o0, o1, rfl⟩ := cut1 (l := out) (by omega)
  obtain ⟨S, o2, rfl, hS⟩ := cut (l := o1) (n := hash_output_size t) (by simp only [List.length_cons] at ho; omega)
  obtain ⟨L, o3, rfl, hL⟩ := cut (l := o2) (n := hash_output_size t)
    (by simp only [List.length_cons, List.length_append] at ho; omega)
  obtain ⟨Z, o4, rfl, hZ⟩ := cut (l := o3) (n := klen - msg.length - 2 * hash_output_size t - 2)
    (by simp only [List.length_cons, List.length_append] at ho; omega)
  obtain ⟨o5, o6, rfl⟩ := cut1 (l := o4) (by simp only [List.length_cons, List.length_append] at ho; omega)
  obtain ⟨M, rest, rfl, hM⟩ := cut (l := o6) (n := msg.length)
    (by simp only [List.length_cons, List.length_append] at ho; omega)
  have hz : klen - (1 + hash_output_size t) - msg.length - 1 - hash_output_size t =
    klen - msg.length - 2 * hash_output_size t - 2 := by omega
  rw [hz]
  generalize hZZ : List.replicate (klen - msg.length - 2 * hash_output_size t - 2) (0x00 : Byte) = Z'
  have hZ' : Z'.length = Z.length := by rw [← hZZ, List.length_replicate, hZ]
  have e1 : C.wr (o0 :: (S ++ (L ++ (Z ++ o5 :: (M ++ rest))))) 0 0x00 =
      .ok (0x00 :: (S ++ (L ++ (Z ++ o5 :: (M ++ rest))))) := rfl
  have e2 : C.blit (0x00 :: (S ++ (L ++ (Z ++ o5 :: (M ++ rest))))) 1 sd =
      .ok (0x00 :: (sd ++ (L ++ (Z ++ o5 :: (M ++ rest))))) :=
    blit_at (p := [0x00]) rfl (by rw [hs, hS])
  have e3 : C.blit (0x00 :: (sd ++ (L ++ (Z ++ o5 :: (M ++ rest))))) (1 + hash_output_size t) (hashOf t label) =
      .ok (0x00 :: (sd ++ (hashOf t label ++ (Z ++ o5 :: (M ++ rest))))) := by
    have := blit_at (p := 0x00 :: sd) (old := L) (s := Z ++ o5 :: (M ++ rest)) (src := hashOf t label)
      (pos := 1 + hash_output_size t) (by rw [List.length_cons, hs]; omega) (by rw [hlh, hL])
    simpa using this
  have e4 : C.blit (0x00 :: (sd ++ (hashOf t label ++ (Z ++ o5 :: (M ++ rest)))))
      (1 + hash_output_size t + hash_output_size t) Z' =
      .ok (0x00 :: (sd ++ (hashOf t label ++ (Z' ++ o5 :: (M ++ rest))))) := by
    have := blit_at (p := 0x00 :: (sd ++ hashOf t label)) (old := Z) (s := o5 :: (M ++ rest)) (src := Z')
      (pos := 1 + hash_output_size t + hash_output_size t)
      (by rw [List.length_cons, List.length_append, hs, hlh]; omega) hZ'
    simpa using this
  have e5 : C.wr (0x00 :: (sd ++ (hashOf t label ++ (Z' ++ o5 :: (M ++ rest)))))
      (1 + hash_output_size t + (klen - (1 + hash_output_size t) - msg.length - 1)) 0x01 =
      .ok (0x00 :: (sd ++ (hashOf t label ++ (Z' ++ 0x01 :: (M ++ rest))))) := by
    have := wr_at (p := 0x00 :: (sd ++ (hashOf t label ++ Z'))) (s := M ++ rest) (x := o5) (y := 0x01)
      (pos := 1 + hash_output_size t + (klen - (1 + hash_output_size t) - msg.length - 1))
      (by rw [List.length_cons, List.length_append, List.length_append, hs, hlh, hZ', hZ]; omega)
    simpa using this
  have e6 : (if msg.length > 0 then R.lift (C.blit (0x00 :: (sd ++ (hashOf t label ++ (Z' ++ 0x01 :: (M ++ rest)))))
      (1 + hash_output_size t + (klen - (1 + hash_output_size t) - msg.length)) msg)
      else .ok (0x00 :: (sd ++ (hashOf t label ++ (Z' ++ 0x01 :: (M ++ rest)))))) =
      .ok (0x00 :: (sd ++ (hashOf t label ++ (Z' ++ 0x01 :: (msg ++ rest))))) := by
    split
    · have := blit_at (p := 0x00 :: (sd ++ (hashOf t label ++ (Z' ++ [0x01])))) (old := M) (s := rest) (src := msg)
        (pos := 1 + hash_output_size t + (klen - (1 + hash_output_size t) - msg.length))
        (by simp only [List.length_cons, List.length_append, hs, hlh, hZ', hZ, List.length_nil]; omega) hM.symm
      simp only [List.append_assoc, List.cons_append, List.nil_append] at this
      rw [this]; rfl
    · have h1 : msg = [] := List.length_eq_zero_iff.1 (by omega)
      have h2 : M = [] := List.length_eq_zero_iff.1 (by omega)
      rw [h1, h2]
  have hdb : hashOf t label ++ (Z' ++ 0x01 :: msg) = oaepDb (hashOf t) (hash_output_size t) klen label msg := by
    unfold oaepDb
    rw [← hZZ]; rfl
  rw [show (0x00 : Byte) :: (sd ++ (hashOf t label ++ (Z' ++ 0x01 :: (msg ++ rest)))) =
    0x00 :: (sd ++ ((hashOf t label ++ (Z' ++ 0x01 :: msg)) ++ rest)) by simp, hdb] at e6
  simp only [R.liftM_eq, hd, R.lift_ok, R.ok_bind, e1, e2, e3, e4, e5]
  rw [e6, R.ok_bind]
  generalize oaepDb (hashOf t) (hash_output_size t) klen label msg = DB at hdl ⊢
  have e7 : C.slice (0x00 :: (sd ++ (DB ++ rest))) 1 (hash_output_size t) = .ok sd :=
    slice_at (p := [0x00]) rfl hs.symm
  have e8 : C.slice (0x00 :: (sd ++ (DB ++ rest))) (1 + hash_output_size t) (klen - (1 + hash_output_size t)) = .ok DB := by
    have := slice_at (p := 0x00 :: sd) (m := DB) (s := rest) (pos := 1 + hash_output_size t)
      (n := klen - (1 + hash_output_size t)) (by rw [List.length_cons, hs]; omega) (by omega)
    simpa using this
  simp only [e7, e8, R.lift_ok, R.ok_bind, mgf_eq ht junk DB (seed := sd) (by omega)]
  rw [hdl]
  generalize mgf1 (hashOf t) (hash_output_size t) sd (klen - hash_output_size t - 1) = G at hgl ⊢
  have hxl : (xorStr DB G).length = DB.length := xor_len (by rw [hdl, hgl])
  generalize xorStr DB G = X at hxl ⊢
  simp only [mgf_eq ht junk sd (seed := X) (by omega), R.lift_ok, R.ok_bind, hs]
  have hgl2 := mgf1_len ht X (hash_output_size t)
  generalize mgf1 (hashOf t) (hash_output_size t) X (hash_output_size t) = G2 at hgl2 ⊢
  have hyl : (xorStr sd G2).length = sd.length := xor_len (by rw [hs, hgl2])
  generalize xorStr sd G2 = Y at hyl ⊢
  have e9 : C.blit (0x00 :: (sd ++ (DB ++ rest))) (1 + hash_output_size t) X = .ok (0x00 :: (sd ++ (X ++ rest))) := by
    have := blit_at (p := 0x00 :: sd) (old := DB) (s := rest) (src := X) (pos := 1 + hash_output_size t)
      (by rw [List.length_cons, hs]; omega) hxl
    simpa using this
  have e10 : C.blit (0x00 :: (sd ++ (X ++ rest))) 1 Y = .ok (0x00 :: (Y ++ (X ++ rest))) :=
    blit_at (p := [0x00]) rfl hyl
  have e11 : C.slice (0x00 :: (Y ++ (X ++ rest))) 0 klen = .ok (0x00 :: (Y ++ X)) := by
    have := slice_at (p := []) (m := 0x00 :: (Y ++ X)) (s := rest) (pos := 0) (n := klen) rfl
      (by rw [List.length_cons, List.length_append, hyl, hxl, hs, hdl]; omega)
    simpa using this
  simp only [e9, e10, e11, R.lift_ok, R.ok_bind]
  rfl

/-! ### Unpadding -/

theorem loop_done : ∀ (xs p : List Byte) (off : BitVec 32) (inv : Bool),
    oaep_loop (p ++ xs) xs.length p.length off (bit false) (bit inv) = .ok (off, bit false, bit inv)
  | [], p, off, inv => rfl
  | b :: xs, p, off, inv => by
    have ih := loop_done xs (p ++ [b])
    rw [List.length_append, List.length_singleton, List.append_assoc, List.singleton_append] at ih
    rw [List.length_cons]
    unfold oaep_loop
    rw [rd_mid, C.ok_bind]
    dsimp only
    rw [sec_01, sec_00]
    have h1 : cnd_select off (BitVec.ofNat 32 p.length) (bit false &&& bit (decide (b = 1))) = off := by
      rw [bit_and, Bool.false_and, select_bit]; rfl
    have h2 : cnd_select (bit false) 0 (bit (decide (b = 1))) = bit false := by
      rw [select_bit]; cases decide (b = 1) <;> rfl
    rw [h1, h2]
    have h3 : cnd_select (bit inv) 1 (bit false &&& (bit (decide (b = 0)) ^^^ 1)) = bit inv := by
      rw [bit_not, bit_and, Bool.false_and, select_bit]; rfl
    rw [h3, ih]

/-- One round while looking. -/
theorem loop_step (b : Byte) (xs p : List Byte) (off : BitVec 32) (inv : Bool) :
    oaep_loop (p ++ b :: xs) (xs.length + 1) p.length off (bit true) (bit inv) =
      oaep_loop (p ++ b :: xs) xs.length (p.length + 1) (if b = 1 then BitVec.ofNat 32 p.length else off)
        (bit (decide (b ≠ 1))) (bit (inv || decide (b ≠ 1 ∧ b ≠ 0))) := by
  conv_lhs => unfold oaep_loop
  rw [rd_mid, C.ok_bind]
  dsimp only
  rw [sec_01, sec_00]
  have h1 : cnd_select off (BitVec.ofNat 32 p.length) (bit true &&& bit (decide (b = 1))) =
      if b = 1 then BitVec.ofNat 32 p.length else off := by
    rw [bit_and, Bool.true_and, select_bit]
    by_cases h : b = 1 <;> simp [h]
  have h2 : cnd_select (bit true) 0 (bit (decide (b = 1))) = bit (decide (b ≠ 1)) := by
    rw [select_bit]
    by_cases h : b = 1
    · rw [h]; rfl
    · rw [decide_eq_false h, decide_eq_true h]; rfl
  rw [h1, h2]
  have h3 : cnd_select (bit inv) 1 (bit (decide (b ≠ 1)) &&& (bit (decide (b = 0)) ^^^ 1)) =
      bit (inv || decide (b ≠ 1 ∧ b ≠ 0)) := by
    rw [bit_not, bit_and, select_bit]
    by_cases h : b = 1
    · have h0 : b ≠ 0 := by rw [h]; decide
      rw [decide_eq_false (not_not.2 h), decide_eq_false (fun hh : b ≠ 1 ∧ b ≠ 0 => hh.1 h)]
      simp
    · by_cases h0 : b = 0
      · rw [decide_eq_true h, decide_eq_true h0, decide_eq_false (fun hh => hh.2 h0)]
        simp
      · rw [decide_eq_true h, decide_eq_false h0, decide_eq_true (⟨h, h0⟩ : b ≠ 1 ∧ b ≠ 0)]
        simp [bit]
  rw [h3]

theorem loop_invalid : ∀ (xs p : List Byte) (off : BitVec 32),
    ∃ off' lk, oaep_loop (p ++ xs) xs.length p.length off (bit true) (bit true) = .ok (off', bit lk, bit true)
  | [], p, off => ⟨off, true, rfl⟩
  | b :: xs, p, off => by
    rw [List.length_cons, loop_step, Bool.true_or]
    by_cases h : b = 1
    · have hd := loop_done xs (p ++ [b])
      rw [List.length_append, List.length_singleton, List.append_assoc, List.singleton_append] at hd
      rw [decide_eq_false (not_not.2 h), hd]
      exact ⟨_, _, rfl⟩
    · have ih := loop_invalid xs (p ++ [b])
      rw [List.length_append, List.length_singleton, List.append_assoc, List.singleton_append] at ih
      rw [decide_eq_true h]
      exact ih _

theorem loop_cases : ∀ (xs p : List Byte) (off : BitVec 32),
    (∃ j rest, xs = List.replicate j 0x00 ++ 0x01 :: rest ∧
      oaep_loop (p ++ xs) xs.length p.length off (bit true) (bit false) =
        .ok (BitVec.ofNat 32 (p.length + j), bit false, bit false)) ∨
    ((¬ ∃ j rest, xs = List.replicate j 0x00 ++ 0x01 :: rest) ∧
      ∃ off' lk iv, oaep_loop (p ++ xs) xs.length p.length off (bit true) (bit false) = .ok (off', bit lk, bit iv) ∧
        (lk = true ∨ iv = true))
  | [], p, off => by
    right
    refine ⟨?_, off, true, false, rfl, Or.inl rfl⟩
    rintro ⟨j, rest, h⟩
    have := congrArg List.length h
    simp at this
  | b :: xs, p, off => by
    rw [List.length_cons, loop_step, Bool.false_or]
    by_cases h1 : b = 1
    · left
      have hd := loop_done xs (p ++ [b])
      rw [List.length_append, List.length_singleton, List.append_assoc, List.singleton_append] at hd
      rw [decide_eq_false (not_not.2 h1), if_pos h1, decide_eq_false (fun hh => hh.1 h1), hd]
      exact ⟨0, xs, by rw [h1]; rfl, rfl⟩
    · rw [decide_eq_true h1, if_neg h1]
      by_cases h0 : b = 0
      · have ih := loop_cases xs (p ++ [b])
        rw [List.length_append, List.length_singleton, List.append_assoc, List.singleton_append] at ih
        rw [decide_eq_false (fun hh => hh.2 h0)]
        rcases ih off with ⟨j, rest, e1, e2⟩ | ⟨e1, e2⟩
        · left
          refine ⟨j + 1, rest, by rw [h0, e1]; rfl, ?_⟩
          rw [e2, show p.length + 1 + j = p.length + (j + 1) by omega]
        · right
          refine ⟨?_, e2⟩
          rintro ⟨j, rest, h⟩
          cases j with
          | zero =>
            rw [List.replicate_zero, List.nil_append] at h
            exact h1 (List.cons.inj h).1
          | succ j =>
            rw [List.replicate_succ, List.cons_append] at h
            exact e1 ⟨j, rest, (List.cons.inj h).2⟩
      · right
        have ih := loop_invalid xs (p ++ [b])
        rw [List.length_append, List.length_singleton, List.append_assoc, List.singleton_append] at ih
        rw [decide_eq_true (⟨h1, h0⟩ : b ≠ 1 ∧ b ≠ 0)]
        refine ⟨?_, ?_⟩
        · rintro ⟨j, rest, h⟩
          cases j with
          | zero =>
            rw [List.replicate_zero, List.nil_append] at h
            exact h1 (List.cons.inj h).1
          | succ j =>
            rw [List.replicate_succ, List.cons_append] at h
            exact h0 (List.cons.inj h).1
        · obtain ⟨off', lk, e⟩ := ih off
          exact ⟨off', lk, true, e, Or.inr rfl⟩

/-- The strings which unpad to `m`. -/
def OaepOf (t : HashId) (label em m : List Byte) : Prop :=
  m.length + 2 * hash_output_size t + 2 ≤ em.length ∧ ∃ seed, seed.length = hash_output_size t ∧
    em = emeOaep (hashOf t) (hash_output_size t) em.length label seed m

/-- The masks undone. -/
theorem oaep_split {t : HashId} (ht : hash_has_backend t = true) {label S D m : List Byte} {b : Byte}
    (hS : S.length = hash_output_size t) (hm : m.length + hash_output_size t + 1 ≤ D.length) :
    (∃ seed, seed.length = hash_output_size t ∧
      b :: (S ++ D) = emeOaep (hashOf t) (hash_output_size t) (b :: (S ++ D)).length label seed m) ↔
    b = 0 ∧ xorStr D (mgf1 (hashOf t) (hash_output_size t)
      (xorStr S (mgf1 (hashOf t) (hash_output_size t) D (hash_output_size t))) D.length) =
      oaepDb (hashOf t) (hash_output_size t) (b :: (S ++ D)).length label m := by
  have hlen : (b :: (S ++ D)).length = D.length + hash_output_size t + 1 := by
    rw [List.length_cons, List.length_append, hS]; omega
  rw [hlen]
  have hdl := oaepDb_len ht (k := D.length + hash_output_size t + 1) (label := label) (m := m) (by omega)
  rw [show D.length + hash_output_size t + 1 - hash_output_size t - 1 = D.length by omega] at hdl
  unfold emeOaep
  dsimp only
  rw [show D.length + hash_output_size t + 1 - hash_output_size t - 1 = D.length by omega]
  generalize oaepDb (hashOf t) (hash_output_size t) (D.length + hash_output_size t + 1) label m = DB at hdl ⊢
  constructor
  · rintro ⟨seed, h1, h2⟩
    rw [List.singleton_append] at h2
    have h3 := (List.cons.inj h2).2
    have hg := mgf1_len ht seed D.length
    obtain ⟨h4, h5⟩ := List.append_inj h3 (by
      rw [hS, xor_len (by rw [mgf1_len ht, h1]), h1])
    rw [← h5] at h4
    have h6 : xorStr S (mgf1 (hashOf t) (hash_output_size t) D (hash_output_size t)) = seed := by
      rw [h4, xor_xor (by rw [mgf1_len ht, h1])]
    rw [h6]
    refine ⟨(List.cons.inj h2).1, ?_⟩
    conv_lhs => rw [h5]
    have : (xorStr DB (mgf1 (hashOf t) (hash_output_size t) seed D.length)).length = D.length := by
      rw [xor_len (by rw [hg, hdl]), hdl]
    rw [this, xor_xor (by rw [hg, hdl])]
  · rintro ⟨h1, h2⟩
    refine ⟨xorStr S (mgf1 (hashOf t) (hash_output_size t) D (hash_output_size t)), ?_, ?_⟩
    · rw [xor_len (by rw [mgf1_len ht, hS]), hS]
    · rw [← h2, xor_xor (by rw [mgf1_len ht]), xor_xor (by rw [mgf1_len ht, hS]), h1]
      rfl

theorem oaep_inj {t : HashId} (ht : hash_has_backend t = true) {label em m m' : List Byte} (h : OaepOf t label em m)
    (h' : OaepOf t label em m') : m = m' := by
  obtain ⟨h1, h2⟩ := h
  obtain ⟨h1', h2'⟩ := h'
  obtain ⟨b, e1, rfl⟩ := cut1 (l := em) (by omega)
  obtain ⟨S, D, rfl, hS⟩ := cut (l := e1) (n := hash_output_size t) (by rw [List.length_cons] at h1; omega)
  rw [List.length_cons, List.length_append] at h1 h1'
  have a := ((oaep_split ht hS (by omega)).1 h2).2
  have b := ((oaep_split ht hS (by omega)).1 h2').2
  rw [a] at b
  unfold oaepDb at b
  exact (zeros_one_inj (List.append_cancel_left b)).2

theorem oaep_unpad {t : HashId} (ht : hash_has_backend t = true) (junk : Nat → Nat → Byte) {label em : List Byte}
    (hl : label.length < 2 ^ 64) (he : 2 * hash_output_size t + 2 ≤ em.length) (hbig : em.length < 2 ^ 31)
    {klen : Nat} (hk : klen = em.length) (x : R (List Byte)) (hx : x = (do
      let expect ← drbg_hash junk t (hash_output_size t) [label]
      let b ← C.rd em 0
      let zero := sec_equal (b.setWidth 32) 0x00
      let dlen := klen - (hash_output_size t + 1)
      let seed ← C.slice em 1 (hash_output_size t)
      let db ← C.slice em (hash_output_size t + 1) dlen
      let seed ← mgf1xor junk t seed db
      let db ← mgf1xor junk t db seed
      let lhash ← C.slice db 0 (hash_output_size t)
      let lvalid := sec_memequal lhash expect
      let rlen := dlen - hash_output_size t
      let rest ← C.slice db (hash_output_size t) rlen
      let r ← oaep_loop rest rlen 0 0 1 0
      let valid := zero &&& lvalid &&& (r.2.2 ^^^ 1) &&& (r.2.1 ^^^ 1)
      R.need (valid ≠ 0)
      let offset := r.1 + 1
      let out ← C.slice rest offset.toNat (rlen - offset.toNat)
      .ok out)) :
    (∀ m, OaepOf t label em m → x = .ok m) ∧ ((¬ ∃ m, OaepOf t label em m) → x = .fail) := by
  obtain ⟨s1, s2, -⟩ := sizes ht
  have hd : drbg_hash junk t (hash_output_size t) [label] = .ok (hashOf t label) := by
    rw [drbg_hash_eq ht]
    · simp
    · intro x hx
      rw [List.mem_singleton] at hx
      rw [hx]; exact hl
  have hlh : (hashOf t label).length = hash_output_size t := hash_len ht _
  -- it is enough to find out about some message
  suffices h : (∃ m, OaepOf t label em m ∧ x = .ok m) ∨ ((¬ ∃ m, OaepOf t label em m) ∧ x = .fail) by
    rcases h with ⟨m, h1, h2⟩ | ⟨h1, h2⟩
    · exact ⟨fun m' h' => by rw [h2, oaep_inj ht h1 h'], fun h' => absurd ⟨m, h1⟩ h'⟩
    · exact ⟨fun m h' => absurd ⟨m, h'⟩ h1, fun _ => h2⟩
  unfold OaepOf
  obtain ⟨b, e1, rfl⟩ := cut1 (l := em) (by omega)
  obtain ⟨S, D, rfl, hS⟩ := cut (l := e1) (n := hash_output_size t) (by rw [List.length_cons] at he; omega)
  have hlen : (b :: (S ++ D)).length = D.length + hash_output_size t + 1 := by
    rw [List.length_cons, List.length_append, hS]; omega
  have hr0 : C.rd (b :: (S ++ D)) 0 = .ok b := rfl
  have r1 : C.slice (b :: (S ++ D)) 1 (hash_output_size t) = .ok S := slice_at (p := [b]) rfl hS.symm
  have r2 : C.slice (b :: (S ++ D)) (hash_output_size t + 1) (klen - (hash_output_size t + 1)) = .ok D := by
    have := slice_at (p := b :: S) (m := D) (s := []) (pos := hash_output_size t + 1) (n := klen - (hash_output_size t + 1))
      (by rw [List.length_cons, hS]) (by omega)
    simpa using this
  have hsp : ∀ m, (m.length + 2 * hash_output_size t + 2 ≤ (b :: (S ++ D)).length ∧ ∃ seed, seed.length = hash_output_size t ∧
      b :: (S ++ D) = emeOaep (hashOf t) (hash_output_size t) (b :: (S ++ D)).length label seed m) ↔
      (m.length + hash_output_size t + 1 ≤ D.length ∧ b = 0 ∧ xorStr D (mgf1 (hashOf t) (hash_output_size t)
      (xorStr S (mgf1 (hashOf t) (hash_output_size t) D (hash_output_size t))) D.length) =
      hashOf t label ++ (List.replicate (D.length - m.length - hash_output_size t - 1) 0x00 ++ 0x01 :: m)) := by
    intro m
    have hle : m.length + 2 * hash_output_size t + 2 ≤ (b :: (S ++ D)).length ↔
      m.length + hash_output_size t + 1 ≤ D.length := by rw [hlen]; omega
    rw [hle]
    refine and_congr_right fun hm => ?_
    rw [oaep_split ht hS hm]
    unfold oaepDb
    rw [hlen, show D.length + hash_output_size t + 1 - m.length - 2 * hash_output_size t - 2 =
      D.length - m.length - hash_output_size t - 1 by omega]
    rfl
  simp only [hsp]
  simp only [R.liftM_eq, hd, R.lift_ok, R.ok_bind, hr0, r1, r2, mgf_eq ht junk S (seed := D) (by omega), hS] at hx
  have hg1 := mgf1_len ht D (hash_output_size t)
  generalize mgf1 (hashOf t) (hash_output_size t) D (hash_output_size t) = G1 at hg1 hx ⊢
  have hx1 : (xorStr S G1).length = hash_output_size t := by rw [xor_len (by rw [hg1, hS]), hS]
  generalize xorStr S G1 = X1 at hx1 hx ⊢
  simp only [mgf_eq ht junk D (seed := X1) (by omega), R.lift_ok, R.ok_bind] at hx
  have hg2 := mgf1_len ht X1 D.length
  generalize mgf1 (hashOf t) (hash_output_size t) X1 D.length = G2 at hg2 hx ⊢
  have hx2 : (xorStr D G2).length = D.length := by rw [xor_len (by rw [hg2])]
  generalize xorStr D G2 = X2 at hx2 hx ⊢
  obtain ⟨L, T, rfl, hL⟩ := cut (l := X2) (n := hash_output_size t) (by omega)
  rw [List.length_append] at hx2
  have r3 : C.slice (L ++ T) 0 (hash_output_size t) = .ok L := slice_at (p := []) rfl hL.symm
  have r4 : C.slice (L ++ T) (hash_output_size t) (klen - (hash_output_size t + 1) - hash_output_size t) = .ok T := by
    have := slice_at (p := L) (m := T) (s := []) (pos := hash_output_size t)
      (n := klen - (hash_output_size t + 1) - hash_output_size t) hL.symm (by omega)
    simpa using this
  have hrl : klen - (hash_output_size t + 1) - hash_output_size t = T.length := by omega
  simp only [r3, r4, R.lift_ok, R.ok_bind, sec_00, memequal_bit (hL.trans hlh.symm)] at hx
  rw [hrl] at hx
  have hsplit : ∀ m : List Byte, (m.length + hash_output_size t + 1 ≤ D.length ∧ b = 0 ∧ L ++ T = hashOf t label ++
      (List.replicate (D.length - m.length - hash_output_size t - 1) 0x00 ++ 0x01 :: m)) ↔
      (b = 0 ∧ L = hashOf t label ∧ ∃ j, T = List.replicate j 0x00 ++ 0x01 :: m) := by
    intro m
    constructor
    · rintro ⟨h1, h2, h3⟩
      obtain ⟨h4, h5⟩ := List.append_inj h3 (by rw [hL, hlh])
      exact ⟨h2, h4, _, h5⟩
    · rintro ⟨h2, h4, j, h5⟩
      have hT : T.length = j + (m.length + 1) := by rw [h5]; simp
      refine ⟨by omega, h2, ?_⟩
      rw [h4, h5, show D.length - m.length - hash_output_size t - 1 = j by omega]
  simp only [hsplit]
  rcases loop_cases T [] 0 with ⟨j, m, h1, h2⟩ | ⟨h1, off, lk, iv, h2, h3⟩
  · rw [List.nil_append, List.length_nil, show bit true = 1 from rfl, show bit false = 0 from rfl] at h2
    simp only [h2, R.lift_ok, R.ok_bind] at hx
    rw [show (0 : BitVec 32) = bit false from rfl, bit_not, bit_and, show bit (!false) = bit true from rfl, bit_and,
      bit_and, Bool.and_true, Bool.and_true] at hx
    by_cases h4 : b = 0 ∧ L = hashOf t label
    · left
      refine ⟨m, ⟨h4.1, h4.2, j, h1⟩, ?_⟩
      rw [h4.1, h4.2] at hx
      have hT : T.length = j + (m.length + 1) := by rw [h1]; simp
      have hoff : (BitVec.ofNat 32 (0 + j) + 1).toNat = j + 1 := by
        rw [BitVec.toNat_add, BitVec.toNat_ofNat]
        have : (1 : BitVec 32).toNat = 1 := rfl
        rw [this]; omega
      have r5 : C.slice T (j + 1) (T.length - (j + 1)) = .ok m := by
        have := slice_at (p := List.replicate j (0x00 : Byte) ++ [0x01]) (m := m) (s := []) (pos := j + 1)
          (n := T.length - (j + 1)) (by simp) (by omega)
        rw [h1]
        rw [h1] at this
        simpa using this
      rw [hx, hoff, r5]
      simp
      rfl
    · right
      refine ⟨?_, ?_⟩
      · rintro ⟨m', h5, h6, -⟩
        exact h4 ⟨h5, h6⟩
      · rw [hx]
        have : (decide (b = 0) && decide (L = hashOf t label)) = false := by
          rw [← Bool.not_eq_true, Bool.and_eq_true, decide_eq_true_eq, decide_eq_true_eq]
          exact h4
        rw [this]; rfl
  · right
    refine ⟨?_, ?_⟩
    · rintro ⟨m', -, -, j, h5⟩
      exact h1 ⟨j, m', h5⟩
    · rw [List.nil_append, List.length_nil, show bit true = 1 from rfl, show bit false = 0 from rfl] at h2
      simp only [h2, R.lift_ok, R.ok_bind, bit_not, bit_and, bit_ne_zero] at hx
      have : (decide (b = 0) && decide (L = hashOf t label) && !iv && !lk) = false := by
        rcases h3 with rfl | rfl <;> simp
      rw [hx, this]; rfl

/-! ### Encryption -/

theorem encrypt_oaep_cases {S : Type} (rng : Source S) (junk : Nat → Nat → Byte) {out : List Byte} {t : HashId}
    {msg key label : List Byte} (entropy : List Byte) {n e : Nat} (hl : label.length < 2 ^ 64)
    (hkey : key = rsaPubDer n e) (hk : RsaPubOk n e) (ho : rsaLen n ≤ out.length) :
    (¬ (hash_has_backend t = true ∧ msg.length + 2 * hash_output_size t + 2 ≤ rsaLen n) →
      rsa_encrypt_oaep rng junk out t msg key label entropy = .fail) ∧
    (hash_has_backend t = true → msg.length + 2 * hash_output_size t + 2 ≤ rsaLen n →
      ∃ c, rsa_encrypt_oaep rng junk out t msg key label entropy = .ok c ∧ c.length = rsaLen n ∧
        beVal (emeOaep (hashOf t) (hash_output_size t) (rsaLen n) label
          (rng.gen (rng.init entropy) (hash_output_size t)).1 msg) < n ∧
        beVal c = beVal (emeOaep (hashOf t) (hash_output_size t) (rsaLen n) label
          (rng.gen (rng.init entropy) (hash_output_size t)).1 msg) ^ e % n) := by
  unfold rsa_encrypt_oaep
  by_cases ht : hash_has_backend t = true
  swap
  · refine ⟨fun _ => ?_, fun h => absurd h ht⟩
    rw [Bool.not_eq_true] at ht
    rw [ht]; rfl
  have hmax := rsaLen_max hk
  dsimp only
  rw [ht, R.need_true, R.ok_bind, hkey, pub_import_ok (pub_small hk).1 (pub_small hk).2, R.ok_bind,
    (pub_verify_det n e).1 hk, R.ok_bind, R.liftM_eq, bytelen_of, R.lift_ok, R.ok_bind, Int.natAbs_natCast,
    show (n.size + 7) / 8 = rsaLen n from rfl]
  by_cases hm : msg.length + 2 * hash_output_size t + 2 ≤ rsaLen n
  swap
  · refine ⟨fun _ => ?_, fun _ h => absurd h hm⟩
    by_cases h1 : rsaLen n < 2 * hash_output_size t + 2
    · rw [decide_eq_false (not_not.2 h1)]; rfl
    · rw [decide_eq_true h1, R.need_true, R.ok_bind, decide_eq_false (not_not.2 (by omega))]; rfl
  refine ⟨fun h => absurd ⟨rfl, hm⟩ h, fun _ _ => ?_⟩
  have hsd := rng.len (rng.init entropy) (hash_output_size t)
  rw [decide_eq_true (by omega), R.need_true, R.ok_bind, decide_eq_true (by omega), R.need_true, R.ok_bind]
  have henc := oaep_encode ht junk hl (by omega) hm hsd ho (rsa_pub_encrypt ⟨mpz_of n, mpz_of e⟩)
  have hel := emeOaep_len ht (label := label) hm hsd
  have hlt : beVal (emeOaep (hashOf t) (hash_output_size t) (rsaLen n) label
          (rng.gen (rng.init entropy) (hash_output_size t)).1 msg) < n := by
    unfold emeOaep at hel ⊢
    dsimp only at hel ⊢
    rw [List.singleton_append] at hel ⊢
    exact lt_modulus (by omega) hel
  obtain ⟨c, hc, hcl, hcv⟩ := (pub_encrypt_det hk (emeOaep (hashOf t) (hash_output_size t) (rsaLen n) label
          (rng.gen (rng.init entropy) (hash_output_size t)).1 msg)).2 hlt
  exact ⟨c, henc.trans hc, hcl, hlt, hcv⟩

theorem decrypt_oaep_eq {S : Type} (rng : Source S) (fuel : Nat) (junk : Nat → Nat → Byte) {t : HashId}
    {msg key label : List Byte} (entropy : List Byte) {k : RsaKey} (hl : label.length < 2 ^ 64)
    (hkey : key = rsaPrivDer k) (hk : RsaKeyOk k) :
    (¬ (hash_has_backend t = true ∧ msg.length = rsaLen k.n ∧ 2 * hash_output_size t + 2 ≤ rsaLen k.n) →
      rsa_decrypt_oaep rng fuel junk t msg key label entropy = .fail) ∧
    (hash_has_backend t = true → msg.length = rsaLen k.n → 2 * hash_output_size t + 2 ≤ rsaLen k.n →
      (∀ em, rsa_priv_decrypt rng fuel (ofKey k) msg true entropy = .ok em →
        (∀ m, OaepOf t label em m → rsa_decrypt_oaep rng fuel junk t msg key label entropy = .ok m) ∧
        ((¬ ∃ m, OaepOf t label em m) → rsa_decrypt_oaep rng fuel junk t msg key label entropy = .fail)) ∧
      (rsa_priv_decrypt rng fuel (ofKey k) msg true entropy = .fail →
        rsa_decrypt_oaep rng fuel junk t msg key label entropy = .fail) ∧
      (rsa_priv_decrypt rng fuel (ofKey k) msg true entropy = .spin →
        rsa_decrypt_oaep rng fuel junk t msg key label entropy = .spin)) := by
  unfold rsa_decrypt_oaep
  by_cases ht : hash_has_backend t = true
  swap
  · refine ⟨fun _ => ?_, fun h => absurd h ht⟩
    rw [Bool.not_eq_true] at ht
    rw [ht]; rfl
  have hmax := rsaLen_max hk.pub
  dsimp only
  rw [ht, R.need_true, R.ok_bind, hkey, priv_import_ok (priv_small hk), R.ok_bind, (priv_verify_det k).1 hk, R.ok_bind,
    show (ofKey k).n = mpz_of k.n from rfl, R.liftM_eq, bytelen_of, R.lift_ok, R.ok_bind, Int.natAbs_natCast,
    show (k.n.size + 7) / 8 = rsaLen k.n from rfl]
  by_cases hm : msg.length = rsaLen k.n
  swap
  · exact ⟨fun _ => by rw [decide_eq_false hm]; rfl, fun _ h => absurd h hm⟩
  rw [decide_eq_true hm, R.need_true, R.ok_bind]
  by_cases h2 : rsaLen k.n < hash_output_size t * 2 + 2
  · exact ⟨fun _ => by rw [decide_eq_false (not_not.2 h2)]; rfl, fun _ _ h => absurd h (by omega)⟩
  rw [decide_eq_true h2, R.need_true, R.ok_bind]
  refine ⟨fun h => absurd ⟨rfl, hm, by omega⟩ h, fun _ _ _ => ⟨?_, ?_, ?_⟩⟩
  · intro em hem
    have hel := priv_len rng fuel hk hem
    rw [hem, R.ok_bind]
    exact oaep_unpad ht junk hl (by omega) (by omega) hel.symm _ rfl
  · intro h; rw [h]; rfl
  · intro h; rw [h]; rfl

end Torsion.Rsa
