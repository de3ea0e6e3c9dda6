import Verif.Rsa.MgfLemmas

/-!
# Lemmas: PSS
-/
namespace Torsion.Rsa
open Torsion.Spec Mpi
open Torsion.Drb Hsh Kdf

/-! ### The leftmost bits -/

/-- The bits which are kept. -/
def keep (k : Nat) : Byte := 0xff >>> k

theorem clear_keep (k : Fin 8) (b : Byte) : BitVec.ofNat 8 (b.toNat % 2 ^ (8 - k.val)) = b &&& keep k := by
  have : ∀ (k : Fin 8) (b : Fin 256), BitVec.ofNat 8 (b.val % 2 ^ (8 - k.val)) = BitVec.ofNat 8 b.val &&& keep k := by
    decide +kernel
  have h := this k ⟨b.toNat, b.isLt⟩
  simpa using h

theorem mask_keep (k : Fin 8) (b : Byte) : ((b.setWidth 32 &&& ((0xff : BitVec 32) >>> k.val)).setWidth 8) = b &&& keep k := by
  have : ∀ (k : Fin 8) (b : Fin 256), (((BitVec.ofNat 8 b.val).setWidth 32 &&& ((0xff : BitVec 32) >>> k.val)).setWidth 8) =
      BitVec.ofNat 8 b.val &&& keep k := by
    decide +kernel
  have h := this k ⟨b.toNat, b.isLt⟩
  simpa using h

theorem mask_zero (k : Fin 8) (b : Byte) : (b.setWidth 32 &&& ~~~((0xff : BitVec 32) >>> k.val) = 0) ↔ b &&& keep k = b := by
  have : ∀ (k : Fin 8) (b : Fin 256), ((BitVec.ofNat 8 b.val).setWidth 32 &&& ~~~((0xff : BitVec 32) >>> k.val) = 0) ↔
      BitVec.ofNat 8 b.val &&& keep k = BitVec.ofNat 8 b.val := by
    decide +kernel
  have h := this k ⟨b.toNat, b.isLt⟩
  simpa using h

theorem keep_small (k : Fin 8) : (0 : Byte) &&& keep k = 0 ∧ (1 : Byte) &&& keep k = 1 := by
  revert k; decide

theorem keep_keep (x : Byte) (k : Nat) : x &&& keep k &&& keep k = x &&& keep k := by
  rw [BitVec.and_assoc, BitVec.and_self]

theorem keep_xor (x y : Byte) (k : Nat) : ((x &&& keep k) ^^^ y) &&& keep k = (x ^^^ y) &&& keep k := by
  ext i hi
  simp only [BitVec.getElem_and, BitVec.getElem_xor]
  cases x[i] <;> cases y[i] <;> cases (keep k)[i] <;> rfl

theorem clearTop_cons (k : Fin 8) (b : Byte) (bs : List Byte) : clearTop k (b :: bs) = (b &&& keep k) :: bs := by
  rw [clearTop, clear_keep]

theorem clearTop_len (k : Nat) (x : List Byte) : (clearTop k x).length = x.length := by
  cases x <;> rfl

theorem clearTop_clear (k : Fin 8) (x : List Byte) : clearTop k (clearTop k x) = clearTop k x := by
  cases x with
  | nil => rfl
  | cons b bs => rw [clearTop_cons, clearTop_cons, keep_keep]

theorem clearTop_xor (k : Fin 8) {x m : List Byte} (h : x.length = m.length) :
    clearTop k (xorStr (clearTop k x) m) = clearTop k (xorStr x m) := by
  cases x with
  | nil => rfl
  | cons b bs =>
    cases m with
    | nil => simp at h
    | cons c cs =>
      rw [clearTop_cons]
      unfold xorStr
      rw [List.zipWith_cons_cons, List.zipWith_cons_cons, clearTop_cons, clearTop_cons, keep_xor]

/-- The data block before masking. -/
def pssDb (dlen : Nat) (salt : List Byte) : List Byte :=
  List.replicate (dlen - salt.length - 1) 0x00 ++ ([0x01] ++ salt)

theorem pssDb_len {dlen : Nat} {salt : List Byte} (h : salt.length + 1 ≤ dlen) : (pssDb dlen salt).length = dlen := by
  unfold pssDb
  simp only [List.length_append, List.length_replicate, List.length_cons, List.length_nil]
  omega

theorem pssDb_clear (k : Fin 8) {dlen : Nat} {salt : List Byte} :
    clearTop k (pssDb dlen salt) = pssDb dlen salt := by
  unfold pssDb
  cases dlen - salt.length - 1 with
  | zero =>
    show clearTop k (1 :: salt) = 1 :: salt
    rw [clearTop_cons, (keep_small k).2]
  | succ n =>
    rw [List.replicate_succ, List.cons_append, clearTop_cons]
    rw [show (0x00 : Byte) &&& keep k = 0 from (keep_small k).1]

/-- The encoding with the data block and the mask spelled out. -/
theorem emsaPss_eq {t : HashId} {emBits : Nat} {mHash salt : List Byte} :
    emsaPss (hashOf t) (hash_output_size t) emBits mHash salt =
      clearTop (8 * ((emBits + 7) / 8) - emBits) (xorStr (pssDb ((emBits + 7) / 8 - hash_output_size t - 1) salt)
        (mgf1 (hashOf t) (hash_output_size t) (hashOf t (List.replicate 8 0 ++ mHash ++ salt))
          ((emBits + 7) / 8 - hash_output_size t - 1))) ++
      (hashOf t (List.replicate 8 0 ++ mHash ++ salt) ++ [0xbc]) := by
  unfold emsaPss pssDb
  dsimp only
  rw [show (emBits + 7) / 8 - salt.length - hash_output_size t - 2 =
    (emBits + 7) / 8 - hash_output_size t - 1 - salt.length - 1 by omega]

theorem emsaPss_len {t : HashId} (ht : hash_has_backend t = true) {emBits : Nat} {mHash salt : List Byte}
    (h : hash_output_size t + salt.length + 2 ≤ (emBits + 7) / 8) :
    (emsaPss (hashOf t) (hash_output_size t) emBits mHash salt).length = (emBits + 7) / 8 := by
  rw [emsaPss_eq, List.length_append, clearTop_len, xor_len, pssDb_len (by omega), List.length_append, hash_len ht,
    List.length_singleton]
  · omega
  · rw [pssDb_len (by omega), mgf1_len ht]

/-- The size of the string `embits` bits long. -/
theorem emlen_eq (embits : Nat) : (embits + 7) >>> 3 = (embits + 7) / 8 := by
  rw [Nat.shiftRight_eq_div_pow]

theorem pss_hash {t : HashId} (ht : hash_has_backend t = true) (junk : Nat → Nat → Byte) {msg salt : List Byte}
    (hm : msg.length < 2 ^ 64) (hs : salt.length < 2 ^ 64) :
    drbg_hash junk t (hash_output_size t) [pss_prefix, msg, salt] =
      .ok (hashOf t (List.replicate 8 0 ++ msg ++ salt)) := by
  rw [drbg_hash_eq ht]
  · congr 2
    simp only [List.flatten_cons, List.flatten_nil, List.append_nil, List.append_assoc]
    rfl
  · intro x hx
    simp only [List.mem_cons, List.not_mem_nil, or_false] at hx
    rcases hx with rfl | rfl | rfl
    · decide
    · exact hm
    · exact hs

theorem encode_eq {t : HashId} (ht : hash_has_backend t = true) (junk : Nat → Nat → Byte) {out msg salt : List Byte}
    {embits : Nat} (hbig : (embits + 7) / 8 < 2 ^ 64) (ho : (embits + 7) / 8 ≤ out.length) :
    (¬ (msg.length = hash_output_size t ∧ hash_output_size t + salt.length + 2 ≤ (embits + 7) / 8) →
      pss_encode junk out t msg embits salt = .fail) ∧
    (msg.length = hash_output_size t → hash_output_size t + salt.length + 2 ≤ (embits + 7) / 8 →
      ∃ rest, pss_encode junk out t msg embits salt =
        .ok (emsaPss (hashOf t) (hash_output_size t) embits msg salt ++ rest, (embits + 7) / 8)) := by
  obtain ⟨s1, s2, -⟩ := sizes ht
  unfold pss_encode
  dsimp only
  rw [emlen_eq]
  have hk8 : 8 * ((embits + 7) / 8) - embits < 8 := by omega
  rw [show pss_mask ((embits + 7) / 8) embits = (0xff : BitVec 32) >>> (8 * ((embits + 7) / 8) - embits) from rfl]
  constructor
  · intro h
    by_cases hm : msg.length = hash_output_size t
    · rw [decide_eq_true hm, R.need_true, R.ok_bind, decide_eq_false (by omega)]; rfl
    · rw [decide_eq_false hm]; rfl
  intro hm hs
  rw [decide_eq_true hm, R.need_true, R.ok_bind, decide_eq_true (by omega), R.need_true, R.ok_bind]
  rw [R.liftM_eq, pss_hash ht junk (by omega) (by omega), R.lift_ok, R.ok_bind]
  have hh : (hashOf t (List.replicate 8 0 ++ msg ++ salt)).length = hash_output_size t := hash_len ht _
  rw [emsaPss_eq]
  generalize hashOf t (List.replicate 8 0 ++ msg ++ salt) = h0 at hh ⊢
  obtain ⟨k, hk⟩ : ∃ k : Fin 8, 8 * ((embits + 7) / 8) - embits = k.val := ⟨⟨_, hk8⟩, rfl⟩
  rw [hk]
  generalize hE : (embits + 7) / 8 = E at *
  obtain ⟨A, out1, rfl, hA⟩ := cut (l := out) (n := E - salt.length - hash_output_size t - 2) (by omega)
  obtain ⟨o1, out2, rfl⟩ := cut1 (l := out1) (by simp [hA] at ho; omega)
  obtain ⟨B, out3, rfl, hB⟩ := cut (l := out2) (n := salt.length) (by simp [hA] at ho; omega)
  obtain ⟨D, out4, rfl, hD⟩ := cut (l := out3) (n := hash_output_size t) (by simp [hA, hB] at ho; omega)
  obtain ⟨o2, rest, rfl⟩ := cut1 (l := out4) (by simp [hA, hB, hD] at ho; omega)
  generalize hZ : List.replicate (E - salt.length - hash_output_size t - 2) (0x00 : Byte) = Z
  have hZl : Z.length = A.length := by rw [← hZ, List.length_replicate, hA]
  have e1 : C.blit (A ++ o1 :: (B ++ (D ++ o2 :: rest))) 0 Z = .ok (Z ++ o1 :: (B ++ (D ++ o2 :: rest))) :=
    blit_at (p := []) rfl hZl
  have e2 : C.wr (Z ++ o1 :: (B ++ (D ++ o2 :: rest))) (E - salt.length - hash_output_size t - 2) 0x01 =
      .ok (Z ++ 0x01 :: (B ++ (D ++ o2 :: rest))) := wr_at (by rw [hZl, hA])
  have e3 : (if salt.length > 0 then R.lift (C.blit (Z ++ 0x01 :: (B ++ (D ++ o2 :: rest)))
      (E - salt.length - hash_output_size t - 1) salt) else .ok (Z ++ 0x01 :: (B ++ (D ++ o2 :: rest)))) =
      .ok (Z ++ 0x01 :: (salt ++ (D ++ o2 :: rest))) := by
    split
    · have := blit_at (p := Z ++ [0x01]) (old := B) (s := D ++ o2 :: rest) (src := salt)
        (pos := E - salt.length - hash_output_size t - 1)
        (by rw [List.length_append, hZl, hA, List.length_singleton]; omega) hB.symm
      rw [show Z ++ 0x01 :: (B ++ (D ++ o2 :: rest)) = Z ++ [0x01] ++ (B ++ (D ++ o2 :: rest)) by simp, this]
      simp
    · have h1 : salt = [] := List.length_eq_zero_iff.1 (by omega)
      have h2 : B = [] := List.length_eq_zero_iff.1 (by omega)
      rw [h1, h2]
  have hdb : Z ++ 0x01 :: salt = pssDb (E - hash_output_size t - 1) salt := by
    unfold pssDb
    rw [← hZ, show E - hash_output_size t - 1 - salt.length - 1 = E - salt.length - hash_output_size t - 2 by omega]
    rfl
  have hdl := pssDb_len (dlen := E - hash_output_size t - 1) (salt := salt) (by omega)
  rw [show Z ++ 0x01 :: (salt ++ (D ++ o2 :: rest)) = (Z ++ 0x01 :: salt) ++ (D ++ o2 :: rest) by simp, hdb] at e3
  simp only [R.liftM_eq, e1, R.lift_ok, R.ok_bind, e2, e3]
  generalize pssDb (E - hash_output_size t - 1) salt = db at hdl ⊢
  have e4 : C.blit (db ++ (D ++ o2 :: rest)) (E - hash_output_size t - 1) h0 = .ok (db ++ (h0 ++ o2 :: rest)) :=
    blit_at hdl.symm (by rw [hh, hD])
  have e5 : C.wr (db ++ (h0 ++ o2 :: rest)) (E - 1) 0xbc = .ok (db ++ (h0 ++ 0xbc :: rest)) := by
    have := wr_at (p := db ++ h0) (s := rest) (x := o2) (y := 0xbc) (pos := E - 1) (by rw [List.length_append, hdl, hh]; omega)
    simpa using this
  have e6 : C.slice (db ++ (h0 ++ 0xbc :: rest)) 0 (E - hash_output_size t - 1) = .ok db :=
    slice_at (p := []) rfl hdl.symm
  have e7 : C.slice (db ++ (h0 ++ 0xbc :: rest)) (E - hash_output_size t - 1) (hash_output_size t) = .ok h0 :=
    slice_at hdl.symm hh.symm
  simp only [e4, R.lift_ok, R.ok_bind, e5, e6, e7, mgf_eq ht junk db (seed := h0) (by omega)]
  have hml := mgf1_len ht h0 db.length
  rw [← hdl]
  generalize mgf1 (hashOf t) (hash_output_size t) h0 db.length = M at hml ⊢
  have hxl : (xorStr db M).length = db.length := xor_len (by rw [hml])
  generalize xorStr db M = X at hxl ⊢
  have e8 : C.blit (db ++ (h0 ++ 0xbc :: rest)) 0 X = .ok (X ++ (h0 ++ 0xbc :: rest)) := blit_at (p := []) rfl hxl
  rw [e8, R.lift_ok, R.ok_bind]
  obtain ⟨x0, X', rfl⟩ := cut1 (l := X) (by omega)
  refine ⟨rest, ?_⟩
  rw [show C.rd (x0 :: X' ++ (h0 ++ 0xbc :: rest)) 0 = .ok x0 from rfl, R.lift_ok, R.ok_bind,
    show C.wr (x0 :: X' ++ (h0 ++ 0xbc :: rest)) 0 ((x0.setWidth 32 &&& ((0xff : BitVec 32) >>> k.val)).setWidth 8) =
      .ok (((x0.setWidth 32 &&& ((0xff : BitVec 32) >>> k.val)).setWidth 8) :: X' ++ (h0 ++ 0xbc :: rest)) from rfl, R.lift_ok, R.ok_bind,
    mask_keep, clearTop_cons]
  simp

/-! ### Verification -/

theorem find_cases : ∀ (xs p : List Byte),
    (∃ j rest, xs = List.replicate j 0x00 ++ 0x01 :: rest ∧ pss_find (p ++ xs) xs.length p.length = .ok (p.length + j)) ∨
    ((¬ ∃ j rest, xs = List.replicate j 0x00 ++ 0x01 :: rest) ∧ pss_find (p ++ xs) xs.length p.length = .fail)
  | [], p => by
    right
    refine ⟨?_, rfl⟩
    rintro ⟨j, rest, h⟩
    have := congrArg List.length h
    simp at this
  | b :: xs, p => by
    rw [List.length_cons]
    unfold pss_find
    rw [R.liftM_eq, rd_mid, R.lift_ok, R.ok_bind]
    have ih := find_cases xs (p ++ [b])
    rw [List.length_append, List.length_singleton, List.append_assoc, List.singleton_append] at ih
    by_cases h0 : b = 0x00
    · rw [if_pos h0]
      rcases ih with ⟨j, rest, h1, h2⟩ | ⟨h1, h2⟩
      · left
        refine ⟨j + 1, rest, by rw [h0, h1]; rfl, ?_⟩
        rw [h2, show p.length + 1 + j = p.length + (j + 1) by omega]
      · right
        refine ⟨?_, h2⟩
        rintro ⟨j, rest, h⟩
        cases j with
        | zero =>
          rw [h0, List.replicate_zero, List.nil_append] at h
          exact absurd (List.cons.inj h).1 (by decide)
        | succ j =>
          rw [List.replicate_succ, List.cons_append] at h
          exact h1 ⟨j, rest, (List.cons.inj h).2⟩
    · rw [if_neg h0]
      by_cases h1 : b = 0x01
      · rw [if_pos h1]
        exact Or.inl ⟨0, xs, by rw [h1]; rfl, rfl⟩
      · rw [if_neg h1]
        right
        refine ⟨?_, rfl⟩
        rintro ⟨j, rest, h⟩
        cases j with
        | zero =>
          rw [List.replicate_zero, List.nil_append] at h
          exact h1 (List.cons.inj h).1
        | succ j =>
          rw [List.replicate_succ, List.cons_append] at h
          exact h0 (List.cons.inj h).1

theorem zeroes_det : ∀ (xs p s : List Byte),
    Det (pss_zeroes (p ++ (xs ++ s)) xs.length p.length) (xs = List.replicate xs.length 0x00) ()
  | [], p, s => (Det.ok ()).congr (by simp)
  | b :: xs, p, s => by
    have ih := zeroes_det xs (p ++ [b]) s
    rw [List.length_append, List.length_singleton, List.append_assoc, List.singleton_append] at ih
    rw [List.length_cons]
    unfold pss_zeroes
    rw [List.cons_append, R.liftM_eq, rd_mid, R.lift_ok, R.ok_bind]
    refine (Det.need fun _ => ih).congr ?_
    rw [decide_eq_true_eq, List.replicate_succ, List.cons.injEq]

theorem pss_split {t : HashId} (ht : hash_has_backend t = true) {embits : Nat} {mdb h msg salt : List Byte} {l : Byte}
    {k : Fin 8} (hk : 8 * ((embits + 7) / 8) - embits = k.val)
    (hs : hash_output_size t + salt.length + 2 ≤ (embits + 7) / 8) (hh : h.length = hash_output_size t)
    (hd : mdb.length = (embits + 7) / 8 - hash_output_size t - 1) :
    mdb ++ (h ++ [l]) = emsaPss (hashOf t) (hash_output_size t) embits msg salt ↔
      l = 0xbc ∧ clearTop k mdb = mdb ∧
      clearTop k (xorStr mdb (mgf1 (hashOf t) (hash_output_size t) h mdb.length)) = pssDb mdb.length salt ∧
      hashOf t (List.replicate 8 0 ++ msg ++ salt) = h := by
  have hpl : (pssDb mdb.length salt).length = mdb.length := pssDb_len (by omega)
  rw [emsaPss_eq, hk, ← hd]
  constructor
  · intro h1
    have hxl : (xorStr (pssDb mdb.length salt) (mgf1 (hashOf t) (hash_output_size t)
        (hashOf t (List.replicate 8 0 ++ msg ++ salt)) mdb.length)).length = mdb.length := by
      rw [xor_len, hpl]
      rw [hpl, mgf1_len ht]
    obtain ⟨h2, h3⟩ := List.append_inj h1 (by rw [clearTop_len, hxl])
    obtain ⟨h4, h5⟩ := List.append_inj h3 (by rw [hh]; exact (hash_len ht _).symm)
    rw [← h4] at h2 hxl ⊢
    have hml := mgf1_len ht h mdb.length
    generalize mgf1 (hashOf t) (hash_output_size t) h mdb.length = M at *
    refine ⟨(List.cons.inj h5).1, ?_, ?_, rfl⟩
    · conv_lhs => rw [h2]
      rw [clearTop_clear, ← h2]
    · conv_lhs => rw [h2]
      rw [clearTop_xor k (by rw [hxl, hml]), xor_xor (by rw [hpl, hml]), pssDb_clear]
  · rintro ⟨h1, h2, h3, h4⟩
    rw [h4, h1]
    have hml := mgf1_len ht h mdb.length
    generalize mgf1 (hashOf t) (hash_output_size t) h mdb.length = M at *
    congr 1
    rw [← h3, clearTop_xor k (by rw [xor_len hml.symm, hml]), xor_xor hml.symm, h2]

theorem zeros_one_inj : ∀ {i j : Nat} {x y : List Byte},
    List.replicate i (0x00 : Byte) ++ 0x01 :: x = List.replicate j 0x00 ++ 0x01 :: y → i = j ∧ x = y
  | 0, 0, x, y, h => ⟨rfl, by simpa using h⟩
  | 0, j + 1, x, y, h => by
    rw [List.replicate_succ, List.cons_append] at h
    exact absurd (List.cons.inj h).1 (by decide)
  | i + 1, 0, x, y, h => by
    rw [List.replicate_succ, List.cons_append] at h
    exact absurd (List.cons.inj h).1 (by decide)
  | i + 1, j + 1, x, y, h => by
    rw [List.replicate_succ, List.replicate_succ, List.cons_append, List.cons_append] at h
    obtain ⟨h1, h2⟩ := zeros_one_inj (List.cons.inj h).2
    exact ⟨by rw [h1], h2⟩

theorem pssDb_inj {d : Nat} {s s' : List Byte} (he : pssDb d s = pssDb d s') : s = s' := by
  unfold pssDb at he
  exact (zeros_one_inj he).2

theorem pssDb_found {j : Nat} {salt : List Byte} :
    List.replicate j 0x00 ++ 0x01 :: salt = pssDb (j + 1 + salt.length) salt := by
  unfold pssDb
  rw [show j + 1 + salt.length - salt.length - 1 = j by omega]; rfl

theorem pss_tail {t : HashId} (ht : hash_has_backend t = true) (junk : Nat → Nat → Byte) {db h msg : List Byte}
    {salt_len : Nat} (hm : msg.length = hash_output_size t) (hs : salt_len + 1 ≤ db.length) (hbig : db.length < 2 ^ 64)
    (hh : h.length = hash_output_size t) :
    Det (do
      let slen ← ((if salt_len = 0 then do
          let i ← pss_find db db.length 0
          .ok (db.length - (i + 1))
        else do
          let len := db.length - salt_len - 1
          pss_zeroes db len 0
          let b ← C.rd db len
          R.need (b = 0x01)
          .ok salt_len) : R Nat)
      let salt ← C.slice db (db.length - slen) slen
      let h0 ← drbg_hash junk t (hash_output_size t) [pss_prefix, msg, salt]
      R.need (sec_memequal h0 h ≠ 0))
      (∃ salt, salt.length + 1 ≤ db.length ∧ (salt_len = 0 ∨ salt.length = salt_len) ∧ db = pssDb db.length salt ∧
        hashOf t (List.replicate 8 0 ++ msg ++ salt) = h) () := by
  obtain ⟨s1, s2, -⟩ := sizes ht
  have fin : ∀ salt, salt.length + 1 ≤ db.length → (salt_len = 0 ∨ salt.length = salt_len) → db = pssDb db.length salt →
      Det (do
        let salt ← (liftM (C.slice db (db.length - salt.length) salt.length) : R (List Byte))
        let h0 ← drbg_hash junk t (hash_output_size t) [pss_prefix, msg, salt]
        R.need (sec_memequal h0 h ≠ 0)) (∃ salt, salt.length + 1 ≤ db.length ∧ (salt_len = 0 ∨ salt.length = salt_len) ∧
          db = pssDb db.length salt ∧ hashOf t (List.replicate 8 0 ++ msg ++ salt) = h) () := by
    intro salt h1 h2 h3
    have e1 : C.slice db (db.length - salt.length) salt.length = .ok salt := by
      have := slice_at (p := List.replicate (db.length - salt.length - 1) 0x00 ++ [0x01]) (m := salt) (s := [])
        (pos := db.length - salt.length) (n := salt.length) (by simp; omega) rfl
      conv_lhs => rw [h3]
      rw [pssDb_len h1]
      rw [← this]
      congr 1
      unfold pssDb
      simp
    have hl : (hashOf t (List.replicate 8 0 ++ msg ++ salt)).length = h.length := by rw [hh]; exact hash_len ht _
    rw [R.liftM_eq, e1, R.lift_ok, R.ok_bind, R.liftM_eq, pss_hash ht junk (by omega) (by omega), R.lift_ok, R.ok_bind,
      memequal_bit hl]
    refine Det.last.congr ?_
    rw [decide_eq_true_eq]
    constructor
    · intro he
      refine ⟨salt, h1, h2, h3, ?_⟩
      by_contra hc
      exact he (by rw [decide_eq_false hc]; rfl)
    · rintro ⟨salt', _, _, h4, h5⟩
      rw [pssDb_inj (h3.symm.trans h4), decide_eq_true h5]
      decide
  by_cases h0 : salt_len = 0
  · rw [if_pos h0]
    rcases find_cases db [] with ⟨j, rest, h1, h2⟩ | ⟨h1, h2⟩
    · rw [List.nil_append, List.length_nil] at h2
      have hl : db.length = j + 1 + rest.length := by rw [h1]; simp; omega
      rw [h2, R.ok_bind, R.ok_bind, show db.length - (0 + j + 1) = rest.length by omega]
      exact fin rest (by omega) (Or.inl h0) (by rw [hl, ← pssDb_found, ← h1])
    · rw [List.nil_append, List.length_nil] at h2
      rw [h2, R.fail_bind, R.fail_bind]
      refine ⟨?_, fun _ => rfl⟩
      rintro ⟨salt, _, _, h3, _⟩
      exact absurd ⟨_, _, h3⟩ h1
  · rw [if_neg h0]
    dsimp only
    obtain ⟨Z, d1, hd, hZ⟩ := cut (l := db) (n := db.length - salt_len - 1) (by omega)
    obtain ⟨b, salt, rfl⟩ := cut1 (l := d1) (by rw [hd, List.length_append] at hs hZ; omega)
    have hsl : salt.length = salt_len := by rw [hd, List.length_append, List.length_cons] at hs hZ; omega
    have hz := zeroes_det Z [] (b :: salt)
    rw [List.nil_append, List.length_nil, ← hd, hZ] at hz
    have hiff : (∃ salt, salt.length + 1 ≤ db.length ∧ (salt_len = 0 ∨ salt.length = salt_len) ∧
        db = pssDb db.length salt ∧ hashOf t (List.replicate 8 0 ++ msg ++ salt) = h) →
        Z = List.replicate (db.length - salt_len - 1) 0x00 ∧ b = 0x01 := by
      rintro ⟨salt', h1, h2, h3, h4⟩
      have h5 : salt'.length = salt_len := h2.resolve_left h0
      unfold pssDb at h3
      rw [hd] at h3
      obtain ⟨h6, h7⟩ := List.append_inj h3 (by rw [List.length_replicate, h5, ← hd, hZ])
      exact ⟨by rw [h6, h5, ← hd], (List.cons.inj h7).1⟩
    have hrd : C.rd db (db.length - salt_len - 1) = .ok b := by
      conv_lhs => rw [← hZ]; arg 1; rw [hd]
      exact rd_mid ..
    by_cases h1 : Z = List.replicate (db.length - salt_len - 1) 0x00
    · by_cases h2 : b = 0x01
      · rw [hz.1 h1, R.ok_bind, R.liftM_eq, hrd, R.lift_ok, R.ok_bind, decide_eq_true h2, R.need_true, R.ok_bind, R.ok_bind]
        rw [← hsl]
        have := fin salt (by omega) (Or.inr hsl) (by
          unfold pssDb
          rw [hsl, ← h1, ← h2]; exact hd)
        rw [← hsl] at this
        exact this
      · refine ⟨fun hx => absurd (hiff hx).2 h2, fun _ => ?_⟩
        rw [hz.1 h1, R.ok_bind, R.liftM_eq, hrd, R.lift_ok, R.ok_bind, decide_eq_false h2]; rfl
    · refine ⟨fun hx => absurd (hiff hx).1 h1, fun _ => ?_⟩
      rw [hz.2 h1]; rfl

theorem pss_verify_det {t : HashId} (ht : hash_has_backend t = true) (junk : Nat → Nat → Byte) {msg em : List Byte}
    {embits salt_len : Nat} (hbig : (embits + 7) / 8 < 2 ^ 64) (hem : em.length = (embits + 7) / 8) :
    Det (pss_verify junk t msg em embits salt_len)
      (msg.length = hash_output_size t ∧ ∃ salt, hash_output_size t + salt.length + 2 ≤ (embits + 7) / 8 ∧
        (salt_len = 0 ∨ salt.length = salt_len) ∧
        em = emsaPss (hashOf t) (hash_output_size t) embits msg salt) () := by
  obtain ⟨s1, s2, -⟩ := sizes ht
  unfold pss_verify
  dsimp only
  rw [emlen_eq]
  refine (Det.need (P := ∃ salt, hash_output_size t + salt.length + 2 ≤ (embits + 7) / 8 ∧
        (salt_len = 0 ∨ salt.length = salt_len) ∧
        em = emsaPss (hashOf t) (hash_output_size t) embits msg salt) fun hm => ?_).congr (by rw [decide_eq_true_eq])
  rw [decide_eq_true_eq] at hm
  by_cases hs : (embits + 7) / 8 < hash_output_size t + salt_len + 2
  · refine ⟨?_, fun _ => by rw [decide_eq_false (not_not.2 hs)]; rfl⟩
    rintro ⟨salt, h1, h2, _⟩
    omega
  rw [decide_eq_true hs, R.need_true, R.ok_bind]
  have hk8 : 8 * ((embits + 7) / 8) - embits < 8 := by omega
  rw [show pss_mask ((embits + 7) / 8) embits = (0xff : BitVec 32) >>> (8 * ((embits + 7) / 8) - embits) from rfl]
  obtain ⟨k, hk⟩ : ∃ k : Fin 8, 8 * ((embits + 7) / 8) - embits = k.val := ⟨⟨_, hk8⟩, rfl⟩
  rw [hk]
  obtain ⟨mdb, e1, rfl, hmdb⟩ := cut (l := em) (n := (embits + 7) / 8 - hash_output_size t - 1) (by omega)
  obtain ⟨h, e2, rfl, hh⟩ := cut (l := e1) (n := hash_output_size t) (by rw [List.length_append] at hem; omega)
  obtain ⟨l, e3, rfl⟩ := cut1 (l := e2) (by simp only [List.length_append] at hem; omega)
  have he3 : e3 = [] := List.length_eq_zero_iff.1 (by simp only [List.length_append, List.length_cons] at hem; omega)
  subst he3
  have r1 : C.rd (mdb ++ (h ++ [l])) ((embits + 7) / 8 - 1) = .ok l := by
    have := rd_mid (mdb ++ h) l []
    rw [List.length_append, List.append_assoc] at this
    rw [← this]
    congr 1
    omega
  have r2 : C.slice (mdb ++ (h ++ [l])) 0 ((embits + 7) / 8 - hash_output_size t - 1) = .ok mdb :=
    slice_at (p := []) rfl hmdb.symm
  have r3 : C.slice (mdb ++ (h ++ [l])) ((embits + 7) / 8 - hash_output_size t - 1) (hash_output_size t) = .ok h :=
    slice_at hmdb.symm hh.symm
  have hiff : (∃ salt, hash_output_size t + salt.length + 2 ≤ (embits + 7) / 8 ∧ (salt_len = 0 ∨ salt.length = salt_len) ∧
      mdb ++ (h ++ [l]) = emsaPss (hashOf t) (hash_output_size t) embits msg salt) ↔
      l = 0xbc ∧ clearTop k mdb = mdb ∧ ∃ salt, salt.length + 1 ≤ mdb.length ∧ (salt_len = 0 ∨ salt.length = salt_len) ∧
      clearTop k (xorStr mdb (mgf1 (hashOf t) (hash_output_size t) h mdb.length)) = pssDb mdb.length salt ∧
      hashOf t (List.replicate 8 0 ++ msg ++ salt) = h := by
    constructor
    · rintro ⟨salt, h1, h2, h3⟩
      obtain ⟨h4, h5, h6, h7⟩ := (pss_split ht hk h1 hh hmdb).1 h3
      exact ⟨h4, h5, salt, by omega, h2, h6, h7⟩
    · rintro ⟨h4, h5, salt, h1, h2, h6, h7⟩
      exact ⟨salt, by omega, h2, (pss_split ht hk (by omega) hh hmdb).2 ⟨h4, h5, h6, h7⟩⟩
  refine Det.congr ?_ hiff.symm
  rw [R.liftM_eq, r1, R.lift_ok, R.ok_bind]
  refine (Det.need (P := clearTop k mdb = mdb ∧ ∃ salt, salt.length + 1 ≤ mdb.length ∧
      (salt_len = 0 ∨ salt.length = salt_len) ∧
      clearTop k (xorStr mdb (mgf1 (hashOf t) (hash_output_size t) h mdb.length)) = pssDb mdb.length salt ∧
      hashOf t (List.replicate 8 0 ++ msg ++ salt) = h) fun _ => ?_).congr (by rw [decide_eq_true_eq])
  rw [← hmdb] at r2 r3 ⊢
  obtain ⟨m0, ms, rfl⟩ := cut1 (l := mdb) (by omega)
  have hrd0 : C.rd (m0 :: ms ++ (h ++ [l])) 0 = .ok m0 := rfl
  rw [R.liftM_eq, hrd0, R.lift_ok, R.ok_bind]
  refine (Det.need (P := ∃ salt, salt.length + 1 ≤ (m0 :: ms).length ∧ (salt_len = 0 ∨ salt.length = salt_len) ∧
      clearTop k (xorStr (m0 :: ms) (mgf1 (hashOf t) (hash_output_size t) h (m0 :: ms).length)) =
        pssDb (m0 :: ms).length salt ∧
      hashOf t (List.replicate 8 0 ++ msg ++ salt) = h) fun _ => ?_).congr
    (by rw [decide_eq_true_eq, mask_zero, clearTop_cons, List.cons.injEq]; simp)
  rw [R.liftM_eq, r2, R.lift_ok, R.ok_bind, R.liftM_eq, r3, R.lift_ok, R.ok_bind, R.liftM_eq,
    mgf_eq ht junk _ (seed := h) (by omega), R.lift_ok, R.ok_bind]
  have hml := mgf1_len ht h (m0 :: ms).length
  generalize mgf1 (hashOf t) (hash_output_size t) h (m0 :: ms).length = M at hml ⊢
  have hxl : (xorStr (m0 :: ms) M).length = (m0 :: ms).length := xor_len (by rw [hml])
  generalize xorStr (m0 :: ms) M = X at hxl ⊢
  rw [← hxl] at hmdb ⊢
  obtain ⟨x0, X', rfl⟩ := cut1 (l := X) (by rw [hxl]; simp)
  rw [show C.rd (x0 :: X') 0 = .ok x0 from rfl, R.liftM_eq, R.lift_ok, R.ok_bind,
    show C.wr (x0 :: X') 0 ((x0.setWidth 32 &&& ((0xff : BitVec 32) >>> k.val)).setWidth 8) =
      .ok (((x0.setWidth 32 &&& ((0xff : BitVec 32) >>> k.val)).setWidth 8) :: X') from rfl, R.liftM_eq, R.lift_ok,
    R.ok_bind, mask_keep, clearTop_cons, show (x0 :: X').length = ((x0 &&& keep k) :: X').length from rfl]
  exact pss_tail ht junk hm (by simp only [List.length_cons] at hmdb ⊢; omega) (by simp only [List.length_cons] at hmdb ⊢; omega) hh

/-! ### Signatures -/

theorem clear_lt (k : Fin 8) (b : Byte) (bs : List Byte) : beVal (clearTop k (b :: bs)) < 2 ^ (8 * (bs.length + 1) - k.val) := by
  unfold clearTop
  rw [Asn1.beVal_cons]
  have h1 := Asn1.beVal_lt bs
  have h2 : (BitVec.ofNat 8 (b.toNat % 2 ^ (8 - k.val)) : Byte).toNat < 2 ^ (8 - k.val) := by
    rw [BitVec.toNat_ofNat]
    exact lt_of_le_of_lt (Nat.mod_le _ _) (Nat.mod_lt _ (by positivity))
  generalize (BitVec.ofNat 8 (b.toNat % 2 ^ (8 - k.val)) : Byte).toNat = v at h2
  have hk := k.isLt
  rw [show 8 * (bs.length + 1) - k.val = (8 - k.val) + 8 * bs.length by omega, pow_add, pow_mul]
  have h3 : (2 ^ 8 : Nat) = 256 := rfl
  rw [h3]
  calc v * 256 ^ bs.length + beVal bs < v * 256 ^ bs.length + 256 ^ bs.length := by omega
    _ = (v + 1) * 256 ^ bs.length := by ring
    _ ≤ _ := Nat.mul_le_mul_right _ h2

/-- The encoding is a number of at most `emBits` bits. -/
theorem emsaPss_lt {t : HashId} (ht : hash_has_backend t = true) {emBits : Nat} {mHash salt : List Byte}
    (h : hash_output_size t + salt.length + 2 ≤ (emBits + 7) / 8) :
    beVal (emsaPss (hashOf t) (hash_output_size t) emBits mHash salt) < 2 ^ emBits := by
  have hl := emsaPss_len ht (mHash := mHash) h
  rw [emsaPss_eq] at hl ⊢
  have hk8 : 8 * ((emBits + 7) / 8) - emBits < 8 := by omega
  obtain ⟨k, hk⟩ : ∃ k : Fin 8, 8 * ((emBits + 7) / 8) - emBits = k.val := ⟨⟨_, hk8⟩, rfl⟩
  rw [hk] at hl ⊢
  generalize hx : xorStr _ _ = X at hl ⊢
  have hX : 0 < X.length := by
    rw [← hx, xor_len, pssDb_len (by omega)]
    · omega
    · rw [pssDb_len (by omega), mgf1_len ht]
  generalize hashOf t _ ++ [0xbc] = T at hl ⊢
  obtain ⟨b, bs, rfl⟩ := cut1 hX
  rw [clearTop, List.cons_append, ← clearTop] at hl ⊢
  rw [clearTop_len, List.length_cons] at hl
  refine lt_of_lt_of_le (clear_lt k b (bs ++ T)) (Nat.pow_le_pow_right (by omega) ?_)
  rw [hl]; omega

/-- The lengths of the salt a verifier accepts. -/
def PssSalt (hlen salt_len l : Nat) : Prop :=
  salt_len = RSA_SALT_LENGTH_AUTO ∨ l = (if salt_len = RSA_SALT_LENGTH_HASH then hlen else salt_len)

def PssOk (t : HashId) (salt_len : Nat) (msg sig : List Byte) (n e : Nat) : Prop :=
  hash_has_backend t = true ∧ msg.length = hash_output_size t ∧ RsaPubOk n e ∧ sig.length = rsaLen n ∧ beVal sig < n ∧
  ∃ salt, hash_output_size t + salt.length + 2 ≤ (n.size + 6) / 8 ∧ PssSalt (hash_output_size t) salt_len salt.length ∧
    beVal sig ^ e % n = beVal (emsaPss (hashOf t) (hash_output_size t) (n.size - 1) msg salt)

theorem verify_pss_det (junk : Nat → Nat → Byte) (t : HashId) (msg sig key : List Byte) (salt_len : Nat) :
    Det (rsa_verify_pss junk t msg sig key salt_len) (∃ n e, key = rsaPubDer n e ∧ PssOk t salt_len msg sig n e) () := by
  unfold rsa_verify_pss
  by_cases ht : hash_has_backend t = true
  swap
  · refine ⟨fun ⟨n, e, _, h⟩ => absurd h.1 ht, fun _ => ?_⟩
    rw [Bool.not_eq_true] at ht
    rw [ht]; rfl
  obtain ⟨s1, s2, -⟩ := sizes ht
  dsimp only
  rw [ht, R.need_true, R.ok_bind]
  by_cases hm : msg.length = hash_output_size t
  swap
  · exact ⟨fun ⟨n, e, _, h⟩ => absurd h.2.1 hm, fun _ => by rw [decide_eq_false hm]; rfl⟩
  rw [decide_eq_true hm, R.need_true, R.ok_bind]
  rcases pub_read key with ⟨n, e, hk, ho, hi, hv⟩ | ⟨hno, hf⟩
  swap
  · exact ⟨fun ⟨n, e, h, h'⟩ => absurd ⟨n, e, h, h'.2.2.1⟩ hno, fun _ => hf _⟩
  rw [hi, R.ok_bind, hv, R.ok_bind, R.liftM_eq, bitlen_of, R.lift_ok, R.ok_bind, Int.natAbs_natCast,
    show (n.size + 7) / 8 = rsaLen n from rfl]
  have hmin := rsaLen_min ho
  have hmax := rsaLen_max ho
  have red : (∃ n e, key = rsaPubDer n e ∧ PssOk t salt_len msg sig n e) ↔ PssOk t salt_len msg sig n e := by
    constructor
    · rintro ⟨n', e', hk', h'⟩
      obtain ⟨rfl, rfl⟩ := pub_der_inj ho h'.2.2.1 (hk ▸ hk')
      exact h'
    · exact fun h => ⟨n, e, hk, h⟩
  refine Det.congr ?_ red.symm
  refine (Det.need (P := beVal sig < n ∧
    ∃ salt, hash_output_size t + salt.length + 2 ≤ (n.size + 6) / 8 ∧ PssSalt (hash_output_size t) salt_len salt.length ∧
    beVal sig ^ e % n = beVal (emsaPss (hashOf t) (hash_output_size t) (n.size - 1) msg salt)) fun hs => ?_).congr ?_
  swap
  · unfold PssOk
    simp only [decide_eq_true_eq]
    constructor
    · rintro ⟨a, b, c⟩
      exact ⟨ht, hm, ho, a, b, c⟩
    · rintro ⟨_, _, _, a, b, c⟩
      exact ⟨a, b, c⟩
  -- the salt
  generalize hsl : (if salt_len = RSA_SALT_LENGTH_AUTO then 0 else if salt_len = RSA_SALT_LENGTH_HASH then
    hash_output_size t else salt_len) = slen
  have hsalt : ∀ l, PssSalt (hash_output_size t) salt_len l ↔ (slen = 0 ∨ l = slen) := by
    intro l
    unfold PssSalt
    rw [← hsl]
    by_cases h0 : salt_len = RSA_SALT_LENGTH_AUTO
    · simp [h0]
    · rw [if_neg h0]
      have : (if salt_len = RSA_SALT_LENGTH_HASH then hash_output_size t else salt_len) ≠ 0 := by
        split
        · omega
        · exact h0
      simp [h0, this]
  simp only [hsalt]
  have hrl : rsaLen n = (n.size + 7) / 8 := rfl
  by_cases hsk : slen > rsaLen n
  · refine ⟨?_, fun _ => by rw [decide_eq_false (not_not.2 hsk)]; rfl⟩
    rintro ⟨_, salt, h1, h2, _⟩
    omega
  rw [decide_eq_true hsk, R.need_true, R.ok_bind]
  by_cases hsn : beVal sig < n
  swap
  · exact ⟨fun h => absurd h.1 hsn, fun _ => by rw [(pub_encrypt_det ho sig).1 (by omega)]; rfl⟩
  obtain ⟨em, hem, hel, hev⟩ := (pub_encrypt_det ho sig).2 hsn
  rw [hem, R.ok_bind, ← hev]
  have hsz : n.size - 1 + 7 = n.size + 6 := by omega
  by_cases h7 : (n.size - 1) &&& 7 = 0
  · rw [if_pos h7]
    have h7' : (n.size - 1) % 8 = 0 := by
      rw [← h7]; exact (Nat.and_two_pow_sub_one_eq_mod _ 3).symm
    obtain ⟨b, em', rfl⟩ := cut1 (l := em) (by omega)
    have hl' : em'.length = (n.size + 6) / 8 := by rw [List.length_cons] at hel; omega
    have e1 : C.slice (b :: em') 1 (rsaLen n - 1) = .ok em' := by
      have := slice_at (p := [b]) (m := em') (s := []) (pos := 1) (n := rsaLen n - 1) rfl
        (by rw [List.length_cons] at hel; omega)
      simpa using this
    have hd := pss_verify_det ht junk (msg := msg) (em := em') (embits := n.size - 1) (salt_len := slen) (by omega)
      (by rw [hsz]; exact hl')
    rw [hsz] at hd
    rw [R.liftM_eq, show C.rd (b :: em') 0 = .ok b from rfl, R.lift_ok, R.ok_bind]
    refine (Det.need (P := msg.length = hash_output_size t ∧ ∃ salt,
        hash_output_size t + salt.length + 2 ≤ (n.size + 6) / 8 ∧
        (slen = 0 ∨ salt.length = slen) ∧ em' = emsaPss (hashOf t) (hash_output_size t) (n.size - 1) msg salt)
        fun _ => ?_).congr ?_
    · rw [R.liftM_eq, e1, R.lift_ok, R.ok_bind]
      exact hd
    · rw [decide_eq_true_eq]
      constructor
      · rintro ⟨rfl, _, salt, h1, h2, h3⟩
        exact ⟨hsn, salt, h1, h2, by rw [beVal_zero_cons, h3]⟩
      · rintro ⟨_, salt, h1, h2, h3⟩
        have hsl' := emsaPss_len ht (mHash := msg) (salt := salt) (emBits := n.size - 1) (by rw [hsz]; exact h1)
        have h4 : beVal (b :: em') = beVal ((0 : Byte) :: emsaPss (hashOf t) (hash_output_size t) (n.size - 1) msg salt) := by
          rw [h3, beVal_zero_cons]
        have h5 := Asn1.beVal_inj (by rw [List.length_cons, List.length_cons, hsl', hl', hsz]) h4
        exact ⟨(List.cons.inj h5).1, hm, salt, h1, h2, (List.cons.inj h5).2⟩
  · rw [if_neg h7]
    have h7' : (n.size - 1) % 8 ≠ 0 := by
      intro h; apply h7; rw [← h]; exact (Nat.and_two_pow_sub_one_eq_mod _ 3)
    have hl' : em.length = (n.size + 6) / 8 := by omega
    have hd := pss_verify_det ht junk (msg := msg) (em := em) (embits := n.size - 1) (salt_len := slen) (by omega)
      (by rw [hsz]; exact hl')
    rw [hsz] at hd
    refine hd.congr ?_
    constructor
    · rintro ⟨_, salt, h1, h2, h3⟩
      exact ⟨hsn, salt, h1, h2, by rw [h3]⟩
    · rintro ⟨_, salt, h1, h2, h3⟩
      have hsl' := emsaPss_len ht (mHash := msg) (salt := salt) (emBits := n.size - 1) (by rw [hsz]; exact h1)
      exact ⟨hm, salt, h1, h2, Asn1.beVal_inj (by rw [hl', hsl', hsz]) h3⟩

theorem sign_pss_eq {S : Type} (rng : Source S) (fuel : Nat) (junk : Nat → Nat → Byte) {out : List Byte}
    {t : HashId} {msg key : List Byte} {salt_len : Nat} (entropy : List Byte) {k : RsaKey}
    (hkey : key = rsaPrivDer k) (hk : RsaKeyOk k) (ho : rsaLen k.n ≤ out.length) :
    (¬ (hash_has_backend t = true ∧ msg.length = hash_output_size t ∧
      hash_output_size t + pssSaltLen (hash_output_size t) ((k.n.size + 6) / 8) salt_len + 2 ≤ (k.n.size + 6) / 8) →
      rsa_sign_pss rng fuel junk out t msg key salt_len entropy = .fail) ∧
    (hash_has_backend t = true → msg.length = hash_output_size t →
      hash_output_size t + pssSaltLen (hash_output_size t) ((k.n.size + 6) / 8) salt_len + 2 ≤ (k.n.size + 6) / 8 →
      rsa_sign_pss rng fuel junk out t msg key salt_len entropy =
        rsa_priv_decrypt rng fuel (ofKey k) (emsaPss (hashOf t) (hash_output_size t) (k.n.size - 1) msg
          (rng.gen (rng.init entropy) (pssSaltLen (hash_output_size t) ((k.n.size + 6) / 8) salt_len)).1) true
          (rng.gen (rng.gen (rng.init entropy) (pssSaltLen (hash_output_size t) ((k.n.size + 6) / 8) salt_len)).2 32).1) := by
  unfold rsa_sign_pss
  by_cases ht : hash_has_backend t = true
  swap
  · refine ⟨fun _ => ?_, fun h => absurd h ht⟩
    rw [Bool.not_eq_true] at ht
    rw [ht]; rfl
  obtain ⟨s1, s2, -⟩ := sizes ht
  dsimp only
  rw [ht, R.need_true, R.ok_bind]
  by_cases hm : msg.length = hash_output_size t
  swap
  · exact ⟨fun _ => by rw [decide_eq_false hm]; rfl, fun _ h => absurd h hm⟩
  have hmin := rsaLen_min hk.pub
  have hmax := rsaLen_max hk.pub
  have hrl : rsaLen k.n = (k.n.size + 7) / 8 := rfl
  have hsz : k.n.size - 1 + 7 = k.n.size + 6 := by omega
  rw [decide_eq_true hm, R.need_true, R.ok_bind, hkey, priv_import_ok (priv_small hk), R.ok_bind,
    (priv_verify_det k).1 hk, R.ok_bind, show (ofKey k).n = mpz_of k.n from rfl, R.liftM_eq, bitlen_of, R.lift_ok, R.ok_bind,
    Int.natAbs_natCast]
  change (_ → (R.need _ >>= fun _ => R.need (decide ¬ pssSaltLen (hash_output_size t) ((k.n.size + 6) / 8) salt_len > _) >>= fun _ =>
    pss_encode junk out t msg (k.n.size - 1) (rng.gen (rng.init entropy)
      (pssSaltLen (hash_output_size t) ((k.n.size + 6) / 8) salt_len)).1 >>= fun em => _) = _) ∧
    (_ → _ → _ → (R.need _ >>= fun _ => R.need (decide ¬ pssSaltLen (hash_output_size t) ((k.n.size + 6) / 8) salt_len > _) >>= fun _ =>
    pss_encode junk out t msg (k.n.size - 1) (rng.gen (rng.init entropy)
      (pssSaltLen (hash_output_size t) ((k.n.size + 6) / 8) salt_len)).1 >>= fun em => _) = _)
  have hlen := rng.len (rng.init entropy) (pssSaltLen (hash_output_size t) ((k.n.size + 6) / 8) salt_len)
  obtain ⟨hE1, hE2⟩ := encode_eq ht junk (out := out) (msg := msg) (salt := (rng.gen (rng.init entropy)
      (pssSaltLen (hash_output_size t) ((k.n.size + 6) / 8) salt_len)).1) (embits := k.n.size - 1) (by omega) (by omega)
  rw [hsz, hlen] at hE1 hE2
  constructor
  · intro h
    have h1 : ¬ hash_output_size t + pssSaltLen (hash_output_size t) ((k.n.size + 6) / 8) salt_len + 2 ≤ (k.n.size + 6) / 8 :=
      fun h1 => h ⟨rfl, hm, h1⟩
    rw [hE1 (fun h2 => h1 h2.2)]
    cases decide ¬ (salt_len = RSA_SALT_LENGTH_AUTO ∧ (k.n.size + 6) / 8 < 2 + hash_output_size t)
    · rfl
    · cases decide ¬ pssSaltLen (hash_output_size t) ((k.n.size + 6) / 8) salt_len > (k.n.size + 7) / 8
      · rfl
      · rfl
  · intro _ _ h1
    obtain ⟨rest, hE⟩ := hE2 hm h1
    have hl := emsaPss_len ht (mHash := msg) (salt := (rng.gen (rng.init entropy)
      (pssSaltLen (hash_output_size t) ((k.n.size + 6) / 8) salt_len)).1) (emBits := k.n.size - 1) (by rw [hsz, hlen]; exact h1)
    rw [decide_eq_true (by omega), R.need_true, R.ok_bind, decide_eq_true (by omega), R.need_true, R.ok_bind, hE, R.ok_bind]
    dsimp only
    have e1 := slice_at (p := []) (pos := 0) (n := (k.n.size + 6) / 8) (m := emsaPss (hashOf t) (hash_output_size t)
      (k.n.size - 1) msg (rng.gen (rng.init entropy)
      (pssSaltLen (hash_output_size t) ((k.n.size + 6) / 8) salt_len)).1) (s := rest) rfl (by rw [hl, hsz])
    rw [List.nil_append] at e1
    rw [R.liftM_eq, e1, R.lift_ok, R.ok_bind]
    rfl

end Torsion.Rsa
