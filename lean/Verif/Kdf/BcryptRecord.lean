import Verif.Kdf.BcryptLemmas

/-!
Lemmas: the records of bcrypt.
-/
namespace Torsion.Bcr
open Torsion.Spec Torsion.Bf

theorem digit : ∀ c : Byte, 0 ≤ c.toInt - 48 → c.toInt - 48 ≤ 9 →
    (c.toInt - 48).toNat < 10 ∧ c = BitVec.ofNat 8 (48 + (c.toInt - 48).toNat) := by decide +kernel

theorem digit2 : ∀ d < 10, (BitVec.ofNat 8 (48 + d)).toInt = 48 + d ∧ (BitVec.ofNat 8 (48 + d) != 0) = true ∧
    ch '0' + BitVec.ofNat 8 d = BitVec.ofNat 8 (48 + d) := by decide +kernel

theorem need_ne {α : Type} {b : Bool} {f : Unit → R α} (h : (R.need b >>= f) ≠ .fail) : b = true ∧ f () ≠ .fail := by
  cases b with
  | true => exact ⟨rfl, h⟩
  | false => exact absurd rfl h

/-- The memory of a record. -/
theorem record_mem {m : Byte} {r : Nat} {v1 v2 : List Nat} (rest : List Byte) :
    (asciiStr "$2" ++ [m] ++ asciiStr "$" ++ [BitVec.ofNat 8 (48 + r / 10), BitVec.ofNat 8 (48 + r % 10)] ++ asciiStr "$" ++
      v1.map bcryptChar ++ v2.map bcryptChar) ++ 0 :: rest =
    ch '$' :: ch '2' :: m :: ch '$' :: BitVec.ofNat 8 (48 + r / 10) :: BitVec.ofNat 8 (48 + r % 10) :: ch '$' ::
      (v1.map bcryptChar ++ (v2.map bcryptChar ++ 0 :: rest)) := by
  rw [show asciiStr "$2" = [ch '$', ch '2'] from rfl, show asciiStr "$" = [ch '$'] from rfl]
  simp only [List.append_assoc, List.cons_append, List.nil_append]

theorem decode_ok {m : Byte} {r : Nat} {salt hash s : List Byte} (rest : List Byte) (hm : m = ch 'a' ∨ m = ch 'b')
    (hr : 4 ≤ r) (hr' : r ≤ 31) (h : IsBcryptRecord m r salt hash s) : bcrypt_decode (s ++ 0 :: rest) = .ok (m, r, salt, hash) := by
  obtain ⟨v1, v2, l1, l2, b1, b2, e1, e2, rfl⟩ := h
  rw [record_mem]
  generalize hM : (ch '$' :: ch '2' :: m :: ch '$' :: BitVec.ofNat 8 (48 + r / 10) :: BitVec.ofNat 8 (48 + r % 10) :: ch '$' ::
      (v1.map bcryptChar ++ (v2.map bcryptChar ++ 0 :: rest)) : List Byte) = M
  have g0 : C.rd M 0 = .ok (ch '$') := by rw [← hM]; rfl
  have g1 : C.rd M 1 = .ok (ch '2') := by rw [← hM]; rfl
  have g2 : C.rd M 2 = .ok m := by rw [← hM]; rfl
  have g3 : C.rd M 3 = .ok (ch '$') := by rw [← hM]; rfl
  have g4 : C.rd M 4 = .ok (BitVec.ofNat 8 (48 + r / 10)) := by rw [← hM]; rfl
  have g5 : C.rd M 5 = .ok (BitVec.ofNat 8 (48 + r % 10)) := by rw [← hM]; rfl
  have g6 : C.rd M 6 = .ok (ch '$') := by rw [← hM]; rfl
  have d7 : M.drop 7 = v1.map bcryptChar ++ (v2.map bcryptChar ++ 0 :: rest) := by rw [← hM]; rfl
  obtain ⟨s', hs, hsl, hsb⟩ := dec_ok M 16 v1 7 _ b1 (by omega) d7
  have d29 : M.drop (7 + v1.length) = v2.map bcryptChar ++ 0 :: rest := by
    rw [← List.drop_drop, d7, List.drop_left' (by simp)]
  obtain ⟨h', hh, hhl, hhb⟩ := dec_ok M 23 v2 _ _ b2 (by omega) d29
  have d60 : M.drop (7 + v1.length + v2.length) = 0 :: rest := by
    rw [← List.drop_drop, d29, List.drop_left' (by simp)]
  have ge := rd_some (drop_cons d60).1
  have es : s' = salt := bits_inj (by rw [hsb, e1])
  have eh : h' = hash := bits_inj (by rw [hhb, e2])
  rw [es] at hs
  rw [eh] at hh
  obtain ⟨p1, p2, _⟩ := digit2 (r / 10) (by omega)
  obtain ⟨q1, q2, _⟩ := digit2 (r % 10) (by omega)
  have hmm : (m == ch 'a' || m == ch 'b') = true := by
    rcases hm with h | h <;> rw [h] <;> rfl
  unfold bcrypt_decode
  simp only [g0, g1, g2, g3, g4, g5, g6, R.liftM_eq, R.lift_ok, R.ok_bind, beq_self_eq_true, R.need_true, hmm, p1, p2, q1, q2]
  have hx : (!(decide ((48 : Int) + ((r / 10 : ℕ) : Int) - 48 < 0) || decide ((48 : Int) + ((r / 10 : ℕ) : Int) - 48 > 9) ||
      decide ((48 : Int) + ((r % 10 : ℕ) : Int) - 48 < 0) || decide ((48 : Int) + ((r % 10 : ℕ) : Int) - 48 > 9))) = true := by
    rw [decide_eq_false (by omega), decide_eq_false (by omega), decide_eq_false (by omega), decide_eq_false (by omega)]
    rfl
  have hn : (((48 : Int) + ((r / 10 : ℕ) : Int) - 48) * 10 + ((48 : Int) + ((r % 10 : ℕ) : Int) - 48)).toNat = r := by omega
  rw [hx, hn, decide_eq_false (by omega), decide_eq_false (by omega), hs, R.need_true, R.ok_bind]
  simp only [Bool.or_self, Bool.not_false, R.need_true, R.ok_bind]
  rw [hh, R.ok_bind]
  dsimp only
  rw [ge]
  rfl

theorem bits_of_take {l : List Bool} (n : Nat) (h : 8 * n ≤ l.length) : ∃ b : List Byte, bits b = l.take (8 * n) :=
  bits_surj n _ (by rw [List.length_take]; omega)

theorem decode_cases {s : List Byte} (h0 : (0 : Byte) ∉ s) (rest : List Byte) (hne : bcrypt_decode (s ++ 0 :: rest) ≠ .fail) :
    ∃ m r salt hash, (m = ch 'a' ∨ m = ch 'b') ∧ 4 ≤ r ∧ r ≤ 31 ∧ IsBcryptRecord m r salt hash s := by
  generalize hM : s ++ 0 :: rest = M at hne
  have hz : M[s.length]? = some 0 := by rw [← hM, List.getElem?_append_right (Nat.le_refl _), Nat.sub_self]; rfl
  unfold bcrypt_decode at hne
  obtain ⟨c0, g0, r0, n0⟩ := rdz hz (Nat.zero_le _)
  rw [r0] at hne
  simp only [R.liftM_eq, R.lift_ok, R.ok_bind] at hne
  obtain ⟨t0, hne⟩ := need_ne hne
  rw [beq_iff_eq] at t0
  obtain ⟨c1, g1, r1, n1⟩ := rdz hz (n0 (by rw [t0]; decide))
  rw [r1] at hne
  simp only [R.lift_ok, R.ok_bind] at hne
  obtain ⟨t1, hne⟩ := need_ne hne
  rw [beq_iff_eq] at t1
  obtain ⟨c2, g2, r2, n2⟩ := rdz hz (n1 (by rw [t1]; decide))
  rw [r2] at hne
  simp only [R.lift_ok, R.ok_bind] at hne
  obtain ⟨t2, hne⟩ := need_ne hne
  rw [Bool.or_eq_true, beq_iff_eq, beq_iff_eq] at t2
  obtain ⟨c3, g3, r3, n3⟩ := rdz hz (n2 (by rcases t2 with h | h <;> rw [h] <;> decide))
  rw [r3] at hne
  simp only [R.lift_ok, R.ok_bind] at hne
  obtain ⟨t3, hne⟩ := need_ne hne
  rw [beq_iff_eq] at t3
  obtain ⟨c4, g4, r4, n4⟩ := rdz hz (n3 (by rw [t3]; decide))
  rw [r4] at hne
  simp only [R.lift_ok, R.ok_bind] at hne
  obtain ⟨t4, hne⟩ := need_ne hne
  rw [bne_iff_ne] at t4
  obtain ⟨c5, g5, r5, n5⟩ := rdz hz (n4 t4)
  rw [r5] at hne
  simp only [R.lift_ok, R.ok_bind] at hne
  obtain ⟨t5, hne⟩ := need_ne hne
  rw [bne_iff_ne] at t5
  obtain ⟨td, hne⟩ := need_ne hne
  rw [Bool.not_eq_true', Bool.or_eq_false_iff, Bool.or_eq_false_iff, Bool.or_eq_false_iff, decide_eq_false_iff_not, decide_eq_false_iff_not,
    decide_eq_false_iff_not, decide_eq_false_iff_not] at td
  obtain ⟨⟨⟨td1, td2⟩, td3⟩, td4⟩ := td
  obtain ⟨tr, hne⟩ := need_ne hne
  rw [Bool.not_eq_true', Bool.or_eq_false_iff, decide_eq_false_iff_not, decide_eq_false_iff_not] at tr
  obtain ⟨tr1, tr2⟩ := tr
  obtain ⟨c6, g6, r6, n6⟩ := rdz hz (n5 t5)
  rw [r6] at hne
  simp only [R.lift_ok, R.ok_bind] at hne
  obtain ⟨t6, hne⟩ := need_ne hne
  rw [beq_iff_eq] at t6
  have k7 := n6 (by rw [t6]; decide)
  rcases dec_cases hz 16 7 k7 with hf | ⟨v1, rest1, b1, l1, d1, k29⟩
  · rw [hf] at hne; exact absurd rfl hne
  obtain ⟨salt, hs, hsl, hsb⟩ := dec_ok M 16 v1 7 rest1 b1 l1 d1
  rw [hs] at hne
  simp only [R.ok_bind] at hne
  rcases dec_cases hz 23 _ k29 with hf | ⟨v2, rest2, b2, l2, d2, k60⟩
  · rw [hf] at hne; exact absurd rfl hne
  obtain ⟨hash, hh, hhl, hhb⟩ := dec_ok M 23 v2 _ rest2 b2 l2 d2
  rw [hh] at hne
  simp only [R.ok_bind] at hne
  obtain ⟨ce, ge, re, ne⟩ := rdz hz k60
  rw [re] at hne
  simp only [R.lift_ok, R.ok_bind] at hne
  obtain ⟨te, _⟩ := need_ne hne
  rw [beq_iff_eq] at te
  obtain ⟨p1, p2⟩ := digit c4 (by omega) (by omega)
  obtain ⟨q1, q2⟩ := digit c5 (by omega) (by omega)
  have l1' : v1.length = 22 := l1
  have l2' : v2.length = 31 := l2
  -- the NUL is at 60
  have hlen : s.length = 60 := by
    rw [l1', l2'] at k60 ge
    rcases Nat.lt_or_ge 60 s.length with h | h
    · exfalso
      rw [te, ← hM, List.getElem?_append_left h] at ge
      exact h0 (List.mem_of_getElem? ge)
    · omega
  have hd7 : M = ch '$' :: ch '2' :: c2 :: ch '$' :: c4 :: c5 :: ch '$' :: M.drop 7 := by
    have := drop_get g0
    rw [List.drop_zero, drop_get g1, drop_get g2, drop_get g3, drop_get g4, drop_get g5, drop_get g6, t0, t1, t3, t6] at this
    exact this
  have hd29 : M.drop 7 = v1.map bcryptChar ++ M.drop (7 + v1.length) := by
    rw [d1, ← List.drop_drop, d1, List.drop_left' (by simp)]
  refine ⟨c2, ((c4.toInt - 48) * 10 + (c5.toInt - 48)).toNat, salt, hash, t2, by omega, by omega, v1, v2, l1', l2', b1, b2, hsb, hhb, ?_⟩
  have hr1 : ((c4.toInt - 48) * 10 + (c5.toInt - 48)).toNat / 10 = (c4.toInt - 48).toNat := by omega
  have hr2 : ((c4.toInt - 48) * 10 + (c5.toInt - 48)).toNat % 10 = (c5.toInt - 48).toNat := by omega
  rw [hr1, hr2, ← p2, ← q2]
  have hs60 : s = M.take 60 := by rw [← hM, List.take_left' hlen]
  rw [hs60, hd7, hd29, d2, show asciiStr "$2" = [ch '$', ch '2'] from rfl, show asciiStr "$" = [ch '$'] from rfl]
  simp only [List.append_assoc, List.cons_append, List.nil_append, List.take_succ_cons]
  have ht : ∀ A B Z : List Byte, A.length = 22 → B.length = 31 → (A ++ (B ++ Z)).take 53 = A ++ B := by
    intro A B Z hA hB
    rw [← List.append_assoc, List.take_left' (by rw [List.length_append]; omega)]
  rw [ht _ _ _ (by simp [l1']) (by simp [l2'])]

/-- What the encoder writes is a record. -/
theorem record_is (m : Byte) (r : Nat) {salt hash : List Byte} (hs : salt.length = 16) (hh : hash.length = 23) :
    IsBcryptRecord m r salt hash (bcryptRecord m r salt hash) := by
  have key : ∀ b : List Byte, encode 6 4 bcryptChar false b = (groups 6 (bits b)).map bcryptChar := by
    intro b
    unfold encode
    simp
  obtain ⟨a1, z1, _, a3⟩ := bitsK_groups (k := 6) (by decide) (bits salt)
  obtain ⟨c1, z2, _, c3⟩ := bitsK_groups (k := 6) (by decide) (bits hash)
  refine ⟨groups 6 (bits salt), groups 6 (bits hash), ?_, ?_, a1, c1, ?_, ?_, ?_⟩
  · rw [groups_len (by decide), bits_len, hs]
  · rw [groups_len (by decide), bits_len, hh]
  · rw [a3, List.take_left' (by rw [bits_len, hs])]
  · rw [c3, List.take_left' (by rw [bits_len, hh])]
  · unfold bcryptRecord
    rw [key salt, key hash]

end Torsion.Bcr
