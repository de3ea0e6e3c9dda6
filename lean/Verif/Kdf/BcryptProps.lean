import Verif.Kdf.BcryptRecord

/-!
# bcrypt: records, hashes, and the passwords it confuses

The string of a C pointer is `s` in memory `s ++ 0 :: rest`, with no NUL in `s`.
-/
namespace Torsion
open Spec Bf Bcr

/-! ## The hash -/

/-- `bcrypt_hash192` is bcrypt with the key as given, for every key and every cost from 4 to 31. -/
theorem bcrypt_hash192_exact (key salt : List Byte) (cost : Nat) (hc : 4 ≤ cost ∧ cost ≤ 31) (hs : salt.length ≤ 1096) :
    (bcrypt_hash192 key salt cost).length = 24 ∧ (bcrypt_hash192 key salt cost).take 23 = bcryptHash cost salt key := by
  have hlen : ∀ (l : List Nat) (f : Nat → BitVec 32 × BitVec 32), (l.flatMap fun i => be32 (f i).1 ++ be32 (f i).2).length = 8 * l.length := by
    intro l f
    induction l with
    | nil => rfl
    | cons a l ih => rw [List.flatMap_cons, List.length_append, ih, List.length_cons]; simp [be32]; omega
  have hst : ofCtx ((List.range (2 ^ cost)).foldl (fun st _ => blowfish_expand0state (blowfish_expand0state st key) salt) (blowfish_init key salt)) =
      eksBlowfish cost salt key := by
    rw [fold_iter (fun st => blowfish_expand0state (blowfish_expand0state st key) salt),
      iter_ctx (h := fun s => bfExpand (bfExpand s [] key) [] salt), blowfish_init_exact, List.take_of_length_le hs]
    · rfl
    · intro c
      unfold blowfish_expand0state
      rw [expand_eq, expand_eq]
  have hcl : bcrypt_clamp cost = cost := by
    unfold bcrypt_clamp
    rw [if_neg (by omega), if_neg (by omega)]
  have hw : (fun w => (write32be w).toList) = be32 := funext write32be_be32
  unfold bcrypt_hash192 bcryptHash
  dsimp only
  rw [hcl, hw, out_eq _ _ 3, hst, show bcrypt_ciphertext192 = asciiStr "OrpheanBeholderScryDoubt" from by decide]
  exact ⟨hlen _ _, rfl⟩

/-- The bytes of the password which `bcrypt_derive` hashes, as the code takes them. -/
def bcryptTaken (pass : List Byte) (minor : Byte) : List Byte :=
  if minor = 0x61 then ((pass ++ [0]).take 255).take ((pass.length + 1) % 256) else (pass ++ [0]).take 73

/-- `bcrypt_derive` succeeds exactly for the costs 4, …, 31 and the versions a and b, whatever the password; it reads no byte it
has not set. -/
theorem bcrypt_derive_taken (pass : List Byte) (salt : Vector Byte 16) (cost : Nat) (minor : Byte) :
    bcrypt_derive pass salt cost minor =
      if 4 ≤ cost ∧ cost ≤ 31 ∧ (minor = 0x61 ∨ minor = 0x62) then .ok (bcryptHash cost salt.toList (bcryptTaken pass minor)) else .fail := by
  have e64 : (pass.length + 1) % 2 ^ 64 % 256 = (pass.length + 1) % 256 := by omega
  unfold bcrypt_derive
  by_cases hc : 4 ≤ cost ∧ cost ≤ 31
  · rw [decide_eq_false (by omega), decide_eq_false (by omega)]
    simp only [Bool.or_self, Bool.not_false, R.need_true, R.ok_bind, R.liftM_eq]
    have hk : (if pass.length ≥ 255 then C.slice pass 0 255 else C.ok (pass ++ [0]) : C (List Byte)) = .ok ((pass ++ [0]).take 255) := by
      by_cases c : pass.length ≥ 255
      · rw [if_pos c]
        unfold C.slice
        rw [if_pos (by omega), List.drop_zero, List.take_append_of_le_length (by omega)]
      · rw [if_neg c, List.take_of_length_le (by rw [List.length_append, List.length_singleton]; omega)]
    have hklen : ((pass ++ [0]).take 255).length = min 255 (pass.length + 1) := by simp
    have fin : ∀ key, (do
        let out ← R.lift (C.slice (bcrypt_hash192 key salt.toList cost) 0 23)
        R.ok out) = R.ok (bcryptHash cost salt.toList key) := by
      intro key
      obtain ⟨h1, h2⟩ := bcrypt_hash192_exact key salt.toList cost hc (by simp)
      unfold C.slice
      rw [if_pos (by rw [h1]; omega), List.drop_zero, h2]
      rfl
    rw [hk]
    simp only [R.lift_ok, R.ok_bind]
    by_cases ha : minor = ch 'a'
    · have ha' : minor = 0x61 := ha
      rw [if_pos ha, if_pos (c := 4 ≤ cost ∧ cost ≤ 31 ∧ (minor = 0x61 ∨ minor = 0x62)) ⟨hc.1, hc.2, Or.inl ha'⟩, R.ok_bind, e64]
      unfold bcryptTaken
      rw [if_pos ha']
      have hsl : C.slice ((pass ++ [0]).take 255) 0 ((pass.length + 1) % 256) = .ok (((pass ++ [0]).take 255).take ((pass.length + 1) % 256)) := by
        unfold C.slice
        rw [if_pos (by rw [hklen]; omega), List.drop_zero]
      rw [hsl, R.lift_ok, R.ok_bind]
      exact fin _
    · have ha' : ¬ minor = 0x61 := ha
      rw [if_neg ha]
      by_cases hb : minor = ch 'b'
      · have hb' : minor = 0x62 := hb
        rw [if_pos hb, if_pos (c := 4 ≤ cost ∧ cost ≤ 31 ∧ (minor = 0x61 ∨ minor = 0x62)) ⟨hc.1, hc.2, Or.inr hb'⟩, R.ok_bind]
        unfold bcryptTaken
        rw [if_neg ha']
        have hsl : C.slice ((pass ++ [0]).take 255) 0 ((if pass.length > 72 then 72 else pass.length) + 1) = .ok ((pass ++ [0]).take 73) := by
          unfold C.slice
          rw [if_pos (by rw [hklen]; split <;> omega), List.drop_zero, List.take_take]
          by_cases c : pass.length > 72
          · rw [if_pos c]; rfl
          · rw [if_neg c, Nat.min_eq_left (by omega), List.take_of_length_le (by simp), List.take_of_length_le (by simp; omega)]
        rw [hsl, R.lift_ok, R.ok_bind]
        exact fin _
      · have hb' : ¬ minor = 0x62 := hb
        rw [if_neg hb, if_neg (c := 4 ≤ cost ∧ cost ≤ 31 ∧ (minor = 0x61 ∨ minor = 0x62)) (by intro h; rcases h.2.2 with h | h; exact ha' h; exact hb' h)]
        rfl
  · rw [if_neg (c := 4 ≤ cost ∧ cost ≤ 31 ∧ (minor = 0x61 ∨ minor = 0x62)) (by intro h; exact hc ⟨h.1, h.2.1⟩)]
    have hd : (!(decide (cost < 4) || decide (cost > 31))) = false := by
      rw [Bool.not_eq_false', Bool.or_eq_true, decide_eq_true_eq, decide_eq_true_eq]
      omega
    rw [hd]
    rfl

/-- Keys of which the first 72 bytes are the same give the same hash. -/
theorem bcryptHash_long {a b : List Byte} (ha : 72 ≤ a.length) (hb : 72 ≤ b.length) (h : a.take 72 = b.take 72) (cost : Nat) (salt : List Byte) :
    bcryptHash cost salt a = bcryptHash cost salt b := by
  have hx : ∀ s t, bfExpand s t a = bfExpand s t b := fun s t => bfExpand_congr (fun i hi => cycWord_long ha hb h hi)
  unfold bcryptHash eksBlowfish
  simp only [hx]

/-- Version b, and version a for passwords of which the length plus one, modulo 256, is at least 72 or the whole: the hash is bcrypt
of the password with its NUL, for passwords of every length. -/
theorem bcrypt_derive_exact (pass : List Byte) (salt : Vector Byte 16) (cost : Nat) (minor : Byte) (hc : 4 ≤ cost ∧ cost ≤ 31)
    (hm : minor = 0x62 ∨ minor = 0x61 ∧ (pass.length < 255 ∨ 72 ≤ (pass.length + 1) % 256)) :
    bcrypt_derive pass salt cost minor = .ok (bcryptHash cost salt.toList (pass ++ [0])) := by
  rw [bcrypt_derive_taken, if_pos ⟨hc.1, hc.2, by rcases hm with h | h; exact Or.inr h; exact Or.inl h.1⟩]
  refine congrArg R.ok ?_
  have hlen : (pass ++ [0]).length = pass.length + 1 := by simp
  by_cases hl : pass.length < 72
  · have e : bcryptTaken pass minor = pass ++ [0] := by
      unfold bcryptTaken
      split
      · rw [List.take_of_length_le (i := 255) (by omega), List.take_of_length_le (by rw [hlen, Nat.mod_eq_of_lt (by omega)])]
      · rw [List.take_of_length_le (by omega)]
    rw [e]
  · have ht : ∃ k, 72 ≤ k ∧ bcryptTaken pass minor = (pass ++ [0]).take k := by
      unfold bcryptTaken
      split
      · refine ⟨min ((pass.length + 1) % 256) 255, ?_, by rw [List.take_take]⟩
        rcases hm with h | ⟨_, h | h⟩
        · rename_i h'; rw [h] at h'; exact absurd h' (by decide)
        · omega
        · omega
      · exact ⟨73, by decide, rfl⟩
    obtain ⟨k, hk, e⟩ := ht
    rw [e]
    refine bcryptHash_long ?_ (by omega) ?_ cost _
    · rw [List.length_take, hlen]; omega
    · rw [List.take_take, Nat.min_eq_left hk]

example : bcrypt_derive (List.replicate 300 0x41) (Vector.replicate 16 0) 31 0x62 =
    .ok (bcryptHash 31 (Vector.replicate 16 (0 : Byte)).toList (List.replicate 300 0x41 ++ [0])) :=
  bcrypt_derive_exact _ _ _ _ (by decide) (Or.inl rfl)

/-! ## Records -/

/-- `bcrypt_generate` writes the record of the hash, 60 characters and the NUL, or fails. -/
theorem bcrypt_generate_exact (pass : List Byte) (salt : Vector Byte 16) (cost : Nat) (minor : Byte) :
    (∀ hash, bcrypt_derive pass salt cost minor = .ok hash →
      bcrypt_generate pass salt cost minor = .ok (bcryptRecord minor cost salt.toList hash ++ [0]) ∧
        (bcryptRecord minor cost salt.toList hash).length = 60) ∧
    (¬ (4 ≤ cost ∧ cost ≤ 31 ∧ (minor = 0x61 ∨ minor = 0x62)) → bcrypt_generate pass salt cost minor = .fail) := by
  constructor
  · intro hash hd
    have hc : 4 ≤ cost ∧ cost ≤ 31 ∧ (minor = 0x61 ∨ minor = 0x62) := by
      by_contra hn
      rw [bcrypt_derive_taken, if_neg hn] at hd
      exact absurd hd (by simp)
    have hh : hash.length = 23 := by
      rw [bcrypt_derive_taken, if_pos hc] at hd
      obtain ⟨h1, h2⟩ := bcrypt_hash192_exact (bcryptTaken pass minor) salt.toList cost ⟨hc.1, hc.2.1⟩ (by simp)
      rw [← R.ok.inj hd, ← h2, List.length_take, h1]
      rfl
    obtain ⟨v1, v2, l1, l2, _, _, _, _, e⟩ := record_is minor cost (salt := salt.toList) (by simp) hh
    constructor
    · unfold bcrypt_generate bcrypt_encode
      rw [hd, R.ok_bind, enc_eq, enc_eq, decide_eq_true (by omega)]
      simp only [C.check, C.ok_bind, R.liftM_eq, if_true, R.lift_ok, R.ok_bind]
      congr 1
      unfold bcryptRecord
      rw [(digit2 (cost / 10) (by omega)).2.2, (digit2 (cost % 10) (by omega)).2.2, show asciiStr "$2" = [ch '$', ch '2'] from rfl,
        show asciiStr "$" = [ch '$'] from rfl]
      simp only [List.append_assoc, List.cons_append, List.nil_append]
    · rw [e, show asciiStr "$2" = [ch '$', ch '2'] from rfl, show asciiStr "$" = [ch '$'] from rfl]
      simp [l1, l2]
  · intro hn
    unfold bcrypt_generate
    rw [bcrypt_derive_taken, if_neg hn]
    rfl

/-- `bcrypt_decode` accepts exactly the records, of version a or b and cost 4, …, 31, in any of the 64 spellings, and reads nothing
after the NUL. -/
theorem bcrypt_decode_exact (s rest : List Byte) (h0 : (0 : Byte) ∉ s) :
    (∀ m r salt hash, bcrypt_decode (s ++ 0 :: rest) = .ok (m, r, salt, hash) ↔
      (m = 0x61 ∨ m = 0x62) ∧ 4 ≤ r ∧ r ≤ 31 ∧ IsBcryptRecord m r salt hash s) ∧
    ((¬ ∃ m r salt hash, (m = 0x61 ∨ m = 0x62) ∧ 4 ≤ r ∧ r ≤ 31 ∧ IsBcryptRecord m r salt hash s) → bcrypt_decode (s ++ 0 :: rest) = .fail) := by
  constructor
  · intro m r salt hash
    constructor
    · intro h
      obtain ⟨m', r', salt', hash', hm, hr, hr', hi⟩ := decode_cases h0 rest (by rw [h]; simp)
      have h2 := decode_ok rest hm hr hr' hi
      rw [h2] at h
      have h3 := R.ok.inj h
      simp only [Prod.mk.injEq] at h3
      obtain ⟨rfl, rfl, rfl, rfl⟩ := h3
      exact ⟨hm, hr, hr', hi⟩
    · rintro ⟨hm, hr, hr', hi⟩
      exact decode_ok rest hm hr hr' hi
  · intro hn
    by_contra hne
    exact hn (decode_cases h0 rest hne)

/-- A record in memory: `bcrypt_decode` by computation. -/
example : (bcrypt_decode (asciiStr "$2b$05$CCCCCCCCCCCCCCCCCCCCC.VGOzA784oUp/Z0DY336zx7pLYAy0lwK" ++ [0, 1, 2])).test = .ok true := by
  decide +kernel

example : bcrypt_decode (asciiStr "$2b$03$CCCCCCCCCCCCCCCCCCCCC.VGOzA784oUp/Z0DY336zx7pLYAy0lwK" ++ [0]) = .fail := by
  decide +kernel

theorem record_len {m : Byte} {r : Nat} {salt hash s : List Byte} (h : IsBcryptRecord m r salt hash s) : salt.length = 16 ∧ hash.length = 23 := by
  obtain ⟨v1, v2, l1, l2, _, _, e1, e2, _⟩ := h
  have a := congrArg List.length e1
  have b := congrArg List.length e2
  rw [bits_len, List.length_take, bitsK_len] at a b
  omega

/-- `bcrypt_verify` accepts a password exactly when the string is a record of the hash of this password under the salt of the
record; else it returns 0. -/
theorem bcrypt_verify_exact (pass s rest : List Byte) (h0 : (0 : Byte) ∉ s) :
    (bcrypt_verify pass (s ++ 0 :: rest) = .ok () ↔ ∃ m r, ∃ salt : Vector Byte 16, (m = 0x61 ∨ m = 0x62) ∧ 4 ≤ r ∧ r ≤ 31 ∧
      IsBcryptRecord m r salt.toList (bcryptHash r salt.toList (bcryptTaken pass m)) s) ∧
    (bcrypt_verify pass (s ++ 0 :: rest) = .ok () ∨ bcrypt_verify pass (s ++ 0 :: rest) = .fail) := by
  obtain ⟨d1, d2⟩ := bcrypt_decode_exact s rest h0
  by_cases hx : ∃ m r salt hash, (m = 0x61 ∨ m = 0x62) ∧ 4 ≤ r ∧ r ≤ 31 ∧ IsBcryptRecord m r salt hash s
  · obtain ⟨m, r, salt, hash, hm, hr, hr', hi⟩ := hx
    have hd := (d1 m r salt hash).2 ⟨hm, hr, hr', hi⟩
    obtain ⟨ls, lh⟩ := record_len hi
    have hv : ∃ v : Vector Byte 16, C.vec 16 salt = .ok v ∧ v.toList = salt := by
      unfold C.vec
      rw [dif_pos (by rw [List.length_take, ls]; rfl)]
      refine ⟨_, rfl, ?_⟩
      rw [Vector.toList_mk, List.take_of_length_le (by omega)]
    obtain ⟨v, hv, hvl⟩ := hv
    have hlen : (bcryptHash r v.toList (bcryptTaken pass m)).length = 23 := by
      obtain ⟨h1, h2⟩ := bcrypt_hash192_exact (bcryptTaken pass m) v.toList r ⟨hr, hr'⟩ (by simp)
      rw [← h2, List.length_take, h1]; rfl
    have hval : bcrypt_verify pass (s ++ 0 :: rest) = R.need (decide (bcryptHash r v.toList (bcryptTaken pass m) = hash)) := by
      unfold bcrypt_verify
      rw [hd]
      simp only [R.ok_bind]
      rw [hv]
      simp only [R.liftM_eq, R.lift_ok, R.ok_bind]
      rw [bcrypt_derive_taken, if_pos ⟨hr, hr', hm⟩, R.ok_bind, torsion_memequal_spec _ _ (by rw [hlen, lh])]
      congr 1
      by_cases e : bcryptHash r v.toList (bcryptTaken pass m) = hash
      · rw [if_pos e, decide_eq_true e]; rfl
      · rw [if_neg e, decide_eq_false e]; rfl
    rw [hval]
    by_cases e : bcryptHash r v.toList (bcryptTaken pass m) = hash
    · rw [decide_eq_true e]
      refine ⟨⟨fun _ => ⟨m, r, v, hm, hr, hr', ?_⟩, fun _ => rfl⟩, Or.inl rfl⟩
      rw [e, hvl]; exact hi
    · rw [decide_eq_false e]
      refine ⟨⟨fun h => absurd h (by simp), ?_⟩, Or.inr rfl⟩
      rintro ⟨m', r', v', hm', hr1, hr2, hi'⟩
      exfalso
      have h2 := (d1 _ _ _ _).2 ⟨hm', hr1, hr2, hi'⟩
      rw [hd] at h2
      have h3 := R.ok.inj h2
      simp only [Prod.mk.injEq] at h3
      obtain ⟨rfl, rfl, h4, h5⟩ := h3
      apply e
      rw [h5, hvl, h4]
  · have hd := d2 hx
    have hf : bcrypt_verify pass (s ++ 0 :: rest) = .fail := by
      unfold bcrypt_verify
      rw [hd]; rfl
    rw [hf]
    refine ⟨⟨fun h => absurd h (by simp), ?_⟩, Or.inr rfl⟩
    rintro ⟨m, r, v, hm, hr, hr', hi⟩
    exact absurd ⟨m, r, v.toList, _, hm, hr, hr', hi⟩ hx

/-- No NUL in a record. -/
theorem record_no_nul {m : Byte} {r : Nat} {salt hash s : List Byte} (hm : m ≠ 0) (hr : r ≤ 31) (h : IsBcryptRecord m r salt hash s) : (0 : Byte) ∉ s := by
  obtain ⟨v1, v2, _, _, b1, b2, _, _, rfl⟩ := h
  have hv : ∀ v : List Nat, (∀ x ∈ v, x < 64) → (0 : Byte) ∉ v.map bcryptChar := by
    intro v hv hmem
    obtain ⟨x, hx, e⟩ := List.mem_map.1 hmem
    exact char_ne0 x (hv x hx) e
  have d1 := (digit2 (r / 10) (by omega)).2.1
  have d2 := (digit2 (r % 10) (by omega)).2.1
  rw [bne_iff_ne] at d1 d2
  intro hmem
  rw [show asciiStr "$2" = [ch '$', ch '2'] from rfl, show asciiStr "$" = [ch '$'] from rfl] at hmem
  simp only [List.mem_append, List.mem_cons, List.not_mem_nil, or_false] at hmem
  rcases hmem with (((((h | h) | h) | h | h) | h) | h) | h
  · rcases h with h | h <;> exact absurd h (by decide)
  · exact hm h.symm
  · exact absurd h (by decide)
  · exact d1 h.symm
  · exact d2 h.symm
  · exact absurd h (by decide)
  · exact hv v1 b1 h
  · exact hv v2 b2 h

/-- A record which `bcrypt_generate` wrote is accepted with the same password, and another password is accepted exactly when it has
the same hash under this salt. -/
theorem bcrypt_roundtrip (pass other : List Byte) (salt : Vector Byte 16) (cost : Nat) (minor : Byte) (out rest : List Byte)
    (hg : bcrypt_generate pass salt cost minor = .ok out) :
    bcrypt_verify pass (out ++ rest) = .ok () ∧
      (bcrypt_verify other (out ++ rest) = .ok () ↔ bcrypt_derive other salt cost minor = bcrypt_derive pass salt cost minor) := by
  have hc : 4 ≤ cost ∧ cost ≤ 31 ∧ (minor = 0x61 ∨ minor = 0x62) := by
    by_contra hn
    rw [(bcrypt_generate_exact pass salt cost minor).2 hn] at hg
    exact absurd hg (by simp)
  have hd : ∀ p, bcrypt_derive p salt cost minor = .ok (bcryptHash cost salt.toList (bcryptTaken p minor)) := by
    intro p
    rw [bcrypt_derive_taken, if_pos hc]
  have ho := ((bcrypt_generate_exact pass salt cost minor).1 _ (hd pass)).1
  rw [hg] at ho
  have ho := R.ok.inj ho
  have hh : ∀ p, (bcryptHash cost salt.toList (bcryptTaken p minor)).length = 23 := by
    intro p
    obtain ⟨h1, h2⟩ := bcrypt_hash192_exact (bcryptTaken p minor) salt.toList cost ⟨hc.1, hc.2.1⟩ (by simp)
    rw [← h2, List.length_take, h1]; rfl
  have hi := record_is minor cost (salt := salt.toList) (by simp) (hh pass)
  have hn0 := record_no_nul (by rcases hc.2.2 with h | h <;> rw [h] <;> decide) hc.2.1 hi
  have hmem : out ++ rest = bcryptRecord minor cost salt.toList (bcryptHash cost salt.toList (bcryptTaken pass minor)) ++ 0 :: rest := by
    rw [ho, List.append_assoc]; rfl
  rw [hmem, hd other, hd pass]
  refine ⟨((bcrypt_verify_exact pass _ rest hn0).1).2 ⟨minor, cost, salt, hc.2.2, hc.1, hc.2.1, hi⟩, ?_⟩
  rw [(bcrypt_verify_exact other _ rest hn0).1]
  constructor
  · rintro ⟨m', r', v', hm', hr1, hr2, hi'⟩
    have x1 := decode_ok rest hm' hr1 hr2 hi'
    have x2 := decode_ok rest hc.2.2 hc.1 hc.2.1 hi
    rw [x1] at x2
    have h3 := R.ok.inj x2
    simp only [Prod.mk.injEq] at h3
    obtain ⟨rfl, rfl, h4, h5⟩ := h3
    rw [h4] at h5
    rw [h5]
  · intro h
    rw [← R.ok.inj h] at hi ⊢
    exact ⟨minor, cost, salt, hc.2.2, hc.1, hc.2.1, hi⟩

example : ∃ out, bcrypt_generate [0x70, 0x77] (Vector.replicate 16 7) 12 0x62 = .ok out :=
  ⟨_, ((bcrypt_generate_exact _ _ _ _).1 _ (by rw [bcrypt_derive_taken, if_pos (by decide)])).1⟩

/-! ## Passwords which are confused -/

/-- The empty key and the key of one NUL give the same hash. -/
theorem bcryptHash_nil (cost : Nat) (salt : List Byte) : bcryptHash cost salt [] = bcryptHash cost salt [0] := by
  have hw : ∀ i, i < 18 → cycWord [] i = cycWord [0] i := by
    intro i _
    unfold cycWord
    rw [if_pos rfl, if_neg (by decide)]
    simp only [List.length_singleton, Nat.mod_one]
    decide
  have hx : ∀ s t, bfExpand s t [] = bfExpand s t [0] := fun s t => bfExpand_congr hw
  unfold bcryptHash eksBlowfish
  simp only [hx]

/-- Version a: of a password of 255, 511, … bytes nothing is hashed. Every such password has the hash of the empty one. -/
theorem bcrypt_a_wrap_empty (pass : List Byte) (h : (pass.length + 1) % 256 = 0) (salt : Vector Byte 16) (cost : Nat) :
    bcrypt_derive pass salt cost 0x61 = bcrypt_derive [] salt cost 0x61 := by
  rw [bcrypt_derive_taken, bcrypt_derive_taken]
  have ht : bcryptHash cost salt.toList (bcryptTaken pass 0x61) = bcryptHash cost salt.toList (bcryptTaken [] 0x61) := by
    have h1 : bcryptTaken pass 0x61 = [] := by
      unfold bcryptTaken
      rw [if_pos rfl, h, List.take_zero]
    rw [h1]
    exact bcryptHash_nil _ _
  rw [ht]

/-- Version a: of a password of 255 + n bytes only the first n (mod 256) are hashed. -/
theorem bcrypt_a_wrap (pass other : List Byte) (hp : 255 ≤ pass.length) (hl : other.length = pass.length)
    (h : pass.take ((pass.length + 1) % 256) = other.take ((pass.length + 1) % 256)) (salt : Vector Byte 16) (cost : Nat) :
    bcrypt_derive pass salt cost 0x61 = bcrypt_derive other salt cost 0x61 := by
  rw [bcrypt_derive_taken, bcrypt_derive_taken]
  have ht : bcryptTaken pass 0x61 = bcryptTaken other 0x61 := by
    unfold bcryptTaken
    rw [if_pos rfl, if_pos rfl, hl, List.take_take, List.take_take, Nat.min_eq_left (by omega), List.take_append_of_le_length (by omega),
      List.take_append_of_le_length (by omega), h]
  rw [ht]

example : (List.replicate 256 (0x41 : Byte)).take ((256 + 1) % 256) = (0x41 :: List.replicate 255 (0x42 : Byte)).take ((256 + 1) % 256) := by decide

/-- Both versions: of passwords with the same first 72 bytes each is accepted for the other (in version a below 255 bytes). -/
theorem bcrypt_72 (pass other : List Byte) (hp : 72 ≤ pass.length) (ho : 72 ≤ other.length) (h : pass.take 72 = other.take 72)
    (salt : Vector Byte 16) (cost : Nat) (minor : Byte) (hc : 4 ≤ cost ∧ cost ≤ 31)
    (hm : minor = 0x62 ∨ minor = 0x61 ∧ pass.length < 255 ∧ other.length < 255) :
    bcrypt_derive pass salt cost minor = bcrypt_derive other salt cost minor := by
  rw [bcrypt_derive_exact pass salt cost minor hc (by rcases hm with h | h; exact Or.inl h; exact Or.inr ⟨h.1, Or.inl h.2.1⟩),
    bcrypt_derive_exact other salt cost minor hc (by rcases hm with h | h; exact Or.inl h; exact Or.inr ⟨h.1, Or.inl h.2.2⟩)]
  refine congrArg R.ok ?_
  refine bcryptHash_long (by simp; omega) (by simp; omega) ?_ _ _
  rw [List.take_append_of_le_length hp, List.take_append_of_le_length ho, h]

/-! ## Passwords as C strings -/

/-- The characters `bcrypt_hash` and `bcrypt_check` allow in a password. -/
def BcryptAllowed (c : Byte) : Prop := (7 ≤ c.toNat ∧ c.toNat ≤ 13) ∨ (32 ≤ c.toNat ∧ c.toNat ≤ 126)

instance (c : Byte) : Decidable (BcryptAllowed c) := by unfold BcryptAllowed; infer_instance

theorem ascii_loop (p rest : List Byte) (h0 : (0 : Byte) ∉ p) : ∀ (room : Nat) (i : Nat), i ≤ p.length →
    bcrypt_ascii_loop (p ++ 0 :: rest) room i =
      if ∀ c ∈ (p.drop i).take room, BcryptAllowed c then .ok ((p.drop i).take room) else .fail
  | 0, i, hi => by
    have hr : C.rd (p ++ 0 :: rest) i = .ok ((p ++ 0 :: rest)[i]'(by rw [List.length_append, List.length_cons]; omega)) :=
      rd_of_lt (by rw [List.length_append, List.length_cons]; omega)
    rw [bcrypt_ascii_loop, hr, List.take_zero, if_pos (by simp)]
    rfl
  | room + 1, i, hi => by
    rw [bcrypt_ascii_loop]
    rcases Nat.lt_or_ge i p.length with h | h
    · have hg : (p ++ 0 :: rest)[i]? = some p[i] := by rw [List.getElem?_append_left h, List.getElem?_eq_getElem h]
      have hne : p[i] ≠ 0 := fun e => h0 (e ▸ List.getElem_mem h)
      rw [rd_some hg]
      simp only [R.liftM_eq, R.lift_ok, R.ok_bind]
      rw [if_neg hne, ascii_loop p rest h0 room (i + 1) h, List.drop_eq_getElem_cons h, List.take_succ_cons]
      by_cases ha : BcryptAllowed p[i]
      · have hb : (!((decide (p[i].toNat < 7) || decide (p[i].toNat > 13)) && (decide (p[i].toNat < 32) || decide (p[i].toNat > 126)))) = true := by
          unfold BcryptAllowed at ha
          simp only [Bool.not_eq_true', Bool.and_eq_false_iff, Bool.or_eq_false_iff, decide_eq_false_iff_not]
          omega
        rw [hb, R.need_true, R.ok_bind]
        by_cases hc : ∀ c ∈ (p.drop (i + 1)).take room, BcryptAllowed c
        · rw [if_pos hc, if_pos (by intro c hm; rcases List.mem_cons.1 hm with e | e; exact e ▸ ha; exact hc c e)]
          rfl
        · rw [if_neg hc, if_neg (fun h => hc (fun c hm => h c (List.mem_cons_of_mem _ hm)))]
          rfl
      · have hb : (!((decide (p[i].toNat < 7) || decide (p[i].toNat > 13)) && (decide (p[i].toNat < 32) || decide (p[i].toNat > 126)))) = false := by
          unfold BcryptAllowed at ha
          simp only [Bool.not_eq_false', Bool.and_eq_true, Bool.or_eq_true, decide_eq_true_eq]
          omega
        rw [hb, R.need_false, R.fail_bind, if_neg (fun h => ha (h _ (List.mem_cons_self ..)))]
    · have he : i = p.length := by omega
      subst he
      have hg : (p ++ 0 :: rest)[p.length]? = some 0 := by
        rw [List.getElem?_append_right (Nat.le_refl _), Nat.sub_self]; rfl
      rw [rd_some hg, List.drop_length, List.take_nil, if_pos (by simp)]
      rfl

/-- The password of `bcrypt_hash` and `bcrypt_check` is the first 255 characters of the string, which must all be allowed; the
characters after them are not looked at. -/
theorem bcrypt_check_exact (p rest record : List Byte) (h0 : (0 : Byte) ∉ p) (salt : Vector Byte 16) (cost : Nat) (minor : Byte) :
    bcrypt_check (p ++ 0 :: rest) record = (if ∀ c ∈ p.take 255, BcryptAllowed c then bcrypt_verify (p.take 255) record else .fail) ∧
    bcrypt_hash (p ++ 0 :: rest) salt cost minor =
      (if ∀ c ∈ p.take 255, BcryptAllowed c then bcrypt_generate (p.take 255) salt cost minor else .fail) := by
  have hk : bcrypt_ascii_key (p ++ 0 :: rest) = if ∀ c ∈ p.take 255, BcryptAllowed c then .ok (p.take 255) else .fail := by
    have := ascii_loop p rest h0 255 0 (Nat.zero_le _)
    rw [List.drop_zero] at this
    exact this
  unfold bcrypt_check bcrypt_hash
  rw [hk]
  by_cases h : ∀ c ∈ p.take 255, BcryptAllowed c
  · rw [if_pos h, if_pos h, if_pos h]
    exact ⟨rfl, rfl⟩
  · rw [if_neg h, if_neg h, if_neg h]
    exact ⟨rfl, rfl⟩

/-- Version a: `bcrypt_check` accepts every password of 255 or more allowed characters for a record of the empty password, and the
empty password for a record of any such password. -/
theorem bcrypt_check_long_empty (p rest rest' rest'' : List Byte) (h0 : (0 : Byte) ∉ p) (hp : 255 ≤ p.length) (ha : ∀ c ∈ p.take 255, BcryptAllowed c)
    (salt : Vector Byte 16) (cost : Nat) (out : List Byte) :
    (bcrypt_hash (0 :: rest) salt cost 0x61 = .ok out → bcrypt_check (p ++ 0 :: rest') (out ++ rest'') = .ok ()) ∧
    (bcrypt_hash (p ++ 0 :: rest) salt cost 0x61 = .ok out → bcrypt_check (0 :: rest') (out ++ rest'') = .ok ()) := by
  have hl : (p.take 255).length = 255 := by rw [List.length_take]; omega
  have hw := bcrypt_a_wrap_empty (p.take 255) (by rw [hl]) salt cost
  constructor
  · intro hg
    have e1 := (bcrypt_check_exact [] rest (out ++ rest'') (by simp) salt cost 0x61).2
    rw [List.nil_append] at e1
    rw [e1, if_pos (by simp)] at hg
    rw [(bcrypt_check_exact p rest' (out ++ rest'') h0 salt cost 0x61).1, if_pos ha]
    exact ((bcrypt_roundtrip _ (p.take 255) salt cost 0x61 out rest'' hg).2).2 hw
  · intro hg
    rw [(bcrypt_check_exact p rest (out ++ rest'') h0 salt cost 0x61).2, if_pos ha] at hg
    have e1 := (bcrypt_check_exact [] rest' (out ++ rest'') (by simp) salt cost 0x61).1
    rw [List.nil_append] at e1
    rw [e1, if_pos (by simp)]
    exact ((bcrypt_roundtrip _ [] salt cost 0x61 out rest'' hg).2).2 hw.symm

example : (0 : Byte) ∉ List.replicate 300 (0x41 : Byte) ∧ (∀ c ∈ (List.replicate 300 (0x41 : Byte)).take 255, BcryptAllowed c) := by
  constructor <;> decide +kernel

end Torsion
