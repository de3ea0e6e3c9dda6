import Verif.Rsa.PadLemmas

/-!
# Lemmas: encryption with PKCS#1 v1.5
-/
namespace Torsion.Rsa
open Torsion.Spec Mpi

theorem redraw_cases {S : Type} (rng : Source S) : ∀ (k : Nat) (b : Byte) (st : S),
    (rsa_redraw rng k b st = .spin ∧ b = 0) ∨ ∃ c st', rsa_redraw rng k b st = .ok (c, st') ∧ c ≠ 0
  | 0, b, st => by
    unfold rsa_redraw
    by_cases hb : b = 0
    · rw [if_pos hb]; exact Or.inl ⟨rfl, hb⟩
    · rw [if_neg hb]; exact Or.inr ⟨b, st, rfl, hb⟩
  | k + 1, b, st => by
    unfold rsa_redraw
    by_cases hb : b = 0
    · rw [if_pos hb]
      obtain ⟨c, r, hc⟩ := cut1 (l := (rng.gen st 1).1) (by rw [rng.len]; exact one_pos)
      rw [hc, R.liftM_eq, show C.rd (c :: r) 0 = .ok c from rfl, R.lift_ok, R.ok_bind]
      rcases redraw_cases rng k c (rng.gen st 1).2 with h | h
      · exact Or.inl ⟨h.1, hb⟩
      · exact Or.inr h
    · rw [if_neg hb]; exact Or.inr ⟨b, st, rfl, hb⟩

theorem nonzero_cases {S : Type} (rng : Source S) (fuel : Nat) (s : List Byte) : ∀ (ps p : List Byte) (st : S),
    (rsa_nonzero rng fuel ps.length p.length (p ++ (ps ++ s)) st = .spin ∧ 0 ∈ ps) ∨
      ∃ ps', rsa_nonzero rng fuel ps.length p.length (p ++ (ps ++ s)) st = .ok (p ++ (ps' ++ s)) ∧
        ps'.length = ps.length ∧ 0 ∉ ps'
  | [], p, st => Or.inr ⟨[], rfl, rfl, by simp⟩
  | b :: ps, p, st => by
    rw [List.length_cons]
    unfold rsa_nonzero
    rw [List.cons_append, R.liftM_eq, rd_mid, R.lift_ok, R.ok_bind]
    rcases redraw_cases rng fuel b st with ⟨h, hb⟩ | ⟨c, st', h, hc⟩
    · rw [h]; exact Or.inl ⟨rfl, by rw [hb]; exact List.mem_cons_self⟩
    rw [h, R.ok_bind, R.liftM_eq, wr_mid, R.lift_ok, R.ok_bind]
    dsimp only
    have ih := nonzero_cases rng fuel s ps (p ++ [c]) st'
    rw [List.length_append, List.append_assoc, List.length_singleton, List.singleton_append] at ih
    rcases ih with ⟨ih, hz⟩ | ⟨ps', ih, hl, hz⟩
    · exact Or.inl ⟨ih, List.mem_cons_of_mem _ hz⟩
    · refine Or.inr ⟨c :: ps', ?_, by rw [List.length_cons, hl], ?_⟩
      · rw [ih, List.append_assoc]; rfl
      · intro hm
        rcases List.mem_cons.1 hm with h0 | h0
        · exact hc h0.symm
        · exact hz h0

/-- The padded message is encrypted, unless a draw never ends. -/
theorem encrypt_cases {S : Type} (rng : Source S) (fuel : Nat) {out msg key : List Byte} (entropy : List Byte) {n e : Nat}
    (hkey : key = rsaPubDer n e) (hk : RsaPubOk n e) (ho : rsaLen n ≤ out.length) :
    (rsaLen n < msg.length + 11 → rsa_encrypt rng fuel out msg key entropy = .fail) ∧
    (msg.length + 11 ≤ rsaLen n →
      (rsa_encrypt rng fuel out msg key entropy = .spin ∧ 0 ∈ (rng.gen (rng.init entropy) (rsaLen n - msg.length - 3)).1) ∨
      ∃ ps c, rsa_encrypt rng fuel out msg key entropy = .ok c ∧ 8 ≤ ps.length ∧ 0 ∉ ps ∧
        (emePkcs1 ps msg).length = rsaLen n ∧ c.length = rsaLen n ∧ beVal (emePkcs1 ps msg) < n ∧
        beVal c = beVal (emePkcs1 ps msg) ^ e % n) := by
  have hmin := rsaLen_min hk
  unfold rsa_encrypt
  rw [hkey, pub_import_ok (pub_small hk).1 (pub_small hk).2, R.ok_bind, (pub_verify_det n e).1 hk, R.ok_bind, R.liftM_eq,
    bytelen_of, R.lift_ok, R.ok_bind, Int.natAbs_natCast, show (n.size + 7) / 8 = rsaLen n from rfl,
    decide_eq_true (by omega : ¬ rsaLen n < 11), R.need_true, R.ok_bind]
  constructor
  · intro h
    rw [decide_eq_false (by omega)]; rfl
  intro h
  rw [decide_eq_true (by omega : ¬ msg.length > rsaLen n - 11), R.need_true, R.ok_bind]
  dsimp only
  have hgl := rng.len (rng.init entropy) (rsaLen n - msg.length - 3)
  generalize (rng.gen (rng.init entropy) (rsaLen n - msg.length - 3)).2 = st
  generalize (rng.gen (rng.init entropy) (rsaLen n - msg.length - 3)).1 = G at hgl ⊢
  obtain ⟨o0, out1, rfl⟩ := cut1 (l := out) (by omega)
  obtain ⟨o1, out2, rfl⟩ := cut1 (l := out1) (by simp at ho; omega)
  obtain ⟨A, out3, rfl, hA⟩ := cut (l := out2) (n := rsaLen n - msg.length - 3) (by simp at ho; omega)
  obtain ⟨o2, out4, rfl⟩ := cut1 (l := out3) (by simp [hA] at ho; omega)
  obtain ⟨M, rest, rfl, hM⟩ := cut (l := out4) (n := msg.length) (by simp [hA] at ho; omega)
  have e1 : C.wr (o0 :: o1 :: (A ++ o2 :: (M ++ rest))) 0 0x00 = .ok (0x00 :: o1 :: (A ++ o2 :: (M ++ rest))) := rfl
  have e2 : C.wr ((0x00 : Byte) :: o1 :: (A ++ o2 :: (M ++ rest))) 1 0x02 =
      .ok (0x00 :: 0x02 :: (A ++ o2 :: (M ++ rest))) := rfl
  have e3 : C.blit ((0x00 : Byte) :: 0x02 :: (A ++ o2 :: (M ++ rest))) 2 G =
      .ok (0x00 :: 0x02 :: (G ++ o2 :: (M ++ rest))) := blit_at (p := [0x00, 0x02]) rfl (by rw [hgl, hA])
  simp only [R.liftM_eq, e1, R.lift_ok, R.ok_bind, e2, e3]
  have hnz := nonzero_cases rng fuel (o2 :: (M ++ rest)) G [0x00, 0x02] st
  rw [hgl] at hnz
  rcases hnz with ⟨hnz, hz⟩ | ⟨ps, hnz, hpl, hz⟩
  · left
    rw [show rsa_nonzero rng fuel (rsaLen n - msg.length - 3) 2 ((0x00 : Byte) :: 0x02 :: (G ++ o2 :: (M ++ rest))) st = .spin
      from hnz]
    exact ⟨rfl, hz⟩
  right
  rw [show rsa_nonzero rng fuel (rsaLen n - msg.length - 3) 2 ((0x00 : Byte) :: 0x02 :: (G ++ o2 :: (M ++ rest))) st =
    .ok (0x00 :: 0x02 :: (ps ++ o2 :: (M ++ rest))) from hnz, R.ok_bind]
  have e4 : C.wr ((0x00 : Byte) :: 0x02 :: (ps ++ o2 :: (M ++ rest))) (rsaLen n - msg.length - 1) 0x00 =
      .ok (0x00 :: 0x02 :: (ps ++ 0x00 :: (M ++ rest))) :=
    wr_at (p := 0x00 :: 0x02 :: ps) (by simp only [List.length_cons, hpl]; omega)
  have e5 : (if msg.length > 0 then R.lift (C.blit ((0x00 : Byte) :: 0x02 :: (ps ++ 0x00 :: (M ++ rest)))
      (rsaLen n - msg.length) msg) else .ok (0x00 :: 0x02 :: (ps ++ 0x00 :: (M ++ rest)))) =
      .ok (0x00 :: 0x02 :: (ps ++ 0x00 :: (msg ++ rest))) := by
    split
    · have := blit_at (p := 0x00 :: 0x02 :: (ps ++ [0x00])) (old := M) (s := rest) (src := msg)
        (pos := rsaLen n - msg.length)
        (by simp only [List.length_cons, List.length_append, hpl, List.length_nil]; omega) hM.symm
      rw [show (0x00 : Byte) :: 0x02 :: (ps ++ 0x00 :: (M ++ rest)) = 0x00 :: 0x02 :: (ps ++ [0x00]) ++ (M ++ rest) by simp,
        this]
      simp
    · have hp0 : msg = [] := List.length_eq_zero_iff.1 (by omega)
      have hP0 : M = [] := List.length_eq_zero_iff.1 (by omega)
      rw [hp0, hP0]
  have hel : (emePkcs1 ps msg).length = rsaLen n := by
    unfold emePkcs1
    simp only [List.length_append, List.length_cons, List.length_nil, hpl]; omega
  have e6 : C.slice ((0x00 : Byte) :: 0x02 :: (ps ++ 0x00 :: (msg ++ rest))) 0 (rsaLen n) = .ok (emePkcs1 ps msg) := by
    have := slice_at (p := []) (m := emePkcs1 ps msg) (s := rest) (pos := 0) (n := rsaLen n) rfl hel.symm
    rw [List.nil_append] at this
    rw [← this]
    unfold emePkcs1
    simp
  simp only [e4, R.lift_ok, R.ok_bind, e5, e6]
  have hlt : beVal (emePkcs1 ps msg) < n :=
    lt_modulus (xs := 0x02 :: (ps ++ ([0x00] ++ msg))) (by omega) (by rw [← hel]; rfl)
  obtain ⟨c, hc, hcl, hcv⟩ := (pub_encrypt_det hk (emePkcs1 ps msg)).2 hlt
  exact ⟨ps, c, hc, by omega, hz, hel, hcl, hlt, hcv⟩

theorem priv_len {S : Type} (rng : Source S) (fuel : Nat) {k : RsaKey} (hk : RsaKeyOk k) {msg : List Byte}
    {crt : Bool} {entropy em : List Byte} (h : rsa_priv_decrypt rng fuel (ofKey k) msg crt entropy = .ok em) :
    em.length = rsaLen k.n := by
  obtain ⟨h1, h2⟩ := priv_decrypt_cases rng fuel hk msg crt entropy
  by_cases hc : beVal msg < k.n
  · rcases h2 hc with ⟨h3, -⟩ | ⟨-, ⟨h3, -⟩ | ⟨out, h3, h4, -⟩⟩
    · rw [h] at h3; simp at h3
    · rw [h] at h3; simp at h3
    · rw [h] at h3
      rw [R.ok.inj h3]; exact h4
  · rw [h1 (by omega)] at h; simp at h

/-- What decryption returns for the number `em` under the padding. -/
theorem decrypt_eq {S : Type} (rng : Source S) (fuel : Nat) {msg key : List Byte} (entropy : List Byte) {k : RsaKey}
    (hkey : key = rsaPrivDer k) (hk : RsaKeyOk k) :
    (msg.length ≠ rsaLen k.n → rsa_decrypt rng fuel msg key entropy = .fail) ∧
    (msg.length = rsaLen k.n →
      (∀ em, rsa_priv_decrypt rng fuel (ofKey k) msg true entropy = .ok em →
        (∀ ps m, Padded em ps m → rsa_decrypt rng fuel msg key entropy = .ok m) ∧
        ((¬ ∃ ps m, Padded em ps m) → rsa_decrypt rng fuel msg key entropy = .fail)) ∧
      (rsa_priv_decrypt rng fuel (ofKey k) msg true entropy = .fail → rsa_decrypt rng fuel msg key entropy = .fail) ∧
      (rsa_priv_decrypt rng fuel (ofKey k) msg true entropy = .spin → rsa_decrypt rng fuel msg key entropy = .spin)) := by
  have hmin := rsaLen_min hk.pub
  have hmax := rsaLen_max hk.pub
  unfold rsa_decrypt
  rw [hkey, priv_import_ok (priv_small hk), R.ok_bind, (priv_verify_det k).1 hk, R.ok_bind,
    show (ofKey k).n = mpz_of k.n from rfl, R.liftM_eq, bytelen_of, R.lift_ok, R.ok_bind, Int.natAbs_natCast,
    show (k.n.size + 7) / 8 = rsaLen k.n from rfl]
  constructor
  · intro h
    rw [decide_eq_false h]; rfl
  intro h
  rw [decide_eq_true h, R.need_true, R.ok_bind, decide_eq_true (by omega : ¬ rsaLen k.n < 11), R.need_true, R.ok_bind]
  refine ⟨fun em hem => ?_, fun hf => by rw [hf]; rfl, fun hf => by rw [hf]; rfl⟩
  have hl := priv_len rng fuel hk hem
  rw [hem, R.ok_bind]
  rw [← hl]
  rcases unpad_cases (em := em) (by omega) (by omega) with ⟨ps, m, hp, hu⟩ | ⟨hno, hu⟩
  · refine ⟨fun ps' m' hp' => ?_, fun hno => absurd ⟨ps, m, hp⟩ hno⟩
    obtain ⟨rfl, rfl⟩ := padded_inj hp hp'
    rw [R.liftM_eq, hu, R.lift_ok, R.ok_bind, show (decide (bit true ≠ 0)) = true from rfl, R.need_true, R.ok_bind]
    dsimp only
    have hml : m.length + 3 ≤ em.length := by
      rw [hp.1]; unfold emePkcs1
      simp only [List.length_append, List.length_cons, List.length_nil]; omega
    rw [show (BitVec.ofNat 32 (em.length - m.length)).toNat = em.length - m.length by
      rw [BitVec.toNat_ofNat, Nat.mod_eq_of_lt (by omega)]]
    have := slice_at (p := [0x00, 0x02] ++ (ps ++ [0x00])) (m := m) (s := []) (pos := em.length - m.length)
      (n := em.length - (em.length - m.length))
      (by rw [hp.1]; unfold emePkcs1; simp only [List.length_append, List.length_cons, List.length_nil]; omega)
      (by omega)
    rw [show [0x00, 0x02] ++ (ps ++ [0x00]) ++ (m ++ []) = em by rw [hp.1]; unfold emePkcs1; simp] at this
    rw [R.liftM_eq, this]
    rfl
  · refine ⟨fun ps m hp => absurd ⟨ps, m, hp⟩ hno, fun _ => ?_⟩
    rw [R.liftM_eq, hu]
    rfl

/-- What key decryption returns: the message if the padding is right and the length is the expected one, otherwise the
bytes which the generator gave. -/
theorem decrypt_key_eq {S : Type} (rng : Source S) (fuel out_len : Nat) {msg key : List Byte} (entropy : List Byte)
    {k : RsaKey} (hkey : key = rsaPrivDer k) (hk : RsaKeyOk k) :
    (¬ (out_len + 11 ≤ rsaLen k.n ∧ msg.length = rsaLen k.n) → rsa_decrypt_key rng fuel out_len msg key entropy = .fail) ∧
    (out_len + 11 ≤ rsaLen k.n → msg.length = rsaLen k.n →
      (∀ em, rsa_priv_decrypt rng fuel (ofKey k) msg true (rng.gen (rng.init entropy) 32).1 = .ok em →
        (∀ ps m, Padded em ps m → m.length = out_len → rsa_decrypt_key rng fuel out_len msg key entropy = .ok m) ∧
        ((¬ ∃ ps m, Padded em ps m ∧ m.length = out_len) → rsa_decrypt_key rng fuel out_len msg key entropy =
          .ok (rng.gen (rng.gen (rng.init entropy) 32).2 out_len).1)) ∧
      (rsa_priv_decrypt rng fuel (ofKey k) msg true (rng.gen (rng.init entropy) 32).1 = .fail →
        rsa_decrypt_key rng fuel out_len msg key entropy = .fail) ∧
      (rsa_priv_decrypt rng fuel (ofKey k) msg true (rng.gen (rng.init entropy) 32).1 = .spin →
        rsa_decrypt_key rng fuel out_len msg key entropy = .spin)) := by
  have hmin := rsaLen_min hk.pub
  have hmax := rsaLen_max hk.pub
  have hmod : RSA_MAX_MOD_SIZE - 11 = 2037 := rfl
  unfold rsa_decrypt_key
  rw [hmod]
  by_cases h0 : out_len > 2037
  · rw [decide_eq_false (by omega), R.need_false, R.fail_bind]
    exact ⟨fun _ => rfl, fun h => absurd h (by omega)⟩
  rw [decide_eq_true h0, R.need_true, R.ok_bind]
  rw [hkey, priv_import_ok (priv_small hk), R.ok_bind, (priv_verify_det k).1 hk, R.ok_bind,
    show (ofKey k).n = mpz_of k.n from rfl, R.liftM_eq, bytelen_of, R.lift_ok, R.ok_bind, Int.natAbs_natCast,
    show (k.n.size + 7) / 8 = rsaLen k.n from rfl]
  constructor
  · intro h
    by_cases hl : msg.length = rsaLen k.n
    · rw [decide_eq_true hl, R.need_true, R.ok_bind, decide_eq_false (by omega)]; rfl
    · rw [decide_eq_false hl]; rfl
  intro ho h
  rw [decide_eq_true h, R.need_true, R.ok_bind, decide_eq_true (by omega : ¬ rsaLen k.n < out_len + 11), R.need_true,
    R.ok_bind]
  dsimp only
  have hgl := rng.len (rng.gen (rng.init entropy) 32).2 out_len
  generalize (rng.gen (rng.gen (rng.init entropy) 32).2 out_len).1 = G at hgl ⊢
  refine ⟨fun em hem => ?_, fun hf => by rw [hf]; rfl, fun hf => by rw [hf]; rfl⟩
  have hl := priv_len rng fuel hk hem
  rw [hem, R.ok_bind, ← hl]
  obtain ⟨T, hT, hTl⟩ : ∃ T, C.slice em (em.length - out_len) out_len = .ok T ∧ T.length = out_len := by
    refine ⟨(em.drop (em.length - out_len)).take out_len, ?_, ?_⟩
    · rw [C.slice, if_pos (by omega)]
    · rw [List.length_take, List.length_drop]; omega
  rcases unpad_cases (em := em) (by omega) (by omega) with ⟨ps, m, hp, hu⟩ | ⟨hno, hu⟩
  · have hml : m.length + 11 ≤ em.length := by
      have h8 := hp.2.1
      rw [hp.1]; unfold emePkcs1
      simp only [List.length_append, List.length_cons, List.length_nil]; omega
    have e2 : sec_equal (BitVec.ofNat 32 (em.length - (em.length - m.length))) (BitVec.ofNat 32 out_len) =
        bit (decide (m.length = out_len)) := by
      have a1 : (BitVec.ofNat 32 (em.length - (em.length - m.length))).toNat = m.length := by
        rw [BitVec.toNat_ofNat, Nat.mod_eq_of_lt (by omega)]; omega
      have a2 : (BitVec.ofNat 32 out_len).toNat = out_len := by
        rw [BitVec.toNat_ofNat, Nat.mod_eq_of_lt (by omega)]
      rw [sec_equal_bit (by omega) (by omega)]
      congr 1
      rw [decide_eq_decide]
      constructor
      · intro h
        rw [← a1, ← a2, h]
      · intro h
        apply BitVec.eq_of_toNat_eq
        rw [a1, a2, h]
    rw [R.liftM_eq, hu, R.lift_ok, R.ok_bind, R.liftM_eq, hT, R.lift_ok, R.ok_bind]
    dsimp only
    rw [show (BitVec.ofNat 32 (em.length - m.length)).toNat = em.length - m.length by
      rw [BitVec.toNat_ofNat, Nat.mod_eq_of_lt (by omega)], e2, one_and_bit, bit_and, Bool.true_and,
      memcpy_bit (by rw [hgl, hTl])]
    constructor
    · intro ps' m' hp' hm'
      obtain ⟨rfl, rfl⟩ := padded_inj hp hp'
      rw [if_pos (by simpa using hm')]
      have hs := slice_at (p := [0x00, 0x02] ++ (ps ++ [0x00])) (m := m) (s := []) (pos := em.length - out_len)
        (n := out_len) (by rw [hp.1, ← hm']; unfold emePkcs1; simp only [List.length_append, List.length_cons, List.length_nil]; omega)
        hm'.symm
      rw [show [0x00, 0x02] ++ (ps ++ [0x00]) ++ (m ++ []) = em by rw [hp.1]; unfold emePkcs1; simp, hT] at hs
      rw [C.ok.inj hs]
    · intro hno
      rw [if_neg]
      intro hm
      exact hno ⟨ps, m, hp, by simpa using hm⟩
  · have hx : ∀ X, (1 &&& bit false) &&& X = bit false := by
      intro X
      rw [show (1 : BitVec 32) &&& bit false = 0#32 from rfl, BitVec.zero_and]; rfl
    rw [R.liftM_eq, hu, R.lift_ok, R.ok_bind, R.liftM_eq, hT, R.lift_ok, R.ok_bind]
    dsimp only
    rw [hx, memcpy_bit (by rw [hgl, hTl])]
    exact ⟨fun ps m hp => absurd ⟨ps, m, hp⟩ hno, fun _ => rfl⟩

end Torsion.Rsa
