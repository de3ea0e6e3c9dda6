import Verif.Stream.CoreLemmas
import Verif.Stream.Arc4Lemmas
import Verif.Common.Calls

/-!
# Properties of the stream ciphers (C19, C20)

The statements use `Spec.chachaInit`, `Spec.chachaStream` and so on from Verif/Stream/Spec.lean, and
`Spec.calls`, which runs one call per chunk.
-/
namespace Torsion
open Spec Strm

/-- A sequence of `crypt` calls on the keystream machine. -/
private theorem calls_at (blk : St → List Byte × St) (hlen : ∀ s, (blk s).1.length = 64) (s : St) :
    ∀ (chunks : List (List Byte)) (ctx : StreamCtx) (off : Nat), At blk ctx s off →
    ∃ ctx', calls (stream_crypt blk) ctx chunks =
        .ok (xorStream (ks blk s) off chunks.flatten, ctx') ∧
      At blk ctx' s (off + chunks.flatten.length)
  | [], ctx, off, h => ⟨ctx, rfl, by simpa using h⟩
  | c :: cs, ctx, off, h => by
    obtain ⟨c1, h1, h2⟩ := crypt_at hlen h c
    obtain ⟨c2, h3, h4⟩ := calls_at blk hlen s cs c1 _ h2
    refine ⟨c2, ?_, ?_⟩
    · rw [calls, h1, C.ok_bind]
      dsimp only
      rw [h3, C.ok_bind]
      simp only [List.flatten_cons, xorStream, List.mapIdx_append, C.ok.injEq, Prod.mk.injEq,
        and_true, List.append_cancel_left_eq]
      congr 1
      funext i b
      rw [Nat.add_assoc, Nat.add_comm i]
    · rw [List.flatten_cons, List.length_append, ← Nat.add_assoc]
      exact h4

/-- `chacha20_init` accepts exactly key sizes 16, 32 and nonce sizes 8, 12, 16, 24, 28, 32, and
otherwise aborts; the state is the one of the specification. `buf` is the old contents of the key
stream buffer. -/
theorem chacha20_init_spec (buf key nonce : List Byte) (counter : BitVec 64) :
    if (key.length = 16 ∨ key.length = 32) ∧ nonce.length ∈ [8, 12, 16, 24, 28, 32] then
      ∃ ctx, chacha20_init buf key nonce counter = .ok ctx ∧
        (fun i : Fin 16 => ctx.state[i]) = chachaInit key nonce counter.toNat
    else chacha20_init buf key nonce counter = .abort := by
  split
  · next h =>
    obtain ⟨v, h1, h2⟩ := chacha_init_ok buf counter h.1 h.2
    exact ⟨_, h1, h2⟩
  · next h => exact chacha_init_abort buf counter h

/-- The same for Salsa20. -/
theorem salsa20_init_spec (buf key nonce : List Byte) (counter : BitVec 64) :
    if (key.length = 16 ∨ key.length = 32) ∧ nonce.length ∈ [8, 12, 16, 24, 28, 32] then
      ∃ ctx, salsa20_init buf key nonce counter = .ok ctx ∧
        (fun i : Fin 16 => ctx.state[i]) = salsaInit key nonce counter.toNat
    else salsa20_init buf key nonce counter = .abort := by
  split
  · next h =>
    obtain ⟨v, h1, h2⟩ := salsa_init_ok buf counter h.1 h.2
    exact ⟨_, h1, h2⟩
  · next h => exact salsa_init_abort buf counter h

/-- C19: any sequence of `chacha20_crypt` calls after `chacha20_init` outputs the concatenated data
XOR the key stream of consecutive counters. -/
theorem chacha20_calls (buf key nonce : List Byte) (counter : BitVec 64)
    (hk : key.length = 16 ∨ key.length = 32) (hn : nonce.length ∈ [8, 12, 16, 24, 28, 32])
    (chunks : List (List Byte)) :
    ∃ ctx ctx', chacha20_init buf key nonce counter = .ok ctx ∧
      calls chacha20_crypt ctx chunks =
        .ok (xorStream (chachaStream (chachaInit key nonce counter.toNat)) 0 chunks.flatten,
          ctx') := by
  obtain ⟨v, h1, h2⟩ := chacha_init_ok buf counter hk hn
  obtain ⟨c, h3, _⟩ := calls_at chacha20_block chacha_len v chunks ⟨v, buf, 0⟩ 0
    ⟨rfl, Or.inl ⟨rfl, rfl⟩⟩
  refine ⟨_, c, h1, ?_⟩
  rw [← h2, ← chacha_ks, ← h3]
  rfl

/-- C19 for Salsa20. -/
theorem salsa20_calls (buf key nonce : List Byte) (counter : BitVec 64)
    (hk : key.length = 16 ∨ key.length = 32) (hn : nonce.length ∈ [8, 12, 16, 24, 28, 32])
    (chunks : List (List Byte)) :
    ∃ ctx ctx', salsa20_init buf key nonce counter = .ok ctx ∧
      calls salsa20_crypt ctx chunks =
        .ok (xorStream (salsaStream (salsaInit key nonce counter.toNat)) 0 chunks.flatten,
          ctx') := by
  obtain ⟨v, h1, h2⟩ := salsa_init_ok buf counter hk hn
  obtain ⟨c, h3, _⟩ := calls_at salsa20_block salsa_len v chunks ⟨v, buf, 0⟩ 0
    ⟨rfl, Or.inl ⟨rfl, rfl⟩⟩
  refine ⟨_, c, h1, ?_⟩
  rw [← h2, ← salsa_ks, ← h3]
  rfl

theorem xorStream_invol (f : Nat → Byte) (off : Nat) (m : List Byte) :
    xorStream f off (xorStream f off m) = m := by
  apply List.ext_getElem
  · simp [xorStream]
  · intro i h1 h2
    simp [xorStream, BitVec.xor_assoc]

/-- C19: decrypting in any splitting what was encrypted in any splitting returns the data. -/
theorem chacha20_involution (buf buf' key nonce : List Byte) (counter : BitVec 64)
    (hk : key.length = 16 ∨ key.length = 32) (hn : nonce.length ∈ [8, 12, 16, 24, 28, 32])
    (chunks : List (List Byte)) :
    ∃ ctx ctx1 enc, chacha20_init buf key nonce counter = .ok ctx ∧
      calls chacha20_crypt ctx chunks = .ok (enc, ctx1) ∧ enc.length = chunks.flatten.length ∧
      ∀ chunks', chunks'.flatten = enc → ∃ ctx2 ctx3,
        chacha20_init buf' key nonce counter = .ok ctx2 ∧
        calls chacha20_crypt ctx2 chunks' = .ok (chunks.flatten, ctx3) := by
  obtain ⟨ctx, ctx1, h1, h2⟩ := chacha20_calls buf key nonce counter hk hn chunks
  refine ⟨ctx, ctx1, _, h1, h2, by simp [xorStream], ?_⟩
  intro chunks' he
  obtain ⟨ctx2, ctx3, h3, h4⟩ := chacha20_calls buf' key nonce counter hk hn chunks'
  refine ⟨ctx2, ctx3, h3, ?_⟩
  rw [h4, he, xorStream_invol]

/-- C19: the same for Salsa20. -/
theorem salsa20_involution (buf buf' key nonce : List Byte) (counter : BitVec 64)
    (hk : key.length = 16 ∨ key.length = 32) (hn : nonce.length ∈ [8, 12, 16, 24, 28, 32])
    (chunks : List (List Byte)) :
    ∃ ctx ctx1 enc, salsa20_init buf key nonce counter = .ok ctx ∧
      calls salsa20_crypt ctx chunks = .ok (enc, ctx1) ∧ enc.length = chunks.flatten.length ∧
      ∀ chunks', chunks'.flatten = enc → ∃ ctx2 ctx3,
        salsa20_init buf' key nonce counter = .ok ctx2 ∧
        calls salsa20_crypt ctx2 chunks' = .ok (chunks.flatten, ctx3) := by
  obtain ⟨ctx, ctx1, h1, h2⟩ := salsa20_calls buf key nonce counter hk hn chunks
  refine ⟨ctx, ctx1, _, h1, h2, by simp [xorStream], ?_⟩
  intro chunks' he
  obtain ⟨ctx2, ctx3, h3, h4⟩ := salsa20_calls buf' key nonce counter hk hn chunks'
  refine ⟨ctx2, ctx3, h3, ?_⟩
  rw [h4, he, xorStream_invol]

private theorem init12 (key nonce : List Byte) (c : Nat) (hn : nonce.length = 12) :
    chachaInit key nonce c =
      chachaMat key (BitVec.ofNat 32 c) (word nonce 0) (word nonce 4) (word nonce 8) := by
  have h : ¬ 24 ≤ nonce.length := by omega
  simp only [chachaInit, if_neg h]
  rw [if_neg (by omega), if_pos hn]

/-- Not in RFC 7539: with a 12-byte nonce the 32-bit counter carries into the first nonce word, so
after the last counter value the key stream is that of the nonce with its first word incremented. -/
theorem chacha20_counter_carry (key nonce : List Byte) (hn : nonce.length = 12) (i : Nat) :
    chachaStream (chachaInit key nonce (2 ^ 32 - 1)) (64 + i) =
      chachaStream (chachaInit key (leBytes 4 (leVal (nonce.take 4) + 1) ++ nonce.drop 4) 0) i := by
  have hl : (leBytes 4 (leVal (nonce.take 4) + 1) ++ nonce.drop 4).length = 12 := by
    simp [leBytes_len, hn]
  have hv : leVal (nonce.take 4) < 2 ^ 32 := by
    have := leVal_lt (nonce.take 4)
    rwa [List.length_take, hn] at this
  have e : addCtr 12 13 (chachaInit key nonce (2 ^ 32 - 1)) 1 =
      chachaInit key (leBytes 4 (leVal (nonce.take 4) + 1) ++ nonce.drop 4) 0 := by
    rw [init12 _ _ _ hn, init12 _ _ _ hl]
    have w4 : ∀ k, 4 ≤ k → word (leBytes 4 (leVal (nonce.take 4) + 1) ++ nonce.drop 4) k =
        word nonce k := by
      intro k hk
      rw [word, word, List.drop_append, List.drop_of_length_le (by rw [leBytes_len]; exact hk),
        leBytes_len, List.nil_append, List.drop_drop]
      congr 4; omega
    have w0 : word (leBytes 4 (leVal (nonce.take 4) + 1) ++ nonce.drop 4) 0 =
        BitVec.ofNat 32 (leVal (nonce.take 4) + 1) := by
      rw [word, List.drop_zero, List.take_append_of_le_length (by rw [leBytes_len]),
        List.take_of_length_le (by rw [leBytes_len]), leVal_leBytes]
      apply BitVec.eq_of_toNat_eq
      rw [BitVec.toNat_ofNat, BitVec.toNat_ofNat]
      omega
    rw [w4 4 (by omega), w4 8 (by omega), w0]
    funext n
    revert n
    apply fin16
    have c0 : (word nonce 0).toNat = leVal (nonce.take 4) := by
      rw [word, List.drop_zero, BitVec.toNat_ofNat, Nat.mod_eq_of_lt hv]
    have hc : ∀ a b : BitVec 32, (chachaMat key (BitVec.ofNat 32 (2 ^ 32 - 1)) (word nonce 0) a b
        12).toNat + 2 ^ 32 * (chachaMat key (BitVec.ofNat 32 (2 ^ 32 - 1)) (word nonce 0) a b
        13).toNat + 1 = 2 ^ 32 * (leVal (nonce.take 4) + 1) := by
      intro a b
      show (BitVec.ofNat 32 (2 ^ 32 - 1)).toNat + 2 ^ 32 * (word nonce 0).toNat + 1 = _
      rw [c0, BitVec.toNat_ofNat]
      omega
    refine ⟨rfl, rfl, rfl, rfl, rfl, rfl, rfl, rfl, rfl, rfl, rfl, rfl, ?_, ?_, rfl, rfl⟩
    · rw [addCtr]
      dsimp only
      rw [hc, if_pos rfl]
      apply BitVec.eq_of_toNat_eq
      rw [BitVec.toNat_ofNat]
      show _ = (BitVec.ofNat 32 0).toNat
      rw [BitVec.toNat_ofNat]; omega
    · rw [addCtr]
      dsimp only
      rw [hc, if_neg (by decide), if_pos rfl, Nat.mul_div_cancel_left _ (by decide)]
      rfl
  have e1 : (64 + i) / 64 = 1 + i / 64 := by omega
  have e2 : (64 + i) % 64 = i % 64 := by omega
  rw [chachaStream, chachaStream, ← e, addCtr_add _ _ (by decide), e1, e2]

/-! ## RC4 -/

/-- `arc4_init` accepts exactly keys of 1 to 256 bytes. -/
theorem arc4_init_iff (key : List Byte) :
    if 1 ≤ key.length ∧ key.length ≤ 256 then
      ∃ ctx, arc4_init key = .ok ctx ∧ ctx.i = 0 ∧ ctx.j = 0 ∧
        (fun x : Byte => ctx.s[x.toNat]) = rc4Key key
    else arc4_init key = .abort := by
  split
  · next h =>
    obtain ⟨s, h1, h2⟩ := Rc4.init_ok h
    exact ⟨_, h1, rfl, rfl, h2⟩
  · next h =>
    rw [arc4_init, C.check, if_neg (by simpa using h)]
    rfl

private theorem arc4_calls_aux : ∀ (chunks : List (List Byte)) (c : Arc4),
    calls (fun c m => .ok (arc4_crypt c m)) c chunks = .ok (arc4_crypt c chunks.flatten)
  | [], _ => rfl
  | m :: ms, c => by
    rw [calls, C.ok_bind]
    dsimp only
    rw [arc4_calls_aux ms, C.ok_bind, List.flatten_cons]
    have app : ∀ (a b : List Byte) (c : Arc4), arc4_crypt c (a ++ b) =
        ((arc4_crypt c a).1 ++ (arc4_crypt (arc4_crypt c a).2 b).1,
          (arc4_crypt (arc4_crypt c a).2 b).2) := by
      intro a
      induction a with
      | nil => intro b c; rfl
      | cons x a ih =>
        intro b c
        rw [List.cons_append, arc4_crypt, arc4_crypt]
        dsimp only
        rw [ih]
        rfl
    rw [app]

/-- C20: any sequence of `arc4_crypt` calls XORs the concatenated data with the RC4 key stream, and
the state array stays a permutation of the 256 byte values. -/
theorem arc4_calls (key : List Byte) (hk : 1 ≤ key.length ∧ key.length ≤ 256)
    (chunks : List (List Byte)) :
    ∃ ctx ctx', arc4_init key = .ok ctx ∧
      Function.Bijective (fun x : Byte => ctx.s[x.toNat]) ∧
      calls (fun c m => .ok (arc4_crypt c m)) ctx chunks =
        .ok (xorStream (rc4Stream key) 0 chunks.flatten, ctx') ∧
      Function.Bijective (fun x : Byte => ctx'.s[x.toNat]) := by
  obtain ⟨s, h1, h2⟩ := Rc4.init_ok hk
  have hi : Function.Injective (arc4_at s) := by rw [h2]; exact Rc4.key_inj key
  obtain ⟨e1, e2⟩ := Rc4.crypt_eq chunks.flatten ⟨s, 0, 0⟩
  refine ⟨_, (arc4_crypt ⟨s, 0, 0⟩ chunks.flatten).2, h1, Rc4.bij hi, ?_, ?_⟩
  · rw [arc4_calls_aux]
    congr 1
    refine Prod.ext ?_ rfl
    rw [e1, xorStream]
    congr 1
    funext n b
    rw [Nat.zero_add, rc4Stream, Rc4.gen, h2]
    rfl
  · apply Rc4.bij
    have := Rc4.next_inj (Rc4.gen ⟨s, 0, 0⟩) hi chunks.flatten.length
    rw [← e2] at this
    exact this

/-- C20: a fresh context with the same key decrypts, in any splitting. -/
theorem arc4_involution (key : List Byte) (hk : 1 ≤ key.length ∧ key.length ≤ 256)
    (chunks : List (List Byte)) :
    ∃ ctx ctx1 enc, arc4_init key = .ok ctx ∧
      calls (fun c m => .ok (arc4_crypt c m)) ctx chunks = .ok (enc, ctx1) ∧
      ∀ chunks', chunks'.flatten = enc → ∃ ctx2,
        calls (fun c m => .ok (arc4_crypt c m)) ctx chunks' = .ok (chunks.flatten, ctx2) := by
  obtain ⟨ctx, ctx1, h1, _, h2, _⟩ := arc4_calls key hk chunks
  refine ⟨ctx, ctx1, _, h1, h2, ?_⟩
  intro chunks' he
  obtain ⟨c, c1, h3, _, h4, _⟩ := arc4_calls key hk chunks'
  have : c = ctx := by
    rw [h1] at h3
    exact (C.ok.inj h3).symm
  subst this
  exact ⟨c1, by rw [h4, he, xorStream_invol]⟩

/-! ## The hypotheses are met by concrete cases -/

example : (List.replicate 32 (7 : Byte)).length = 16 ∨ (List.replicate 32 (7 : Byte)).length = 32 :=
  Or.inr rfl

example : (List.replicate 24 (1 : Byte)).length ∈ [8, 12, 16, 24, 28, 32] := by decide

example : (List.replicate 12 (1 : Byte)).length = 12 := rfl

/-- Key "Key", first bytes of the RC4 key stream: EB 9F 77. -/
example : (List.range 3).map (rc4Stream [0x4b, 0x65, 0x79]) = [0xeb, 0x9f, 0x77] := by
  decide +kernel

/-- RFC 7539 2.3.2: the first bytes of the block with key 00..1f, counter 1. -/
example : (List.range 4).map (chachaStream (chachaInit
    ((List.range 32).map (BitVec.ofNat 8)) [0, 0, 0, 9, 0, 0, 0, 0x4a, 0, 0, 0, 0] 1)) =
    [0x10, 0xf1, 0xe7, 0xe4] := by
  decide +kernel

end Torsion
