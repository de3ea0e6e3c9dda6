import Verif.Drbg.CtrLemmas

/-!
# C28: the generators of src/drbg.c follow NIST SP 800-90A for every history of calls
-/
namespace Torsion
open Spec Hsh Kdf Drb

/-! ## A caller

The program instantiates a generator and makes a list of calls; the result is the list of outputs. The
contents of uninitialised memory may differ from call to call. -/

/-- Calls of hmac_drbg_reseed and hmac_drbg_generate. -/
def hmac_drbg_calls (junk : Nat → Nat → Nat → Junk) : HmacDrbg → List DrbgCall → C (List (List Byte))
  | _, [] => .ok []
  | d, .reseed seed :: cs => do
    let d ← hmac_drbg_reseed (junk cs.length 0) d seed
    hmac_drbg_calls junk d cs
  | d, .generate len add :: cs => do
    let (out, d) ← hmac_drbg_generate (junk cs.length) d len add
    let outs ← hmac_drbg_calls junk d cs
    .ok (out :: outs)

/-- Calls of hash_drbg_reseed and hash_drbg_generate. -/
def hash_drbg_calls (junk : Nat → Nat → Junk) : HashDrbg → List DrbgCall → C (List (List Byte))
  | _, [] => .ok []
  | d, .reseed seed :: cs => do
    let d ← hash_drbg_reseed (junk cs.length) d seed
    hash_drbg_calls junk d cs
  | d, .generate len add :: cs => do
    let (out, d) ← hash_drbg_generate (junk cs.length) d len add
    let outs ← hash_drbg_calls junk d cs
    .ok (out :: outs)

/-- Calls of ctr_drbg_reseed and ctr_drbg_generate. -/
def ctr_drbg_calls (enc : List Byte → List Byte → C (List Byte)) :
    CtrDrbg → List CtrCall → C (List (List Byte))
  | _, [] => .ok []
  | d, .reseed nonce add :: cs => do
    let d ← ctr_drbg_reseed enc d nonce add
    ctr_drbg_calls enc d cs
  | d, .generate len add :: cs => do
    let (out, d) ← ctr_drbg_generate enc d len add
    let outs ← ctr_drbg_calls enc d cs
    .ok (out :: outs)

/-! ## HMAC-DRBG -/

theorem Drb.hmac_calls_eq {t : HashId} (ht : hash_has_backend t = true) (junk : Nat → Nat → Nat → Junk) :
    ∀ (cs : List DrbgCall) (d : HmacDrbg) (s : List Byte × List Byte), HmacSt t d s →
      (∀ c ∈ cs, c.small) → hmac_drbg_calls junk d cs = .ok (drbgRun (fun s x => hmacUpdate (macOf t) x s)
        (hmacGenerate (macOf t) (hash_output_size t)) s cs)
  | [], _, _, _, _ => rfl
  | .reseed seed :: cs, d, s, h, hc => by
    obtain ⟨d', e, r⟩ := hmac_drbg_update_eq ht (junk cs.length 0) h seed (hc (.reseed seed) (by simp))
    rw [hmac_drbg_calls, hmac_drbg_reseed, e, C.ok_bind,
      Drb.hmac_calls_eq ht junk cs d' _ r (fun c hm => hc c (by simp [hm])), drbgRun]
  | .generate len add :: cs, d, s, h, hc => by
    obtain ⟨d', e, r⟩ := hmac_drbg_generate_eq ht (junk cs.length) h len add (hc (.generate len add) (by simp))
    rw [hmac_drbg_calls, e, C.ok_bind]
    dsimp only
    rw [Drb.hmac_calls_eq ht junk cs d' _ r (fun c hm => hc c (by simp [hm])), C.ok_bind, drbgRun]

/-- C28: for every hash, seed and history of calls, HMAC-DRBG outputs exactly what HMAC_DRBG of SP 800-90A
does; it never aborts or leaves its arrays. -/
theorem hmac_drbg_history (junk : Nat → Junk) (junk' : Nat → Nat → Nat → Junk) (t : HashId)
    (ht : hash_has_backend t = true) (seed : List Byte) (hs : seed.length < 2 ^ 64) (cs : List DrbgCall)
    (hc : ∀ c ∈ cs, c.small) :
    (do let d ← hmac_drbg_init junk t seed
        hmac_drbg_calls junk' d cs) =
      .ok (drbgRun
        (fun s x => hmacUpdate (Spec.hmac (Spec.hash t (hash_output_size t)) (hash_block_size t)) x s)
        (hmacGenerate (Spec.hmac (Spec.hash t (hash_output_size t)) (hash_block_size t)) (hash_output_size t))
        (hmacInit (Spec.hmac (Spec.hash t (hash_output_size t)) (hash_block_size t)) (hash_output_size t) seed)
        cs) := by
  obtain ⟨d, e, r⟩ := hmac_drbg_init_eq ht junk seed hs
  rw [e, C.ok_bind, hmac_calls_eq ht junk' cs d _ r hc]

example : hash_has_backend .SHA256 = true ∧
    ∀ c ∈ [DrbgCall.generate 100 [1], .reseed [2, 3], .generate 7 []], c.small := by
  refine ⟨rfl, ?_⟩
  intro c hc
  simp only [List.mem_cons, List.not_mem_nil, or_false] at hc
  rcases hc with rfl | rfl | rfl <;> (unfold DrbgCall.small; decide)

/-- C28: an unknown hash is refused. -/
theorem hmac_drbg_unknown (junk : Nat → Junk) (n : Nat) (seed : List Byte) :
    hmac_drbg_init junk (.other n) seed = .abort := rfl

/-- C28: a request for `len` bytes yields `len` bytes. -/
theorem hmac_drbg_length (mac : List Byte → List Byte → List Byte) (hs : Nat) (h0 : 0 < hs)
    (hm : ∀ k m, (mac k m).length = hs) (s : List Byte × List Byte) (len : Nat) (add : List Byte) :
    (hmacGenerate mac hs s len add).1.length = len := by
  rw [hmacGenerate]
  exact cut_length _ h0 (fun i => by dsimp only; rw [Function.iterate_succ_apply']; exact hm _ _) _

/-- C28: a shorter request from the same state yields a prefix of a longer one. -/
theorem hmac_drbg_prefix (mac : List Byte → List Byte → List Byte) (hs : Nat) (h0 : 0 < hs)
    (hm : ∀ k m, (mac k m).length = hs) (s : List Byte × List Byte) (a b : Nat) (hab : a ≤ b)
    (add : List Byte) :
    (hmacGenerate mac hs s a add).1 = ((hmacGenerate mac hs s b add).1).take a := by
  rw [hmacGenerate, hmacGenerate]
  exact cut_take _ h0 (fun i => by dsimp only; rw [Function.iterate_succ_apply']; exact hm _ _) hab

/-! ## Hash-DRBG -/

/-- C28: `accumulate` adds big-endian numbers modulo 256^dlen, and refuses a longer source. -/
theorem accumulate_spec (dst src : List Byte) :
    (src.length ≤ dst.length → ∃ y, accumulate dst src = .ok y ∧ y.length = dst.length ∧
      beVal y = (beVal dst + beVal src) % 256 ^ dst.length) ∧
    (dst.length < src.length → accumulate dst src = .abort) :=
  ⟨accumulate_val dst src, accumulate_long dst src⟩

example : accumulate [0x01, 0xff, 0xff] [0x02, 0x03] = .ok [0x02, 0x02, 0x02] := by decide
example : accumulate [0xff, 0xff] [0x01] = .ok [0x00, 0x00] := by decide

theorem Drb.hash_calls_eq {t : HashId} (ht : hash_has_backend t = true) (junk : Nat → Nat → Junk) :
    ∀ (cs : List DrbgCall) (d : HashDrbg) (s : HashDrbgState), HashSt t d s →
      (∀ c ∈ cs, c.small) → hash_drbg_calls junk d cs =
        .ok (drbgRun (hashReseed (hashOf t) (hash_output_size t) (seedLen t))
          (hashGenerate (hashOf t) (hash_output_size t) (seedLen t)) s cs)
  | [], _, _, _, _ => rfl
  | .reseed seed :: cs, d, s, h, hc => by
    obtain ⟨d', e, r⟩ := hash_drbg_reseed_eq ht (junk cs.length) h seed (hc (.reseed seed) (by simp))
    rw [hash_drbg_calls, e, C.ok_bind,
      Drb.hash_calls_eq ht junk cs d' _ r (fun c hm => hc c (by simp [hm])), drbgRun]
  | .generate len add :: cs, d, s, h, hc => by
    obtain ⟨d', e, r⟩ := hash_drbg_generate_eq ht (junk cs.length) h len add (hc (.generate len add) (by simp))
    rw [hash_drbg_calls, e, C.ok_bind]
    dsimp only
    rw [Drb.hash_calls_eq ht junk cs d' _ r (fun c hm => hc c (by simp [hm])), C.ok_bind, drbgRun]

/-- C28: for every hash, seed and history of calls, Hash-DRBG outputs exactly what Hash_DRBG of SP 800-90A
does, with seedlen = 440 bits for digests of at most 256 bits and 888 bits otherwise. -/
theorem hash_drbg_history (junk : Nat → Junk) (junk' : Nat → Nat → Junk) (t : HashId)
    (ht : hash_has_backend t = true) (seed : List Byte) (hs : seed.length < 2 ^ 64) (cs : List DrbgCall)
    (hc : ∀ c ∈ cs, c.small) (n : Nat) (hn : n = if hash_output_size t ≤ 32 then 55 else 111) :
    (do let d ← hash_drbg_init junk t seed
        hash_drbg_calls junk' d cs) =
      .ok (drbgRun (hashReseed (Spec.hash t (hash_output_size t)) (hash_output_size t) n)
        (hashGenerate (Spec.hash t (hash_output_size t)) (hash_output_size t) n)
        (hashInit (Spec.hash t (hash_output_size t)) (hash_output_size t) n seed) cs) := by
  obtain ⟨d, e, r⟩ := hash_drbg_init_eq ht junk seed hs
  subst hn
  rw [e, C.ok_bind, hash_calls_eq ht junk' cs d _ r hc]
  rfl

/-- C28: an unknown hash is refused. -/
theorem hash_drbg_unknown (junk : Nat → Junk) (n : Nat) (seed : List Byte) :
    hash_drbg_init junk (.other n) seed = .abort := rfl

/-- C28: a request for `len` bytes yields `len` bytes. -/
theorem hash_drbg_length (H : List Byte → List Byte) (hs n : Nat) (h0 : 0 < hs)
    (hm : ∀ m, (H m).length = hs) (s : HashDrbgState) (len : Nat) (add : List Byte) :
    (hashGenerate H hs n s len add).1.length = len := by
  rw [hashGenerate]
  exact cut_length _ h0 (fun i => hm _) _

/-- C28: a shorter request from the same state yields a prefix of a longer one, and both leave the same
state. -/
theorem hash_drbg_prefix (H : List Byte → List Byte) (hs n : Nat) (h0 : 0 < hs)
    (hm : ∀ m, (H m).length = hs) (s : HashDrbgState) (a b : Nat) (hab : a ≤ b) (add : List Byte) :
    (hashGenerate H hs n s a add).1 = ((hashGenerate H hs n s b add).1).take a ∧
      (hashGenerate H hs n s a add).2 = (hashGenerate H hs n s b add).2 := by
  rw [hashGenerate, hashGenerate]
  exact ⟨cut_take _ h0 (fun i => hm _) hab, rfl⟩

/-- C28: the blocks of one request hash different inputs as long as fewer than 256^n blocks are drawn. -/
theorem hash_drbg_inputs (n V i j : Nat) (hi : i < 256 ^ n) (hj : j < 256 ^ n)
    (h : bigBytes n ((V + i) % 256 ^ n) = bigBytes n ((V + j) % 256 ^ n)) : i = j := by
  have h1 := bigBytes_inj _ _ _ h
  rw [Nat.mod_mod, Nat.mod_mod] at h1
  have h2 : i ≡ j [MOD 256 ^ n] := Nat.ModEq.add_left_cancel' V h1
  exact Nat.ModEq.eq_of_lt_of_lt h2 hi hj

/-! ## CTR-DRBG -/

theorem Drb.ctr_calls_eq {enc : List Byte → List Byte → C (List Byte)}
    {E : List Byte → List Byte → List Byte} {kl : Nat} (hE : IsCipher enc E kl) (hkl : kl ≤ 32) {df : Bool} :
    ∀ (cs : List CtrCall) (d : CtrDrbg) (s : List Byte × Nat), CtrSt kl df d s →
      ctr_drbg_calls enc d cs = .ok (ctrRun E kl df s cs)
  | [], _, _, _ => rfl
  | .reseed nonce add :: cs, d, s, h => by
    obtain ⟨d', e, r⟩ := ctr_reseed_eq hE hkl h nonce add
    rw [ctr_drbg_calls, e, C.ok_bind, Drb.ctr_calls_eq hE hkl cs d' _ r, ctrRun]
  | .generate len add :: cs, d, s, h => by
    obtain ⟨d', e, r⟩ := ctr_generate_eq hE hkl h len add
    rw [ctr_drbg_calls, e, C.ok_bind]
    dsimp only
    rw [Drb.ctr_calls_eq hE hkl cs d' _ r, C.ok_bind, ctrRun]

/-- C28: for every block cipher with 16-byte blocks, all inputs and every history of calls, CTR-DRBG outputs
exactly what CTR_DRBG of SP 800-90A does, with or without derivation function. -/
theorem ctr_drbg_history (enc : List Byte → List Byte → C (List Byte))
    (E : List Byte → List Byte → List Byte) (bits : Nat) (hb : bits = 128 ∨ bits = 192 ∨ bits = 256)
    (hE : ∀ k b, k.length = bits / 8 → b.length = 16 → enc k b = .ok (E k b) ∧ (E k b).length = 16)
    (junk : Nat → Byte) (df : Bool) (nonce pers : List Byte) (cs : List CtrCall) :
    (do let d ← ctr_drbg_init enc junk bits df nonce pers
        ctr_drbg_calls enc d cs) =
      .ok (ctrRun E (bits / 8) df (ctrInit E (bits / 8) df nonce pers) cs) := by
  have hE' : IsCipher enc E (bits / 8) := ⟨fun k b h1 h2 => (hE k b h1 h2).1, fun k b h1 h2 => (hE k b h1 h2).2⟩
  obtain ⟨d, e, r⟩ := ctr_init_eq hb hE' junk df nonce pers
  rw [e, C.ok_bind, ctr_calls_eq hE' (by omega) cs d _ r]

/-- A toy cipher meets the hypotheses. -/
example : ∀ k b : List Byte, k.length = 128 / 8 → b.length = 16 →
    (fun k b => C.ok (xorBytes k b)) k b = .ok (xorBytes k b) ∧ (xorBytes k b).length = 16 := by
  intro k b h1 h2
  refine ⟨rfl, ?_⟩
  rw [xorBytes, List.length_zipWith, h1, h2]; decide

/-- C28: other key sizes are refused. -/
theorem ctr_drbg_bits (enc : List Byte → List Byte → C (List Byte)) (junk : Nat → Byte) (bits : Nat)
    (hb : ¬ (bits = 128 ∨ bits = 192 ∨ bits = 256)) (df : Bool) (nonce pers : List Byte) :
    ctr_drbg_init enc junk bits df nonce pers = .abort := by
  rw [ctr_drbg_init, C.check, if_neg (by simpa using hb)]; rfl

example : ¬ (64 = 128 ∨ 64 = 192 ∨ 64 = 256) := by decide

/-- C28: a request for `len` bytes yields `len` bytes, and a shorter one from the same state a prefix. -/
theorem ctr_drbg_prefix (E : List Byte → List Byte → List Byte) (hE : ∀ k b, (E k b).length = 16) (kl : Nat)
    (df : Bool) (s : List Byte × Nat) (a b : Nat) (hab : a ≤ b) (add : List Byte) :
    (ctrGenerate E kl df s a add).1.length = a ∧
      (ctrGenerate E kl df s a add).1 = ((ctrGenerate E kl df s b add).1).take a := by
  rw [ctrGenerate, ctrGenerate]
  exact ⟨cut_length _ (by omega) (fun i => hE _ _) _, cut_take _ (by omega) (fun i => hE _ _) hab⟩

/-- C28: for an injective cipher, the blocks of one request (of fewer than 2^128 blocks) are all different. -/
theorem ctr_drbg_blocks (E : List Byte → List Byte → List Byte) (s : List Byte × Nat)
    (hE : ∀ b b', b.length = 16 → b'.length = 16 → E s.1 b = E s.1 b' → b = b') (i j : Nat)
    (hi : i < 2 ^ 128) (hj : j < 2 ^ 128) (h : ctrBlocks E s i = ctrBlocks E s j) : i = j := by
  have h1 := hE _ _ (bigBytes_len _ _) (bigBytes_len _ _) h
  rw [show (2 : Nat) ^ 128 = 256 ^ 16 by decide] at *
  exact hash_drbg_inputs 16 (s.2 + 1) i j hi hj h1

/-- C28 (finding): with a derivation function only the first 512 bytes of each input count. -/
theorem ctr_drbg_truncates (E : List Byte → List Byte → List Byte) (kl : Nat) (nonce nonce' pers : List Byte)
    (h : nonce.take 512 = nonce'.take 512) :
    ctrInit E kl true nonce pers = ctrInit E kl true nonce' pers := by
  rw [ctrInit, ctrInit, ctrSeed, ctrSeed, if_pos rfl, if_pos rfl, h]

example : (List.replicate 512 (0 : Byte) ++ [1]).take 512 = (List.replicate 512 (0 : Byte) ++ [2]).take 512 := by
  rw [List.take_left' List.length_replicate, List.take_left' List.length_replicate]

end Torsion
