import Verif.Rand.Spec
import Verif.Stream.Props
import Verif.Hash.RepLemmas

/-!
# Lemmas for src/rand.c
-/
namespace Torsion.Rnd
open Torsion.Spec

theorem rd_ok {α : Type} {xs : List α} {i : Nat} (d : α) (h : i < xs.length) :
    C.rd xs i = .ok (xs.getD i d) := by
  simp [C.rd, List.getElem?_eq_getElem h, List.getD]

theorem wr_ok {α : Type} {xs : List α} {i : Nat} (v : α) (h : i < xs.length) :
    C.wr xs i v = .ok (xs.set i v) := by simp [C.wr, h]

theorem key_xor_eq {key : List (BitVec 32)} {i : Nat} (h : i < key.length) (x : BitVec 32) :
    key_xor key i x = .ok (mix key i x) := by
  rw [key_xor, rd_ok 0 h, C.ok_bind, wr_ok _ h, mix, List.modify_eq_set_getElem?]
  simp [List.getElem?_eq_getElem h, List.getD]

theorem mix_len (key : List (BitVec 32)) (i : Nat) (x : BitVec 32) :
    (mix key i x).length = key.length := by simp [mix]

theorem ofNat_read (a b c d : Byte) :
    BitVec.ofNat 32 (leVal [a, b, c, d]) = read32le #v[a, b, c, d] := by
  have h1 := (read32_val #v[a, b, c, d]).1
  have h2 : leVal [a, b, c, d] < 2 ^ 32 := lt_of_lt_of_eq (leVal_lt [a, b, c, d]) (by norm_num)
  apply BitVec.eq_of_toNat_eq
  rw [h1, BitVec.toNat_ofNat, Nat.mod_eq_of_lt h2]
  rfl

theorem mem32_cons (a b c d : Byte) (t : List Byte) :
    mem32le (a :: b :: c :: d :: t) = BitVec.ofNat 32 (leVal [a, b, c, d]) :: mem32le t := by
  rw [mem32le, ofNat_read]

theorem mem32_eq : ∀ (n : Nat) (l : List Byte), l.length = 4 * n →
    mem32le l = wordsOf n fun i => l.getD i 0
  | 0, l, h => by
    have : l = [] := List.length_eq_zero_iff.mp (by omega)
    subst this; rfl
  | n + 1, l, h => by
    match l, h with
    | a :: b :: c :: d :: t, h =>
      have ih := mem32_eq n t (by simp at h; omega)
      rw [mem32_cons, ih, wordsOf, wordsOf, List.range_succ_eq_map]
      simp [Function.comp_def, Nat.mul_add]

theorem wordsOf_len (n : Nat) (f : Nat → Byte) : (wordsOf n f).length = n := by simp [wordsOf]

theorem wordsOf_congr {n : Nat} {f g : Nat → Byte} (h : ∀ i < 4 * n, f i = g i) :
    wordsOf n f = wordsOf n g := by
  unfold wordsOf
  apply List.map_congr_left
  intro i hi
  have := List.mem_range.mp hi
  rw [h _ (by omega), h _ (by omega), h _ (by omega), h _ (by omega)]

theorem bytes_eq (key : List (BitVec 32)) :
    bytes32le key = key.flatMap fun w => leBytes 4 w.toNat := by
  unfold bytes32le
  congr 1
  funext w
  exact Strm.write32le_eq w

theorem bytes_len (key : List (BitVec 32)) : (bytes32le key).length = 4 * key.length := by
  induction key with
  | nil => rfl
  | cons a t ih =>
    simp only [bytes32le, List.flatMap_cons, List.length_append, List.length_cons] at ih ⊢
    simp at ih ⊢; omega

theorem crypt_eq (env : Env) (rng : Rng) (hk : rng.key.length = 8) (data : List Byte) :
    rng_crypt env rng data = .ok (xorStream (rngStream rng.key rng.nonce) 0 data) := by
  have hl : (bytes32le rng.key).length = 32 := by rw [bytes_len, hk]
  obtain ⟨c, c', h1, h2⟩ := chacha20_calls (rawBytes 64 env.junk) (bytes32le rng.key)
    (write64le rng.nonce).toList 0 (by omega) (by simp) [data]
  rw [rng_crypt, h1, C.ok_bind]
  simp only [calls, List.flatten_cons, List.flatten_nil, List.append_nil] at h2
  cases hd : chacha20_crypt c data with
  | ok r =>
    rw [hd] at h2
    simp only [C.ok_bind] at h2 ⊢
    injection h2 with h2
    rw [Prod.mk.injEq] at h2
    obtain ⟨h2, -⟩ := h2
    rw [List.append_nil] at h2
    rw [h2, bytes_eq, Strm.write64le_eq]
    rfl
  | abort => rw [hd] at h2; cases h2
  | ub => rw [hd] at h2; cases h2

theorem xor_zero (f : Nat → Byte) (n : Nat) :
    xorStream f 0 (List.replicate n 0) = (List.range n).map f := by
  apply List.ext_getElem
  · simp [xorStream]
  · intro i h1 h2
    simp [xorStream]

theorem read_eq (env : Env) (rng : Rng) (hk : rng.key.length = 8) (n : Nat) :
    rng_read env rng n = .ok ((List.range n).map (rngStream rng.key rng.nonce)) := by
  rw [rng_read, crypt_eq env rng hk, xor_zero]

theorem mem_read (f : Nat → Byte) (n : Nat) :
    mem32le ((List.range (4 * n)).map f) = wordsOf n f := by
  rw [mem32_eq n _ (by simp)]
  apply wordsOf_congr
  intro i hi
  simp [List.getD, List.getElem?_range hi]

theorem leVal_xor4 (w : BitVec 32) (a b c d : Byte) :
    BitVec.ofNat 32 (leVal [(w >>> 0).truncate 8 ^^^ a, (w >>> 8).truncate 8 ^^^ b,
      (w >>> 16).truncate 8 ^^^ c, (w >>> 24).truncate 8 ^^^ d])
    = w ^^^ BitVec.ofNat 32 (leVal [a, b, c, d]) := by
  rw [ofNat_read, ofNat_read]
  apply BitVec.eq_of_getLsbD_eq
  intro i hi
  simp [read32le]
  rcases (by omega : i < 8 ∨ (8 ≤ i ∧ i < 16) ∨ (16 ≤ i ∧ i < 24) ∨ 24 ≤ i) with h | h | h | h
  · simp [h, show i < 16 by omega, show i < 24 by omega, hi]
  · simp [h, show ¬ i < 8 by omega, show i - 8 < 8 by omega, show i < 24 by omega, hi,
      show 8 + (i - 8) = i by omega, show i - 8 < 32 by omega]
  · simp [h, show ¬ i < 8 by omega, show ¬ i < 16 by omega, show i - 16 < 8 by omega,
      show ¬ i - 8 < 8 by omega, hi, show 16 + (i - 16) = i by omega, show i - 16 < 32 by omega,
      BitVec.getLsbD_of_ge a i (by omega), BitVec.getLsbD_of_ge b (i - 8) (by omega)]
  · simp [show ¬ i < 8 by omega, show ¬ i < 16 by omega, show ¬ i < 24 by omega,
      show i - 24 < 8 by omega, show ¬ i - 8 < 8 by omega, show ¬ i - 16 < 8 by omega, hi,
      show 24 + (i - 24) = i by omega, show i - 24 < 32 by omega,
      BitVec.getLsbD_of_ge a i (by omega), BitVec.getLsbD_of_ge b (i - 8) (by omega),
      BitVec.getLsbD_of_ge c (i - 16) (by omega)]

theorem mem_crypt : ∀ (ws : List (BitVec 32)) (f : Nat → Byte),
    mem32le (xorStream f 0 (bytes32le ws)) = List.zipWith (· ^^^ ·) ws (wordsOf ws.length f)
  | [], f => rfl
  | w :: t, f => by
    have ih := mem_crypt t (fun i => f (4 + i))
    have e : xorStream f 0 (bytes32le (w :: t)) =
        ((w >>> 0).truncate 8 ^^^ f 0) :: ((w >>> 8).truncate 8 ^^^ f 1) ::
        ((w >>> 16).truncate 8 ^^^ f 2) :: ((w >>> 24).truncate 8 ^^^ f 3) ::
        xorStream (fun i => f (4 + i)) 0 (bytes32le t) := by
      simp [xorStream, bytes32le, write32le, List.mapIdx_cons, Nat.add_comm 4]
    rw [e, mem32_cons, ih, leVal_xor4, wordsOf, wordsOf, List.length_cons,
      List.range_succ_eq_map]
    simp [Function.comp_def, Nat.mul_add, Nat.add_comm, Nat.add_left_comm]

/-- The memory invariant of the generator. -/
structure WF (rng : Rng) : Prop where
  key : rng.key.length = 8
  pool : rng.pool.length = 128
  pos : rng.pos ≤ 120
  erased : ∀ i, rng.pos ≤ i → rng.pool.getD i 0 = 0

/-- The abstract state in memory. -/
def abs (rng : Rng) : RngSt := ⟨rng.key, rng.nonce, (rng.pool.take rng.pos).reverse, rng.rdrand⟩

theorem generate_eq (env : Env) (rng : Rng) (h : WF rng) (n : Nat) :
    ∃ rng', rng_generate env rng n = .ok ((rngBytes (env.rdrand32 0) (abs rng) n).1, rng') ∧ WF rng' ∧
      abs rng' = (rngBytes (env.rdrand32 0) (abs rng) n).2 ∧ rng'.started = rng.started ∧
      rng'.pid = rng.pid := by
  have hk := h.key
  rw [rng_generate, read_eq env rng hk, C.ok_bind, key_xor_eq (by omega), C.ok_bind]
  generalize hk1 : mix rng.key 0 (BitVec.ofNat 32 n) = k1
  have hl1 : k1.length = 8 := by rw [← hk1, mix_len, hk]
  have e : (if rng.rdrand = true then key_xor k1 7 (env.rdrand32 0) else .ok k1)
      = .ok (if rng.rdrand = true then mix k1 7 (env.rdrand32 0) else k1) := by
    split
    · rw [key_xor_eq (by omega)]
    · rfl
  rw [e, C.ok_bind]
  generalize hk2 : (if rng.rdrand = true then mix k1 7 (env.rdrand32 0) else k1) = k2
  have hl2 : k2.length = 8 := by rw [← hk2]; split <;> simp [mix_len, hl1]
  dsimp only
  rw [crypt_eq env _ (by exact hl2), C.ok_bind]
  dsimp only
  rw [mem_crypt]
  refine ⟨_, rfl, ⟨?_, h.pool, h.pos, h.erased⟩, ?_, rfl, rfl⟩
  · simp [wordsOf_len, hl2]
  · have e2 : (rngBytes (env.rdrand32 0) (abs rng) n).2 = ⟨List.zipWith (· ^^^ ·)
        (if rng.rdrand = true then mix (mix rng.key 0 (BitVec.ofNat 32 n)) 7 (env.rdrand32 0)
          else mix rng.key 0 (BitVec.ofNat 32 n))
        (wordsOf 8 (rngStream (if rng.rdrand = true then
          mix (mix rng.key 0 (BitVec.ofNat 32 n)) 7 (env.rdrand32 0)
          else mix rng.key 0 (BitVec.ofNat 32 n)) (rng.nonce + 1))), rng.nonce + 1,
        (rng.pool.take rng.pos).reverse, rng.rdrand⟩ := rfl
    rw [e2, hk1, hk2, hl2]
    rfl

theorem rekey_eq : ∀ (n i : Nat) (pool key : List (BitVec 32)), i + n = key.length →
    120 + i + n ≤ pool.length →
    rekey_loop n i pool key = .ok (key.mapIdx fun j k =>
      if i ≤ j then k ^^^ pool.getD (120 + j) 0 else k)
  | 0, i, pool, key, h, hp => by
    rw [rekey_loop]
    congr 1
    symm
    apply List.ext_getElem (by simp)
    intro j h1 h2
    simp
    omega
  | n + 1, i, pool, key, h, hp => by
    rw [rekey_loop, rd_ok 0 (by omega), C.ok_bind, key_xor_eq (by omega), C.ok_bind,
      rekey_eq n (i + 1) pool _ (by rw [mix_len]; omega) (by omega)]
    congr 1
    apply List.ext_getElem (by simp [mix_len])
    intro j h1 h2
    simp only [List.getElem_mapIdx, mix, List.getElem_modify]
    by_cases hj : i = j
    · subst hj; simp
    · by_cases hj2 : i ≤ j
      · rw [if_pos (by omega), if_pos hj2, if_neg hj]
      · rw [if_neg (by omega), if_neg hj2, if_neg hj]

theorem wipe_eq : ∀ (n i : Nat) (pool : List (BitVec 32)), 120 + i + n = pool.length →
    wipe_loop n i pool = .ok (pool.take (120 + i) ++ List.replicate n 0)
  | 0, i, pool, h => by
    rw [wipe_loop, List.take_of_length_le (by omega)]; simp
  | n + 1, i, pool, h => by
    rw [wipe_loop, wr_ok _ (by omega), C.ok_bind, wipe_eq n (i + 1) _ (by simp; omega)]
    congr 1
    apply List.ext_getElem?
    intro j
    rw [List.getElem?_append, List.getElem?_append]
    simp only [List.length_take, List.length_set, List.getElem?_take, List.getElem?_set,
      List.getElem?_replicate]
    rw [Nat.min_eq_left (by omega), Nat.min_eq_left (by omega)]
    by_cases h1 : j < 120 + i
    · rw [if_pos (by omega), if_pos h1, if_pos (by omega), if_neg (by omega), if_pos h1]
    · by_cases h2 : j = 120 + i
      · subst h2
        rw [if_pos (by omega), if_pos (by omega), if_pos rfl, if_pos (by omega), if_neg h1,
          if_pos (by omega)]
      · rw [if_neg (by omega), if_neg h1]
        by_cases h3 : j - (120 + i) < n + 1
        · rw [if_pos (by omega), if_pos h3]
        · rw [if_neg (by omega), if_neg h3]

/-- The refill step of `rng_random`. -/
theorem refill_eq (env : Env) (hw : BitVec 32) (rng : Rng) (h : WF rng) :
    ∃ rng', (do
      let pool ← rng_read env rng 512
      let pool := mem32le pool
      let key ← (if rng.rdrand then key_xor rng.key 7 hw else .ok rng.key)
      let key ← rekey_loop 8 0 pool key
      let pool ← wipe_loop 8 0 pool
      .ok { rng with key := key, pool := pool, nonce := rng.nonce + 1, pos := 120 }) = C.ok rng' ∧
      WF rng' ∧ rng'.pos = 120 ∧ abs rng' = refill hw (abs rng) ∧ rng'.started = rng.started ∧
      rng'.pid = rng.pid := by
  have hk := h.key
  rw [read_eq env rng hk, C.ok_bind, show 512 = 4 * 128 from rfl]
  dsimp only
  rw [mem_read]
  generalize hks : wordsOf 128 (rngStream rng.key rng.nonce) = ks
  have hlk : ks.length = 128 := by rw [← hks, wordsOf_len]
  have e : (if rng.rdrand = true then key_xor rng.key 7 hw else .ok rng.key)
      = .ok (if rng.rdrand = true then mix rng.key 7 hw else rng.key) := by
    split
    · rw [key_xor_eq (by omega)]
    · rfl
  rw [e, C.ok_bind]
  generalize hk2 : (if rng.rdrand = true then mix rng.key 7 hw else rng.key) = k2
  have hl2 : k2.length = 8 := by rw [← hk2]; split <;> simp [mix_len, hk]
  rw [rekey_eq 8 0 ks k2 (by omega) (by omega), C.ok_bind, wipe_eq 8 0 ks (by omega), C.ok_bind]
  refine ⟨_, rfl, ⟨?_, ?_, ?_, ?_⟩, rfl, ?_, rfl, rfl⟩
  · simpa using hl2
  · simp [hlk]
  · simp
  · intro i hi
    have hi : 120 ≤ i := hi
    simp only [List.getD_eq_getElem?_getD, Nat.add_zero]
    rw [List.getElem?_append_right (by simp [hlk]; omega), List.getElem?_replicate]
    split <;> rfl
  · have e2 : refill hw (abs rng) = ⟨List.zipWith (· ^^^ ·)
        (if rng.rdrand = true then mix rng.key 7 hw else rng.key)
        ((wordsOf 128 (rngStream rng.key rng.nonce)).drop 120), rng.nonce + 1,
        ((wordsOf 128 (rngStream rng.key rng.nonce)).take 120).reverse, rng.rdrand⟩ := rfl
    rw [e2, hks, hk2, abs]
    congr 1
    · apply List.ext_getElem
      · simp [hl2, hlk]
      · intro j h1 h2
        simp at h1
        simp [List.getD, List.getElem?_eq_getElem (show 120 + j < ks.length by omega)]
    · rw [List.take_append_of_le_length (by simp [hlk])]
      simp

theorem random_eq (env : Env) (hw : BitVec 32) (rng : Rng) (h : WF rng) :
    ∃ rng', rng_random env hw rng = .ok ((rngWord hw (abs rng)).1, rng') ∧ WF rng' ∧
      abs rng' = (rngWord hw (abs rng)).2 ∧ rng'.started = rng.started ∧ rng'.pid = rng.pid := by
  have step : ∀ r : Rng, WF r → 0 < r.pos → ∀ s : RngSt, abs r = s → ∃ r' : Rng,
      (do
        let pos := r.pos - 1
        let x ← C.rd r.pool pos
        let pool ← C.wr r.pool pos 0
        .ok (x, { r with pool := pool, pos := pos })) = C.ok (s.left.headD 0, r') ∧ WF r' ∧
      abs r' = { s with left := s.left.tail } ∧ r'.started = r.started ∧ r'.pid = r.pid := by
    intro r hr hpos s hs
    have hpl := hr.pool
    have hpp := hr.pos
    dsimp only
    rw [rd_ok 0 (by omega), C.ok_bind, wr_ok _ (by omega), C.ok_bind]
    have hl : (r.pool.take r.pos).reverse = r.pool.getD (r.pos - 1) 0 ::
        (r.pool.take (r.pos - 1)).reverse := by
      obtain ⟨q, hq⟩ : ∃ q, r.pos = q + 1 := ⟨r.pos - 1, by omega⟩
      rw [hq, Nat.add_sub_cancel, List.take_add_one, List.reverse_append,
        List.getElem?_eq_getElem (by omega)]
      simp [List.getD, List.getElem?_eq_getElem (show q < r.pool.length by omega)]
    subst hs
    simp only [abs]
    rw [hl]
    refine ⟨_, rfl, ⟨hr.key, by simpa using hpl, by exact Nat.le_trans (Nat.sub_le _ _) hpp, ?_⟩, ?_,
      rfl, rfl⟩
    · intro i hi
      have hi : r.pos - 1 ≤ i := hi
      simp only [List.getD_eq_getElem?_getD, List.getElem?_set]
      split
      · split <;> rfl
      · have := hr.erased i (by omega)
        rwa [List.getD_eq_getElem?_getD] at this
    · simp only [List.tail_cons]
      rw [List.take_set_of_le (by omega)]
  have hnil : (abs rng).left = [] ↔ rng.pos = 0 := by
    have := h.pool
    have := h.pos
    simp [abs, List.take_eq_nil_iff]
    intro h1
    simp_all
  rw [rng_random, rngWord]
  by_cases hp : rng.pos = 0
  · rw [if_pos hp]
    rw [if_pos (hnil.mpr hp)]
    obtain ⟨r, h1, h2, h3, h4, h5, h6⟩ := refill_eq env hw rng h
    rw [h1, C.ok_bind]
    obtain ⟨r', g1, g2, g3, g4, g5⟩ := step r h2 (by omega) _ h4
    exact ⟨r', g1, g2, g3, g4.trans h5, g5.trans h6⟩
  · rw [if_neg hp, if_neg (fun g => hp (hnil.mp g)), C.ok_bind]
    exact step rng h (by omega) _ rfl

theorem accept_iff (x max : BitVec 32) (h : 2 ≤ max.toNat) :
    (x - x % max > -max) ↔ ¬ x.toNat < 2 ^ 32 / max.toNat * max.toNat := by
  have hm : max.toNat < 2 ^ 32 := max.isLt
  have hx : x.toNat < 2 ^ 32 := x.isLt
  have h1 : (x - x % max).toNat = x.toNat / max.toNat * max.toNat := by
    rw [BitVec.toNat_sub, BitVec.toNat_umod]
    have h2 := Nat.div_add_mod x.toNat max.toNat
    rw [Nat.mul_comm] at h2
    have h3 := Nat.mod_lt x.toNat (show 0 < max.toNat by omega)
    generalize x.toNat / max.toNat * max.toNat = a at *
    omega
  have h2 : (-max).toNat = 2 ^ 32 - max.toNat := by
    rw [BitVec.toNat_neg]; omega
  rw [gt_iff_lt, BitVec.lt_def, h1, h2]
  generalize max.toNat = m at *
  generalize x.toNat = n at *
  have e : 2 ^ 32 - m < n / m * m ↔ 2 ^ 32 < (n / m + 1) * m := by
    rw [Nat.add_mul, Nat.one_mul]; omega
  rw [e, ← Nat.div_lt_iff_lt_mul (by omega), Nat.lt_succ_iff, Nat.le_div_iff_mul_le (by omega)]
  omega

theorem uniform_loop_eq (env : Env) (max : BitVec 32) (hm : 2 ≤ max.toNat) :
    ∀ (n i : Nat) (rng : Rng), WF rng →
    ∃ rng', uniform_loop env max n i rng = .ok ((rngBelow env.rdrand32 max n i (abs rng)).1, rng') ∧
      WF rng' ∧ abs rng' = (rngBelow env.rdrand32 max n i (abs rng)).2 ∧
      rng'.started = rng.started ∧ rng'.pid = rng.pid
  | 0, i, rng, h => ⟨rng, rfl, h, rfl, rfl, rfl⟩
  | n + 1, i, rng, h => by
    obtain ⟨r, h1, h2, h3, h4, h5⟩ := random_eq env (env.rdrand32 i) rng h
    rw [uniform_loop, h1, C.ok_bind, rngBelow]
    dsimp only
    by_cases hx : (rngWord (env.rdrand32 i) (abs rng)).1.toNat < 2 ^ 32 / max.toNat * max.toNat
    · rw [if_neg (fun g => (accept_iff _ max hm).mp g hx), if_pos hx]
      refine ⟨r, ?_, h2, h3, h4, h5⟩
      generalize (rngWord (env.rdrand32 i) (abs rng)).1 = x
      have e : x % max = BitVec.ofNat 32 (x.toNat % max.toNat) := by
        apply BitVec.eq_of_toNat_eq
        rw [BitVec.toNat_umod, BitVec.toNat_ofNat, Nat.mod_eq_of_lt (b := 2 ^ 32)]
        exact lt_of_le_of_lt (Nat.mod_le _ _) x.isLt
      rw [e]
    · rw [if_pos ((accept_iff _ max hm).mpr hx), if_neg hx, ← h3]
      obtain ⟨r', g1, g2, g3, g4, g5⟩ := uniform_loop_eq env max hm n (i + 1) r h2
      exact ⟨r', g1, g2, g3, g4.trans h4, g5.trans h5⟩

theorem wf_zero : WF rng_zero := by
  refine ⟨rfl, rfl, by decide, ?_⟩
  intro i _
  simp only [rng_zero, List.getD_eq_getElem?_getD, List.getElem?_replicate]
  split <;> rfl

theorem init_eq (env : Env) :
    (seedOf env = none ∧ rng_init env = .ok (false, rng_zero)) ∨
    ∃ m, seedOf env = some m ∧
      rng_init env = .ok (true, { rng_zero with key := wordsOf 8 fun i => (sha256 m).getD i 0,
                                                rdrand := env.hasRdrand }) := by
  have hl : ∀ v : Vector Byte 64, v.toList.length < 2 ^ 64 := by intro v; simp
  have hkey : ∀ m, mem32le (sha256 m) = wordsOf 8 fun i => (sha256 m).getD i 0 :=
    fun m => mem32_eq 8 _ (Hsh.sha256_len m)
  rw [rng_init, seedOf]
  dsimp only
  by_cases hs : env.hasSysrand = true
  · rw [if_pos hs, if_neg (by simp [hs])]
    cases hsys : env.sysrand with
    | none => exact Or.inl ⟨rfl, rfl⟩
    | some a =>
      refine Or.inr ⟨_, rfl, ?_⟩
      obtain ⟨c, h1, h2⟩ := Hsh.md_rep_update Hsh.okSha256 (Hsh.sha256_ini env.junk) a.toList (hl a)
      dsimp only
      rw [h1, C.ok_bind]
      cases hhw : env.hwrand with
      | none =>
        dsimp only
        rw [C.ok_bind, Hsh.sha256_fin h2, C.ok_bind, hkey]
        simp
      | some b =>
        obtain ⟨d, h3, h4⟩ := Hsh.md_rep_update Hsh.okSha256 h2 b.toList (hl b)
        dsimp only
        rw [h3, C.ok_bind, Hsh.sha256_fin h4, C.ok_bind, hkey]
        simp
  · rw [if_neg hs, if_pos (by simpa using hs)]
    cases hhw : env.hwrand with
    | none => exact Or.inl ⟨rfl, rfl⟩
    | some a =>
      refine Or.inr ⟨_, rfl, ?_⟩
      obtain ⟨c, h1, h2⟩ := Hsh.md_rep_update Hsh.okSha256 (Hsh.sha256_ini env.junk) a.toList (hl a)
      dsimp only
      rw [h1, C.ok_bind, Hsh.sha256_fin h2, C.ok_bind, hkey]
      simp

theorem global_eq (env : Env) (rng : Rng) (h : WF rng) :
    (useRng env (absRng rng) = none ∧ rng_global_init env rng = .ok (false, rng_zero)) ∨
    ∃ s r, useRng env (absRng rng) = some s ∧ rng_global_init env rng = .ok (true, r) ∧ WF r ∧
      abs r = s ∧ r.started = true ∧ r.pid = env.pid := by
  have fresh : (freshRng env = none ∧ (do
        let (ok, rng) ← rng_init env
        if !ok then .ok (false, rng) else .ok (true, { rng with started := true, pid := env.pid }))
          = C.ok (false, rng_zero)) ∨
      ∃ s r, freshRng env = some s ∧ (do
        let (ok, rng) ← rng_init env
        if !ok then .ok (false, rng) else .ok (true, { rng with started := true, pid := env.pid }))
          = C.ok (true, r) ∧ WF r ∧ abs r = s ∧ r.started = true ∧ r.pid = env.pid := by
    rcases init_eq env with ⟨h1, h2⟩ | ⟨m, h1, h2⟩
    · left
      rw [freshRng, h1, h2]
      exact ⟨rfl, rfl⟩
    · right
      rw [freshRng, h1, h2, Option.map_some, C.ok_bind]
      have hk := wordsOf_len 8 fun i => (sha256 m).getD i 0
      generalize wordsOf 8 (fun i => (sha256 m).getD i 0) = k at hk
      refine ⟨_, _, rfl, rfl, ⟨hk, rfl, by simp [rng_zero], wf_zero.erased⟩, ?_, rfl, rfl⟩
      simp [abs, rng_zero]
  rw [rng_global_init, absRng]
  dsimp only
  by_cases hs : rng.started = true
  · by_cases hp : rng.pid = env.pid
    · right
      rw [if_pos hs, if_neg (by simp [hs, hp]), useRng, if_pos hp]
      exact ⟨_, _, rfl, rfl, h, rfl, hs, hp⟩
    · rw [if_pos hs, if_pos (Or.inr hp), useRng, if_neg hp]
      exact fresh
  · rw [if_neg hs, if_pos (Or.inl (by simpa using hs)), useRng]
    exact fresh

theorem call_eq (env : Env) (rng : Rng) (h : WF rng) (c : RCall) :
    ∃ rng', callRng env rng c = .ok ((callSpec env (absRng rng) c).1, rng') ∧ WF rng' ∧
      absRng rng' = (callSpec env (absRng rng) c).2 := by
  have hz : absRng rng_zero = none := rfl
  have hst : ∀ (r : Rng) (s : RngSt), r.started = true → r.pid = env.pid → abs r = s →
      absRng r = some (env.pid, s) := by
    intro r s h1 h2 h3
    rw [absRng, if_pos h1, h2, ← h3]
    rfl
  rcases global_eq env rng h with ⟨h1, h2⟩ | ⟨s, r, h1, h2, h3, h4, h5, h6⟩
  · cases c <;> simp only [callRng, torsion_getrandom, torsion_random, torsion_uniform, h2, callSpec,
      h1, C.ok_bind] <;> exact ⟨rng_zero, rfl, wf_zero, hz⟩
  · cases c with
    | bytes n =>
      obtain ⟨r', g1, g2, g3, g4, g5⟩ := generate_eq env r h3 n
      rw [h4] at g1 g3
      rw [callRng, torsion_getrandom, h2, C.ok_bind]
      simp only [callSpec, h1]
      rw [if_neg (by simp), g1]
      exact ⟨r', rfl, g2, hst _ _ (g4.trans h5) (g5.trans h6) g3⟩
    | word =>
      obtain ⟨r', g1, g2, g3, g4, g5⟩ := random_eq env (env.rdrand32 0) r h3
      rw [h4] at g1 g3
      rw [callRng, torsion_random, h2, C.ok_bind]
      simp only [callSpec, h1]
      rw [if_neg (by simp), g1]
      exact ⟨r', rfl, g2, hst _ _ (g4.trans h5) (g5.trans h6) g3⟩
    | uniform max fuel =>
      rw [callRng, torsion_uniform, h2, C.ok_bind]
      simp only [callSpec, h1]
      rw [if_neg (by simp), rng_uniform]
      by_cases hm : max.toNat ≤ 1
      · rw [if_pos (show max ≤ 1 by rw [BitVec.le_def]; exact hm), if_pos hm]
        exact ⟨r, rfl, h3, hst _ _ h5 h6 h4⟩
      · obtain ⟨r', g1, g2, g3, g4, g5⟩ := uniform_loop_eq env max (by omega) fuel 0 r h3
        rw [h4] at g1 g3
        rw [if_neg (show ¬ max ≤ 1 by rw [BitVec.le_def]; exact hm), if_neg hm, g1]
        exact ⟨r', rfl, g2, hst _ _ (g4.trans h5) (g5.trans h6) g3⟩

theorem hist_eq : ∀ (hist : List (Env × RCall)) (rng : Rng), WF rng →
    ∃ rng', histRng rng hist = .ok ((histSpec (absRng rng) hist).1, rng') ∧ WF rng' ∧
      absRng rng' = (histSpec (absRng rng) hist).2
  | [], rng, h => ⟨rng, rfl, h, rfl⟩
  | (env, c) :: cs, rng, h => by
    obtain ⟨r, h1, h2, h3⟩ := call_eq env rng h c
    obtain ⟨r', g1, g2, g3⟩ := hist_eq cs r h2
    rw [histRng, h1, C.ok_bind, histSpec]
    dsimp only
    rw [g1]
    generalize callSpec env (absRng rng) c = q at *
    obtain ⟨v, st⟩ := q
    dsimp only at h3 ⊢
    rw [h3] at g3 ⊢
    generalize histSpec st cs = q at *
    obtain ⟨vs, st'⟩ := q
    exact ⟨r', rfl, g2, g3⟩

end Torsion.Rnd
