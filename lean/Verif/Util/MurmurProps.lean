import Verif.Util.Murmur
import Verif.Util.MurmurSpec
import Verif.Util.Props

/-!
# Properties: MurmurHash3 (C100)
-/
namespace Torsion

open Spec

namespace Mur

theorem rotl_eq (w : BitVec 32) (b : Nat) (h : b < 32) : murmurRotl w b = w.rotateLeft b := by
  rw [murmurRotl, BitVec.rotateLeft_def, Nat.mod_eq_of_lt h]

theorem rd_ok {data : List Byte} {i : Nat} {b : Byte} (h : data[i]? = some b) : C.rd data i = .ok b := by
  rw [C.rd, h]

theorem word (a b c d : Byte) : read32le #v[a, b, c, d] = BitVec.ofNat 32 (leVal [a, b, c, d]) := by
  apply BitVec.eq_of_toNat_eq
  rw [(read32_val _).1, BitVec.toNat_ofNat, Nat.mod_eq_of_lt]
  · exact congrArg leVal (show #v[a, b, c, d].toList = [a, b, c, d] from rfl)
  · have := leVal_lt [a, b, c, d]
    simpa using this

theorem tail_word (a b c : Byte) : (0 : BitVec 32) ^^^ (c.zeroExtend 32 <<< 16) ^^^ (b.zeroExtend 32 <<< 8) ^^^ (a.zeroExtend 32 <<< 0) =
    read32le #v[a, b, c, 0] := by
  unfold read32le
  simp only [Vector.getElem_mk, List.getElem_toArray, List.getElem_cons_zero, List.getElem_cons_succ]
  apply BitVec.eq_of_getLsbD_eq
  intro i hi
  simp only [BitVec.getLsbD_xor, BitVec.getLsbD_or, BitVec.getLsbD_shiftLeft, BitVec.truncate_eq_setWidth, BitVec.getLsbD_setWidth]
  by_cases h1 : i < 8
  · simp [h1, show i < 16 by omega, show i < 24 by omega]
  · by_cases h2 : i < 16
    · simp [h1, h2, hi, show i < 24 by omega, BitVec.getLsbD_of_ge a i (by omega)]
    · by_cases h3 : i < 24
      · simp [h1, h2, h3, hi, BitVec.getLsbD_of_ge a i (by omega), BitVec.getLsbD_of_ge b (i - 8) (by omega)]
      · simp [h1, h2, h3, hi, BitVec.getLsbD_of_ge a i (by omega), BitVec.getLsbD_of_ge b (i - 8) (by omega),
          BitVec.getLsbD_of_ge c (i - 16) (by omega)]

theorem tail3 (a b c : Byte) : (0 : BitVec 32) ^^^ (c.zeroExtend 32 <<< 16) ^^^ (b.zeroExtend 32 <<< 8) ^^^ (a.zeroExtend 32 <<< 0) =
    BitVec.ofNat 32 (leVal [a, b, c]) := by
  rw [tail_word, word]
  simp [leVal_cons, leVal_nil]

theorem tail2 (a b : Byte) : (0 : BitVec 32) ^^^ (b.zeroExtend 32 <<< 8) ^^^ (a.zeroExtend 32 <<< 0) = BitVec.ofNat 32 (leVal [a, b]) := by
  have h := tail_word a b 0
  rw [word] at h
  simpa [leVal_cons, leVal_nil] using h

theorem tail1 (a : Byte) : (0 : BitVec 32) ^^^ (a.zeroExtend 32 <<< 0) = BitVec.ofNat 32 (leVal [a]) := by
  simp [leVal_cons, leVal_nil]

theorem rd_at (pre m : List Byte) (i : Nat) {b : Byte} (h : m[i]? = some b) : C.rd (pre ++ m) (pre.length + i) = .ok b := by
  rw [C.rd, List.getElem?_append_right (by omega), Nat.add_sub_cancel_left, h]

theorem rd_at0 (pre m : List Byte) {b : Byte} (h : m[0]? = some b) : C.rd (pre ++ m) pre.length = .ok b := rd_at pre m 0 h

theorem mix_eq (k : BitVec 32) : murmurRotl (k * 0xcc9e2d51) 15 * 0x1b873593 = mmMix k := by
  rw [rotl_eq _ _ (by decide), mmMix]

theorem mix_zero : mmMix 0 = 0 := by decide

theorem tail_run (data : List Byte) (pos : Nat) (h : BitVec 32) :
    murmur3_tail data pos 1 h = (do
      let a ← C.rd data pos
      return h ^^^ murmurRotl (((0 : BitVec 32) ^^^ (a.zeroExtend 32 <<< 0)) * 0xcc9e2d51) 15 * 0x1b873593) ∧
    murmur3_tail data pos 2 h = (do
      let b ← C.rd data (pos + 1)
      let a ← C.rd data pos
      return h ^^^ murmurRotl (((0 : BitVec 32) ^^^ (b.zeroExtend 32 <<< 8) ^^^ (a.zeroExtend 32 <<< 0)) * 0xcc9e2d51) 15 * 0x1b873593) ∧
    murmur3_tail data pos 3 h = (do
      let c ← C.rd data (pos + 2)
      let b ← C.rd data (pos + 1)
      let a ← C.rd data pos
      return h ^^^ murmurRotl (((0 : BitVec 32) ^^^ (c.zeroExtend 32 <<< 16) ^^^ (b.zeroExtend 32 <<< 8) ^^^ (a.zeroExtend 32 <<< 0)) *
        0xcc9e2d51) 15 * 0x1b873593) := by
  refine ⟨rfl, ?_, ?_⟩
  · unfold murmur3_tail
    cases C.rd data (pos + 1) <;> rfl
  · unfold murmur3_tail
    cases C.rd data (pos + 2) <;> [cases C.rd data (pos + 1); skip; skip] <;> rfl

/-- The words and the rest. -/
theorem words_ok (suf : List Byte) : ∀ (m pre : List Byte) (h : BitVec 32),
    (murmur3_loop (pre ++ (m ++ suf)) pre.length m.length h >>= fun r => murmur3_tail (pre ++ (m ++ suf)) r.1 r.2.1 r.2.2) =
      .ok (mmWords m h)
  | a :: b :: c :: d :: m, pre, h => by
    rw [murmur3_loop, if_pos (by simp only [List.length_cons]; omega), rd_at0 pre _ (b := a) rfl, rd_at pre _ 1 (b := b) rfl,
      rd_at pre _ 2 (b := c) rfl, rd_at pre _ 3 (b := d) rfl]
    simp only [C.ok_bind]
    have ih := words_ok suf m (pre ++ [a, b, c, d]) (mmBody h (BitVec.ofNat 32 (leVal [a, b, c, d])))
    have e1 : pre ++ [a, b, c, d] ++ (m ++ suf) = pre ++ (a :: b :: c :: d :: m ++ suf) := by simp
    have e2 : (pre ++ [a, b, c, d]).length = pre.length + 4 := by simp
    have e3 : (a :: b :: c :: d :: m).length - 4 = m.length := by simp
    rw [e1, e2] at ih
    rw [e3, word, mix_eq, rotl_eq _ _ (by decide), mmWords, mmWalk, ← mmWords, ← mmBody]
    exact ih
  | [], pre, h => by
    rw [murmur3_loop, if_neg (by simp), C.pure_eq, C.ok_bind]
    show C.ok h = _
    rw [mmWords, mmWalk, leVal_nil, show BitVec.ofNat 32 0 = 0 from rfl, mix_zero]
    show _ = C.ok (h ^^^ 0#32)
    rw [BitVec.xor_zero]
    all_goals simp
  | [a], pre, h => by
    rw [murmur3_loop, if_neg (by simp), C.pure_eq, C.ok_bind]
    have h0 := rd_at0 pre ([a] ++ suf) (b := a) rfl
    show murmur3_tail _ _ 1 h = _
    rw [(tail_run _ _ _).1, h0, C.ok_bind, C.pure_eq, tail1, mix_eq, mmWords, mmWalk]
    all_goals simp
  | [a, b], pre, h => by
    rw [murmur3_loop, if_neg (by simp), C.pure_eq, C.ok_bind]
    have h0 := rd_at0 pre ([a, b] ++ suf) (b := a) rfl
    have h1 := rd_at pre ([a, b] ++ suf) 1 (b := b) rfl
    show murmur3_tail _ _ 2 h = _
    rw [(tail_run _ _ _).2.1, h1, C.ok_bind, h0, C.ok_bind, C.pure_eq, tail2, mix_eq, mmWords, mmWalk]
    all_goals simp
  | [a, b, c], pre, h => by
    rw [murmur3_loop, if_neg (by simp), C.pure_eq, C.ok_bind]
    have h0 := rd_at0 pre ([a, b, c] ++ suf) (b := a) rfl
    have h1 := rd_at pre ([a, b, c] ++ suf) 1 (b := b) rfl
    have h2 := rd_at pre ([a, b, c] ++ suf) 2 (b := c) rfl
    show murmur3_tail _ _ 3 h = _
    rw [(tail_run _ _ _).2.2, h2, C.ok_bind, h1, C.ok_bind, h0, C.ok_bind, C.pure_eq, tail3, mix_eq, mmWords, mmWalk]
    all_goals simp

/-! ### Every step can be undone -/

theorem mul_inj {u v x y : BitVec 32} (huv : u * v = 1) (h : x * u = y * u) : x = y := by
  have := congrArg (· * v) h
  simp only [BitVec.mul_assoc, huv] at this
  exact (BitVec.mul_one x).symm.trans (this.trans (BitVec.mul_one y))

theorem shr_inj16 {x y : BitVec 32} (h : x ^^^ (x >>> 16) = y ^^^ (y >>> 16)) : x = y := by
  have key : ∀ z : BitVec 32, (z ^^^ (z >>> 16)) ^^^ ((z ^^^ (z >>> 16)) >>> 16) = z := by
    intro z
    apply BitVec.eq_of_getLsbD_eq
    intro i hi
    simp only [BitVec.getLsbD_xor, BitVec.getLsbD_ushiftRight]
    rw [BitVec.getLsbD_of_ge z (16 + (16 + i)) (by omega)]
    simp
  rw [← key x, h, key y]

theorem shr_inj13 {x y : BitVec 32} (h : x ^^^ (x >>> 13) = y ^^^ (y >>> 13)) : x = y := by
  have key : ∀ z : BitVec 32, (z ^^^ (z >>> 13)) ^^^ ((z ^^^ (z >>> 13)) >>> 13) ^^^ ((z ^^^ (z >>> 13)) >>> 26) = z := by
    intro z
    apply BitVec.eq_of_getLsbD_eq
    intro i hi
    simp only [BitVec.getLsbD_xor, BitVec.getLsbD_ushiftRight]
    rw [BitVec.getLsbD_of_ge z (13 + (26 + i)) (by omega), show 13 + (13 + i) = 26 + i by omega]
    cases z.getLsbD i <;> cases z.getLsbD (13 + i) <;> cases z.getLsbD (26 + i) <;> rfl
  rw [← key x, h, key y]

theorem rotl_inj {x y : BitVec 32} (n : Nat) (hn : n < 32) (h : x.rotateLeft n = y.rotateLeft n) : x = y := by
  apply BitVec.eq_of_getLsbD_eq
  intro i hi
  by_cases c : i + n < 32
  · have := congrArg (fun z => z.getLsbD (i + n)) h
    rw [BitVec.getLsbD_eq_getElem hi, BitVec.getLsbD_eq_getElem hi]
    simpa [BitVec.getLsbD_rotateLeft, Nat.mod_eq_of_lt hn, c] using this
  · have := congrArg (fun z => z.getLsbD (i + n - 32)) h
    simpa [BitVec.getLsbD_rotateLeft, Nat.mod_eq_of_lt hn, show i + n - 32 < n by omega,
      show 32 - n + (i + n - 32) = i by omega] using this

theorem xor_inj {a x y : BitVec 32} (h : a ^^^ x = a ^^^ y) : x = y := by
  have := congrArg (a ^^^ ·) h
  simpa only [← BitVec.xor_assoc, BitVec.xor_self, BitVec.zero_xor] using this

theorem xor_inj' {a x y : BitVec 32} (h : x ^^^ a = y ^^^ a) : x = y := xor_inj (a := a) (by rw [BitVec.xor_comm a x, BitVec.xor_comm a y, h])

theorem final_inj {x y : BitVec 32} (h : mmFinal x = mmFinal y) : x = y := by
  have h1 := shr_inj16 h
  have h2 := mul_inj (v := 0x7ed1b41d) (by decide) h1
  have h3 := shr_inj13 h2
  have h4 := mul_inj (v := 0xa5cb9243) (by decide) h3
  exact shr_inj16 h4

theorem mix_inj {x y : BitVec 32} (h : mmMix x = mmMix y) : x = y := by
  have h1 := mul_inj (v := 0x56ed309b) (by decide) h
  have h2 := rotl_inj 15 (by decide) h1
  exact mul_inj (v := 0xdee13bb1) (by decide) h2

theorem body_step {x y : BitVec 32} (h : x.rotateLeft 13 * 5 + 0xe6546b64 = y.rotateLeft 13 * 5 + 0xe6546b64) : x = y :=
  rotl_inj 13 (by decide) (mul_inj (v := 0xcccccccd) (by decide) ((BitVec.add_left_inj _).1 h))

theorem body_inj {x y k : BitVec 32} (h : mmBody x k = mmBody y k) : x = y := xor_inj' (body_step h)

theorem body_inj' {x k l : BitVec 32} (h : mmBody x k = mmBody x l) : k = l := mix_inj (xor_inj (body_step h))

theorem words_inj : ∀ (m : List Byte) {x y : BitVec 32}, mmWords m x = mmWords m y → x = y
  | a :: b :: c :: d :: m, x, y => fun h => by
    rw [mmWords, mmWords, mmWalk, mmWalk] at h
    exact body_inj (words_inj m h)
  | [], _, _ => fun h => xor_inj' h
  | [_], _, _ => fun h => xor_inj' h
  | [_, _], _, _ => fun h => xor_inj' h
  | [_, _, _], _, _ => fun h => xor_inj' h

theorem walk_append {σ : Type} (body last : σ → List Byte → σ) : ∀ (n : Nat) (p m : List Byte) (x : σ), p.length = 4 * n →
    mmWalk body last (p ++ m) x = mmWalk body last m (mmWalk body (fun h _ => h) p x)
  | 0, [], m, x, _ => by rfl
  | n + 1, a :: b :: c :: d :: p, m, x, h => by
    have := walk_append body last n p m (body x [a, b, c, d]) (by simp only [List.length_cons] at h; omega)
    rw [mmWalk, ← this, List.cons_append, List.cons_append, List.cons_append, List.cons_append, mmWalk]
  | n + 1, [], _, _, h => by simp at h
  | n + 1, [_], _, _, h => by simp at h; omega
  | n + 1, [_, _], _, _, h => by simp at h; omega
  | n + 1, [_, _, _], _, _, h => by simp at h; omega

theorem words_append (n : Nat) (p m : List Byte) (x : BitVec 32) (h : p.length = 4 * n) : mmWords (p ++ m) x =
    mmWords m (mmWalk (fun h w => mmBody h (BitVec.ofNat 32 (leVal w))) (fun h _ => h) p x) :=
  walk_append _ _ n p m x h

theorem words_four (a b c d : Byte) (m : List Byte) (x : BitVec 32) : mmWords (a :: b :: c :: d :: m) x =
    mmWords m (mmBody x (BitVec.ofNat 32 (leVal [a, b, c, d]))) := by rw [mmWords, mmWalk, ← mmWords]

theorem seed_eq (n tweak : BitVec 32) (k : Nat) : n * BitVec.ofNat 32 k + tweak = BitVec.ofNat 32 (n.toNat * k + tweak.toNat) := by
  apply BitVec.eq_of_toNat_eq
  simp [BitVec.toNat_add, BitVec.toNat_mul]

theorem four : ∀ (w : List Byte), w.length = 4 → ∃ a b c d, w = [a, b, c, d]
  | [a, b, c, d], _ => ⟨a, b, c, d, rfl⟩

theorem word_inj {w v : List Byte} (hw : w.length ≤ 4) (hl : w.length = v.length)
    (h : BitVec.ofNat 32 (leVal w) = BitVec.ofNat 32 (leVal v)) : w = v := by
  have h' := congrArg BitVec.toNat h
  have b1 : leVal w < 2 ^ 32 := lt_of_lt_of_le (leVal_lt w) (by
    calc 256 ^ w.length ≤ 256 ^ 4 := Nat.pow_le_pow_right (by decide) hw
      _ = 2 ^ 32 := by norm_num)
  have b2 : leVal v < 2 ^ 32 := lt_of_lt_of_le (leVal_lt v) (by
    calc 256 ^ v.length ≤ 256 ^ 4 := Nat.pow_le_pow_right (by decide) (hl ▸ hw)
      _ = 2 ^ 32 := by norm_num)
  rw [BitVec.toNat_ofNat, BitVec.toNat_ofNat, Nat.mod_eq_of_lt b1, Nat.mod_eq_of_lt b2] at h'
  exact leVal_inj hl h'

theorem short_words {t : List Byte} (h : t.length < 4) (x : BitVec 32) : mmWords t x = x ^^^ mmMix (BitVec.ofNat 32 (leVal t)) := by
  match t, h with
  | [], _ => rfl
  | [_], _ => rfl
  | [_, _], _ => rfl
  | [_, _, _], _ => rfl

end Mur

/-- **C100.** For every message within the memory and every seed the program returns MurmurHash3 of the message. -/
theorem murmur3_sum_exact (data : List Byte) (len : BitVec 64) (seed : BitVec 32) (h : len.toNat ≤ data.length) :
    murmur3_sum data len seed = .ok (murmur3 seed (data.take len.toNat)) := by
  have hl : (data.take len.toNat).length = len.toNat := by simp [h]
  have w := Mur.words_ok (data.drop len.toNat) (data.take len.toNat) [] seed
  simp only [List.nil_append, List.take_append_drop, List.length_nil, hl] at w
  unfold murmur3_sum
  cases hr : murmur3_loop data 0 len.toNat seed with
  | ok r =>
    obtain ⟨pos, left, h1⟩ := r
    rw [hr, C.ok_bind] at w
    simp only at w
    rw [C.ok_bind]
    simp only
    rw [w, C.ok_bind, murmur3, hl]
    have e : ((mmWords (data.take len.toNat) seed).zeroExtend 64 ^^^ len).truncate 32 =
        mmWords (data.take len.toNat) seed ^^^ BitVec.ofNat 32 len.toNat := by
      apply BitVec.eq_of_getLsbD_eq
      intro i hi
      simp [BitVec.getLsbD]
    rw [e]
    rfl
  | abort => rw [hr] at w; cases w
  | ub => rw [hr] at w; cases w

/-- **C100.** The tweaked hash of a Bloom filter: the seed of the function with number `n` is `n · 0xfba4c795 + tweak`. -/
theorem murmur3_tweak_exact (data : List Byte) (len : BitVec 64) (n tweak : BitVec 32) (h : len.toNat ≤ data.length) :
    murmur3_tweak data len n tweak = .ok (murmur3 (BitVec.ofNat 32 (n.toNat * 0xfba4c795 + tweak.toNat)) (data.take len.toNat)) := by
  rw [← Mur.seed_eq, ← murmur3_sum_exact data len _ h]
  rfl

/-- **C100.** Different seeds never give the same hash of the same message. -/
theorem murmur3_seed_inj (data : List Byte) (len : BitVec 64) (s t : BitVec 32) (h : len.toNat ≤ data.length)
    (e : murmur3_sum data len s = murmur3_sum data len t) : s = t := by
  rw [murmur3_sum_exact data len s h, murmur3_sum_exact data len t h] at e
  exact Mur.words_inj _ (Mur.xor_inj' (Mur.final_inj (C.ok.inj e)))

/-- **C100.** The functions of a Bloom filter with different numbers differ on every element. -/
theorem murmur3_tweak_inj (data : List Byte) (len : BitVec 64) (n m tweak : BitVec 32) (h : len.toNat ≤ data.length)
    (e : murmur3_tweak data len n tweak = murmur3_tweak data len m tweak) : n = m := by
  have := murmur3_seed_inj data len _ _ h e
  exact Mur.mul_inj (v := 0x75604bbd) (by decide) ((BitVec.add_left_inj _).1 this)

/-- **C100.** Two messages of the same length which differ within one aligned word have different hashes. -/
theorem murmur3_word_inj (seed : BitVec 32) (n : Nat) (p w v r : List Byte) (hp : p.length = 4 * n) (hw : w.length ≤ 4)
    (hl : w.length = v.length) (hr : w.length < 4 → r = []) (hlen : (p ++ w ++ r).length < 2 ^ 64)
    (e : murmur3_sum (p ++ w ++ r) (BitVec.ofNat 64 (p ++ w ++ r).length) seed =
      murmur3_sum (p ++ v ++ r) (BitVec.ofNat 64 (p ++ v ++ r).length) seed) : w = v := by
  have hll : (p ++ v ++ r).length = (p ++ w ++ r).length := by simp [hl]
  have t1 : (BitVec.ofNat 64 (p ++ w ++ r).length).toNat = (p ++ w ++ r).length := by
    rw [BitVec.toNat_ofNat, Nat.mod_eq_of_lt hlen]
  have t2 : (BitVec.ofNat 64 (p ++ v ++ r).length).toNat = (p ++ v ++ r).length := by
    rw [BitVec.toNat_ofNat, Nat.mod_eq_of_lt (hll ▸ hlen)]
  rw [murmur3_sum_exact _ _ _ t1.le, murmur3_sum_exact _ _ _ t2.le, t1, t2, List.take_length, List.take_length] at e
  have e2 := Mur.final_inj (C.ok.inj e)
  rw [hll] at e2
  have e3 := Mur.xor_inj' e2
  rw [List.append_assoc, List.append_assoc, Mur.words_append n p _ _ hp, Mur.words_append n p _ _ hp] at e3
  apply Mur.word_inj hw hl
  by_cases c : w.length < 4
  · rw [hr c, List.append_nil, List.append_nil, Mur.short_words c, Mur.short_words (hl ▸ c)] at e3
    exact Mur.mix_inj (Mur.xor_inj e3)
  · obtain ⟨a, b, c, d, rfl⟩ := Mur.four w (by omega)
    obtain ⟨a', b', c', d', rfl⟩ := Mur.four v (by simpa using hl.symm)
    simp only [List.cons_append, List.nil_append] at e3
    rw [Mur.words_four, Mur.words_four] at e3
    exact Mur.body_inj' (Mur.words_inj r e3)

/-- **C100.** What follows the message in memory does not enter its hash. -/
theorem murmur3_reads_len (data : List Byte) (len : BitVec 64) (seed : BitVec 32) (junk : List Byte) (h : len.toNat = data.length) :
    murmur3_sum (data ++ junk) len seed = murmur3_sum data len seed := by
  rw [murmur3_sum_exact _ _ _ (by simp; omega), murmur3_sum_exact _ _ _ h.le]
  simp [h]

/-! The published values, with tails of every length. -/
example : murmur3_sum [] 0 0 = .ok 0 ∧ murmur3_sum [] 0 1 = .ok 0x514E28B7 ∧ murmur3_sum [] 0 0xffffffff = .ok 0x81F16F39 := by
  rw [murmur3_sum_exact _ _ _ (by decide), murmur3_sum_exact _ _ _ (by decide), murmur3_sum_exact _ _ _ (by decide)]
  refine ⟨congrArg C.ok ?_, congrArg C.ok ?_, congrArg C.ok ?_⟩ <;> decide +kernel

example : murmur3_sum [0xff, 0xff, 0xff, 0xff] 4 0 = .ok 0x76293B50 ∧ murmur3_sum [0x21, 0x43, 0x65, 0x87] 4 0x5082EDEE = .ok 0x2362F9DE ∧
    murmur3_sum [0x21, 0x43, 0x65, 0x87] 3 0 = .ok 0x7E4A8634 ∧ murmur3_sum [0x21, 0x43, 0x65] 2 0 = .ok 0xA0F7B07A ∧
    murmur3_sum [0x21, 0x43, 0x65] 1 0 = .ok 0x72661CF4 := by
  rw [murmur3_sum_exact _ _ _ (by decide), murmur3_sum_exact _ _ _ (by decide), murmur3_sum_exact _ _ _ (by decide),
    murmur3_sum_exact _ _ _ (by decide), murmur3_sum_exact _ _ _ (by decide)]
  refine ⟨congrArg C.ok ?_, congrArg C.ok ?_, congrArg C.ok ?_, congrArg C.ok ?_, congrArg C.ok ?_⟩ <;> decide +kernel

end Torsion
