import Verif.Hash.Spec
import Verif.Stream.CoreLemmas

/-!
# Lemmas about the Merkle–Damgård hashes
-/
namespace Torsion.Hsh
open Spec Blk Strm

theorem zero_loop_to : ∀ (k lim : Nat) (block : List Byte) (pos : Nat), lim - pos ≤ k →
    lim ≤ block.length → pos ≤ lim →
    zero_loop k lim block pos =
      .ok (block.take pos ++ List.replicate (lim - pos) 0 ++ block.drop lim, lim)
  | 0, lim, block, pos, h, hl, hp => by
    have : pos = lim := by omega
    rw [zero_loop, this, Nat.sub_self]; simp
  | k + 1, lim, block, pos, h, hl, hp => by
    rw [zero_loop]
    by_cases hlt : pos < lim
    · rw [if_pos hlt, C.wr, if_pos (by omega)]
      simp only [C.ok_bind]
      rw [zero_loop_to k lim _ (pos + 1) (by omega) (by simpa using hl) (by omega)]
      congr 2
      rw [show lim - pos = (lim - (pos + 1)) + 1 by omega, List.replicate_succ,
        List.take_add_one, List.take_set_of_le (by omega), List.getElem?_set_self (by omega),
        List.drop_set_of_lt (by omega)]
      simp
    · rw [if_neg hlt]
      have : pos = lim := by omega
      rw [this, Nat.sub_self]; simp

theorem vec_of_toList {n : Nat} (v : Vector Byte n) {xs : List Byte} (h : xs = v.toList) :
    C.vec n xs = .ok v := by
  obtain ⟨v', h1, h2⟩ := vec_ok (n := n) (xs := xs) (by simp [h])
  rw [h1]
  congr 1
  apply Vector.toList_inj.1
  rw [h2, h, List.take_of_length_le (by simp)]

theorem exists_vec {n : Nat} {xs : List Byte} (h : xs.length = n) :
    ∃ v : Vector Byte n, v.toList = xs ∧ C.vec n xs = .ok v := by
  obtain ⟨v, h1, h2⟩ := vec_ok (n := n) (xs := xs) (by omega)
  exact ⟨v, by rw [h2, List.take_of_length_le (by omega)], h1⟩

theorem blocks_of_cat {n : Nat} (hn : 0 < n) (bl : List (Vector Byte n)) : blocks n (cat bl) = bl := by
  have := blocks_cat bl [] (by simpa using hn)
  simpa using this

/-- What the length counter has to do. -/
structure MdOk (A : MdAlg) (enc : Nat → Nat → List Byte) (z0 : A.Z) where
  R : A.Z → Nat → Prop
  off : A.lenOff < A.bs
  zero : R z0 0
  incr : ∀ z n c, R z n → c < 2 ^ 64 → R (A.incr z c) (n + c)
  pos : ∀ z n, R z n → A.pos z = n % A.bs
  len : ∀ z n, R z n → A.lenBytes z = enc (A.bs - A.lenOff) (8 * n)
  encLen : ∀ k v, (enc k v).length = k

/-- The context has absorbed `m`. -/
def MdRep {A : MdAlg} {enc : Nat → Nat → List Byte} {z0 : A.Z} (K : MdOk A enc z0) (iv : A.St)
    (c : MdCtx A) (m : List Byte) : Prop :=
  Holds A.bs A.f iv ⟨c.st, c.block, A.pos c.size⟩ m ∧ K.R c.size m.length

variable {A : MdAlg} {enc : Nat → Nat → List Byte} {z0 : A.Z} {iv : A.St}

theorem md_rep_init (K : MdOk A enc z0) (iv : A.St) (block : List Byte)
    (h : block.length = A.bs) : MdRep K iv ⟨iv, block, z0⟩ [] := by
  have h0 := K.off
  refine ⟨?_, K.zero⟩
  have := holds_nil (f := A.f) (init := iv) h (by omega)
  have hp : A.pos z0 = 0 := by rw [K.pos z0 0 K.zero]; simp
  rw [hp]
  exact this

theorem md_rep_update (K : MdOk A enc z0) {c : MdCtx A} {m : List Byte} (h : MdRep K iv c m)
    (data : List Byte) (hd : data.length < 2 ^ 64) :
    ∃ c', md_update A c data = .ok c' ∧ MdRep K iv c' (m ++ data) := by
  have h0 := K.off
  obtain ⟨hh, hr⟩ := h
  obtain ⟨r, h1, h2⟩ := holds_update (by omega) hh data
  refine ⟨⟨r.st, r.block, A.incr c.size data.length⟩, ?_, ?_, ?_⟩
  · rw [md_update, h1]; rfl
  · have hp := K.pos _ _ (K.incr _ _ _ hr hd)
    have hp2 := (holds_blocks h2).2.1
    dsimp only
    rw [hp, ← List.length_append, ← hp2]
    exact h2
  · dsimp only
    rw [List.length_append]
    exact K.incr _ _ _ hr hd

theorem mod_lemma (bs a t : Nat) (ht : t < bs) : (a * bs + t + 1) % bs = if t + 1 = bs then 0 else t + 1 := by
  rw [Nat.add_assoc, Nat.mul_comm, Nat.mul_add_mod]
  split
  · rename_i h; rw [h, Nat.mod_self]
  · exact Nat.mod_eq_of_lt (by omega)

theorem mdZeros_eq (bs lenOff a t : Nat) (ht : t < bs) (hl : lenOff < bs) :
    mdZeros bs lenOff (a * bs + t) =
      if t + 1 > lenOff then bs - t - 1 + lenOff else lenOff - t - 1 := by
  rw [mdZeros, mod_lemma bs a t ht]
  by_cases h1 : t + 1 = bs
  · rw [if_pos h1, if_pos (by omega), Nat.sub_zero, Nat.add_mod_right, Nat.mod_eq_of_lt hl]; omega
  · rw [if_neg h1]
    split
    · rw [Nat.mod_eq_of_lt (by omega)]; omega
    · rw [show lenOff + bs - (t + 1) = (lenOff - t - 1) + bs by omega, Nat.add_mod_right,
        Nat.mod_eq_of_lt (by omega)]

theorem md_rep_final (K : MdOk A enc z0) {c : MdCtx A} {m : List Byte} (h : MdRep K iv c m) :
    md_final A c = .ok (mdHash A.bs A.lenOff enc A.f iv A.out m) := by
  have h0 := K.off
  obtain ⟨⟨bl, t, hm, ht, hst, hpos, hblk, htk⟩, hr⟩ := h
  have hlen := K.len _ _ hr
  have hel := K.encLen (A.bs - A.lenOff) (8 * m.length)
  dsimp only at hst hpos hblk htk
  rw [hpos] at htk
  rw [md_final]
  dsimp only
  rw [hpos, C.wr, if_pos (by omega), C.ok_bind, hlen]
  have hml : m.length = bl.length * A.bs + t.length := by
    rw [hm, List.length_append, cat_length]
  have hz := mdZeros_eq A.bs A.lenOff bl.length t.length ht h0
  rw [← hml] at hz
  have htk1 : (c.block.set t.length (0x80 : Byte)).take (t.length + 1) = t ++ [(0x80 : Byte)] := by
    rw [List.take_add_one, List.take_set_of_le (by omega), List.getElem?_set_self (by omega), htk]
    rfl
  rw [mdHash, mdPad]
  generalize enc (A.bs - A.lenOff) (8 * m.length) = e at hel
  by_cases hgt : t.length + 1 > A.lenOff
  · rw [if_pos hgt] at hz
    rw [if_pos hgt, zero_loop_to A.bs A.bs _ _ (by omega) (by simp; omega) (by omega)]
    simp only [C.ok_bind]
    rw [htk1, List.drop_of_length_le (by simp; omega), List.append_nil]
    obtain ⟨v1, hv1, hv2⟩ := exists_vec (n := A.bs)
      (xs := t ++ [(0x80 : Byte)] ++ List.replicate (A.bs - (t.length + 1)) 0) (by simp; omega)
    rw [hv2]
    simp only [C.ok_bind]
    rw [zero_loop_to A.bs A.lenOff _ 0 (by omega) (by simp; omega) (by omega)]
    simp only [C.ok_bind]
    rw [List.take_zero, List.nil_append, Nat.sub_zero, blit_eq (by simp; omega)]
    simp only [C.ok_bind]
    rw [List.take_left' (by simp), List.drop_of_length_le (by simp; omega), List.append_nil]
    obtain ⟨v2, hv3, hv4⟩ := exists_vec (n := A.bs)
      (xs := List.replicate A.lenOff 0 ++ e) (by simp; omega)
    rw [hv4]
    simp only [C.ok_bind]
    have : m ++ 0x80 :: List.replicate (mdZeros A.bs A.lenOff m.length) 0 ++ e
        = cat (bl ++ [v1, v2]) := by
      rw [hz, cat_append, cat_cons, cat_cons, cat_nil, hv1, hv3, hm,
        show A.bs - t.length - 1 + A.lenOff = (A.bs - (t.length + 1)) + A.lenOff by omega,
        List.replicate_add]
      simp only [List.append_assoc, List.cons_append, List.nil_append, List.append_nil]
    rw [this, blocks_of_cat (by omega), List.foldl_append, ← hst]
    rfl
  · rw [if_neg hgt] at hz
    rw [if_neg hgt]
    simp only [C.ok_bind]
    rw [zero_loop_to A.bs A.lenOff _ _ (by omega) (by simp; omega) (by omega)]
    simp only [C.ok_bind]
    rw [htk1, blit_eq (by simp; omega)]
    simp only [C.ok_bind]
    rw [List.take_left' (by simp; omega), List.drop_of_length_le (by simp; omega),
      List.append_nil]
    obtain ⟨v1, hv1, hv2⟩ := exists_vec (n := A.bs)
      (xs := t ++ [(0x80 : Byte)] ++ List.replicate (A.lenOff - (t.length + 1)) 0 ++ e) (by simp; omega)
    rw [hv2]
    simp only [C.ok_bind]
    have : m ++ 0x80 :: List.replicate (mdZeros A.bs A.lenOff m.length) 0 ++ e
        = cat (bl ++ [v1]) := by
      rw [hz, cat_append, cat_cons, cat_nil, hv1, hm,
        show A.lenOff - t.length - 1 = A.lenOff - (t.length + 1) by omega]
      simp
    rw [this, blocks_of_cat (by omega), List.foldl_append, ← hst]
    rfl

/-! ## The counters -/

theorem bigBytes_len (n v : Nat) : (bigBytes n v).length = n := by
  rw [bigBytes, List.length_reverse, leBytes_len]

theorem leBytes_mod_eq {n a b : Nat} (h : a % 256 ^ n = b % 256 ^ n) : leBytes n a = leBytes n b := by
  apply leVal_inj (by rw [leBytes_len, leBytes_len])
  rw [leVal_leBytes, leVal_leBytes, h]

theorem leBytes_append (a b v : Nat) :
    leBytes (a + b) v = leBytes a v ++ leBytes b (v / 256 ^ a) := by
  apply leVal_inj (by simp [leBytes_len])
  rw [leVal_append, leBytes_len, leVal_leBytes, leVal_leBytes, leVal_leBytes, Nat.pow_add,
    Nat.mod_mul]

theorem bigBytes_append (a b v : Nat) :
    bigBytes (a + b) v = bigBytes b (v / 256 ^ a) ++ bigBytes a v := by
  rw [bigBytes, leBytes_append, List.reverse_append]; rfl

theorem write32be_eq (w : BitVec 32) : (write32be w).toList = bigBytes 4 w.toNat := by
  have h : (write32be w).toList.reverse = leBytes 4 w.toNat := by
    apply leVal_inj
    · rw [leBytes_len]; rfl
    · rw [← beVal_eq, (write32_val w).2, leVal_leBytes, Nat.mod_eq_of_lt (by exact w.isLt)]
  rw [bigBytes, ← h, List.reverse_reverse]

theorem write64be_eq (w : BitVec 64) : (write64be w).toList = bigBytes 8 w.toNat := by
  have h : (write64be w).toList.reverse = leBytes 8 w.toNat := by
    apply leVal_inj
    · rw [leBytes_len]; rfl
    · rw [← beVal_eq, (write64_val w).2, leVal_leBytes, Nat.mod_eq_of_lt (by exact w.isLt)]
  rw [bigBytes, ← h, List.reverse_reverse]

theorem maskNat_eq (size : BitVec 64) (k : Nat) (hk : k ≤ 64) :
    maskNat size (BitVec.ofNat 64 (2 ^ k - 1)) = size.toNat % 2 ^ k := by
  rw [maskNat, BitVec.toNat_and, BitVec.toNat_ofNat, Nat.mod_eq_of_lt (a := 2 ^ k - 1),
    Nat.and_two_pow_sub_one_eq_mod]
  have : 2 ^ k ≤ 2 ^ 64 := Nat.pow_le_pow_right (by decide) hk
  have : 0 < 2 ^ k := Nat.two_pow_pos k
  omega

theorem shl3 (x : BitVec 64) : (x <<< 3).toNat = 8 * x.toNat % 2 ^ 64 := by
  rw [BitVec.toNat_shiftLeft, Nat.shiftLeft_eq, Nat.mul_comm]

theorem ofNat_len (n : Nat) : (BitVec.ofNat 64 n <<< 3).toNat % 256 ^ 8 = 8 * n % 256 ^ 8 := by
  rw [shl3, BitVec.toNat_ofNat, show (256 : Nat) ^ 8 = 2 ^ 64 from rfl]
  omega

/-- The counters of MD4, MD5 and RIPEMD-160. -/
def ok64le (A : MdAlg) (hZ : A.Z = BitVec 64) (hbs : A.bs = 64) (hoff : A.lenOff = 56)
    (hpos : ∀ z : BitVec 64, A.pos (hZ ▸ z) = maskNat z 63)
    (hincr : ∀ (z : BitVec 64) n, A.incr (hZ ▸ z) n = hZ ▸ (z + BitVec.ofNat 64 n))
    (hlen : ∀ z : BitVec 64, A.lenBytes (hZ ▸ z) = (write64le (z <<< 3)).toList) :
    MdOk A leBytes (hZ ▸ (0 : BitVec 64)) where
  R z n := z = hZ ▸ BitVec.ofNat 64 n
  off := by omega
  zero := rfl
  incr z n c h hc := by rw [h, hincr, BitVec.ofNat_add]
  pos z n h := by
    rw [h, hpos, hbs]
    have := maskNat_eq (BitVec.ofNat 64 n) 6 (by decide)
    rw [BitVec.toNat_ofNat, Nat.mod_mod_of_dvd _ (by decide)] at this
    exact this
  len z n h := by
    rw [h, hlen, write64le_eq, hbs, hoff]
    exact leBytes_mod_eq (ofNat_len n)
  encLen := leBytes_len

/-- The counters of SHA-1 and SHA-256. -/
def ok64be (A : MdAlg) (hZ : A.Z = BitVec 64) (hbs : A.bs = 64) (hoff : A.lenOff = 56)
    (hpos : ∀ z : BitVec 64, A.pos (hZ ▸ z) = maskNat z 63)
    (hincr : ∀ (z : BitVec 64) n, A.incr (hZ ▸ z) n = hZ ▸ (z + BitVec.ofNat 64 n))
    (hlen : ∀ z : BitVec 64, A.lenBytes (hZ ▸ z) = (write64be (z <<< 3)).toList) :
    MdOk A bigBytes (hZ ▸ (0 : BitVec 64)) where
  R z n := z = hZ ▸ BitVec.ofNat 64 n
  off := by omega
  zero := rfl
  incr z n c h hc := by rw [h, hincr, BitVec.ofNat_add]
  pos z n h := by
    rw [h, hpos, hbs]
    have := maskNat_eq (BitVec.ofNat 64 n) 6 (by decide)
    rw [BitVec.toNat_ofNat, Nat.mod_mod_of_dvd _ (by decide)] at this
    exact this
  len z n h := by
    rw [h, hlen, write64be_eq, hbs, hoff, bigBytes, bigBytes]
    exact congrArg List.reverse (leBytes_mod_eq (ofNat_len n))
  encLen := bigBytes_len

theorem add_carry (a c : BitVec 64) :
    (a + c).toNat + 2 ^ 64 * (if a + c < c then (1 : BitVec 64) else 0).toNat = a.toNat + c.toNat := by
  have ha := a.isLt
  have hc := c.isLt
  by_cases h : a.toNat + c.toNat < 2 ^ 64
  · rw [if_neg (by rw [BitVec.lt_def, BitVec.toNat_add, Nat.mod_eq_of_lt h]; omega),
      BitVec.toNat_add, Nat.mod_eq_of_lt h]
    simp
  · have : (a.toNat + c.toNat) % 2 ^ 64 = a.toNat + c.toNat - 2 ^ 64 := by
      rw [Nat.mod_eq_sub_mod (by omega), Nat.mod_eq_of_lt (by omega)]
    rw [if_pos (by rw [BitVec.lt_def, BitVec.toNat_add, this]; omega), BitVec.toNat_add, this]
    show _ + 2 ^ 64 * 1 = _
    omega

theorem shl_or (a b : BitVec 64) :
    ((a <<< 3) ||| (b >>> 61)).toNat = (8 * a.toNat + b.toNat / 2 ^ 61) % 2 ^ 64 := by
  have hb := b.isLt
  rw [BitVec.toNat_or, shl3, BitVec.toNat_ushiftRight, Nat.shiftRight_eq_div_pow]
  have h1 : 8 * a.toNat % 2 ^ 64 = (a.toNat % 2 ^ 61) * 2 ^ 3 := by omega
  rw [h1, or_two _ _ 3 (by omega)]
  omega

theorem incr512 (z : BitVec 64 × BitVec 64) (c : Nat) (hc : c < 2 ^ 64) :
    ((sha512_increment z c).1.toNat + 2 ^ 64 * (sha512_increment z c).2.toNat) % 2 ^ 128 =
      (z.1.toNat + 2 ^ 64 * z.2.toNat + c) % 2 ^ 128 := by
  rw [sha512_increment]
  dsimp only
  have h := add_carry z.1 (BitVec.ofNat 64 c)
  rw [BitVec.toNat_ofNat, Nat.mod_eq_of_lt hc] at h
  generalize (if z.1 + BitVec.ofNat 64 c < BitVec.ofNat 64 c then (1 : BitVec 64) else 0) = d at *
  rw [BitVec.toNat_add z.2]
  omega

/-- The counter of SHA-512. -/
def ok512 : MdOk sha512Alg bigBytes ((0, 0) : BitVec 64 × BitVec 64) where
  R z n := (BitVec.toNat (w := 64) z.1 + 2 ^ 64 * BitVec.toNat (w := 64) z.2) % 2 ^ 128 = n % 2 ^ 128
  off := by decide
  zero := rfl
  incr z n c h hc := by
    have := incr512 z c hc
    show (BitVec.toNat (sha512_increment z c).1 + 2 ^ 64 * BitVec.toNat (sha512_increment z c).2) %
      2 ^ 128 = _
    rw [this]
    generalize BitVec.toNat (w := 64) z.1 + 2 ^ 64 * BitVec.toNat (w := 64) z.2 = x at *
    omega
  pos z n h := by
    have := maskNat_eq z.1 7 (by decide)
    show maskNat z.1 127 = n % 128
    refine this.trans ?_
    generalize BitVec.toNat (w := 64) z.1 = x at *
    generalize BitVec.toNat (w := 64) z.2 = y at *
    omega
  len z n h := by
    show (write64be ((z.2 <<< 3) ||| (z.1 >>> 61))).toList ++ (write64be (z.1 <<< 3)).toList =
      bigBytes (8 + 8) (8 * n)
    rw [bigBytes_append, write64be_eq, write64be_eq, shl_or, shl3]
    have h1 : BitVec.toNat (w := 64) z.1 < 2 ^ 64 := z.1.isLt
    generalize BitVec.toNat (w := 64) z.1 = x at *
    generalize BitVec.toNat (w := 64) z.2 = y at *
    refine congrArg₂ _ (congrArg List.reverse (leBytes_mod_eq ?_))
      (congrArg List.reverse (leBytes_mod_eq ?_))
    · rw [show (256 : Nat) ^ 8 = 2 ^ 64 from rfl]; omega
    · rw [show (256 : Nat) ^ 8 = 2 ^ 64 from rfl]; omega
  encLen := bigBytes_len

/-- The value of the four-word counters of Whirlpool and GOST94. -/
def val4 (z : BitVec 64 × BitVec 64 × BitVec 64 × BitVec 64) : Nat :=
  z.1.toNat + 2 ^ 64 * z.2.1.toNat + 2 ^ 128 * z.2.2.1.toNat + 2 ^ 192 * z.2.2.2.toNat

theorem incr4 (z : BitVec 64 × BitVec 64 × BitVec 64 × BitVec 64) (c : Nat) (hc : c < 2 ^ 64) :
    val4 (whirlpool_increment z c) % 2 ^ 256 = (val4 z + c) % 2 ^ 256 := by
  rw [whirlpool_increment, val4, val4]
  dsimp only
  have h := add_carry z.1 (BitVec.ofNat 64 c)
  rw [BitVec.toNat_ofNat, Nat.mod_eq_of_lt hc] at h
  generalize (if z.1 + BitVec.ofNat 64 c < BitVec.ofNat 64 c then (1 : BitVec 64) else 0) = d at *
  have h1 := add_carry z.2.1 d
  generalize (if z.2.1 + d < d then (1 : BitVec 64) else 0) = d1 at *
  have h2 := add_carry z.2.2.1 d1
  generalize (if z.2.2.1 + d1 < d1 then (1 : BitVec 64) else 0) = d2 at *
  rw [BitVec.toNat_add z.2.2.2]
  omega

theorem mask4 (z : BitVec 64 × BitVec 64 × BitVec 64 × BitVec 64) (n k : Nat) (hk : k ≤ 64)
    (h : val4 z % 2 ^ 256 = n % 2 ^ 256) :
    maskNat z.1 (BitVec.ofNat 64 (2 ^ k - 1)) = n % 2 ^ k := by
  rw [maskNat_eq _ _ hk]
  have h1 : z.1.toNat % 2 ^ k = val4 z % 2 ^ k := by
    have : val4 z = z.1.toNat + 2 ^ k * (2 ^ (64 - k) * (z.2.1.toNat + 2 ^ 64 * z.2.2.1.toNat +
        2 ^ 128 * z.2.2.2.toNat)) := by
      rw [← Nat.mul_assoc, ← Nat.pow_add, show k + (64 - k) = 64 by omega, val4]
      omega
    rw [this, Nat.add_mul_mod_self_left]
  have hd : 2 ^ k ∣ 2 ^ 256 := Nat.pow_dvd_pow 2 (by omega)
  rw [h1, ← Nat.mod_mod_of_dvd (val4 z) hd, h, Nat.mod_mod_of_dvd _ hd]

theorem len4 (z : BitVec 64 × BitVec 64 × BitVec 64 × BitVec 64) (n : Nat)
    (h : val4 z % 2 ^ 256 = n % 2 ^ 256) :
    (z.1 <<< 3).toNat % 2 ^ 64 = 8 * n % 2 ^ 64 ∧
    ((z.2.1 <<< 3) ||| (z.1 >>> 61)).toNat % 2 ^ 64 = 8 * n / 2 ^ 64 % 2 ^ 64 ∧
    ((z.2.2.1 <<< 3) ||| (z.2.1 >>> 61)).toNat % 2 ^ 64 = 8 * n / 2 ^ 128 % 2 ^ 64 ∧
    ((z.2.2.2 <<< 3) ||| (z.2.2.1 >>> 61)).toNat % 2 ^ 64 = 8 * n / 2 ^ 192 % 2 ^ 64 := by
  rw [shl_or, shl_or, shl_or, shl3]
  rw [val4] at h
  have h1 := z.1.isLt
  have h2 := z.2.1.isLt
  have h3 := z.2.2.1.isLt
  generalize z.1.toNat = a at *
  generalize z.2.1.toNat = b at *
  generalize z.2.2.1.toNat = c at *
  generalize z.2.2.2.toNat = d at *
  refine ⟨?_, ?_, ?_, ?_⟩ <;> omega

/-- The counter of Whirlpool. -/
def ok4 : MdOk whirlpoolAlg bigBytes
    ((0, 0, 0, 0) : BitVec 64 × BitVec 64 × BitVec 64 × BitVec 64) where
  R z n := val4 z % 2 ^ 256 = n % 2 ^ 256
  off := by decide
  zero := rfl
  incr z n c h hc := by
    show val4 (whirlpool_increment z c) % 2 ^ 256 = _
    rw [incr4 z c hc]
    generalize val4 z = x at *
    omega
  pos z n h := mask4 z n 6 (by decide) h
  len z n h := by
    obtain ⟨h1, h2, h3, h4⟩ := len4 z n h
    show (write64be ((z.2.2.2 <<< 3) ||| (z.2.2.1 >>> 61))).toList ++
      (write64be ((z.2.2.1 <<< 3) ||| (z.2.1 >>> 61))).toList ++
      (write64be ((z.2.1 <<< 3) ||| (z.1 >>> 61))).toList ++ (write64be (z.1 <<< 3)).toList =
      bigBytes (8 + (8 + (8 + 8))) (8 * n)
    rw [bigBytes_append, bigBytes_append, bigBytes_append, write64be_eq, write64be_eq, write64be_eq,
      write64be_eq]
    simp only [Nat.div_div_eq_div_mul]
    refine congrArg₂ _ (congrArg₂ _ (congrArg₂ _ ?_ ?_) ?_) ?_ <;>
      exact congrArg List.reverse (leBytes_mod_eq (by assumption))
  encLen := bigBytes_len

end Torsion.Hsh
