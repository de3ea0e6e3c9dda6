import Verif.Block.BlowfishPi
import Verif.Block.Lemmas

/-!
# Blowfish is the cipher of Schneier

`ofCtx` reads a context of the code as one sequence of words: the 18 words of `P`, then the 1024 words of `S`.
-/
namespace Torsion
open Spec Bf

/-- Only 72 bytes of a key count. -/
theorem cycWord_long {a b : List Byte} (ha : 72 ≤ a.length) (hb : 72 ≤ b.length) (h : a.take 72 = b.take 72) {i : Nat} (hi : i < 18) :
    cycWord a i = cycWord b i := by
  have hg : ∀ k, k < 72 → a.getD k 0 = b.getD k 0 := by
    intro k hk
    rw [List.getD_eq_getElem?_getD, List.getD_eq_getElem?_getD, ← List.getElem?_take_of_lt hk, h, List.getElem?_take_of_lt hk]
  unfold cycWord
  rw [if_neg (by intro e; rw [e] at ha; exact absurd ha (by decide)), if_neg (by intro e; rw [e] at hb; exact absurd hb (by decide))]
  have hf : ∀ j, j < 4 → (a.getD ((4 * i + j) % a.length) 0) = (b.getD ((4 * i + j) % b.length) 0) := by
    intro j hj
    rw [Nat.mod_eq_of_lt (by omega), Nat.mod_eq_of_lt (by omega), hg _ (by omega)]
  rw [show List.range 4 = [0, 1, 2, 3] from rfl]
  simp only [List.foldl_cons, List.foldl_nil, hf 0 (by decide), hf 1 (by decide), hf 2 (by decide), hf 3 (by decide)]

theorem bfExpand_congr {s : BfState} {salt a b : List Byte} (h : ∀ i, i < 18 → cycWord a i = cycWord b i) :
    bfExpand s salt a = bfExpand s salt b := by
  unfold bfExpand
  congr 3
  funext i
  by_cases c : i < 18
  · rw [if_pos c, if_pos c, h i c]
  · rw [if_neg c, if_neg c]

/-- `blowfish_init` is the key schedule of Blowfish, and with a salt the one of Provos and Mazières, from the digits of π, for
keys of every length. Of the salt only 1096 bytes are used. -/
theorem blowfish_init_exact (key salt : List Byte) :
    ofCtx (blowfish_init key salt) = bfExpand bfPi (salt.take 1096) key := by
  unfold blowfish_init blowfish_expand0state
  dsimp only
  have hs : (if salt.length > 1096 then salt.take 1096 else salt) = salt.take 1096 := by
    split
    · rfl
    · rw [List.take_of_length_le (by omega)]
  have hk : bfExpand bfPi (salt.take 1096) (if key.length > 72 then key.take 72 else key) = bfExpand bfPi (salt.take 1096) key := by
    by_cases c : key.length > 72
    · rw [if_pos c]
      refine bfExpand_congr (fun i hi => cycWord_long ?_ (by omega) ?_ hi)
      · rw [List.length_take]; omega
      · rw [List.take_take, Nat.min_self]
    · rw [if_neg c]
  rw [hs, ← hk, ← initial_pi, ← expand_eq]
  by_cases c : (salt.take 1096).length > 0
  · rw [if_pos c]
  · rw [if_neg c, show salt.take 1096 = [] from List.length_eq_zero_iff.1 (by omega)]

example : ofCtx (blowfish_init (List.replicate 100 7) []) = bfExpand bfPi [] (List.replicate 100 7) := blowfish_init_exact _ _

/-- The first words are the digits 0x243F6A88, 0x85A308D3 of π. -/
example : bfPi 0 = 0x243f6a88 ∧ bfPi 1 = 0x85a308d3 := by
  rw [← initial_pi, ofCtx_P _ (by decide), ofCtx_P _ (by decide)]
  decide +kernel

theorem write32be_be32 (w : BitVec 32) : (write32be w).toList = be32 w := by
  unfold write32be be32
  simp only [Vector.toList_mk, List.map_cons, List.map_nil, List.cons.injEq, and_true]
  refine ⟨?_, ?_, ?_, ?_⟩ <;>
    (apply BitVec.eq_of_toNat_eq
     simp [Nat.shiftRight_eq_div_pow])

/-- Encryption of a block is the sixteen rounds of the textbook on two words, most significant byte first. -/
theorem blowfish_encrypt_exact (ctx : Blowfish) (src : Vector Byte 8) (l r : BitVec 32) (h : src.toList = be32 l ++ be32 r) :
    (blowfish_encrypt ctx src).toList = be32 (bfEncrypt (ofCtx ctx) (l, r)).1 ++ be32 (bfEncrypt (ofCtx ctx) (l, r)).2 := by
  have hl : ∀ q : Two, (store2be q).toList = be32 q.l ++ be32 q.r := by
    intro q
    have e : (store2be q).toList = (write32be q.l ++ write32be q.r : Vector Byte (4 + 4)).toList := rfl
    rw [e, Vector.toList_append, write32be_be32, write32be_be32]
  have hs : src = store2be ⟨l, r⟩ := Vector.toList_inj.1 (by rw [h, hl])
  unfold blowfish_encrypt
  rw [hs, Blkc.load_store2be, encipher_eq, hl]

example : (Vector.ofFn fun i : Fin 8 => BitVec.ofNat 8 i.val).toList = be32 0x00010203 ++ be32 0x04050607 := by decide

/-- Two keys with the same first 72 bytes are the same key. -/
theorem blowfish_key_prefix (a b salt : List Byte) (ha : 72 ≤ a.length) (hb : 72 ≤ b.length) (h : a.take 72 = b.take 72) :
    ofCtx (blowfish_init a salt) = ofCtx (blowfish_init b salt) := by
  rw [blowfish_init_exact, blowfish_init_exact]
  exact bfExpand_congr (fun i hi => cycWord_long ha hb h hi)

example : (List.replicate 72 (1 : Byte) ++ [2]).take 72 = (List.replicate 72 (1 : Byte) ++ [3]).take 72 := by decide +kernel

/-- A key and the key written several times in a row are the same key. -/
theorem blowfish_key_repeat (key salt : List Byte) (n : Nat) :
    ofCtx (blowfish_init (List.replicate (n + 1) key).flatten salt) = ofCtx (blowfish_init key salt) := by
  rw [blowfish_init_exact, blowfish_init_exact]
  refine bfExpand_congr (fun i _ => ?_)
  have hlen : (List.replicate (n + 1) key).flatten.length = (n + 1) * key.length := by simp
  unfold cycWord
  by_cases c : key = []
  · rw [if_pos c, if_pos (by rw [c]; simp)]
  · have hp : 0 < key.length := List.length_pos_iff.2 c
    rw [if_neg c, if_neg (by intro e; rw [e] at hlen; simp only [List.length_nil] at hlen; have := Nat.mul_pos (Nat.succ_pos n) hp; rw [← hlen] at this; exact absurd this (by decide))]
    have hg : ∀ (m k : Nat), k < m * key.length → (List.replicate m key).flatten.getD k 0 = key.getD (k % key.length) 0 := by
      intro m
      induction m with
      | zero => intro k hk; omega
      | succ m ih =>
        intro k hk
        rw [List.replicate_succ, List.flatten_cons]
        by_cases hk1 : k < key.length
        · rw [Nat.mod_eq_of_lt hk1, List.getD_eq_getElem?_getD, List.getElem?_append_left hk1, ← List.getD_eq_getElem?_getD]
        · rw [List.getD_eq_getElem?_getD, List.getElem?_append_right (by omega), ← List.getD_eq_getElem?_getD,
            ih _ (by rw [Nat.add_mul, Nat.one_mul] at hk; omega), ← Nat.mod_eq_sub_mod (by omega)]
    have hf : ∀ j, ((List.replicate (n + 1) key).flatten.getD ((4 * i + j) % (List.replicate (n + 1) key).flatten.length) 0) =
        (key.getD ((4 * i + j) % key.length) 0) := by
      intro j
      rw [hlen, hg _ _ (Nat.mod_lt _ (Nat.mul_pos (Nat.succ_pos n) hp)), Nat.mod_mul_left_mod]
    simp only [hf]

example : (List.replicate 2 [(1 : Byte), 2]).flatten = [1, 2, 1, 2] := rfl

end Torsion
