import Verif.Block.Arc2
import Verif.Block.Blowfish
import Verif.Block.Cast5
import Verif.Block.Camellia
import Verif.Block.Twofish
import Verif.Block.Lemmas
import Mathlib.Data.BitVec
import Mathlib.Tactic.Ring

/-!
ARC2, Blowfish, CAST5, Camellia and Twofish: the rounds of decryption undo those of encryption.
-/
namespace Torsion.Blkc

/-- Rounds undone in the opposite order, where the state is exchanged in between. -/
theorem foldl_conj {α β σ : Type} (f : σ → α → σ) (g : σ → β → σ) (sw : σ → σ) (ρ : α → β)
    (h : ∀ s a, g (sw (f s a)) (ρ a) = sw s) :
    ∀ (l : List α) (s : σ), (l.reverse.map ρ).foldl g (sw (l.foldl f s)) = sw s
  | [], s => rfl
  | a :: l, s => by
    rw [List.reverse_cons, List.map_append, List.foldl_append]
    show g ((l.reverse.map ρ).foldl g (sw (l.foldl f (f s a)))) (ρ a) = sw s
    rw [foldl_conj f g sw ρ h l]
    exact h s a

theorem rotl16_undo (x : BitVec 16) (b : Fin 16) : rotl16 (rotl16 x b) (16 - b) = x := by
  apply BitVec.eq_of_getLsbD_eq
  intro i hi
  have hb := b.isLt
  simp only [rotl16, BitVec.getLsbD_or, BitVec.getLsbD_ushiftRight, BitVec.getLsbD_shiftLeft]
  rw [show 16 - (16 - b.val) = b.val by omega]
  by_cases h : i < 16 - b.val
  · have h1 : b.val + i < 16 := by omega
    have h2 : ¬ b.val + i < b.val := by omega
    simp only [h1, h2, h, hi, decide_true, decide_false, Bool.not_false, Bool.not_true, Bool.and_true,
      Bool.true_and, Bool.and_false, Bool.false_and, Bool.or_false,
      show b.val + i - b.val = i by omega]
    rw [BitVec.getLsbD_of_ge x _ (by omega), Bool.false_or]
  · have h1 : ¬ b.val + i < 16 := by omega
    have h2 : i - (16 - b.val) < 16 := by omega
    have h3 : i - (16 - b.val) < b.val := by omega
    simp only [h1, h2, h3, h, hi, decide_true, decide_false, Bool.not_false, Bool.not_true,
      Bool.and_true, Bool.true_and, Bool.and_false, Bool.false_and, Bool.or_false,
      show 16 - b.val + (i - (16 - b.val)) = i by omega]
    rw [BitVec.getLsbD_of_ge x _ (by omega), Bool.false_or]

theorem sub4 (a k x y : BitVec 16) : a + k + x + y - k - x - y = a := by ring

theorem arc2_unmix_mix (ctx : Arc2) (i : Fin 16) (q : Quad16) :
    arc2_unmix ctx i (arc2_mix ctx i q) = q := by
  obtain ⟨a, b, c, d⟩ := q
  have h1 := fun x => rotl16_undo x 1
  have h2 := fun x => rotl16_undo x 2
  have h3 := fun x => rotl16_undo x 3
  have h5 := fun x => rotl16_undo x 5
  simp only [Fin.coe_ofNat_eq_mod, Nat.reduceMod] at h1 h2 h3 h5
  simp only [arc2_unmix, arc2_mix, h1, h2, h3, h5, sub4]

theorem arc2_unmash_mash (ctx : Arc2) (q : Quad16) : arc2_unmash ctx (arc2_mash ctx q) = q := by
  obtain ⟨a, b, c, d⟩ := q
  simp only [arc2_unmash, arc2_mash, BitVec.add_sub_cancel]

theorem arc2_fold (ctx : Arc2) (l l' : List (Fin 16)) (hl : l' = l.reverse) (q : Quad16) :
    l'.foldl (fun q i => arc2_unmix ctx i q) (l.foldl (fun q i => arc2_mix ctx i q) q) = q :=
  foldl_undo' _ _ (fun s a => arc2_unmix_mix ctx a s) l l' hl q

theorem arc2_inv (ctx : Arc2) (b : Vector Byte 8) : arc2_decrypt ctx (arc2_encrypt ctx b) = b := by
  simp only [arc2_decrypt, arc2_encrypt, load_store4x16le]
  rw [arc2_fold ctx [11, 12, 13, 14, 15] [15, 14, 13, 12, 11] rfl, arc2_unmash_mash,
    arc2_fold ctx [5, 6, 7, 8, 9, 10] [10, 9, 8, 7, 6, 5] rfl, arc2_unmash_mash,
    arc2_fold ctx [0, 1, 2, 3, 4] [4, 3, 2, 1, 0] rfl, store_load4x16le]

def sw2 (s : Two) : Two := ⟨s.r, s.l⟩

theorem blowfish_two_undo (ctx : Blowfish) (s : Two) (ij : Fin 18 × Fin 18) :
    blowfish_two ctx (sw2 (blowfish_two ctx s ij)) (ij.2, ij.1) = sw2 s := by
  obtain ⟨l, r⟩ := s
  simp only [blowfish_two, sw2, xx]

theorem blowfish_enc_dec (ctx : Blowfish) (x : Two) :
    blowfish_decipher ctx (blowfish_encipher ctx x) = x := by
  have h := foldl_conj (blowfish_two ctx) (blowfish_two ctx) sw2 (fun ij => (ij.2, ij.1))
    (blowfish_two_undo ctx)
    [(1, 2), (3, 4), (5, 6), (7, 8), (9, 10), (11, 12), (13, 14), (15, 16)] ⟨x.l ^^^ ctx.P[0], x.r⟩
  simp only [blowfish_decipher, blowfish_encipher, xx]
  generalize List.foldl (blowfish_two ctx) _ [(1, 2), (3, 4), (5, 6), (7, 8), (9, 10), (11, 12),
    (13, 14), (15, 16)] = s at h ⊢
  have h' : List.foldl (blowfish_two ctx) ⟨s.r, s.l⟩ [(16, 15), (14, 13), (12, 11), (10, 9), (8, 7),
    (6, 5), (4, 3), (2, 1)] = sw2 ⟨x.l ^^^ ctx.P[0], x.r⟩ := h
  rw [h']
  simp only [sw2, xx]

theorem blowfish_inv (ctx : Blowfish) (b : Vector Byte 8) :
    blowfish_decrypt ctx (blowfish_encrypt ctx b) = b := by
  rw [blowfish_decrypt, blowfish_encrypt, load_store2be, blowfish_enc_dec, store_load2be]

theorem cast5_R_undo (ctx : Cast5) (s : Two)
    (fi : (BitVec 32 → BitVec 32 → BitVec 32 → BitVec 32) × Fin 16) :
    cast5_R ctx (sw2 (cast5_R ctx s fi)) fi = sw2 s := by
  obtain ⟨l, r⟩ := s
  simp only [cast5_R, sw2, xx]

theorem cast5_inv (ctx : Cast5) (b : Vector Byte 8) :
    cast5_decrypt ctx (cast5_encrypt ctx b) = b := by
  have h := foldl_conj (cast5_R ctx) (cast5_R ctx) sw2 id (cast5_R_undo ctx)
    [(cast5_f1, 0), (cast5_f2, 1), (cast5_f3, 2), (cast5_f1, 3), (cast5_f2, 4), (cast5_f3, 5),
    (cast5_f1, 6), (cast5_f2, 7), (cast5_f3, 8), (cast5_f1, 9), (cast5_f2, 10), (cast5_f3, 11),
    (cast5_f1, 12), (cast5_f2, 13), (cast5_f3, 14), (cast5_f1, 15)] (load2be b)
  simp only [cast5_decrypt, cast5_encrypt, load_store2be]
  generalize List.foldl (cast5_R ctx) (load2be b) _ = s at h ⊢
  have h' : List.foldl (cast5_R ctx) ⟨s.r, s.l⟩ [(cast5_f1, 15), (cast5_f3, 14), (cast5_f2, 13),
    (cast5_f1, 12), (cast5_f3, 11), (cast5_f2, 10), (cast5_f1, 9), (cast5_f3, 8), (cast5_f2, 7),
    (cast5_f1, 6), (cast5_f3, 5), (cast5_f2, 4), (cast5_f1, 3), (cast5_f3, 2), (cast5_f2, 1),
    (cast5_f1, 0)] = sw2 (load2be b) := h
  rw [h']
  exact store_load2be b

def sw4 (s : Quad) : Quad := ⟨s.c, s.d, s.a, s.b⟩

theorem xx4 {w : Nat} (d u z : BitVec w) : d ^^^ u ^^^ z ^^^ u ^^^ z = d := by
  rw [BitVec.xor_assoc d u z, BitVec.xor_assoc d, BitVec.xor_comm u z, xx, xx]

theorem camellia_F_undo (a b c d k0 k1 : BitVec 32) :
    camellia_F a b (camellia_F a b c d k0 k1).l (camellia_F a b c d k0 k1).r k0 k1 = ⟨c, d⟩ := by
  simp only [camellia_F, xx, xx4]

theorem camellia_two_undo (k : Vector (BitVec 32) 68) (q : Quad) (i j : Nat) (hi : i + 1 < 68)
    (hj : j + 1 < 68) :
    camellia_two k (sw4 (camellia_two k q i j hi hj)) j i hj hi = sw4 q := by
  obtain ⟨a, b, c, d⟩ := q
  simp only [camellia_two, sw4, camellia_F_undo]

theorem camellia_six_undo (k : Vector (BitVec 32) 68) (q : Quad) (i : Nat) (h : i + 11 < 68) :
    camellia_six_rev k (sw4 (camellia_six k q i h)) i h = sw4 q := by
  simp only [camellia_six_rev, camellia_six, camellia_two_undo]

theorem camellia_fl_undo (q : Quad) (ka kb kc kd : BitVec 32) :
    camellia_fl (sw4 (camellia_fl q ka kb kc kd)) kc kd ka kb = sw4 q := by
  obtain ⟨a, b, c, d⟩ := q
  simp only [camellia_fl, sw4, xx]

theorem camellia128_inv (ctx : Camellia) (b : Vector Byte 16) :
    camellia128_decrypt ctx (camellia128_encrypt ctx b) = b := by
  simp only [camellia128_decrypt, camellia128_encrypt, load_store4be, xx]
  have e : ∀ q : Quad, (⟨q.c, q.d, q.a, q.b⟩ : Quad) = sw4 q := fun _ => rfl
  simp only [e, camellia_six_undo, camellia_fl_undo]
  simp only [sw4, xx]
  exact store_load4be b

theorem camellia256_inv (ctx : Camellia) (b : Vector Byte 16) :
    camellia256_decrypt ctx (camellia256_encrypt ctx b) = b := by
  simp only [camellia256_decrypt, camellia256_encrypt, load_store4be, xx]
  have e : ∀ q : Quad, (⟨q.c, q.d, q.a, q.b⟩ : Quad) = sw4 q := fun _ => rfl
  simp only [e, camellia_six_undo, camellia_fl_undo]
  simp only [sw4, xx]
  exact store_load4be b

theorem camellia_inv (ctx : Camellia) (b : Vector Byte 16) :
    camellia_decrypt ctx (camellia_encrypt ctx b) = b := by
  unfold camellia_decrypt camellia_encrypt
  split
  · exact camellia128_inv ctx b
  · exact camellia256_inv ctx b

theorem rol_ror (x : BitVec 32) : twofish_rol32 (twofish_ror32 x 1) 1 = x := by
  apply BitVec.eq_of_getLsbD_eq
  intro i hi
  simp only [twofish_rol32, twofish_ror32, Nat.reduceMod, Nat.reduceSub, BitVec.getLsbD_or,
    BitVec.getLsbD_ushiftRight, BitVec.getLsbD_shiftLeft]
  by_cases h : i = 0
  · subst h
    simp
  · have h1 : i - 1 < 31 := by omega
    have h2 : ¬ 31 + i < 32 := by omega
    have h3 : 1 + (i - 1) = i := by omega
    have h4 : ¬ i < 1 := by omega
    simp [h1, h2, h3, h4, hi, h]
    intro h5
    rw [BitVec.getLsbD_of_ge x _ (by omega)] at h5
    simp at h5

theorem ror_rol (x : BitVec 32) : twofish_ror32 (twofish_rol32 x 1) 1 = x := by
  apply BitVec.eq_of_getLsbD_eq
  intro i hi
  simp only [twofish_rol32, twofish_ror32, Nat.reduceMod, Nat.reduceSub, BitVec.getLsbD_or,
    BitVec.getLsbD_ushiftRight, BitVec.getLsbD_shiftLeft]
  by_cases h : i = 31
  · subst h
    simp
  · have h1 : 1 + i < 32 := by omega
    have h2 : ¬ 1 + i < 1 := by omega
    have h3 : 1 + i - 1 = i := by omega
    have h4 : i < 31 := by omega
    simp [h1, h2, h3, h4, hi]
    intro h5
    rw [BitVec.getLsbD_of_ge x _ (by omega)] at h5
    simp at h5

theorem twofish_round_undo (ctx : Twofish) (q : Quad) (i : Fin 8) :
    twofish_unround ctx (twofish_round ctx q i) i = q := by
  obtain ⟨a, b, c, d⟩ := q
  have e (n m : Nat) (h : 8 + i.val * 4 + n < 40) (h' : 4 + (i.val + 1) * 4 + n < 40) :
      ctx.k[4 + (i.val + 1) * 4 + n] = ctx.k[8 + i.val * 4 + n] := by
    congr 1; omega
  have e0 : ctx.k[4 + (i.val + 1) * 4] = ctx.k[8 + i.val * 4] := by congr 1; omega
  simp only [twofish_unround, twofish_round, e0, e 1 0 (by omega) (by omega),
    e 2 0 (by omega) (by omega), e 3 0 (by omega) (by omega), rol_ror, ror_rol, xx]

theorem twofish_inv (ctx : Twofish) (b : Vector Byte 16) :
    twofish_decrypt ctx (twofish_encrypt ctx b) = b := by
  simp only [twofish_decrypt, twofish_encrypt, load_store4le, xx]
  rw [foldl_undo' (twofish_round ctx) (twofish_unround ctx) (twofish_round_undo ctx)
    (List.finRange 8) [7, 6, 5, 4, 3, 2, 1, 0] (by decide)]
  simp only [xx]
  exact store_load4le b

end Torsion.Blkc
