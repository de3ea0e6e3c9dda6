import Verif.Block.AesKey
import Verif.Block.Cipher
import Verif.Block.Feistel
import Verif.Block.SerpentLemmas
import Verif.Block.DesLemmas
import Verif.Block.IdeaLemmas

/-!
The key schedules are defined for all keys of the permitted lengths.
-/
namespace Torsion.Blkc

/-- The outcome is a value. -/
def Def {α : Type} (x : C α) : Prop := ∃ a, x = .ok a

theorem Def.ok {α : Type} (a : α) : Def (C.ok a) := ⟨a, rfl⟩

theorem Def.bind {α β : Type} {x : C α} {f : α → C β} (h : Def x) (hf : ∀ a, x = .ok a → Def (f a)) :
    Def (x >>= f) := by
  obtain ⟨a, rfl⟩ := h
  rw [C.ok_bind]
  exact hf a rfl

theorem def_rd {α : Type} {xs : List α} {i : Nat} (h : i < xs.length) : Def (C.rd xs i) := by
  simp [C.rd, h, Def]

theorem def_key_be {key : List Byte} {off : Nat} (h : off + 4 ≤ key.length) : Def (key_be key off) := by
  obtain ⟨v, h1, -⟩ := Blk.vec_ok (n := 4) (xs := (key.drop off).take 4) (by simp; omega)
  rw [key_be, C.slice, if_pos h, C.ok_bind, h1, C.ok_bind]
  exact Def.ok _

theorem def_key_le {key : List Byte} {off : Nat} (h : off + 4 ≤ key.length) : Def (key_le key off) := by
  obtain ⟨v, h1, -⟩ := Blk.vec_ok (n := 4) (xs := (key.drop off).take 4) (by simp; omega)
  rw [key_le, C.slice, if_pos h, C.ok_bind, h1, C.ok_bind]
  exact Def.ok _

theorem be_words_len (key : List Byte) : ∀ n i, 4 * (i + n) ≤ key.length →
    ∃ w, be_words key n i = .ok w ∧ w.length = n
  | 0, _, _ => ⟨[], rfl, rfl⟩
  | n + 1, i, h => by
    obtain ⟨w, h1⟩ := def_key_be (key := key) (off := 4 * i) (by omega)
    obtain ⟨ws, h2, h3⟩ := be_words_len key n (i + 1) (by omega)
    exact ⟨w :: ws, by rw [be_words, h1, C.ok_bind, h2, C.ok_bind], by simp [h3]⟩

theorem arr_ok {α : Type} {n : Nat} {xs : List α} (h : xs.length = n) : Def (C.arr n xs) := by
  rw [C.arr, dif_pos h]; exact Def.ok _

theorem aes_def (nk : Nat) (hk : nk = 4 ∨ nk = 6 ∨ nk = 8) (key : List Byte) (h : key.length = 4 * nk) :
    ∃ k : Vector Byte (4 * nk), k.toList = key ∧ aes_init (32 * nk) key = .ok (aesCtx nk k) := by
  refine ⟨⟨key.toArray, by simpa using h⟩, by simp, ?_⟩
  have := aes_init_ok nk hk ⟨key.toArray, by simpa using h⟩
  simpa using this

/-! ARC2 -/

theorem arc2_fill_len (kl : Nat) (hk : 1 ≤ kl) : ∀ (n : Nat) (L : List Byte), kl ≤ L.length →
    ∃ L', arc2_fill kl n L = .ok L' ∧ L'.length = L.length + n
  | 0, L, _ => ⟨L, rfl, rfl⟩
  | n + 1, L, h => by
    obtain ⟨x, hx⟩ := def_rd (xs := L) (i := L.length - kl) (by omega)
    obtain ⟨y, hy⟩ := def_rd (xs := L) (i := L.length - 1) (by omega)
    obtain ⟨L', h1, h2⟩ := arc2_fill_len kl hk n (L ++ [tbl arc2_PI (x + y)]) (by simp; omega)
    refine ⟨L', by rw [arc2_fill, hx, C.ok_bind, hy, C.ok_bind, h1], ?_⟩
    rw [h2]; simp; omega

theorem arc2_reduce_len (len : Nat) : ∀ (i : Nat) (x : Byte) (L : List Byte), i + len ≤ L.length → 1 ≤ len →
    ∃ L', arc2_reduce len i x L = .ok L' ∧ L'.length = L.length
  | 0, x, L, _, _ => ⟨L, rfl, rfl⟩
  | i + 1, x, L, h, hl => by
    obtain ⟨y, hy⟩ := def_rd (xs := L) (i := i + len) (by omega)
    obtain ⟨L', h1, h2⟩ := arc2_reduce_len len i (tbl arc2_PI (x ^^^ y)) (L.set i (tbl arc2_PI (x ^^^ y)))
      (by simp; omega) hl
    refine ⟨L', ?_, by rw [h2]; simp⟩
    rw [arc2_reduce, hy, C.ok_bind]
    simp only [C.wr]
    rw [if_pos (by omega), C.ok_bind, h1]

theorem arc2_def (key : List Byte) (ekb : Nat) (h1 : 1 ≤ key.length) (h2 : key.length ≤ 128) (he : ekb ≤ 1024) :
    Def (arc2_init key ekb) := by
  rw [arc2_init, C.check, if_pos (by simp; omega), C.ok_bind, C.check, if_pos (by simpa using he), C.ok_bind]
  obtain ⟨L, hL, hl⟩ := arc2_fill_len key.length h1 (128 - key.length) key (le_refl _)
  rw [hL, C.ok_bind]
  obtain ⟨b, hb⟩ := def_rd (xs := L) (i := 0) (by omega)
  rw [hb, C.ok_bind, C.wr, if_pos (by omega), C.ok_bind]
  have hl' : (L.set 0 (tbl arc2_PI b)).length = 128 := by simp; omega
  generalize L.set 0 (tbl arc2_PI b) = L2 at hl' ⊢
  have fin : ∀ L3 : List Byte, L3.length = 128 → Def (arc2_words L3 >>= fun k => C.ok (Arc2.mk k)) := by
    intro L3 h3
    obtain ⟨v, hv, -⟩ := Blk.vec_ok (n := 128) (xs := L3) (by omega)
    rw [arc2_words, hv, C.ok_bind, C.ok_bind]
    exact Def.ok _
  by_cases hc : ekb > 0 ∧ ekb < 1024
  · rw [if_pos hc]
    obtain ⟨c, hcd⟩ := def_rd (xs := L2) (i := 128 - (ekb + 7) / 8) (by omega)
    simp only []
    rw [hcd, C.ok_bind, C.wr, if_pos (by omega), C.ok_bind]
    obtain ⟨L', e1, e2⟩ := arc2_reduce_len ((ekb + 7) / 8) (128 - (ekb + 7) / 8)
      (tbl arc2_PI (c &&& ((255 : Byte) >>> ((2 ^ 32 - ekb) % 8))))
      (L2.set (128 - (ekb + 7) / 8) (tbl arc2_PI (c &&& ((255 : Byte) >>> ((2 ^ 32 - ekb) % 8)))))
      (by simp; omega) (by omega)
    rw [e1, C.ok_bind]
    exact fin L' (by rw [e2]; simpa using hl')
  · rw [if_neg hc, C.ok_bind]
    exact fin L2 hl'

/-! CAST5 -/

theorem cast5_a_idx : ∀ (r j : Fin 4), cast5_A[28 * r.val + 7 * j.val].val < 8 ∧
    cast5_A[28 * r.val + 7 * j.val + 1].val < 8 := by decide +kernel

theorem cast5_a_def (r : Fin 4) : ∀ (js : List (Fin 4)) (t : Vector (BitVec 32) 8), Def (cast5_a r t js)
  | [], t => Def.ok t
  | j :: js, t => by
    have h := cast5_a_idx r j
    rw [cast5_a]
    refine Def.bind (def_rd (by simpa using h.2)) fun w _ => ?_
    simp only []
    rw [dif_pos h.1]
    exact cast5_a_def r js _

theorem cast5_loop_len : ∀ (rs : List (Fin 4)) (t : Vector (BitVec 32) 8) (k : List (BitVec 32)),
    ∃ k', cast5_loop rs t k = .ok k' ∧ k'.length = k.length + 4 * rs.length
  | [], t, k => ⟨k, rfl, rfl⟩
  | r :: rs, t, k => by
    obtain ⟨t', ht⟩ := cast5_a_def r [0, 1, 2, 3] t
    obtain ⟨k', h1, h2⟩ := cast5_loop_len rs t' (k ++ cast5_b r t')
    refine ⟨k', by rw [cast5_loop, ht, C.ok_bind, h1], ?_⟩
    rw [h2]; simp [cast5_b]; omega

theorem cast5_def (key : List Byte) (h : key.length = 16) : Def (cast5_init key) := by
  obtain ⟨w, h1, h2⟩ := be_words_len key 4 0 (by omega)
  rw [cast5_init, h1, C.ok_bind]
  refine Def.bind (arr_ok (by simp [h2])) fun t _ => ?_
  obtain ⟨k, h3, h4⟩ := cast5_loop_len [0, 1, 2, 3, 0, 1, 2, 3] t []
  rw [h3, C.ok_bind]
  exact Def.bind (arr_ok (by rw [h4]; rfl)) fun _ _ => Def.ok _

/-! DES -/

theorem des_keys_len : ∀ (sh : List Nat) (a b : BitVec 32) (ks : List (BitVec 32)),
    (des_keys sh a b ks).length = ks.length + 2 * sh.length
  | [], _, _, ks => rfl
  | s :: sh, a, b, ks => by rw [des_keys, des_keys_len]; simp; omega

theorem des_def (key : List Byte) (h : 8 ≤ key.length) : Def (des_init key) := by
  rw [des_init]
  refine Def.bind (def_key_be (by omega)) fun _ _ => Def.bind (def_key_be (by omega)) fun _ _ => ?_
  exact Def.bind (arr_ok (by rw [des_keys_len]; rfl)) fun _ _ => Def.ok _

theorem ede_def (key : List Byte) (h : 16 ≤ key.length) : Def (des_ede_init key) := by
  rw [des_ede_init]
  exact Def.bind (des_def _ (by omega)) fun _ _ => Def.bind (des_def _ (by simp; omega)) fun _ _ => Def.ok _

theorem ede3_def (key : List Byte) (h : 24 ≤ key.length) : Def (des_ede3_init key) := by
  rw [des_ede3_init]
  exact Def.bind (des_def _ (by omega)) fun _ _ => Def.bind (des_def _ (by simp; omega)) fun _ _ =>
    Def.bind (des_def _ (by simp; omega)) fun _ _ => Def.ok _

/-! IDEA -/

theorem idea_words_len (key : List Byte) : ∀ n j, 2 * (j + n) ≤ key.length →
    ∃ w, idea_words key n j = .ok w ∧ w.length = n
  | 0, _, _ => ⟨[], rfl, rfl⟩
  | n + 1, j, h => by
    obtain ⟨v, h1, -⟩ := Blk.vec_ok (n := 2) (xs := (key.drop (j * 2)).take 2) (by simp; omega)
    obtain ⟨ws, h2, h3⟩ := idea_words_len key n (j + 1) (by omega)
    exact ⟨read16be v :: ws, by rw [idea_words, C.slice, if_pos (by omega), C.ok_bind, h1, C.ok_bind, h2, C.ok_bind],
      by simp [h3]⟩

theorem idea_expand_len : ∀ (n i off : Nat) (K : List (BitVec 16)), i < 8 → K.length = off + i + 8 →
    ∃ K', idea_expand n i off K = .ok K' ∧ K'.length = K.length + n
  | 0, _, _, K, _, _ => ⟨K, rfl, rfl⟩
  | n + 1, i, off, K, hi, h => by
    obtain ⟨x, hx⟩ := def_rd (xs := K) (i := off + (i + 1) % 8) (by omega)
    obtain ⟨y, hy⟩ := def_rd (xs := K) (i := off + (i + 1 + 1) % 8) (by omega)
    obtain ⟨K', h1, h2⟩ := idea_expand_len n ((i + 1) % 8) (off + (i + 1) / 8 * 8)
      (K ++ [(x <<< 9) ||| (y >>> 7)]) (by omega) (by simp; omega)
    refine ⟨K', ?_, by rw [h2]; simp; omega⟩
    rw [idea_expand, hx, C.ok_bind, hy, C.ok_bind, if_pos (by omega), h1]

theorem idea_def (key : List Byte) (h : key.length = 16) :
    ∃ K, idea_init key = .ok ⟨K, idea_dk K⟩ := by
  obtain ⟨w, h1, h2⟩ := idea_words_len key 8 0 (by omega)
  obtain ⟨K, h3, h4⟩ := idea_expand_len 44 0 0 w (by decide) (by omega)
  obtain ⟨V, h5⟩ := arr_ok (n := 52) (xs := K) (by omega)
  exact ⟨V, by rw [idea_init, idea_init_encrypt, h1, C.ok_bind, h3, C.ok_bind, h5, C.ok_bind, idea_init_decrypt_eq,
    C.ok_bind]⟩

/-! Camellia -/

theorem camellia128_def (key : List Byte) (h : key.length = 16) : Def (camellia_init 128 key) := by
  rw [camellia_init, if_pos rfl, camellia128_init]
  exact Def.bind (def_key_be (by omega)) fun _ _ => Def.bind (def_key_be (by omega)) fun _ _ =>
    Def.bind (def_key_be (by omega)) fun _ _ => Def.bind (def_key_be (by omega)) fun _ _ => Def.ok _

theorem camellia192_def (key : List Byte) (h : key.length = 24) : Def (camellia_init 192 key) := by
  rw [camellia_init, if_neg (by decide), if_pos rfl, camellia256_init]
  exact Def.bind (def_key_be (by omega)) fun _ _ => Def.bind (def_key_be (by omega)) fun _ _ =>
    Def.bind (def_key_be (by omega)) fun _ _ => Def.bind (def_key_be (by omega)) fun _ _ =>
    Def.bind (def_key_be (by omega)) fun _ _ => Def.bind (def_key_be (by omega)) fun _ _ => Def.ok _

theorem camellia256_def (key : List Byte) (h : key.length = 32) : Def (camellia_init 256 key) := by
  rw [camellia_init, if_neg (by decide), if_neg (by decide), if_pos rfl, camellia256_init]
  refine Def.bind (def_key_be (by omega)) fun _ _ => Def.bind (def_key_be (by omega)) fun _ _ =>
    Def.bind (def_key_be (by omega)) fun _ _ => Def.bind (def_key_be (by omega)) fun _ _ =>
    Def.bind (def_key_be (by omega)) fun _ _ => Def.bind (def_key_be (by omega)) fun _ _ => ?_
  rw [if_neg (by decide), if_pos rfl]
  exact Def.bind (def_key_be (by omega)) fun _ _ => Def.bind (def_key_be (by omega)) fun _ _ => Def.ok _

/-! Serpent -/

theorem serpent_words_len (key : List Byte) : ∀ n i, 4 * (i + n) ≤ key.length →
    ∃ w, serpent_words key n i = .ok w ∧ w.length = n
  | 0, _, _ => ⟨[], rfl, rfl⟩
  | n + 1, i, h => by
    obtain ⟨w, h1⟩ := def_key_le (key := key) (off := 4 * i) (by omega)
    obtain ⟨ws, h2, h3⟩ := serpent_words_len key n (i + 1) (by omega)
    exact ⟨w :: ws, by rw [serpent_words, h1, C.ok_bind, h2, C.ok_bind], by simp [h3]⟩

theorem serpent_expand_len : ∀ (m n : Nat) (K : List (BitVec 32)), K.length = n + 8 →
    ∃ K', serpent_expand m n K = .ok K' ∧ K'.length = K.length + m
  | 0, _, K, _ => ⟨K, rfl, rfl⟩
  | m + 1, n, K, h => by
    obtain ⟨w0, e0⟩ := def_rd (xs := K) (i := n) (by omega)
    obtain ⟨w3, e3⟩ := def_rd (xs := K) (i := n + 3) (by omega)
    obtain ⟨w5, e5⟩ := def_rd (xs := K) (i := n + 5) (by omega)
    obtain ⟨w7, e7⟩ := def_rd (xs := K) (i := n + 7) (by omega)
    rw [serpent_expand, e0, C.ok_bind, e3, C.ok_bind, e5, C.ok_bind, e7, C.ok_bind]
    generalize w0 ^^^ w3 ^^^ w5 ^^^ w7 ^^^ (0x9e3779b9 : BitVec 32) ^^^ BitVec.ofNat 32 n = x
    obtain ⟨K', h1, h2⟩ := serpent_expand_len m (n + 1) (K ++ [(x <<< 11) ||| (x >>> 21)]) (by simp; omega)
    exact ⟨K', h1, by rw [h2]; simp; omega⟩

theorem serpent_def (nk : Nat) (hk : nk = 4 ∨ nk = 6 ∨ nk = 8) (key : List Byte) (h : key.length = 4 * nk) :
    Def (serpent_init (32 * nk) key) := by
  obtain ⟨w, h1, h2⟩ := serpent_words_len key nk 0 (by omega)
  rw [serpent_init, C.check, if_pos (by simp; omega), C.ok_bind, show 32 * nk / 32 = nk by omega, h1, C.ok_bind]
  have hl : (if w.length < 8 then w ++ [1] else w).length ≤ 8 := by
    split
    · rw [List.length_append, List.length_singleton]; omega
    · omega
  generalize (if w.length < 8 then w ++ [1] else w) = k1 at hl ⊢
  obtain ⟨K, h3, h4⟩ := serpent_expand_len 132 0 (k1 ++ List.replicate (8 - k1.length) 0) (by simp; omega)
  simp only []
  rw [h3, C.ok_bind]
  refine Def.bind (arr_ok ?_) fun _ _ => Def.ok _
  rw [List.length_drop, h4]; simp; omega

/-! Twofish -/

theorem gf_step : ∀ x : Byte, ∀ p : BitVec 32, p = 0x14d ∨ p = 0x169 →
    ∃ q, C.rd [0, p] ((x.zeroExtend 32) >>> 7).toNat = .ok q ∧
      ∃ y : Byte, q ^^^ ((x.zeroExtend 32) <<< 1) = y.zeroExtend 32 := by
  intro x p hp
  have h : ∀ x : Byte,
      (C.rd [0, (0x14d : BitVec 32)] ((x.zeroExtend 32) >>> 7).toNat =
        .ok (if x.getLsbD 7 then 0x14d else 0) ∧
        (if x.getLsbD 7 then (0x14d : BitVec 32) else 0) ^^^ ((x.zeroExtend 32) <<< 1) =
        (((if x.getLsbD 7 then (0x14d : BitVec 32) else 0) ^^^ ((x.zeroExtend 32) <<< 1)).truncate 8 : Byte).zeroExtend 32) ∧
      (C.rd [0, (0x169 : BitVec 32)] ((x.zeroExtend 32) >>> 7).toNat =
        .ok (if x.getLsbD 7 then 0x169 else 0) ∧
        (if x.getLsbD 7 then (0x169 : BitVec 32) else 0) ^^^ ((x.zeroExtend 32) <<< 1) =
        (((if x.getLsbD 7 then (0x169 : BitVec 32) else 0) ^^^ ((x.zeroExtend 32) <<< 1)).truncate 8 : Byte).zeroExtend 32) := by
    apply forall_byte
    decide +kernel
  rcases hp with rfl | rfl
  · exact ⟨_, (h x).1.1, _, (h x).1.2⟩
  · exact ⟨_, (h x).2.1, _, (h x).2.2⟩

theorem gf_loop_def (p : BitVec 32) (hp : p = 0x14d ∨ p = 0x169) : ∀ (n : Nat) (a : BitVec 8) (b : Byte)
    (res : BitVec 32), Def (twofish_gf_loop p n a (b.zeroExtend 32) res)
  | 0, _, _, _ => Def.ok _
  | n + 1, a, b, res => by
    obtain ⟨q, h1, y, h2⟩ := gf_step b p hp
    rw [twofish_gf_loop, h1, C.ok_bind, h2]
    exact gf_loop_def p hp n _ _ _

theorem gf_mul_def (a b : Byte) (p : BitVec 32) (hp : p = 0x14d ∨ p = 0x169) : Def (twofish_gf_mul a b p) := by
  rw [twofish_gf_mul]
  exact Def.bind (gf_loop_def p hp _ _ _ _) fun _ _ => Def.ok _

theorem mds_def (v : Byte) (col : Nat) (h : col < 4) : Def (twofish_mds_mul v col) := by
  rw [twofish_mds_mul]
  refine Def.bind (gf_mul_def _ _ _ (Or.inr rfl)) fun _ _ => Def.bind (gf_mul_def _ _ _ (Or.inr rfl)) fun _ _ => ?_
  simp only []
  interval_cases col <;> exact Def.ok _

theorem rd4_def (key : List Byte) (i : Nat) (h : 4 * i + 4 ≤ key.length) : Def (twofish_rd4 key i) := by
  rw [twofish_rd4]
  exact Def.bind (def_rd (by omega)) fun _ _ => Def.bind (def_rd (by omega)) fun _ _ =>
    Def.bind (def_rd (by omega)) fun _ _ => Def.bind (def_rd (by omega)) fun _ _ => Def.ok _

theorem h4_def (key : List Byte) (off : Nat) (y : Four) (h : 4 * (6 + off) + 4 ≤ key.length) :
    Def (twofish_h4 key off y) := by
  rw [twofish_h4]; exact Def.bind (rd4_def _ _ h) fun _ _ => Def.ok _

theorem h3_def (key : List Byte) (off : Nat) (y : Four) (h : 4 * (4 + off) + 4 ≤ key.length) :
    Def (twofish_h3 key off y) := by
  rw [twofish_h3]; exact Def.bind (rd4_def _ _ h) fun _ _ => Def.ok _

theorem h2_def (key : List Byte) (off : Nat) (y : Four) (h : 4 * (2 + off) + 4 ≤ key.length) :
    Def (twofish_h2 key off y) := by
  rw [twofish_h2]
  exact Def.bind (rd4_def _ _ h) fun _ _ => Def.bind (rd4_def _ _ (by omega)) fun _ _ => Def.ok _

theorem h_gen_def (v : Byte) (key : List Byte) (off k : Nat) (hk : k = 2 ∨ k = 3 ∨ k = 4) (ho : off ≤ 1)
    (h : key.length = 8 * k) : Def (twofish_h_gen v key off k) := by
  rw [twofish_h_gen]
  refine Def.bind ?_ fun y _ => ?_
  · rcases hk with rfl | rfl | rfl
    · rw [if_neg (by decide), if_neg (by decide), if_pos rfl]
      exact h2_def _ _ _ (by omega)
    · rw [if_neg (by decide), if_pos rfl]
      exact Def.bind (h3_def _ _ _ (by omega)) fun _ _ => h2_def _ _ _ (by omega)
    · rw [if_pos rfl]
      exact Def.bind (h4_def _ _ _ (by omega)) fun _ _ => Def.bind (h3_def _ _ _ (by omega)) fun _ _ =>
        h2_def _ _ _ (by omega)
  · exact Def.bind (mds_def _ _ (by decide)) fun _ _ => Def.bind (mds_def _ _ (by decide)) fun _ _ =>
      Def.bind (mds_def _ _ (by decide)) fun _ _ => Def.bind (mds_def _ _ (by decide)) fun _ _ => Def.ok _

theorem rs_def (key : List Byte) (i : Nat) (j : Fin 4) (h : 8 * i + 8 ≤ key.length) : ∀ (vs : List (Fin 8)) (w : Byte),
    Def (twofish_rs key i j vs w)
  | [], w => Def.ok w
  | v :: vs, w => by
    rw [twofish_rs]
    exact Def.bind (def_rd (by omega)) fun _ _ => Def.bind (gf_mul_def _ _ _ (Or.inl rfl)) fun _ _ =>
      rs_def key i j h vs _

theorem W_def (key : List Byte) (i : Nat) (h : 8 * i + 8 ≤ key.length) : Def (twofish_W key i) := by
  rw [twofish_W]
  exact Def.bind (rs_def _ _ _ h _ _) fun _ _ => Def.bind (rs_def _ _ _ h _ _) fun _ _ =>
    Def.bind (rs_def _ _ _ h _ _) fun _ _ => Def.bind (rs_def _ _ _ h _ _) fun _ _ => Def.ok _

theorem subkeys_len (key : List Byte) (k : Nat) (hk : k = 2 ∨ k = 3 ∨ k = 4) (h : key.length = 8 * k) :
    ∀ (is : List (Fin 20)) (ks : List (BitVec 32)),
    ∃ ks', twofish_subkeys key k is ks = .ok ks' ∧ ks'.length = ks.length + 2 * is.length
  | [], ks => ⟨ks, rfl, rfl⟩
  | i :: is, ks => by
    obtain ⟨A, hA⟩ := h_gen_def (BitVec.ofNat 8 (2 * i.val)) key 0 k hk (by decide) h
    obtain ⟨B, hB⟩ := h_gen_def (BitVec.ofNat 8 (2 * i.val + 1)) key 1 k hk (by decide) h
    rw [twofish_subkeys, hA, C.ok_bind, hB, C.ok_bind]
    obtain ⟨ks', h1, h2⟩ := subkeys_len key k hk h is
      (ks ++ [A + twofish_rol32 B 8, twofish_rol32 (2 * twofish_rol32 B 8 + A) 9])
    exact ⟨ks', h1, by rw [h2]; simp; omega⟩

theorem fill_len (f : Byte → Byte) (col : Nat) (hc : col < 4) : ∀ (is : List (Fin 256)) (t : List (BitVec 32)),
    ∃ t', twofish_fill f col is t = .ok t' ∧ t'.length = t.length + is.length
  | [], t => ⟨t, rfl, rfl⟩
  | i :: is, t => by
    obtain ⟨m, hm⟩ := mds_def (f (BitVec.ofFin i)) col hc
    obtain ⟨t', h1, h2⟩ := fill_len f col hc is (t ++ [m])
    exact ⟨t', by rw [twofish_fill, hm, C.ok_bind, h1], by rw [h2]; simp; omega⟩

theorem twofish_def (k : Nat) (hk : k = 2 ∨ k = 3 ∨ k = 4) (key : List Byte) (h : key.length = 8 * k) :
    Def (twofish_init (64 * k) key) := by
  rw [twofish_init, C.check, if_pos (by simp; omega), C.ok_bind, show 64 * k / 64 = k by omega]
  refine Def.bind (W_def _ _ (by omega)) fun W0 _ => Def.bind (W_def _ _ (by omega)) fun W1 _ => ?_
  refine Def.bind ?_ fun W2 _ => Def.bind ?_ fun W3 _ => ?_
  · split
    · exact W_def _ _ (by omega)
    · exact Def.ok _
  · split
    · exact W_def _ _ (by omega)
    · exact Def.ok _
  · obtain ⟨ks, e1, e2⟩ := subkeys_len key k hk h (List.finRange 20) []
    rw [e1, C.ok_bind]
    refine Def.bind (arr_ok (by rw [e2]; simp)) fun _ _ => ?_
    obtain ⟨t0, a0, b0⟩ := fill_len (twofish_q0 W0 W1 W2 W3 k) 0 (by decide) (List.finRange 256) []
    obtain ⟨t1, a1, b1⟩ := fill_len (twofish_q1 W0 W1 W2 W3 k) 1 (by decide) (List.finRange 256) []
    obtain ⟨t2, a2, b2⟩ := fill_len (twofish_q2 W0 W1 W2 W3 k) 2 (by decide) (List.finRange 256) []
    obtain ⟨t3, a3, b3⟩ := fill_len (twofish_q3 W0 W1 W2 W3 k) 3 (by decide) (List.finRange 256) []
    rw [a0, C.ok_bind, a1, C.ok_bind, a2, C.ok_bind, a3, C.ok_bind]
    exact Def.bind (arr_ok (by rw [b0]; simp)) fun _ _ => Def.bind (arr_ok (by rw [b1]; simp)) fun _ _ =>
      Def.bind (arr_ok (by rw [b2]; simp)) fun _ _ => Def.bind (arr_ok (by rw [b3]; simp)) fun _ _ => Def.ok _

end Torsion.Blkc
