import Verif.Cipher.BlockLemmas

/-!
# Lemmas: the block modes as one-block steps
-/
namespace Torsion.Ciph
open Spec Blk

variable {n : Nat} {S : Type}

/-- Run a one-block step over a list of blocks. -/
def run (f : S → Vector Byte n → Vector Byte n × S) : S → List (Vector Byte n) → List (Vector Byte n) × S
  | s, [] => ([], s)
  | s, v :: bl => ((f s v).1 :: (run f (f s v).2 bl).1, (run f (f s v).2 bl).2)

theorem run_append (f : S → Vector Byte n → Vector Byte n × S) : ∀ (a b : List (Vector Byte n)) (s : S),
    run f s (a ++ b) = ((run f s a).1 ++ (run f (run f s a).2 b).1, (run f (run f s a).2 b).2)
  | [], b, s => rfl
  | v :: a, b, s => by
    rw [List.cons_append, run, run_append f a b]
    rfl

theorem run_length (f : S → Vector Byte n → Vector Byte n × S) : ∀ (a : List (Vector Byte n)) (s : S),
    (run f s a).1.length = a.length
  | [], s => rfl
  | v :: a, s => by rw [run]; simp [run_length f a]

theorem vec_toList (v : Vector Byte n) (t : List Byte) : C.vec n (v.toList ++ t) = .ok v := by
  obtain ⟨w, h1, h2⟩ := vec_ok (n := n) (xs := v.toList ++ t) (by simp)
  rw [h1]
  congr 1
  apply Vector.toList_inj.1
  rw [h2, List.take_left' (by simp)]

theorem vec_toList' (v : Vector Byte n) : C.vec n v.toList = .ok v := by
  simpa using vec_toList v []

theorem slice_take (xs : List Byte) {k : Nat} (h : k ≤ xs.length) : C.slice xs 0 k = .ok (xs.take k) := by
  rw [C.slice, if_pos (by omega)]; rfl

theorem slice_mid {xs : List Byte} {p k : Nat} (h : p + k ≤ xs.length) :
    C.slice xs p k = .ok ((xs.drop p).take k) := by
  rw [C.slice, if_pos h]

theorem crypt_loop_run (hn : 0 < n) (f : S → Vector Byte n → Vector Byte n × S) :
    ∀ (bl : List (Vector Byte n)) (k : Nat) (s : S), bl.length ≤ k →
    crypt_loop n (fun s _ v => f s v) k s (cat bl) = .ok (cat (run f s bl).1, (run f s bl).2)
  | [], 0, s, _ => rfl
  | [], k + 1, s, _ => rfl
  | v :: bl, 0, s, h => by simp at h
  | v :: bl, k + 1, s, h => by
    rw [crypt_loop, if_pos (by rw [cat_length, List.length_cons, Nat.add_mul]; omega), cat_cons, vec_toList,
      C.ok_bind, List.drop_left' (by simp)]
    dsimp only
    rw [crypt_loop_run hn f bl k _ (by simpa using h)]
    simp only [C.ok_bind, run, cat_cons]

theorem cat_len_ge (hn : 0 < n) (bl : List (Vector Byte n)) : bl.length ≤ (cat bl).length := by
  rw [cat_length]; exact Nat.le_mul_of_pos_right _ hn

theorem size_pos (hn : Size n) : 0 < n := by rcases hn with rfl | rfl <;> omega

theorem aligned (hn : Size n) (bl : List (Vector Byte n)) :
    C.check ((cat bl).length &&& (n - 1) = 0) = .ok () := by
  rw [C.check, decide_eq_true]
  · rfl
  · rw [mask_mod hn, cat_length, Nat.mul_mod_left]

/-! ## ECB -/

theorem run_ecb (f : Vector Byte n → Vector Byte n) : ∀ (bl : List (Vector Byte n)),
    (run (fun (_ : Unit) v => (f v, ())) () bl).1 = bl.map f
  | [] => rfl
  | v :: bl => by rw [run, run_ecb f bl]; rfl

theorem ecb_encrypt_cat (hn : Size n) (c : Cipher n) (bl : List (Vector Byte n)) :
    ecb_encrypt c (cat bl) = .ok (cat (bl.map c.enc)) := by
  have hp := size_pos hn
  rw [ecb_encrypt, aligned hn, C.ok_bind,
    crypt_loop_run hp (fun (_ : Unit) v => (c.enc v, ())) bl _ () (cat_len_ge hp bl), C.ok_bind, run_ecb]

theorem ecb_decrypt_cat (hn : Size n) (c : Cipher n) (bl : List (Vector Byte n)) :
    ecb_decrypt c (cat bl) = .ok (cat (bl.map c.dec)) := by
  have hp := size_pos hn
  rw [ecb_decrypt, aligned hn, C.ok_bind,
    crypt_loop_run hp (fun (_ : Unit) v => (c.dec v, ())) bl _ () (cat_len_ge hp bl), C.ok_bind, run_ecb]

/-! ## CBC -/

/-- One block of CBC encryption. -/
def cbcE (c : Cipher n) (p v : Vector Byte n) : Vector Byte n × Vector Byte n :=
  (c.enc (bxor v p), c.enc (bxor v p))

/-- One block of CBC decryption. -/
def cbcD (c : Cipher n) (p v : Vector Byte n) : Vector Byte n × Vector Byte n := (bxor (c.dec v) p, v)

theorem lastBlock_cons (p v : Vector Byte n) (bl : List (Vector Byte n)) :
    lastBlock p (v :: bl) = lastBlock v bl := by
  rw [lastBlock, List.getLastD_cons]; rfl

theorem run_cbcE (c : Cipher n) : ∀ (bl : List (Vector Byte n)) (p : Vector Byte n),
    run (cbcE c) p bl = (cbcEnc c.enc p bl, lastBlock p (cbcEnc c.enc p bl))
  | [], p => rfl
  | v :: bl, p => by
    rw [run, cbcEnc]
    dsimp only [cbcE]
    rw [run_cbcE c bl, lastBlock_cons]

theorem run_cbcD (c : Cipher n) : ∀ (bl : List (Vector Byte n)) (p : Vector Byte n),
    run (cbcD c) p bl = (cbcDec c.dec p bl, lastBlock p bl)
  | [], p => rfl
  | v :: bl, p => by
    rw [run, cbcDec]
    dsimp only [cbcD]
    rw [run_cbcD c bl, lastBlock_cons]

theorem cbc_encrypt_cat (hn : Size n) (c : Cipher n) (p : Vector Byte n) (bl : List (Vector Byte n)) :
    cbc_encrypt c p (cat bl) = .ok (cat (run (cbcE c) p bl).1, (run (cbcE c) p bl).2) := by
  have hp := size_pos hn
  rw [cbc_encrypt, aligned hn, C.ok_bind, ← crypt_loop_run hp (cbcE c) bl _ p (cat_len_ge hp bl)]
  congr 1
  funext p _ v
  simp only [cbcE, vxor_eq, bxor_comm p v]

theorem cbc_apart (c : Cipher n) : ∀ (tl : List (Vector Byte n)) (p b : Vector Byte n),
    memxor3 (c.dec b).toList p.toList ++
      memxor3 (cat (tl.map c.dec)) ((b.toList ++ cat tl).take (cat tl).length) =
    cat (run (cbcD c) p (b :: tl)).1
  | [], p, b => by
    rw [memxor3_toList, run, cat_cons]
    simp [run, cbcD, memxor3]
  | b1 :: tl, p, b => by
    have ih := cbc_apart c tl b b1
    rw [run]
    dsimp only [cbcD] at ih ⊢
    rw [cat_cons (bxor _ _), ← ih, memxor3_toList, List.map_cons, cat_cons, cat_cons]
    have : (b.toList ++ (b1.toList ++ cat tl)).take (b1.toList ++ cat tl).length =
        b.toList ++ (b1.toList ++ cat tl).take (cat tl).length := by
      rw [show (b1.toList ++ cat tl).length = b.toList.length + (cat tl).length by simp,
        List.take_length_add_append]
    rw [this, memxor3_app (by simp)]

theorem cbc_decrypt_cat (hn : Size n) (c : Cipher n) (same : Bool) (p : Vector Byte n) (bl : List (Vector Byte n)) :
    cbc_decrypt c same p (cat bl) = .ok (cat (run (cbcD c) p bl).1, (run (cbcD c) p bl).2) := by
  have hp := size_pos hn
  unfold cbc_decrypt
  cases same with
  | true =>
    rw [if_pos rfl, aligned hn, C.ok_bind, ← crypt_loop_run hp (cbcD c) bl _ p (cat_len_ge hp bl)]
    congr 1
    funext p _ v
    simp only [cbcD, vxor_eq]
  | false =>
    rw [if_neg (by decide)]
    cases bl with
    | nil => rfl
    | cons b tl =>
      have hl : (cat (b :: tl)).length = n + (cat tl).length := by simp
      rw [if_pos (by omega), ecb_decrypt_cat hn, C.ok_bind, List.map_cons, cat_cons (c.dec b)]
      rw [slice_take _ (by simp), C.ok_bind, slice_mid (by omega), C.ok_bind, List.take_left' (by simp),
        List.drop_left' (by simp)]
      have hlast : ((cat (b :: tl)).drop ((cat (b :: tl)).length - n)).take n =
          (lastBlock p (b :: tl)).toList := by
        have hne : b :: tl ≠ [] := by simp
        obtain ⟨i, l, hil⟩ : ∃ i l, b :: tl = i ++ [l] :=
          ⟨_, _, (List.dropLast_append_getLast hne).symm⟩
        rw [hil, cat_append, cat_cons, cat_nil, List.append_nil, List.length_append, Vector.length_toList,
          Nat.add_sub_cancel, List.drop_left' rfl, List.take_of_length_le (by simp)]
        simp [lastBlock]
      rw [hlast, vec_toList', C.ok_bind, hl, Nat.add_sub_cancel_left, cat_cons, cbc_apart]
      rw [run_cbcD]

/-! ## XTS -/

/-- One block of XTS encryption. -/
def xtsE (c : Cipher n) (m : XtsMode n) (v : Vector Byte n) : Vector Byte n × XtsMode n :=
  (bxor (c.enc (bxor v m.tweak)) m.tweak, ⟨xtsNext m.tweak, m.prev⟩)

/-- One block of XTS decryption. -/
def xtsD (c : Cipher n) (m : XtsMode n) (v : Vector Byte n) : Vector Byte n × XtsMode n :=
  (bxor (c.dec (bxor v m.tweak)) m.tweak, ⟨xtsNext m.tweak, m.tweak⟩)

theorem xts_loop_enc (hn : Size n) (c : Cipher n) : ∀ (bl : List (Vector Byte n)) (k : Nat) (m : XtsMode n),
    bl.length ≤ k → xts_loop c.enc false k m (cat bl) = .ok (cat (run (xtsE c) m bl).1, (run (xtsE c) m bl).2)
  | [], 0, m, _ => rfl
  | [], k + 1, m, _ => rfl
  | v :: bl, 0, m, h => by simp at h
  | v :: bl, k + 1, m, h => by
    have hp := size_pos hn
    rw [xts_loop, if_pos (by simp; omega), cat_cons, vec_toList, C.ok_bind, List.drop_left' (by simp),
      xts_shift_eq hn, C.ok_bind]
    rw [if_neg (by simp), xts_loop_enc hn c bl k _ (by simpa using h), C.ok_bind]
    simp only [run, xtsE, cat_cons, vxor_eq]

theorem xts_loop_dec (hn : Size n) (c : Cipher n) : ∀ (bl : List (Vector Byte n)) (k : Nat) (t p q : Vector Byte n),
    bl ≠ [] → bl.length ≤ k →
    xts_loop c.dec true k ⟨t, p⟩ (cat bl) = .ok (cat (run (xtsD c) ⟨t, q⟩ bl).1, (run (xtsD c) ⟨t, q⟩ bl).2)
  | [], _, _, _, _, h, _ => absurd rfl h
  | v :: bl, 0, _, _, _, _, h => by simp at h
  | v :: bl, k + 1, t, p, q, _, h => by
    have hp := size_pos hn
    rw [xts_loop, if_pos (by simp; omega), cat_cons, vec_toList, C.ok_bind, List.drop_left' (by simp),
      xts_shift_eq hn, C.ok_bind]
    dsimp only
    cases bl with
    | nil =>
      rw [if_pos (by simp)]
      have : xts_loop c.dec true k ⟨xtsNext t, t⟩ (cat ([] : List (Vector Byte n))) = .ok ([], ⟨xtsNext t, t⟩) := by cases k <;> rfl
      rw [this, C.ok_bind]
      simp only [run, xtsD, cat_cons, vxor_eq, cat_nil]
    | cons w bl =>
      rw [if_neg (by simp; omega),
        xts_loop_dec hn c (w :: bl) k (xtsNext t) p t (by simp) (by simpa using h), C.ok_bind]
      simp only [run, xtsD, cat_cons, vxor_eq]

theorem xts_encrypt_cat (hn : Size n) (c : Cipher n) (m : XtsMode n) (bl : List (Vector Byte n)) :
    xts_encrypt c m (cat bl) = .ok (cat (run (xtsE c) m bl).1, (run (xtsE c) m bl).2) := by
  rw [xts_encrypt, aligned hn, C.ok_bind, xts_loop_enc hn c bl _ m (cat_len_ge (size_pos hn) bl)]

theorem xts_decrypt_cat (hn : Size n) (c : Cipher n) (m : XtsMode n) (bl : List (Vector Byte n)) :
    xts_decrypt c m (cat bl) = .ok (cat (run (xtsD c) m bl).1, (run (xtsD c) m bl).2) := by
  rw [xts_decrypt, aligned hn, C.ok_bind]
  cases bl with
  | nil => rfl
  | cons v bl =>
    obtain ⟨t, p⟩ := m
    exact xts_loop_dec hn c _ _ t p p (by simp) (cat_len_ge (size_pos hn) _)

theorem run_xtsE (c : Cipher n) : ∀ (bl : List (Vector Byte n)) (m : XtsMode n),
    run (xtsE c) m bl = (xtsBlocks c.enc m.tweak bl, ⟨xtsNext^[bl.length] m.tweak, m.prev⟩)
  | [], m => rfl
  | v :: bl, m => by
    rw [run, run_xtsE c bl]
    simp [xtsE, xtsBlocks]

theorem run_xtsD (c : Cipher n) : ∀ (bl : List (Vector Byte n)) (m : XtsMode n),
    run (xtsD c) m bl = (xtsBlocks c.dec m.tweak bl, ⟨xtsNext^[bl.length] m.tweak,
      if bl = [] then m.prev else xtsNext^[bl.length - 1] m.tweak⟩)
  | [], m => rfl
  | v :: bl, m => by
    rw [run, run_xtsD c bl]
    cases bl with
    | nil => simp [xtsD, xtsBlocks]
    | cons w bl => simp [xtsD, xtsBlocks]

/-! ## Inversion -/

theorem inv_both {c : Cipher n} (h : Invertible c) (b : Vector Byte n) : c.enc (c.dec b) = b := by
  have hinj : Function.Injective c.enc := fun x y hxy => by rw [← h x, ← h y, hxy]
  have : Finite (Vector Byte n) := by
    refine Finite.of_injective (fun v : Vector Byte n => fun i : Fin n => v[i].toFin) ?_
    intro a b hab
    apply Vector.ext
    intro i hi
    have := congrFun hab ⟨i, hi⟩
    exact BitVec.eq_of_toFin_eq this
  obtain ⟨x, rfl⟩ := (Finite.injective_iff_surjective.1 hinj) b
  rw [h x]

theorem cbc_inv {c : Cipher n} (h : Invertible c) : ∀ (bl : List (Vector Byte n)) (p : Vector Byte n),
    cbcDec c.dec p (cbcEnc c.enc p bl) = bl
  | [], p => rfl
  | v :: bl, p => by
    rw [cbcEnc, cbcDec, cbc_inv h bl, h, bxor_cancel]

theorem xts_inv {c : Cipher n} (h : Invertible c) : ∀ (bl : List (Vector Byte n)) (t : Vector Byte n),
    xtsBlocks c.dec t (xtsBlocks c.enc t bl) = bl
  | [], t => rfl
  | v :: bl, t => by
    rw [xtsBlocks, xtsBlocks, xts_inv h bl, bxor_cancel, h, bxor_cancel]

theorem cbcEnc_length (E : Vector Byte n → Vector Byte n) : ∀ (bl : List (Vector Byte n)) (p : Vector Byte n),
    (cbcEnc E p bl).length = bl.length
  | [], _ => rfl
  | v :: bl, p => by rw [cbcEnc]; simp [cbcEnc_length E bl]

theorem xtsBlocks_length (E : Vector Byte n → Vector Byte n) : ∀ (bl : List (Vector Byte n)) (p : Vector Byte n),
    (xtsBlocks E p bl).length = bl.length
  | [], _ => rfl
  | v :: bl, p => by rw [xtsBlocks]; simp [xtsBlocks_length E bl]

end Torsion.Ciph
