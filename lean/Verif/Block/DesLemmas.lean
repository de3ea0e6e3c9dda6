import Verif.Block.Des
import Verif.Block.Feistel

/-!
DES: the initial permutation and its inverse move every bit back, the rounds are undone in the
opposite order with exchanged halves.
-/
namespace Torsion.Blkc

/-- The bits listed, from the half `r` (`true`) or `l` (`false`). -/
def gath (l : List (Bool × Nat)) (x : Two) : BitVec 32 :=
  l.foldl (fun u p => des_bit u (if p.1 then x.r else x.l) p.2) 0

theorem des_bit_lsb (u x : BitVec 32) (n i : Nat) (hi : i < 32) :
    (des_bit u x n).getLsbD i = if i = 0 then x.getLsbD n else u.getLsbD (i - 1) := by
  have e : (1 : BitVec 32).getLsbD i = decide (i = 0) := by
    by_cases h : i = 0
    · subst h; rfl
    · simp [h]
  simp only [des_bit, BitVec.getLsbD_or, BitVec.getLsbD_shiftLeft, BitVec.getLsbD_and,
    BitVec.getLsbD_ushiftRight, e]
  by_cases h : i = 0
  · subst h; simp
  · have : ¬ i < 1 := by omega
    simp [h, hi, this]

theorem gath_bit (x : Two) : ∀ (l : List (Bool × Nat)) (i : Nat), i < 32 → ∀ s n,
    l.reverse[i]? = some (s, n) → (gath l x).getLsbD i = (if s then x.r else x.l).getLsbD n := by
  intro l
  induction l using List.reverseRecOn with
  | nil => intro i _ s n h; simp at h
  | append_singleton l p ih =>
    intro i hi s n h
    have e : gath (l ++ [p]) x = des_bit (gath l x) (if p.1 then x.r else x.l) p.2 := by
      simp [gath, List.foldl_append]
    rw [e, des_bit_lsb _ _ _ _ hi]
    rw [List.reverse_append, List.reverse_singleton, List.singleton_append] at h
    cases i with
    | zero =>
      rw [List.getElem?_cons_zero, Option.some_inj] at h
      subst h
      rfl
    | succ i =>
      rw [List.getElem?_cons_succ] at h
      rw [if_neg (by omega), Nat.add_sub_cancel]
      exact ih i (by omega) s n h

def ipL : List (Bool × Nat) := [6, 4, 2, 0].flatMap fun i =>
  ([0, 8, 16, 24].map fun j => (true, j + i)) ++ ([0, 8, 16, 24].map fun j => (false, j + i))

def ipR : List (Bool × Nat) := [6, 4, 2, 0].flatMap fun i =>
  ([1, 9, 17, 25].map fun j => (true, j + i)) ++ ([1, 9, 17, 25].map fun j => (false, j + i))

def ripL : List (Bool × Nat) := [0, 1, 2, 3].flatMap fun i =>
  [24, 16, 8, 0].flatMap fun j => [(true, j + i), (false, j + i)]

def ripR : List (Bool × Nat) := [4, 5, 6, 7].flatMap fun i =>
  [24, 16, 8, 0].flatMap fun j => [(true, j + i), (false, j + i)]

theorem des_ip_eq (x : Two) : des_ip x = ⟨gath ipL x, gath ipR x⟩ := rfl

theorem des_rip_eq (x : Two) : des_rip x = ⟨gath ripL x, gath ripR x⟩ := rfl

theorem gath_gath (x : Two) (l m1 m2 : List (Bool × Nat)) (side : Bool)
    (h : ∀ i : Fin 32, ∃ p ∈ l.reverse[i.val]?, p.2 < 32 ∧
      (if p.1 then m2 else m1).reverse[p.2]? = some (side, i.val)) :
    gath l ⟨gath m1 x, gath m2 x⟩ = if side then x.r else x.l := by
  apply BitVec.eq_of_getLsbD_eq
  intro i hi
  obtain ⟨⟨s, n⟩, h1, h2, h3⟩ := h ⟨i, hi⟩
  rw [gath_bit _ l i hi s n h1]
  have e : (if s then (⟨gath m1 x, gath m2 x⟩ : Two).r else (⟨gath m1 x, gath m2 x⟩ : Two).l) =
      gath (if s then m2 else m1) x := by cases s <;> rfl
  rw [e]
  exact gath_bit x _ n h2 side i h3

theorem rip_ip (x : Two) : des_rip (des_ip x) = x := by
  rw [des_ip_eq, des_rip_eq, gath_gath x ripL ipL ipR false (by decide +kernel),
    gath_gath x ripR ipL ipR true (by decide +kernel)]
  rfl

theorem ip_rip (x : Two) : des_ip (des_rip x) = x := by
  rw [des_ip_eq, des_rip_eq, gath_gath x ipL ripL ripR false (by decide +kernel),
    gath_gath x ipR ripL ripR true (by decide +kernel)]
  rfl

theorem des_round_undo (ctx : Des) (s : Two) (n : Fin 16) :
    des_round ctx (sw2 (des_round ctx s n)) n = sw2 s := by
  obtain ⟨l, r⟩ := s
  simp only [des_round, sw2, xx]

theorem des_enc_dec (ctx : Des) (x : Two) : des_decipher ctx (des_encipher ctx x) = x := by
  have h := foldl_conj (des_round ctx) (des_round ctx) sw2 id (des_round_undo ctx)
    (List.finRange 16) (des_ip x)
  simp only [des_decipher, des_encipher, ip_rip]
  generalize List.foldl (des_round ctx) (des_ip x) _ = s at h ⊢
  have h' : List.foldl (des_round ctx) ⟨s.r, s.l⟩
      [15, 14, 13, 12, 11, 10, 9, 8, 7, 6, 5, 4, 3, 2, 1, 0] = sw2 (des_ip x) := h
  rw [h']
  exact rip_ip x

theorem des_dec_enc (ctx : Des) (x : Two) : des_encipher ctx (des_decipher ctx x) = x := by
  have h := foldl_conj (des_round ctx) (des_round ctx) sw2 id (des_round_undo ctx)
    [15, 14, 13, 12, 11, 10, 9, 8, 7, 6, 5, 4, 3, 2, 1, 0] (des_ip x)
  simp only [des_decipher, des_encipher, ip_rip]
  generalize List.foldl (des_round ctx) (des_ip x) _ = s at h ⊢
  have h' : List.foldl (des_round ctx) ⟨s.r, s.l⟩ (List.finRange 16) = sw2 (des_ip x) := h
  rw [h']
  exact rip_ip x

theorem des_inv (ctx : Des) (b : Vector Byte 8) : des_decrypt ctx (des_encrypt ctx b) = b := by
  rw [des_decrypt, des_encrypt, load_store2be, des_enc_dec, store_load2be]

theorem des_inv' (ctx : Des) (b : Vector Byte 8) : des_encrypt ctx (des_decrypt ctx b) = b := by
  rw [des_decrypt, des_encrypt, load_store2be, des_dec_enc, store_load2be]

theorem des_ede_inv (ctx : DesEde) (b : Vector Byte 8) :
    des_ede_decrypt ctx (des_ede_encrypt ctx b) = b := by
  rw [des_ede_decrypt, des_ede_encrypt, des_inv, des_inv', des_inv]

theorem des_ede3_inv (ctx : DesEde3) (b : Vector Byte 8) :
    des_ede3_decrypt ctx (des_ede3_encrypt ctx b) = b := by
  rw [des_ede3_decrypt, des_ede3_encrypt, des_inv, des_inv', des_inv]

end Torsion.Blkc
