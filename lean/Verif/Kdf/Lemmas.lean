import Verif.Hash.HmacLemmas
import Verif.Kdf.Model
import Verif.Kdf.Spec
import Verif.Mac.Lemmas

/-!
# Lemmas for the model of src/kdf.c
-/
namespace Torsion.Kdf
open Torsion Spec Hsh

theorem fits_ok {n : Nat} {xs : List Byte} (h : xs.length ≤ n) : C.fits n xs = .ok xs := by
  rw [C.fits, if_pos h]

theorem ceil_pos {len hs : Nat} (h : 0 < hs) (hl : 0 < len) :
    (len + hs - 1) / hs = (len - hs + hs - 1) / hs + 1 := by
  by_cases hc : hs ≤ len
  · rw [show len + hs - 1 = (len - hs + hs - 1) + hs by omega, Nat.add_div_right _ h]
  · rw [show len - hs = 0 by omega, Nat.zero_add, Nat.div_eq_of_lt (a := hs - 1) (by omega),
      show len + hs - 1 = (len - 1) + hs by omega, Nat.add_div_right _ h,
      Nat.div_eq_of_lt (a := len - 1) (by omega)]

theorem ceil_zero {hs : Nat} (h : 0 < hs) : (0 + hs - 1) / hs = 0 :=
  Nat.div_eq_of_lt (by omega)

theorem cut_zero (T : Nat → List Byte) (hs : Nat) : cut T hs 0 = [] := by
  rw [cut, List.take_zero]

theorem cut_step (T : Nat → List Byte) {hs len : Nat} (h : 0 < hs) (hl : 0 < len)
    (hT : (T 0).length = hs) :
    cut T hs len = (T 0).take len ++ cut (fun k => T (k + 1)) hs (len - hs) := by
  rw [cut, ceil_pos h hl, List.range_succ_eq_map, List.flatMap_cons, List.take_append, cut, hT,
    List.flatMap_map]

theorem flat_length (T : Nat → List Byte) {hs : Nat} (hT : ∀ i, (T i).length = hs) (n : Nat) :
    ((List.range n).flatMap T).length = n * hs := by
  induction n with
  | zero => simp
  | succ n ih => rw [List.range_succ, List.flatMap_append, List.length_append, ih]; simp [hT, Nat.add_mul]

theorem ceil_le {len hs : Nat} (h : 0 < hs) : len ≤ (len + hs - 1) / hs * hs := by
  have := Nat.div_add_mod (len + hs - 1) hs
  have h2 := Nat.mod_lt (len + hs - 1) h
  rw [Nat.mul_comm] at this
  omega

theorem cut_length (T : Nat → List Byte) {hs : Nat} (h : 0 < hs) (hT : ∀ i, (T i).length = hs)
    (len : Nat) : (cut T hs len).length = len := by
  rw [cut, List.length_take, flat_length T hT, Nat.min_eq_left (ceil_le h)]

theorem flat_prefix (T : Nat → List Byte) {a b : Nat} (h : a ≤ b) :
    (List.range a).flatMap T <+: (List.range b).flatMap T := by
  obtain ⟨c, rfl⟩ := Nat.exists_eq_add_of_le h
  rw [List.range_add, List.flatMap_append]
  exact List.prefix_append _ _

theorem cut_take (T : Nat → List Byte) {hs : Nat} (h : 0 < hs) (hT : ∀ i, (T i).length = hs)
    {a b : Nat} (hab : a ≤ b) : cut T hs a = (cut T hs b).take a := by
  obtain ⟨u, hu⟩ := flat_prefix T (Nat.div_le_div_right (c := hs) (show a + hs - 1 ≤ b + hs - 1 by omega))
  rw [cut, cut, List.take_take, Nat.min_eq_left hab, ← hu,
    List.take_append_of_le_length (by rw [flat_length T hT]; exact ceil_le h)]

/-- The copy of a block at the end of each of the loops. -/
theorem emit {b : List Byte} {hs len : Nat} (hb : b.length = hs) :
    C.slice b 0 (if hs > len then len else hs) = .ok (b.take len) := by
  by_cases h : hs > len
  · rw [if_pos h, slice_take _ _ (by omega)]
  · rw [if_neg h, slice_take _ _ (by omega), List.take_of_length_le (by omega),
      List.take_of_length_le (by omega)]

theorem emit_left (hs len : Nat) : len - (if hs > len then len else hs) = len - hs := by
  split <;> omega

/-! ## HKDF -/

theorem hkdf_loop_eq {t : HashId} (ht : hash_has_backend t = true) (junk : Junk) {key : List Byte}
    {pmac : HmacCtx} (hp : HmacRep t key pmac []) (info : List Byte) (hi : info.length < 2 ^ 64) :
    ∀ (n k hsz len : Nat), n = (len + hash_output_size t - 1) / hash_output_size t →
      (0 < len → hsz = hash_output_size t) →
      hkdf_loop junk pmac info n (hkdfT (macOf t key) info k) (BitVec.ofNat 8 k) hsz len =
        .ok (cut (fun i => hkdfT (macOf t key) info (k + i + 1)) (hash_output_size t) len)
  | 0, k, hsz, len, hn, hh => by
    obtain ⟨h1, _⟩ := sizes ht
    have : len = 0 := by
      have := ceil_le (len := len) (show 0 < hash_output_size t by omega)
      rw [← hn] at this; omega
    subst this
    rw [cut_zero]; rfl
  | n + 1, k, hsz, len, hn, hh => by
    obtain ⟨h1, h2, _⟩ := sizes ht
    have hlen : 0 < len := by
      rcases Nat.eq_zero_or_pos len with rfl | h
      · rw [ceil_zero (by omega)] at hn; omega
      · exact h
    have hpos : 0 < hash_output_size t := by omega
    rw [ceil_pos hpos hlen] at hn
    obtain rfl := hh hlen
    have hT : ∀ i, (hkdfT (macOf t key) info (i + 1)).length = hash_output_size t := by
      intro i; rw [hkdfT]; exact macOf_len ht _ _
    have hprev : (hkdfT (macOf t key) info k).length < 2 ^ 64 := by
      cases k with
      | zero => simp [hkdfT]
      | succ k => rw [hT]; omega
    obtain ⟨a1, e1, r1⟩ := hmac_rep_update hp _ hprev
    obtain ⟨a2, e2, r2⟩ := hmac_rep_update r1 info hi
    obtain ⟨a3, e3, r3⟩ := hmac_rep_update r2 [BitVec.ofNat 8 k + 1] (by simp)
    have hc : (BitVec.ofNat 8 k + 1 : Byte) = BitVec.ofNat 8 (k + 1) := by
      rw [BitVec.ofNat_add]; rfl
    have hfin : hmac_final (junk n) a3 = .ok (hkdfT (macOf t key) info (k + 1)) := by
      rw [hmac_rep_final r3 ht, hkdfT, hc]; simp
    rw [hkdf_loop]
    rw [e1, C.ok_bind, e2, C.ok_bind, e3, C.ok_bind, hfin, C.ok_bind,
      fits_ok (by rw [hT]; omega), C.ok_bind, slice_take _ _ (by rw [hT]),
      List.take_of_length_le (by rw [hT]), C.ok_bind]
    dsimp only
    rw [emit (hT k), C.ok_bind, emit_left, hc,
      hkdf_loop_eq ht junk hp info hi n (k + 1) _ (len - hash_output_size t) (by omega)
        (by intro h; rw [if_neg (by omega)]), C.ok_bind,
      cut_step _ hpos hlen (by exact hT _)]
    simp only [Nat.add_zero, show ∀ i, k + 1 + i = k + (i + 1) by omega]

/-! ## PBKDF2 -/

theorem pbkdf2U_len {t : HashId} (ht : hash_has_backend t = true) (key salt : List Byte) (i j : Nat) :
    (pbkdf2U (macOf t key) salt i j).length = hash_output_size t := by
  cases j <;> (rw [pbkdf2U]; exact macOf_len ht _ _)

theorem pbkdf2F_len {t : HashId} (ht : hash_has_backend t = true) (key salt : List Byte) (i j : Nat) :
    (pbkdf2F (macOf t key) salt i j).length = hash_output_size t := by
  induction j with
  | zero => exact pbkdf2U_len ht _ _ _ _
  | succ j ih => rw [pbkdf2F, xorBytes, List.length_zipWith, ih, pbkdf2U_len ht, Nat.min_self]

theorem pbkdf2_iter_eq {t : HashId} (ht : hash_has_backend t = true) (junk : Junk) {key : List Byte}
    {pmac : HmacCtx} (hp : HmacRep t key pmac []) (salt : List Byte) (i : Nat) :
    ∀ (n j : Nat), pbkdf2_iter junk pmac (hash_output_size t) n (pbkdf2F (macOf t key) salt i j)
      (pbkdf2U (macOf t key) salt i j) = .ok (pbkdf2F (macOf t key) salt i (j + n))
  | 0, j => rfl
  | n + 1, j => by
    obtain ⟨h1, h2, _⟩ := sizes ht
    have hU := pbkdf2U_len ht key salt i
    have hF := pbkdf2F_len ht key salt i
    obtain ⟨a1, e1, r1⟩ := hmac_rep_update hp (pbkdf2U (macOf t key) salt i j) (by rw [hU]; omega)
    have hfin : hmac_final (junk n) a1 = .ok (pbkdf2U (macOf t key) salt i (j + 1)) := by
      rw [hmac_rep_final r1 ht, List.nil_append]; rfl
    rw [pbkdf2_iter, slice_take _ _ (by rw [hU]), List.take_of_length_le (by rw [hU]), C.ok_bind, e1,
      C.ok_bind, hfin, C.ok_bind, fits_ok (by rw [hU]; omega), C.ok_bind,
      slice_take _ _ (by rw [hF]), List.take_of_length_le (by rw [hF]), C.ok_bind,
      slice_take _ _ (by rw [hU]), List.take_of_length_le (by rw [hU]), C.ok_bind]
    have := pbkdf2_iter_eq ht junk hp salt i n (j + 1)
    rw [pbkdf2F, xorBytes] at this
    rw [this]
    congr 2; omega

theorem pbkdf2_loop_eq {t : HashId} (ht : hash_has_backend t = true) (junk : Nat → Junk) {key : List Byte}
    {pmac smac : HmacCtx} (hp : HmacRep t key pmac []) {salt : List Byte} (hs : HmacRep t key smac salt)
    (iter : Nat) :
    ∀ (n i hsz len : Nat), n = (len + hash_output_size t - 1) / hash_output_size t →
      (0 < len → hsz = hash_output_size t) →
      pbkdf2_loop junk pmac smac iter n i hsz len =
        .ok (cut (fun k => pbkdf2F (macOf t key) salt (i + k + 1) (iter - 1)) (hash_output_size t) len)
  | 0, k, hsz, len, hn, hh => by
    obtain ⟨h1, _⟩ := sizes ht
    have : len = 0 := by
      have := ceil_le (len := len) (show 0 < hash_output_size t by omega)
      rw [← hn] at this; omega
    subst this
    rw [cut_zero]; rfl
  | n + 1, i, hsz, len, hn, hh => by
    obtain ⟨h1, h2, _⟩ := sizes ht
    have hlen : 0 < len := by
      rcases Nat.eq_zero_or_pos len with rfl | h
      · rw [ceil_zero (by omega)] at hn; omega
      · exact h
    have hpos : 0 < hash_output_size t := by omega
    rw [ceil_pos hpos hlen] at hn
    obtain rfl := hh hlen
    have hU := fun i => pbkdf2U_len ht key salt i
    have hF := fun i => pbkdf2F_len ht key salt i
    have hctr : (write32be (BitVec.ofNat 32 (i + 1))).toList = bigBytes 4 (i + 1) := by
      rw [write32be_eq, bigBytes, bigBytes]
      congr 1
      exact leBytes_mod_eq (by rw [BitVec.toNat_ofNat]; exact Nat.mod_mod _ _)
    obtain ⟨a1, e1, r1⟩ := hmac_rep_update hs (bigBytes 4 (i + 1)) (by rw [bigBytes_len]; omega)
    have hfin : hmac_final (junk n 0) a1 = .ok (pbkdf2U (macOf t key) salt (i + 1) 0) := by
      rw [hmac_rep_final r1 ht]; rfl
    rw [pbkdf2_loop, hctr, e1, C.ok_bind, hfin, C.ok_bind, fits_ok (by rw [hU]; omega), C.ok_bind,
      slice_take _ _ (by rw [hU]), List.take_of_length_le (by rw [hU]), C.ok_bind]
    have := pbkdf2_iter_eq ht (fun k => junk n (k + 1)) hp salt (i + 1) (iter - 1) 0
    rw [pbkdf2F] at this
    rw [this, C.ok_bind, Nat.zero_add]
    dsimp only
    rw [emit (hF _ _), C.ok_bind, emit_left,
      pbkdf2_loop_eq ht junk hp hs iter n (i + 1) _ (len - hash_output_size t) (by omega)
        (by intro h; rw [if_neg (by omega)]), C.ok_bind,
      cut_step _ hpos hlen (by exact hF _ _)]
    simp only [Nat.add_zero, show ∀ k, i + 1 + k = i + (k + 1) by omega]

/-! ## EB2K -/

theorem eb2kD_len {t : HashId} (ht : hash_has_backend t = true) (pass salt : List Byte) (i : Nat) :
    (eb2kD (Spec.hash t (hash_output_size t)) pass salt (i + 1)).length = hash_output_size t := by
  rw [eb2kD]; exact hash_len ht _

theorem hash_calls {t : HashId} (ht : hash_has_backend t = true) (junk : Nat → Byte) :
    ∃ h, hash_init junk t = .ok h ∧ HashRep t h [] := rep_init junk t (not_other ht)

theorem eb2k_loop_eq {t : HashId} (ht : hash_has_backend t = true) (junk : Junk)
    {pass salt : List Byte} (hp : pass.length < 2 ^ 64) (hsl : salt.length < 2 ^ 64) :
    ∀ (n k kl il : Nat), kl + il ≤ n →
      eb2k_loop junk t pass salt n (eb2kD (Spec.hash t (hash_output_size t)) pass salt k) kl il =
        .ok ((cut (fun i => eb2kD (Spec.hash t (hash_output_size t)) pass salt (k + i + 1))
            (hash_output_size t) (kl + il)).take kl,
          (cut (fun i => eb2kD (Spec.hash t (hash_output_size t)) pass salt (k + i + 1))
            (hash_output_size t) (kl + il)).drop kl)
  | 0, k, kl, il, hn => by
    obtain rfl : kl = 0 := by omega
    obtain rfl : il = 0 := by omega
    rw [cut_zero]; rfl
  | n + 1, k, kl, il, hn => by
    obtain ⟨h1, h2, _⟩ := sizes ht
    have hpos : 0 < hash_output_size t := by omega
    by_cases hz : kl = 0 ∧ il = 0
    · obtain ⟨rfl, rfl⟩ := hz
      rw [eb2k_loop, if_pos ⟨rfl, rfl⟩, cut_zero]; rfl
    have hlen : 0 < kl + il := by omega
    have hD := eb2kD_len ht pass salt
    have hprev : (eb2kD (Spec.hash t (hash_output_size t)) pass salt k).length < 2 ^ 64 := by
      cases k with
      | zero => simp [eb2kD]
      | succ k => rw [hD]; omega
    obtain ⟨a0, e0, r0⟩ := hash_calls ht (junk n 0)
    obtain ⟨a1, e1, r1⟩ := rep_update r0 _ hprev
    obtain ⟨a2, e2, r2⟩ := rep_update r1 pass hp
    obtain ⟨a3, e3, r3⟩ := rep_update r2 salt hsl
    have hfin : hash_final (junk n 1) a3 (hash_output_size t) =
        .ok (eb2kD (Spec.hash t (hash_output_size t)) pass salt (k + 1)) := by
      rw [rep_final r3 _ _ (fun _ => by omega), List.nil_append]; rfl
    rw [eb2k_loop, if_neg hz]
    rw [e0, C.ok_bind, e1, C.ok_bind, e2, C.ok_bind, e3, C.ok_bind, hfin, C.ok_bind,
      fits_ok (by rw [hD]; omega), C.ok_bind, slice_take _ _ (by rw [hD]),
      List.take_of_length_le (by rw [hD]), C.ok_bind]
    rw [cut_step _ hpos hlen (by exact hD _)]
    have hDk := hD k
    simp only [Nat.add_zero, show ∀ i, k + (i + 1) + 1 = k + 1 + i + 1 by omega]
    have ih := eb2k_loop_eq ht junk hp hsl n (k + 1)
    generalize eb2kD (Spec.hash t (hash_output_size t)) pass salt (k + 1) = D at *
    generalize hash_output_size t = hs at *
    by_cases hc : hs ≤ kl
    · have e1 : (if D.length > kl then kl else D.length) = hs := by rw [if_neg (by omega)]; exact hDk
      have hk0 : kl > 0 := by omega
      simp only [e1, if_pos hk0]
      rw [List.take_of_length_le (l := D) (by omega), List.drop_eq_nil_of_le (as := D) (by omega)]
      simp only [List.length_nil, Nat.not_lt_zero, gt_iff_lt, if_false, List.take_nil, ite_self, Nat.sub_zero]
      rw [ih (kl - hs) il (by omega), C.ok_bind, List.nil_append,
        List.take_of_length_le (l := D) (by omega), List.take_append, List.drop_append,
        List.take_of_length_le (l := D) (by omega), List.drop_eq_nil_of_le (as := D) (by omega), hDk,
        List.nil_append, show kl - hs + il = kl + il - hs by omega]
    · have e1 : (if D.length > kl then kl else D.length) = kl := by rw [if_pos (by omega)]
      have e2 : (if kl > 0 then D.take kl else []) = D.take kl := by
        split
        · rfl
        · rw [show kl = 0 by omega, List.take_zero]
      have e3 : (if kl > 0 then D.drop kl else D) = D.drop kl := by
        split
        · rfl
        · rw [show kl = 0 by omega, List.drop_zero]
      have e4 : (if kl > 0 then kl - kl else kl) = 0 := by split <;> omega
      rw [e1, e2, e3, e4]
      have e5 : (if il > 0 then (D.drop kl).take (if (D.drop kl).length > il then il else (D.drop kl).length)
          else []) = (D.drop kl).take il := by
        split
        · split
          · rfl
          · rw [List.take_of_length_le (by omega), List.take_of_length_le (by omega)]
        · rw [show il = 0 by omega, List.take_zero]
      have e6 : (if il > 0 then il - (if (D.drop kl).length > il then il else (D.drop kl).length) else il) =
          kl + il - hs := by
        rw [List.length_drop]
        split
        · split <;> omega
        · omega
      rw [e5, e6, ih 0 (kl + il - hs) (by omega), C.ok_bind, Nat.zero_add, List.take_zero, List.append_nil,
        List.drop_zero]
      congr 2
      · rw [List.take_append, List.take_take, Nat.min_eq_left (by omega), List.length_take,
          Nat.sub_eq_zero_of_le (by omega), List.take_zero, List.append_nil]
      · rw [List.drop_append, List.length_take]
        by_cases hq : kl + il ≤ hs
        · rw [show kl + il - hs = 0 by omega, cut_zero, List.drop_nil, List.append_nil, List.append_nil,
            List.drop_take, Nat.add_sub_cancel_left]
        · rw [show kl - min (kl + il) D.length = 0 by omega, List.drop_zero,
            List.take_of_length_le (l := D) (by omega), List.take_of_length_le (by rw [List.length_drop]; omega)]

/-! ## PGPDF -/

theorem pgpdf_zeros_eq {t : HashId} : ∀ (n : Nat) {h : HashCtx} {m : List Byte}, HashRep t h m →
    ∃ h', pgpdf_zeros n h = .ok h' ∧ HashRep t h' (m ++ List.replicate n 0)
  | 0, h, m, hr => ⟨h, rfl, by simpa using hr⟩
  | n + 1, h, m, hr => by
    obtain ⟨h1, e1, r1⟩ := rep_update hr [0] (by simp)
    obtain ⟨h2, e2, r2⟩ := pgpdf_zeros_eq n r1
    refine ⟨h2, ?_, ?_⟩
    · rw [pgpdf_zeros, e1, C.ok_bind, e2]
    · rw [List.replicate_succ]; simpa using r2

theorem pgpdf_loop_eq {t : HashId} (ht : hash_has_backend t = true) (junk : Junk)
    {feed : HashCtx → C HashCtx} {f : List Byte}
    (hf : ∀ h m, HashRep t h m → ∃ h', feed h = .ok h' ∧ HashRep t h' (m ++ f)) :
    ∀ (n i hsz len : Nat), len ≤ n → (0 < len → hsz = hash_output_size t) →
      pgpdf_loop junk t feed n i hsz len =
        .ok (cut (fun k => Spec.hash t (hash_output_size t) (List.replicate (i + k) 0 ++ f))
          (hash_output_size t) len)
  | 0, i, hsz, len, hn, hh => by
    obtain rfl : len = 0 := by omega
    rw [cut_zero]; rfl
  | n + 1, i, hsz, len, hn, hh => by
    obtain ⟨h1, h2, _⟩ := sizes ht
    have hpos : 0 < hash_output_size t := by omega
    rcases Nat.eq_zero_or_pos len with rfl | hlen
    · rw [cut_zero]; rfl
    obtain rfl := hh hlen
    obtain ⟨a0, e0, r0⟩ := hash_calls ht (junk n 0)
    obtain ⟨a1, e1, r1⟩ := pgpdf_zeros_eq i r0
    obtain ⟨a2, e2, r2⟩ := hf a1 _ r1
    rw [List.nil_append] at r2
    rw [pgpdf_loop, if_pos hlen]
    rw [e0, C.ok_bind, e1, C.ok_bind, e2, C.ok_bind, rep_final r2 _ _ (fun _ => by omega), C.ok_bind,
      fits_ok (by rw [hash_len ht]; omega), C.ok_bind]
    dsimp only
    rw [emit (hash_len ht _), C.ok_bind, emit_left,
      pgpdf_loop_eq ht junk hf n (i + 1) _ (len - hash_output_size t) (by omega)
        (by intro h; rw [if_neg (by omega)]), C.ok_bind,
      cut_step _ hpos hlen (by exact hash_len ht _)]
    simp only [Nat.add_zero, show ∀ k, i + 1 + k = i + (k + 1) by omega]

theorem cyc_length (m : List Byte) (n : Nat) : (cyc m n).length = n := by simp [cyc]

theorem cyc_add {m : List Byte} (n : Nat) : cyc m (m.length + n) = m ++ cyc m n := by
  rw [cyc, List.range_add, List.map_append, List.map_map]
  congr 1
  · apply List.ext_getElem (by simp)
    intro i h1 h2
    simp only [List.getElem_map, List.getElem_range]
    rw [Nat.mod_eq_of_lt h2]; simp [h2]
  · rw [cyc]
    apply List.map_congr_left
    intro i _
    simp only [Function.comp, Nat.add_mod_left]

theorem cyc_take {m : List Byte} {n : Nat} (h : n ≤ m.length) : cyc m n = m.take n := by
  apply List.ext_getElem (by simp [cyc]; omega)
  intro i h1 h2
  rw [cyc_length] at h1
  simp only [cyc, List.getElem_map, List.getElem_range, List.getElem_take]
  rw [Nat.mod_eq_of_lt (by omega)]
  have : i < m.length := by omega
  simp [this]

theorem pgpdf_feed_eq {t : HashId} {pass salt : List Byte} (hp : pass.length < 2 ^ 64)
    (hsl : salt.length < 2 ^ 64) (hpos : 0 < (salt ++ pass).length) :
    ∀ (n left : Nat) {h : HashCtx} {m : List Byte}, HashRep t h m → left ≤ n →
    ∃ h' k, pgpdf_feed pass salt (salt ++ pass).length n left h = .ok (h', k) ∧ k < (salt ++ pass).length ∧
      ∃ w, cyc (salt ++ pass) left = w ++ (salt ++ pass).take k ∧ HashRep t h' (m ++ w)
  | 0, left, h, m, hr, hn => by
    obtain rfl : left = 0 := by omega
    refine ⟨h, 0, ?_, hpos, [], ?_, by simpa using hr⟩
    · rw [pgpdf_feed, if_neg (by omega)]
    · rw [cyc_take (by omega)]; rfl
  | n + 1, left, h, m, hr, hn => by
    by_cases hc : left ≥ (salt ++ pass).length
    · obtain ⟨h1, e1, r1⟩ := rep_update hr salt hsl
      obtain ⟨h2, e2, r2⟩ := rep_update r1 pass hp
      obtain ⟨h3, k, e3, hk, w, hw, r3⟩ := pgpdf_feed_eq hp hsl hpos n (left - (salt ++ pass).length) r2 (by omega)
      refine ⟨h3, k, ?_, hk, salt ++ pass ++ w, ?_, by simpa using r3⟩
      · rw [pgpdf_feed, if_pos hc, e1, C.ok_bind, e2, C.ok_bind, e3]
      · rw [show left = (salt ++ pass).length + (left - (salt ++ pass).length) by omega, cyc_add, hw,
          List.append_assoc (salt ++ pass)]
    · refine ⟨h, left, ?_, by omega, [], ?_, by simpa using hr⟩
      · rw [pgpdf_feed, if_neg hc]
      · rw [cyc_take (by omega)]; rfl

end Torsion.Kdf
