import Verif.Kdf.Lemmas
import Verif.Drbg.Model
import Verif.Drbg.Spec

/-!
# Lemmas for the HMAC-DRBG of src/drbg.c
-/
namespace Torsion.Drb
open Torsion Spec Hsh Kdf

theorem hmac_rep_updates {t : HashId} {key : List Byte} : ∀ (msgs : List (List Byte)) {h : HmacCtx}
    {m : List Byte}, HmacRep t key h m → (∀ x ∈ msgs, x.length < 2 ^ 64) →
    ∃ h', msgs.foldlM hmac_update h = .ok h' ∧ HmacRep t key h' (m ++ msgs.flatten)
  | [], h, m, hr, _ => ⟨h, rfl, by simpa using hr⟩
  | x :: xs, h, m, hr, hx => by
    obtain ⟨h1, e1, r1⟩ := hmac_rep_update hr x (hx x (by simp))
    obtain ⟨h2, e2, r2⟩ := hmac_rep_updates xs r1 (fun y hy => hx y (by simp [hy]))
    refine ⟨h2, ?_, by simpa using r2⟩
    rw [List.foldlM_cons, e1, C.ok_bind, e2]

theorem drbg_hmac_eq {t : HashId} (ht : hash_has_backend t = true) (junk : Junk) {K : List Byte}
    (hK : K.length = hash_output_size t) (msgs : List (List Byte)) (hm : ∀ x ∈ msgs, x.length < 2 ^ 64) :
    drbg_hmac junk t (hash_output_size t) K msgs = .ok (macOf t K msgs.flatten) := by
  obtain ⟨h1, h2, _⟩ := sizes ht
  have hl := macOf_len ht K
  obtain ⟨a, e, r⟩ := hmac_rep_init (junk 0) t ht K (by omega)
  obtain ⟨b, e', r'⟩ := hmac_rep_updates msgs r hm
  rw [drbg_hmac, slice_take _ _ (by omega), C.ok_bind, List.take_of_length_le (by omega), e, C.ok_bind,
    e', C.ok_bind, hmac_rep_final r' ht, C.ok_bind, fits_ok (by rw [hl]; omega), C.ok_bind,
    slice_take _ _ (by rw [hl]), List.take_of_length_le (by rw [hl]), List.nil_append]

/-- The state of the program `d` is the state (Key, V) `s`. -/
structure HmacSt (t : HashId) (d : HmacDrbg) (s : List Byte × List Byte) : Prop where
  type : d.type = t
  size : d.size = hash_output_size t
  K : d.K = s.1
  V : d.V = s.2
  Kl : s.1.length = hash_output_size t
  Vl : s.2.length = hash_output_size t
  kmac : HmacRep t s.1 d.kmac []

theorem hmac_update_core {t : HashId} (ht : hash_has_backend t = true) (junk : Nat → Junk) {d : HmacDrbg}
    (h1 : d.type = t) (h2 : d.size = hash_output_size t) (h3 : d.K.length = hash_output_size t)
    (h4 : d.V.length = hash_output_size t) (seed : List Byte) (hs : seed.length < 2 ^ 64) :
    ∃ d', hmac_drbg_update junk d seed = .ok d' ∧
      HmacSt t d' (hmacUpdate (macOf t) seed (d.K, d.V)) := by
  obtain ⟨a1, a2, _⟩ := sizes ht
  have hl := macOf_len ht
  have hmem : ∀ (v : List Byte) (b : Byte), v.length = hash_output_size t →
      ∀ x ∈ [v, [b], seed], x.length < 2 ^ 64 := by
    intro v b hv x hx
    simp only [List.mem_cons, List.not_mem_nil, or_false] at hx
    rcases hx with rfl | rfl | rfl
    · omega
    · simp
    · exact hs
  have hmem1 : ∀ (v : List Byte), v.length = hash_output_size t → ∀ x ∈ [v], x.length < 2 ^ 64 := by
    intro v hv x hx
    simp only [List.mem_cons, List.not_mem_nil, or_false] at hx
    subst hx; omega
  rw [hmac_drbg_update, h1, h2, slice_take _ _ (by omega), C.ok_bind, List.take_of_length_le (by omega),
    drbg_hmac_eq ht _ h3 _ (hmem _ _ h4), C.ok_bind, drbg_hmac_eq ht _ (hl _ _) _ (hmem1 _ h4), C.ok_bind,
    hmacUpdate]
  simp only [List.flatten_cons, List.flatten_nil, List.append_nil, List.append_assoc]
  generalize hKd : macOf t d.K (d.V ++ ([0] ++ seed)) = K1
  have hK1 : K1.length = hash_output_size t := by rw [← hKd]; exact hl _ _
  by_cases h0 : seed = []
  · subst h0
    obtain ⟨m, e, r⟩ := hmac_rep_init (junk 4 0) t ht K1 (by omega)
    refine ⟨⟨t, hash_output_size t, m, K1, macOf t K1 d.V⟩, ?_, ?_⟩
    · rw [if_neg (by simp), C.ok_bind, e, C.ok_bind]
    · rw [if_pos rfl]
      exact ⟨rfl, rfl, rfl, rfl, hK1, hl _ _, r⟩
  · rw [if_pos (List.length_pos_iff.2 h0), if_neg h0, drbg_hmac_eq ht _ hK1 _ (hmem _ _ (hl _ _)), C.ok_bind,
      drbg_hmac_eq ht _ (hl _ _) _ (hmem1 _ (hl _ _)), C.ok_bind]
    simp only [List.flatten_cons, List.flatten_nil, List.append_nil, C.ok_bind]
    generalize hKe : macOf t K1 _ = K2
    have hK2 : K2.length = hash_output_size t := by rw [← hKe]; exact hl _ _
    obtain ⟨m, e, r⟩ := hmac_rep_init (junk 4 0) t ht K2 (by omega)
    refine ⟨⟨t, hash_output_size t, m, K2, macOf t K2 (macOf t K1 d.V)⟩, ?_, ?_⟩
    · rw [e, C.ok_bind]
    · exact ⟨rfl, rfl, rfl, rfl, hK2, hl _ _, r⟩

theorem hmac_drbg_update_eq {t : HashId} (ht : hash_has_backend t = true) (junk : Nat → Junk) {d : HmacDrbg}
    {s : List Byte × List Byte} (h : HmacSt t d s) (seed : List Byte) (hs : seed.length < 2 ^ 64) :
    ∃ d', hmac_drbg_update junk d seed = .ok d' ∧ HmacSt t d' (hmacUpdate (macOf t) seed s) := by
  have := hmac_update_core ht junk h.type h.size (by rw [h.K]; exact h.Kl) (by rw [h.V]; exact h.Vl) seed hs
  rw [h.K, h.V] at this
  exact this

theorem hmac_drbg_init_eq {t : HashId} (ht : hash_has_backend t = true) (junk : Nat → Junk)
    (seed : List Byte) (hs : seed.length < 2 ^ 64) :
    ∃ d, hmac_drbg_init junk t seed = .ok d ∧
      HmacSt t d (hmacInit (macOf t) (hash_output_size t) seed) := by
  obtain ⟨a1, a2, _⟩ := sizes ht
  rw [hmac_drbg_init, C.check, if_pos (by simp; omega), C.ok_bind, fits_ok (by simp; omega), C.ok_bind,
    fits_ok (by simp; omega), C.ok_bind, hmacInit]
  exact hmac_update_core ht junk rfl rfl (by simp) (by simp) seed hs

theorem hmac_drbg_loop_eq {t : HashId} (ht : hash_has_backend t = true) (junk : Junk) {K : List Byte}
    {kmac : HmacCtx} (hk : HmacRep t K kmac []) :
    ∀ (n size len : Nat) (V : List Byte), len ≤ n → V.length = hash_output_size t →
      (0 < len → size = hash_output_size t) →
      hmac_drbg_loop junk kmac n size len V =
        .ok (cut (fun i => (macOf t K)^[i + 1] V) (hash_output_size t) len,
          (macOf t K)^[(len + hash_output_size t - 1) / hash_output_size t] V)
  | 0, size, len, V, hn, hV, hz => by
    obtain ⟨h1, _⟩ := sizes ht
    obtain rfl : len = 0 := by omega
    rw [cut_zero, ceil_zero (by omega)]; rfl
  | n + 1, size, len, V, hn, hV, hz => by
    obtain ⟨h1, h2, _⟩ := sizes ht
    have hpos : 0 < hash_output_size t := by omega
    have hl := macOf_len ht K
    by_cases hlen : len > 0
    · obtain rfl := hz hlen
      obtain ⟨a, e, r⟩ := hmac_rep_update hk V (by omega)
      rw [hmac_drbg_loop, if_pos hlen, slice_take _ _ (by omega), C.ok_bind,
        List.take_of_length_le (by omega), e, C.ok_bind, hmac_rep_final r ht, C.ok_bind,
        fits_ok (by rw [hl]; omega), C.ok_bind, List.nil_append]
      dsimp only
      rw [emit (hl _), C.ok_bind, emit_left,
        hmac_drbg_loop_eq ht junk hk n _ (len - hash_output_size t) (macOf t K V) (by omega) (hl _)
          (by intro h; rw [if_neg (by omega)]), C.ok_bind, cut_step _ hpos hlen (by exact hl _),
        ceil_pos hpos hlen]
      rfl
    · obtain rfl : len = 0 := by omega
      rw [hmac_drbg_loop, if_neg (by omega), cut_zero, ceil_zero hpos]; rfl

theorem mac_iter_len {t : HashId} (ht : hash_has_backend t = true) (K : List Byte) :
    ∀ (n : Nat) (V : List Byte), V.length = hash_output_size t →
      ((macOf t K)^[n] V).length = hash_output_size t
  | 0, _, h => h
  | n + 1, V, _ => by rw [Function.iterate_succ_apply']; exact macOf_len ht _ _

theorem hmac_drbg_generate_eq {t : HashId} (ht : hash_has_backend t = true) (junk : Nat → Nat → Junk)
    {d : HmacDrbg} {s : List Byte × List Byte} (h : HmacSt t d s) (len : Nat) (add : List Byte)
    (hs : add.length < 2 ^ 64) :
    ∃ d', hmac_drbg_generate junk d len add =
        .ok ((hmacGenerate (macOf t) (hash_output_size t) s len add).1, d') ∧
      HmacSt t d' (hmacGenerate (macOf t) (hash_output_size t) s len add).2 := by
  obtain ⟨d1, e1, r1⟩ : ∃ d1, (if add.length > 0 then hmac_drbg_update (junk 0) d add else .ok d) = .ok d1 ∧
      HmacSt t d1 (if add = [] then s else hmacUpdate (macOf t) add s) := by
    by_cases h0 : add = []
    · subst h0
      exact ⟨d, by simp, by simpa using h⟩
    · rw [if_pos (List.length_pos_iff.2 h0), if_neg h0]
      exact hmac_drbg_update_eq ht _ h add hs
  rw [hmac_drbg_generate, e1, C.ok_bind, hmacGenerate]
  dsimp only
  generalize (if add = [] then s else hmacUpdate (macOf t) add s) = s1 at *
  rw [hmac_drbg_loop_eq ht _ r1.kmac len d1.size len d1.V (Nat.le_refl _) (by rw [r1.V]; exact r1.Vl)
    (fun _ => r1.size), C.ok_bind, r1.V]
  have hV := mac_iter_len ht s1.1 ((len + hash_output_size t - 1) / hash_output_size t) s1.2 r1.Vl
  generalize (macOf t s1.1)^[(len + hash_output_size t - 1) / hash_output_size t] s1.2 = V1 at *
  obtain ⟨d2, e2, r2⟩ := hmac_drbg_update_eq ht (junk 2) (d := { d1 with V := V1 }) (s := (s1.1, V1))
    ⟨r1.type, r1.size, r1.K, rfl, r1.Kl, hV, r1.kmac⟩ add hs
  refine ⟨d2, ?_, r2⟩
  rw [e2, C.ok_bind]

end Torsion.Drb
