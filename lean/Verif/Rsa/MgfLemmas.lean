import Verif.Rsa.EncLemmas
import Verif.Drbg.HashLemmas

/-!
# Lemmas: the mask generation function
-/
namespace Torsion.Rsa
open Torsion.Spec Mpi
open Torsion.Drb Hsh Kdf

theorem zip_append (f : Byte → Byte → Byte) : ∀ (a b c : List Byte),
    List.zipWith f a (b ++ c) = List.zipWith f a b ++ List.zipWith f (a.drop b.length) c
  | a, [], c => by simp
  | [], b :: bs, c => by simp
  | a :: as, b :: bs, c => by
    simp only [List.cons_append, List.zipWith_cons_cons, List.length_cons, List.drop_succ_cons]
    rw [zip_append f as bs c]

theorem zip_take (f : Byte → Byte → Byte) : ∀ (a b : List Byte),
    List.zipWith f a (b.take a.length) = List.zipWith f a b
  | [], b => by simp
  | a :: as, [] => by simp
  | a :: as, b :: bs => by
    simp only [List.length_cons, List.take_succ_cons, List.zipWith_cons_cons]
    rw [zip_take f as bs]

/-- The blocks from counter `c` on. -/
def mgfS (H : List Byte → List Byte) (seed : List Byte) (c r : Nat) : List Byte :=
  (List.range r).flatMap fun i => H (seed ++ bigBytes 4 (c + i))

theorem mgfS_succ (H : List Byte → List Byte) (seed : List Byte) (c r : Nat) :
    mgfS H seed c (r + 1) = H (seed ++ bigBytes 4 c) ++ mgfS H seed (c + 1) r := by
  unfold mgfS
  rw [List.range_succ_eq_map, List.flatMap_cons, List.flatMap_map, Nat.add_zero]
  congr 1
  apply List.flatMap_congr
  intro i _
  rw [show c + Nat.succ i = c + 1 + i by omega]

theorem incr_big (c : Nat) : increment_be_var (bigBytes 4 c) = .ok (bigBytes 4 (c + 1)) := by
  rw [increment_be_var_eq]
  obtain ⟨y, h1, h2, h3⟩ := increment_be_spec (bigBytes 4 c)
  rw [bigBytes_len] at h2 h3
  rw [h1, ← bigBytes_beVal h2, h3, bigBytes_mod, beVal_bigBytes]
  congr 1
  rw [← bigBytes_mod, ← bigBytes_mod 4 (c + 1), Nat.mod_add_mod]

theorem mgf_loop {t : HashId} (ht : hash_has_backend t = true) (junk : Nat → Byte) {cache : HashCtx} {seed : List Byte}
    (hc : HashRep t cache seed) : ∀ (k : Nat) (out : List Byte) (c r : Nat), out.length ≤ k →
    out.length ≤ r * hash_output_size t →
    mgf1_loop junk cache (hash_output_size t) k out (bigBytes 4 c) =
      .ok (xorStr out (mgfS (hashOf t) seed c r))
  | 0, out, c, r, hk, hr => by
    have : out = [] := List.length_eq_zero_iff.1 (by omega)
    rw [this]; rfl
  | k + 1, out, c, r, hk, hr => by
    unfold mgf1_loop
    by_cases ho : out = []
    · rw [if_pos ho, ho]; rfl
    rw [if_neg ho]
    have hol : 0 < out.length := List.length_pos_iff.2 ho
    obtain ⟨s1, s2, -⟩ := sizes ht
    have hl := hash_len ht (seed ++ bigBytes 4 c)
    cases r with
    | zero => omega
    | succ r =>
      obtain ⟨h', e1, r1⟩ := rep_update hc (bigBytes 4 c) (by rw [bigBytes_len]; norm_num)
      have hr' : (out.drop (hash_output_size t)).length ≤ r * hash_output_size t := by
        rw [List.length_drop]
        have : (r + 1) * hash_output_size t = r * hash_output_size t + hash_output_size t := by ring
        omega
      rw [e1, C.ok_bind, rep_final r1 _ _ (fun _ => by omega), C.ok_bind, fits_ok (by rw [hl]; omega), C.ok_bind,
        slice_take _ _ (by rw [hl]), List.take_of_length_le (by rw [hl]), C.ok_bind, incr_big, C.ok_bind,
        mgf_loop ht junk hc k _ (c + 1) r (by rw [List.length_drop]; omega) hr', C.ok_bind, mgfS_succ]
      unfold xorStr
      rw [zip_append, hl]

theorem mgfS_mgf1 (H : List Byte → List Byte) (hLen : Nat) (seed : List Byte) (n : Nat) :
    mgf1 H hLen seed n = (mgfS H seed 0 ((n + hLen - 1) / hLen)).take n := by
  unfold mgf1 mgfS
  simp only [Nat.zero_add]

theorem mgf_eq {t : HashId} (ht : hash_has_backend t = true) (junk : Nat → Nat → Byte) (out : List Byte) {seed : List Byte}
    (hs : seed.length < 2 ^ 64) : mgf1xor junk t out seed =
      .ok (xorStr out (mgf1 (hashOf t) (hash_output_size t) seed out.length)) := by
  obtain ⟨s1, s2, -⟩ := sizes ht
  obtain ⟨a, e, r⟩ := hash_calls ht (junk 0)
  obtain ⟨b, e', r'⟩ := rep_update r seed hs
  unfold mgf1xor
  rw [e, C.ok_bind, e', C.ok_bind]
  have h0 : ([0, 0, 0, 0] : List Byte) = bigBytes 4 0 := by decide
  rw [h0, mgf_loop ht (junk 1) r' out.length out 0 ((out.length + hash_output_size t - 1) / hash_output_size t) le_rfl ?_,
    mgfS_mgf1, List.nil_append]
  · unfold xorStr
    rw [zip_take]
  · have := Nat.div_add_mod (out.length + hash_output_size t - 1) (hash_output_size t)
    have := Nat.mod_lt (out.length + hash_output_size t - 1) (show 0 < hash_output_size t by omega)
    have hc : (out.length + hash_output_size t - 1) / hash_output_size t * hash_output_size t =
      hash_output_size t * ((out.length + hash_output_size t - 1) / hash_output_size t) := mul_comm _ _
    omega

theorem flatMap_len {H : List Byte → List Byte} {l : Nat} (hH : ∀ m, (H m).length = l) (seed : List Byte) : ∀ (c r : Nat),
    (mgfS H seed c r).length = r * l
  | c, 0 => by simp [mgfS]
  | c, r + 1 => by rw [mgfS_succ, List.length_append, hH, flatMap_len hH seed (c + 1) r]; ring

theorem mgf1_len {t : HashId} (ht : hash_has_backend t = true) (seed : List Byte) (n : Nat) :
    (mgf1 (hashOf t) (hash_output_size t) seed n).length = n := by
  obtain ⟨s1, s2, -⟩ := sizes ht
  rw [mgfS_mgf1, List.length_take, flatMap_len (hash_len ht)]
  have := Nat.div_add_mod (n + hash_output_size t - 1) (hash_output_size t)
  have := Nat.mod_lt (n + hash_output_size t - 1) (show 0 < hash_output_size t by omega)
  have hc : (n + hash_output_size t - 1) / hash_output_size t * hash_output_size t =
    hash_output_size t * ((n + hash_output_size t - 1) / hash_output_size t) := mul_comm _ _
  omega

theorem xor_len {a b : List Byte} (h : a.length = b.length) : (xorStr a b).length = a.length := by
  unfold xorStr; rw [List.length_zipWith]; omega

theorem xor_xor : ∀ {a b : List Byte}, a.length = b.length → xorStr (xorStr a b) b = a
  | [], [], _ => rfl
  | [], _ :: _, h => by simp at h
  | _ :: _, [], h => by simp at h
  | a :: as, b :: bs, h => by
    have ih := xor_xor (a := as) (b := bs) (by simpa using h)
    unfold xorStr at ih ⊢
    simp only [List.zipWith_cons_cons]
    rw [ih, BitVec.xor_assoc, BitVec.xor_self, BitVec.xor_zero]

theorem xor_inj {a a' b : List Byte} (h : a.length = b.length) (h' : a'.length = b.length)
    (he : xorStr a b = xorStr a' b) : a = a' := by
  rw [← xor_xor h, he, xor_xor h']

end Torsion.Rsa
