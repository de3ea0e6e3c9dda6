import Verif.Kdf.BcryptPbkdf

/-!
# bcrypt_pbkdf (C96)
-/
namespace Torsion
open Spec Bf Bcr Hsh

/-- `bcrypt_pbkdf` refuses exactly a count of rounds of 0, an empty password or salt, a salt of more than 2 ^ 20 bytes and keys of
0 or more than 1024 bytes. Else every byte of the key is written, with the value of bcrypt_pbkdf of OpenBSD. -/
theorem bcrypt_pbkdf_exact (junk : Nat → Nat → Byte) (key pass salt : List Byte) (rounds : Nat) (hp : pass.length < 2 ^ 64) :
    bcrypt_pbkdf junk key pass salt rounds =
      if rounds ≠ 0 ∧ pass ≠ [] ∧ salt ≠ [] ∧ salt.length ≤ 2 ^ 20 ∧ 0 < key.length ∧ key.length ≤ 1024 then
        .ok (bcryptPbkdf pass salt rounds key.length) else .fail := by
  by_cases h : rounds ≠ 0 ∧ pass ≠ [] ∧ salt ≠ [] ∧ salt.length ≤ 2 ^ 20 ∧ 0 < key.length ∧ key.length ≤ 1024
  · rw [if_pos h]
    obtain ⟨h1, h2, h3, h4, h5, h6⟩ := h
    have h2' : pass.length ≠ 0 := fun e => h2 (List.length_eq_zero_iff.1 e)
    have h3' : salt.length ≠ 0 := fun e => h3 (List.length_eq_zero_iff.1 e)
    unfold bcrypt_pbkdf
    dsimp only
    rw [decide_eq_false h1, decide_eq_false h2', decide_eq_false h3', decide_eq_false (show ¬ key.length = 0 by omega),
      decide_eq_false (show ¬ key.length > 32 * 32 by omega), decide_eq_false (show ¬ salt.length > 2 ^ 20 by omega)]
    simp only [Bool.or_self, Bool.not_false, R.need_true, R.ok_bind, R.liftM_eq]
    rw [sha_eq _ _ hp, R.lift_ok, R.ok_bind]
    obtain ⟨sh, s1, s2⟩ := md_rep_update ok512 (sha512_ini (junk 1)) salt (by omega)
    rw [s1, R.lift_ok, R.ok_bind]
    rw [List.nil_append] at s2
    rw [show key.length + 32 - 1 = key.length + 31 by omega]
    generalize hst : (key.length + 31) / 32 = stride
    have hst1 : 0 < stride := by omega
    have hst2 : stride ≤ key.length := by omega
    have hst3 : key.length ≤ 32 * stride := by omega
    have hq : 0 < key.length / stride := Nat.div_pos hst2 hst1
    have h32 : ∀ c, c < stride → places key.length stride c ≤ 32 := by
      intro c hc
      by_contra hn
      have := (places_iff (size := key.length) hc 32).2 (by omega)
      omega
    have ham : ∀ c, c < stride → places key.length stride c ≤ (key.length + stride - 1) / stride := by
      intro c hc
      rw [Nat.le_div_iff_mul_le hst1]
      have hpos : 0 < places key.length stride c := by unfold places; omega
      obtain ⟨k, hk⟩ : ∃ k, places key.length stride c = k + 1 := ⟨places key.length stride c - 1, by omega⟩
      have := (places_iff (size := key.length) hc k).2 (by omega)
      rw [hk, Nat.add_mul]
      omega
    have hl0 : left key.length stride 0 = key.length := by
      unfold left
      rw [Nat.sub_zero, Nat.sub_zero, Nat.mul_comm, Nat.div_add_mod]
    obtain ⟨key', k1, k2, k3⟩ := loop_eq junk pass salt sh s2 (rounds := rounds) (by omega) hq h32 ham key.length 0 _ key (Nat.zero_le _)
      (by omega) (Nat.min_le_left _ _) rfl
    rw [hl0] at k1
    rw [k1, R.lift_ok, R.ok_bind]
    refine congrArg R.ok ?_
    unfold bcryptPbkdf
    rw [hst]
    refine List.ext_getElem? (fun p => ?_)
    rcases Nat.lt_or_ge p key.length with hp' | hp'
    · rw [k3 p hp', if_pos (Nat.zero_le _), List.getElem?_map, List.getElem?_range hp']
      rfl
    · rw [List.getElem?_eq_none (by omega), List.getElem?_eq_none (by simpa using hp')]
  · rw [if_neg h]
    unfold bcrypt_pbkdf
    dsimp only
    have hb : (!(decide (rounds = 0) || decide (pass.length = 0) || decide (salt.length = 0) || decide (key.length = 0) ||
        decide (key.length > 32 * 32) || decide (salt.length > 2 ^ 20))) = false := by
      rw [Bool.not_eq_false']
      simp only [Bool.or_eq_true, decide_eq_true_eq, List.length_eq_zero_iff]
      by_contra hn
      apply h
      push Not at hn
      obtain ⟨⟨⟨⟨⟨a, b⟩, c⟩, d⟩, e⟩, f⟩ := hn
      exact ⟨a, b, c, f, List.length_pos_iff.2 d, e⟩
    rw [hb]
    rfl

example : ∃ out, bcrypt_pbkdf (fun _ _ => 0) (List.replicate 100 0) [1, 2] [3] 2 = .ok out ∧ out.length = 100 :=
  ⟨_, by rw [bcrypt_pbkdf_exact _ _ _ _ _ (by decide), if_pos (by decide)], by simp [bcryptPbkdf]⟩

end Torsion
