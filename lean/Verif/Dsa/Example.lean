import Verif.Dsa.SigLemmas
import Mathlib.NumberTheory.LucasPrimality
import Mathlib.Tactic.NormNum.Prime

/-!
# A DSA key

The order is 3^52 2^77 + 1, with a Lucas certificate.
-/
namespace Torsion.Dsa
open Torsion.Spec

/-- Powers modulo `m` by squaring, for exponents of at most the given number of bits. -/
def powMod : Nat → Nat → Nat → Nat → Nat
  | 0, _, _, m => 1 % m
  | f + 1, b, e, m =>
    if e % 2 = 1 then b * powMod f (b * b % m) (e / 2) m % m else powMod f (b * b % m) (e / 2) m % m

theorem powMod_eq (f : Nat) : ∀ b e m, e < 2 ^ f → powMod f b e m = b ^ e % m := by
  induction f with
  | zero => intro b e m h; rw [show e = 0 by simpa using h]; rfl
  | succ f ih =>
    intro b e m h
    rw [powMod, ih _ _ _ (by rw [Nat.pow_succ] at h; omega)]
    have h1 : (b * b % m) ^ (e / 2) ≡ b ^ (2 * (e / 2)) [MOD m] := by
      refine ((Nat.mod_modEq _ _).pow _).trans ?_
      rw [pow_mul, sq]
    split
    · conv_rhs => rw [show e = 2 * (e / 2) + 1 by omega, pow_succ']
      exact Nat.ModEq.mul_left b ((Nat.mod_modEq _ _).trans h1)
    · conv_rhs => rw [show e = 2 * (e / 2) by omega]
      rw [Nat.mod_mod]; exact h1

/-- A group with a prime order of 160 bits, and a key. -/
def exDsa : DsaKey where
  p := 8957222972745828426779991371746258849561071577402443975684055872984357963125957437218710881877066772939721570698124213586651569851798710003320246729965959
  q := 3 ^ 52 * 2 ^ 77 + 1
  g := 4394392826946532605945013026316834270540752380951842127204488314201849521583643688356710722107051061151762013757931854705815417882598538996695985632788334
  y := 1347183189028108389681990445802331014407571224881997655692246809892946052743907676811358341619554230152666306712422351247619651953651026208557335130503173
  x := 12345678901234567890

theorem exDsa_ok : DsaKeyOk exDsa where
  plo := by decide +kernel
  phi := lt_of_lt_of_le (b := 2 ^ 512) (by decide +kernel) (Nat.pow_le_pow_right (by norm_num) (by norm_num))
  qbits := Or.inl (by
    apply le_antisymm
    · exact Nat.size_le.2 (by decide +kernel)
    · exact Nat.lt_size.2 (by decide +kernel))
  podd := by decide +kernel
  qodd := by decide +kernel
  glo := by decide +kernel
  ghi := by decide +kernel
  ylo := by decide +kernel
  yhi := by decide +kernel
  xlo := by decide +kernel
  xhi := by decide +kernel
  gorder := by rw [← powMod_eq 160 _ _ _ (by decide +kernel)]; decide +kernel
  pub := by rw [← powMod_eq 160 _ _ _ (by decide +kernel)]; decide +kernel

theorem exDsa_q : exDsa.q.Prime := by
  have h5 : ∀ e, e < 2 ^ 160 → ((5 : ZMod exDsa.q) ^ e = 1 ↔ powMod 160 5 e exDsa.q = 1) := by
    intro e he
    rw [powMod_eq 160 _ _ _ he]
    have := ZMod.natCast_eq_natCast_iff (5 ^ e) 1 exDsa.q
    push_cast at this
    rw [this]
    unfold Nat.ModEq
    rw [show 1 % exDsa.q = 1 by decide +kernel]
  refine lucas_primality _ (5 : ZMod exDsa.q) ?_ ?_
  · rw [h5 _ (by decide +kernel)]; decide +kernel
  · intro r hr hd
    have hd : r ∣ 3 ^ 52 * 2 ^ 77 := hd
    have : r = 3 ∨ r = 2 := by
      rcases (Nat.Prime.dvd_mul hr).1 hd with h | h
      · exact Or.inl ((Nat.prime_dvd_prime_iff_eq hr Nat.prime_three).1 (hr.dvd_of_dvd_pow h))
      · exact Or.inr ((Nat.prime_dvd_prime_iff_eq hr Nat.prime_two).1 (hr.dvd_of_dvd_pow h))
    rcases this with rfl | rfl
    · rw [Ne, h5 _ (by decide +kernel)]; decide +kernel
    · rw [Ne, h5 _ (by decide +kernel)]; decide +kernel

end Torsion.Dsa
