import Verif.Rsa.KeyLemmas
import Verif.Mpi.RandomProps
import Mathlib.NumberTheory.LucasLehmer
import Mathlib.Tactic.NormNum.Prime

/-!
# A key

The factors are 2^521 - 1 and 7; small keys are refused by the library.
-/
namespace Torsion.Rsa
open Torsion.Spec

/-- A valid key with prime factors. -/
def exKey : RsaKey :=
  ⟨7 * (2 ^ 521 - 1), 65537,
    5155328233496318390256865764810548697290840245466729669258087920880340553538954146776874404297340568416582885358721232128614872261196790492751513654940106623,
    2 ^ 521 - 1, 7,
    5155328233496318390256865764810548697290840245466729669258087920880340553538954146776874404297340568416582885358721232128614872261196790492751513654940106623,
    5,
    1961370760037317061423400228308969490648410085755230116969846702624440909542187443463588468760415587136370374683280245153463425142776183946449722368890016329⟩

theorem exKey_ok : RsaKeyOk exKey where
  pub := ⟨by decide +kernel, by decide +kernel, by decide +kernel, by decide +kernel, by decide +kernel, by decide +kernel⟩
  podd := by decide +kernel
  qodd := by decide +kernel
  pgt := by decide +kernel
  qgt := by decide +kernel
  ne := by decide +kernel
  prod := by decide +kernel
  dgt := by decide +kernel
  dlt := by decide +kernel
  inv := by decide +kernel
  hdp := by decide +kernel
  hdq := by decide +kernel
  dp0 := by decide +kernel
  dq0 := by decide +kernel
  qigt := by decide +kernel
  qilt := by decide +kernel
  qinv := by decide +kernel

theorem exKey_p : exKey.p.Prime := by
  show (mersenne 521).Prime
  exact lucas_lehmer_sufficiency _ (by norm_num) (by norm_num)

theorem exKey_q : exKey.q.Prime := by
  show (7 : Nat).Prime
  exact Nat.prime_seven

/-- A source whose every draw is the number 3. -/
def exSource : Source Nat where
  toByteGen := threes
  init _ := 0

/-- With this source the blinding factor is 3. -/
theorem exBlind : ∃ b, rsa_blind exSource 1 (mpz_of exKey.n) 1 (exSource.init []) = .ok b := by
  obtain ⟨z, h1, h2⟩ := (mpz_urandomm_exact threes 1 0 (Mpi.of_rep (exKey.n : Int)) (by decide +kernel)).1 0 (by norm_num)
    (fun j h => absurd h (by omega)) (by decide +kernel)
  unfold rsa_blind
  rw [show exSource.toByteGen = threes from rfl, show exSource.init [] = 0 from rfl, h1, R.ok_bind, Mpi.rep_of h2, R.liftM_eq]
  have hv : Spec.nthCandidate threes.gen exKey.n 0 0 = 3 := by decide +kernel
  rw [hv, Mpi.invert_of, R.lift_ok, R.ok_bind]
  rw [decide_eq_true ⟨by decide +kernel, by decide +kernel⟩]
  exact ⟨_, rfl⟩

end Torsion.Rsa
