import Verif.Hash.StdUse
import Mathlib.Data.Nat.Prime.Nth

/-!
# The roots of the first eighty primes
-/
namespace Torsion.Cmp
open Spec Spec.Std

def primes80 : Vector Nat 80 := #v[
  2, 3, 5, 7, 11, 13, 17, 19, 23, 29, 31, 37, 41, 43, 47, 53, 59, 61, 67, 71, 73, 79, 83, 89, 97,
  101, 103, 107, 109, 113, 127, 131, 137, 139, 149, 151, 157, 163, 167, 173, 179, 181, 191, 193,
  197, 199, 211, 223, 227, 229, 233, 239, 241, 251, 257, 263, 269, 271, 277, 281, 283, 293, 307,
  311, 313, 317, 331, 337, 347, 349, 353, 359, 367, 373, 379, 383, 389, 397, 401, 409]

def isPr (n : Nat) : Bool := 2 ≤ n && (List.range n).all fun d => d < 2 || n % d != 0

theorem isPr_iff (n : Nat) : isPr n = true ↔ n.Prime := by
  rw [Nat.prime_def_lt']
  simp only [isPr, Bool.and_eq_true, decide_eq_true_eq, List.all_eq_true, List.mem_range, Bool.or_eq_true, bne_iff_ne]
  refine and_congr_right fun _ => ⟨fun h m h2 hm hd => ?_, fun h d hd => ?_⟩
  · rcases h m hm with h | h
    · omega
    · exact h (Nat.mod_eq_zero_of_dvd hd)
  · by_cases h2 : d < 2
    · exact .inl h2
    · exact .inr fun h0 => h d (by omega) hd (Nat.dvd_of_mod_eq_zero h0)

theorem primes_count : ∀ i : Fin 80, isPr primes80[i] = true ∧
    ((List.range primes80[i]).filter isPr).length = i := by decide +kernel

theorem nth_of_count {p i : Nat} (h1 : isPr p = true) (h2 : ((List.range p).filter isPr).length = i) :
    p = Nat.nth Nat.Prime i := by
  classical
  have hp := (isPr_iff _).1 h1
  have hc : Nat.count Nat.Prime p = i := by
    rw [Nat.count_eq_card_filter_range, ← h2, ← List.toFinset_card_of_nodup (List.nodup_range.filter _)]
    congr 1
    ext n
    simp [isPr_iff]
  rw [← hc]
  exact (Nat.nth_count hp).symm

theorem primes_nth (i : Fin 80) : primes80[i] = Nat.nth Nat.Prime i := by
  obtain ⟨h1, h2⟩ := primes_count i
  exact nth_of_count h1 h2

/-- The integer parts of the roots. -/
def cbrtQ (p : Nat) : Nat := ((List.range 9).filter fun q => q ^ 3 ≤ p).length - 1
def sqrtQ (p : Nat) : Nat := ((List.range 9).filter fun q => q ^ 2 ≤ p).length - 1

theorem cbrts_ok : ∀ i : Fin 80, IsCbrtFrac64 sha512K[i].toNat primes80[i] := by
  have h : ∀ i : Fin 80, let k := sha512K[i].toNat; let n := primes80[i]; let q := cbrtQ n
      (q * 2 ^ 64 + k) ^ 3 ≤ n * 2 ^ 192 ∧ n * 2 ^ 192 < (q * 2 ^ 64 + k + 1) ^ 3 := by decide +kernel
  exact fun i => ⟨sha512K[i].isLt, _, h i⟩

theorem sqrts_ok : ∀ i : Fin 8, IsSqrtFrac64 blake2bIV[i].toNat (primes80[i.val]'(by omega)) ∧
    IsSqrtFrac64 sha384IV[i].toNat (primes80[8 + i.val]'(by omega)) := by
  have h : ∀ i : Fin 8, (let k := blake2bIV[i].toNat; let n := primes80[i.val]'(by omega); let q := sqrtQ n
      (q * 2 ^ 64 + k) ^ 2 ≤ n * 2 ^ 128 ∧ n * 2 ^ 128 < (q * 2 ^ 64 + k + 1) ^ 2) ∧
      (let k := sha384IV[i].toNat; let n := primes80[8 + i.val]'(by omega); let q := sqrtQ n
      (q * 2 ^ 64 + k) ^ 2 ≤ n * 2 ^ 128 ∧ n * 2 ^ 128 < (q * 2 ^ 64 + k + 1) ^ 2) := by decide +kernel
  exact fun i => ⟨⟨blake2bIV[i].isLt, _, (h i).1⟩, ⟨sha384IV[i].isLt, _, (h i).2⟩⟩

end Torsion.Cmp
