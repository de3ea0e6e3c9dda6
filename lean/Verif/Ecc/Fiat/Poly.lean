import Verif.Ecc.Fiat.Lang
import Mathlib.Data.ZMod.Basic
import Mathlib.Algebra.BigOperators.Group.List.Basic
import Mathlib.Tactic.Ring

/-!
# Polynomials of degree two, for the check of the limb arithmetic

A polynomial is a list of (key, coefficient). The key `i * 2 ^ 20 + j` is the product of the atoms `i` and `j`; the atom 0 is one.
Coefficients are natural numbers modulo `M`.
-/
namespace Torsion.Fiat

abbrev Poly := List (Nat × Nat)

/-- The base of the keys. -/
def KB : Nat := 2 ^ 20

/-- The value of an atom. -/
def atomVal {R : Type} [CommRing R] (ρ : Nat → R) (i : Nat) : R := if i = 0 then 1 else ρ i

/-- The value of a key. -/
def keyVal {R : Type} [CommRing R] (ρ : Nat → R) (k : Nat) : R := atomVal ρ (k / KB) * atomVal ρ (k % KB)

/-- The value of a polynomial. -/
def pval {R : Type} [CommRing R] (ρ : Nat → R) : Poly → R
  | [] => 0
  | (k, c) :: r => (c : R) * keyVal ρ k + pval ρ r

/-- Add one term. -/
def pins (M k c : Nat) : Poly → Poly
  | [] => [(k, c)]
  | (k', c') :: r => bif Nat.beq k k' then (k', (c + c') % M) :: r else (k', c') :: pins M k c r

def padd (M : Nat) (p : Poly) : Poly → Poly
  | [] => p
  | (k, c) :: r => padd M (pins M k c p) r

def pscale (M s : Nat) : Poly → Poly
  | [] => []
  | (k, c) :: r => (k, (s * c) % M) :: pscale M s r

/-- The negative: coefficients are multiplied by `M - 1`. -/
def pneg (M : Nat) (p : Poly) : Poly := pscale M (M - 1) p

def mulKey (a b : Nat) : Nat := bif Nat.ble a b then a * KB + b else b * KB + a

/-- The keys can be multiplied: both are atoms, or one is the constant. -/
def keyOk (a b : Nat) : Bool := (Nat.blt a KB && Nat.blt b KB) || (Nat.beq a 0 || Nat.beq b 0)

/-- A term times a polynomial. -/
def ptmul (M k c : Nat) : Poly → Option Poly
  | [] => some []
  | (k', c') :: r =>
    bif keyOk k k' then
      match ptmul M k c r with
      | some r' => some ((mulKey k k', (c * c') % M) :: r')
      | none => none
    else none

def pmul (M : Nat) : Poly → Poly → Option Poly
  | [], _ => some []
  | (k, c) :: r, q =>
    match ptmul M k c q with
    | some t =>
      match pmul M r q with
      | some u => some (padd M u t)
      | none => none
    | none => none

/-- Is every coefficient zero? -/
def pzero (M : Nat) : Poly → Bool
  | [] => true
  | (_, c) :: r => Nat.beq (c % M) 0 && pzero M r

def peq (M : Nat) (p q : Poly) : Bool := pzero M (padd M p (pneg M q))

variable {M : Nat} {ρ : Nat → ZMod M}

theorem pins_val (k c : Nat) : ∀ p : Poly, pval ρ (pins M k c p) = (c : ZMod M) * keyVal ρ k + pval ρ p
  | [] => by simp [pins, pval]
  | (k', c') :: r => by
    rw [pins]
    rcases h : Nat.beq k k' with _ | _
    · rw [cond_false, pval, pins_val k c r, pval]; ring
    · rw [cond_true, pval, pval, Nat.eq_of_beq_eq_true h]
      rw [ZMod.natCast_mod, Nat.cast_add]; ring

theorem padd_val (p : Poly) : ∀ q : Poly, pval ρ (padd M p q) = pval ρ p + pval ρ q
  | [] => by simp [padd, pval]
  | (k, c) :: r => by rw [padd, padd_val _ r, pins_val, pval]; ring

theorem pscale_val (s : Nat) : ∀ p : Poly, pval ρ (pscale M s p) = (s : ZMod M) * pval ρ p
  | [] => by simp [pscale, pval]
  | (k, c) :: r => by rw [pscale, pval, pscale_val s r, pval, ZMod.natCast_mod, Nat.cast_mul]; ring

theorem pneg_val (hM : 0 < M) (p : Poly) : pval ρ (pneg M p) = - pval ρ p := by
  have : ((M - 1 : Nat) : ZMod M) = -1 := by
    rw [Nat.cast_sub (by omega)]; simp
  rw [pneg, pscale_val, this]; ring

theorem key_small {k : Nat} (h : k < KB) : keyVal ρ k = atomVal ρ k := by
  rw [keyVal, Nat.div_eq_of_lt h, Nat.mod_eq_of_lt h]
  simp [atomVal]

theorem key_pair {a b : Nat} (hb : b < KB) : keyVal ρ (a * KB + b) = atomVal ρ a * atomVal ρ b := by
  have hp : 0 < KB := by decide
  rw [keyVal, Nat.add_comm, Nat.add_mul_div_right _ _ hp, Nat.div_eq_of_lt hb, Nat.zero_add, Nat.add_mul_mod_self_right, Nat.mod_eq_of_lt hb]

theorem mulKey_val {a b : Nat} (ha : a < KB) (hb : b < KB) : keyVal ρ (mulKey a b) = keyVal ρ a * keyVal ρ b := by
  rw [key_small ha, key_small hb, mulKey]
  cases Nat.ble a b
  · rw [cond_false, key_pair ha]; ring
  · rw [cond_true, key_pair hb]

theorem mulKey_ok {a b : Nat} (h : keyOk a b = true) : keyVal ρ (mulKey a b) = keyVal ρ a * keyVal ρ b := by
  have h0 : keyVal ρ 0 = 1 := by simp [keyVal, atomVal]
  rw [keyOk, Bool.or_eq_true, Bool.or_eq_true, Bool.and_eq_true, Nat.blt_eq, Nat.blt_eq, Nat.beq_eq, Nat.beq_eq] at h
  rcases h with h | rfl | rfl
  · exact mulKey_val h.1 h.2
  · rw [h0, one_mul]
    congr 1
    rw [mulKey]
    cases hb : Nat.ble 0 b
    · exact absurd (Nat.ble_eq_true_of_le (Nat.zero_le b)) (by simp [hb])
    · rw [cond_true]; omega
  · rw [h0, mul_one]
    congr 1
    rw [mulKey]
    cases hb : Nat.ble a 0
    · rw [cond_false]; omega
    · have := Nat.le_of_ble_eq_true hb
      have : a = 0 := by omega
      rw [cond_true, this, Nat.zero_mul]

theorem ptmul_val (k c : Nat) : ∀ (p t : Poly), ptmul M k c p = some t → pval ρ t = (c : ZMod M) * keyVal ρ k * pval ρ p
  | [], t, h => by
    rw [ptmul] at h
    cases h
    simp [pval]
  | (k', c') :: r, t, h => by
    rw [ptmul] at h
    rcases hb : keyOk k k' with _ | _
    · rw [hb, cond_false] at h; exact absurd h (by simp)
    · rw [hb, cond_true] at h
      rcases hr : ptmul M k c r with _ | r'
      · rw [hr] at h; exact absurd h (by simp)
      · rw [hr] at h
        cases h
        rw [pval, ptmul_val k c r r' hr, pval, mulKey_ok hb, ZMod.natCast_mod, Nat.cast_mul]; ring

theorem pmul_val : ∀ (p q t : Poly), pmul M p q = some t → pval ρ t = pval ρ p * pval ρ q
  | [], q, t, h => by
    rw [pmul] at h
    cases h
    simp [pval]
  | (k, c) :: r, q, t, h => by
    rw [pmul] at h
    rcases h1 : ptmul M k c q with _ | u
    · rw [h1] at h; exact absurd h (by simp)
    · rw [h1] at h
      rcases h2 : pmul M r q with _ | v
      · rw [h2] at h; exact absurd h (by simp)
      · rw [h2] at h
        cases h
        rw [padd_val, ptmul_val k c q u h1, pmul_val r q v h2, pval]; ring

theorem pzero_val : ∀ p : Poly, pzero M p = true → pval ρ p = 0
  | [], _ => rfl
  | (k, c) :: r, h => by
    rw [pzero, Bool.and_eq_true] at h
    have hc := Nat.eq_of_beq_eq_true h.1
    rw [pval, pzero_val r h.2, (ZMod.natCast_eq_zero_iff c M).2 (Nat.dvd_of_mod_eq_zero hc)]; ring

theorem peq_val (hM : 0 < M) {p q : Poly} (h : peq M p q = true) : pval ρ p = pval ρ q := by
  have := pzero_val (ρ := ρ) _ h
  rw [padd_val, pneg_val hM] at this
  exact add_neg_eq_zero.1 this

end Torsion.Fiat
