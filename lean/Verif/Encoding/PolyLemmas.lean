import Verif.Encoding.BechSpec
import Verif.Encoding.Bech32
import Mathlib.Tactic.Ring
import Mathlib.Tactic.Linarith

/-! # Algebra of the BCH checksums -/
namespace Torsion
open Spec

theorem genSum_xor : ∀ (gs : List Nat) (a b : Nat),
    genSum gs (a ^^^ b) = genSum gs a ^^^ genSum gs b
  | [], _, _ => by simp [genSum]
  | g :: gs, a, b => by
    simp only [genSum]
    rw [Nat.xor_div_two, genSum_xor gs]
    have h : (a ^^^ b) % 2 = (a % 2 + b % 2) % 2 := by
      have := @Nat.xor_mod_two_pow a b 1
      rw [pow_one] at this
      rw [this]
      rcases Nat.mod_two_eq_zero_or_one a with ha | ha <;>
        rcases Nat.mod_two_eq_zero_or_one b with hb | hb <;> rw [ha, hb] <;> rfl
    rcases Nat.mod_two_eq_zero_or_one a with ha | ha <;>
      rcases Nat.mod_two_eq_zero_or_one b with hb | hb <;>
      simp only [h, ha, hb] <;> norm_num
    · rw [← Nat.xor_assoc, Nat.xor_comm g, Nat.xor_assoc]
    · rw [Nat.xor_assoc]
    · rw [Nat.xor_comm g (genSum gs (b / 2)), ← Nat.xor_assoc, Nat.xor_assoc g, Nat.xor_comm g,
        Nat.xor_assoc, Nat.xor_self, Nat.xor_zero]

theorem genSum_zero : ∀ gs : List Nat, genSum gs 0 = 0
  | [] => rfl
  | g :: gs => by simp [genSum, genSum_zero gs]

theorem genSum_lt (m : Nat) : ∀ (gs : List Nat) (b : Nat), (∀ g ∈ gs, g < 2 ^ m) →
    genSum gs b < 2 ^ m
  | [], _, _ => by simp [genSum]
  | g :: gs, b, h => by
    simp only [genSum]
    apply Nat.xor_lt_two_pow
    · split
      · exact h g (by simp)
      · positivity
    · exact genSum_lt m gs _ (fun x hx => h x (by simp [hx]))

/-- The residue map `c ↦ c · x`. -/
def polyMap (k : Nat) (gen : List Nat) (c : Nat) : Nat := polyStep k gen c 0

theorem polyStep_eq (k : Nat) (gen : List Nat) (c v : Nat) :
    polyStep k gen c v = polyMap k gen c ^^^ v := by
  simp [polyMap, polyStep]

theorem mul32_xor (a b : Nat) : (a ^^^ b) * 32 = a * 32 ^^^ b * 32 := by
  have := @Nat.shiftLeft_xor_distrib 5 a b
  simpa [Nat.shiftLeft_eq] using this

theorem polyMap_xor (k : Nat) (gen : List Nat) (a b : Nat) :
    polyMap k gen (a ^^^ b) = polyMap k gen a ^^^ polyMap k gen b := by
  simp only [polyMap, polyStep, Nat.xor_zero]
  rw [Nat.xor_mod_two_pow, mul32_xor]
  have : (a ^^^ b) / 2 ^ k = a / 2 ^ k ^^^ b / 2 ^ k := by
    simp only [← Nat.shiftRight_eq_div_pow, Nat.shiftRight_xor_distrib]
  rw [this, genSum_xor]
  ac_rfl

theorem polyMap_zero (k : Nat) (gen : List Nat) : polyMap k gen 0 = 0 := by
  simp [polyMap, polyStep, genSum_zero]

theorem polyMap_small {k : Nat} (gen : List Nat) {c : Nat} (h : c < 2 ^ k) :
    polyMap k gen c = c * 32 := by
  simp [polyMap, polyStep, Nat.mod_eq_of_lt h, Nat.div_eq_of_lt h, genSum_zero]

theorem polyMap_lt {k : Nat} {gen : List Nat} (hg : ∀ g ∈ gen, g < 2 ^ (k + 5)) (c : Nat) :
    polyMap k gen c < 2 ^ (k + 5) := by
  simp only [polyMap, polyStep, Nat.xor_zero]
  apply Nat.xor_lt_two_pow
  · have : c % 2 ^ k < 2 ^ k := Nat.mod_lt _ (by positivity)
    rw [pow_add]; omega
  · exact genSum_lt _ _ _ hg

theorem polyStep_lt {k : Nat} {gen : List Nat} (hg : ∀ g ∈ gen, g < 2 ^ (k + 5)) (c : Nat)
    {v : Nat} (hv : v < 32) : polyStep k gen c v < 2 ^ (k + 5) := by
  rw [polyStep_eq]
  apply Nat.xor_lt_two_pow (polyMap_lt hg c)
  have : 1 ≤ 2 ^ k := Nat.one_le_two_pow
  rw [pow_add]; omega

/-- Folding from a sum of states. -/
theorem polyFold_xor (k : Nat) (gen : List Nat) : ∀ (vs : List Nat) (a b : Nat),
    vs.foldl (polyStep k gen) (a ^^^ b) =
      (polyMap k gen)^[vs.length] a ^^^ vs.foldl (polyStep k gen) b
  | [], a, b => rfl
  | v :: vs, a, b => by
    rw [List.foldl_cons, List.foldl_cons, List.length_cons, Function.iterate_succ_apply,
      ← polyFold_xor k gen vs]
    congr 1
    simp only [polyStep_eq, polyMap_xor]
    rw [Nat.xor_assoc]

theorem polyFold_from (k : Nat) (gen : List Nat) (vs : List Nat) (a : Nat) :
    vs.foldl (polyStep k gen) a =
      (polyMap k gen)^[vs.length] a ^^^ vs.foldl (polyStep k gen) 0 := by
  have := polyFold_xor k gen vs a 0
  rwa [Nat.xor_zero] at this

/-- Difference of two runs. -/
theorem polyFold_diff (k : Nat) (gen : List Nat) : ∀ (vs ws : List Nat) (a b : Nat),
    vs.length = ws.length →
    vs.foldl (polyStep k gen) a ^^^ ws.foldl (polyStep k gen) b =
      (List.zipWith (· ^^^ ·) vs ws).foldl (polyStep k gen) (a ^^^ b)
  | [], [], a, b, _ => rfl
  | v :: vs, w :: ws, a, b, h => by
    rw [List.foldl_cons, List.foldl_cons, List.zipWith_cons_cons, List.foldl_cons,
      polyFold_diff k gen vs ws _ _ (by simpa using h)]
    congr 1
    simp only [polyStep_eq, polyMap_xor]
    ac_rfl
  | [], _ :: _, _, _, h => by simp at h
  | _ :: _, [], _, _, h => by simp at h

/-- Positional value of symbols, most significant first. -/
def pack (a : Nat) (vs : List Nat) : Nat := vs.foldl (fun c v => c * 32 + v) a

theorem mul32_xor_small (c : Nat) {v : Nat} (hv : v < 32) : c * 32 ^^^ v = c * 32 + v := by
  have h := Nat.shiftLeft_add_eq_or_of_lt (i := 5) (b := v) (by omega) c
  rw [Nat.shiftLeft_eq] at h
  have h2 : c * 2 ^ 5 ^^^ v = c * 2 ^ 5 ||| v := by
    apply Nat.eq_of_testBit_eq
    intro i
    rw [Nat.testBit_xor, Nat.testBit_or, mul_comm, Nat.testBit_two_pow_mul]
    by_cases hi : 5 ≤ i
    · have : v.testBit i = false := Nat.testBit_lt_two_pow (lt_of_lt_of_le (by omega : v < 2 ^ 5)
        (Nat.pow_le_pow_right (by omega) hi))
      simp [this]
    · simp [hi]
  norm_num at h h2
  omega

theorem polyFold_pack (k : Nat) (gen : List Nat) : ∀ (vs : List Nat) (a : Nat),
    (∀ v ∈ vs, v < 32) → a * 32 ^ vs.length + 32 ^ vs.length ≤ 2 ^ (k + 5) →
    vs.foldl (polyStep k gen) a = pack a vs
  | [], a, _, _ => rfl
  | v :: vs, a, hv, hb => by
    have hv0 := hv v (by simp)
    have hpos : 1 ≤ 32 ^ vs.length := Nat.one_le_pow _ _ (by omega)
    rw [List.length_cons, pow_succ] at hb
    have ha : a < 2 ^ k := by
      rw [pow_add] at hb
      by_contra hc
      have h1 : 2 ^ k * (32 ^ vs.length * 32) ≤ a * (32 ^ vs.length * 32) :=
        Nat.mul_le_mul_right _ (by omega)
      have h2 : 2 ^ k * 2 ^ 5 ≤ 2 ^ k * (32 ^ vs.length * 32) := Nat.mul_le_mul_left _ (by omega)
      omega
    rw [List.foldl_cons, polyStep_eq, polyMap_small gen ha, mul32_xor_small a hv0,
      polyFold_pack k gen vs _ (fun x hx => hv x (by simp [hx]))]
    · rfl
    · have : (a * 32 + v + 1) * 32 ^ vs.length ≤ (a * 32 + 32) * 32 ^ vs.length :=
        Nat.mul_le_mul_right _ (by omega)
      linarith

theorem pack_append (a : Nat) (vs ws : List Nat) : pack a (vs ++ ws) = pack (pack a vs) ws := by
  simp [pack]

theorem pack_eq (a : Nat) (vs : List Nat) : pack a vs = a * 32 ^ vs.length + pack 0 vs := by
  induction vs generalizing a with
  | nil => simp [pack]
  | cons v vs ih =>
    have h1 : pack a (v :: vs) = pack (a * 32 + v) vs := rfl
    have h2 : pack 0 (v :: vs) = pack (0 * 32 + v) vs := rfl
    rw [h1, h2, ih, ih (0 * 32 + v), List.length_cons, pow_succ]; ring

theorem pack_lt : ∀ (vs : List Nat), (∀ v ∈ vs, v < 32) → pack 0 vs < 32 ^ vs.length
  | [], _ => by simp [pack]
  | v :: vs, h => by
    have h1 : pack 0 (v :: vs) = pack (0 * 32 + v) vs := rfl
    have := pack_lt vs (fun x hx => h x (by simp [hx]))
    have hv := h v (by simp)
    rw [h1, pack_eq, List.length_cons, pow_succ]
    have : (v + 1) * 32 ^ vs.length ≤ 32 * 32 ^ vs.length := Nat.mul_le_mul_right _ (by omega)
    linarith

theorem pack_inj : ∀ {vs ws : List Nat}, vs.length = ws.length → (∀ v ∈ vs, v < 32) →
    (∀ v ∈ ws, v < 32) → pack 0 vs = pack 0 ws → vs = ws
  | [], [], _, _, _, _ => rfl
  | v :: vs, w :: ws, hl, hv, hw, h => by
    have hl' : vs.length = ws.length := by simpa using hl
    have h1 : pack 0 (v :: vs) = pack (0 * 32 + v) vs := rfl
    have h2 : pack 0 (w :: ws) = pack (0 * 32 + w) ws := rfl
    have l1 := pack_lt vs (fun x hx => hv x (by simp [hx]))
    have l2 := pack_lt ws (fun x hx => hw x (by simp [hx]))
    rw [h1, h2, pack_eq, pack_eq (0 * 32 + w), ← hl'] at h
    rw [← hl'] at l2
    simp only [Nat.zero_mul, Nat.zero_add] at h
    have e : v = w := by
      have d1 : (v * 32 ^ vs.length + pack 0 vs) / 32 ^ vs.length =
        (w * 32 ^ vs.length + pack 0 ws) / 32 ^ vs.length := by rw [h]
      have hp : 0 < 32 ^ vs.length := by positivity
      rw [Nat.add_comm, Nat.add_mul_div_right _ _ hp, Nat.div_eq_of_lt l1,
        Nat.add_comm (w * _), Nat.add_mul_div_right _ _ hp, Nat.div_eq_of_lt l2] at d1
      omega
    subst e
    rw [pack_inj hl' (fun x hx => hv x (by simp [hx])) (fun x hx => hw x (by simp [hx]))
      (by omega)]
  | [], _ :: _, h, _, _, _ => by simp at h
  | _ :: _, [], h, _, _, _ => by simp at h

/-- Symbols of a number, most significant first. -/
def unpack : Nat → Nat → List Nat
  | 0, _ => []
  | n + 1, x => unpack n (x / 32) ++ [x % 32]

theorem unpack_len : ∀ n x, (unpack n x).length = n
  | 0, _ => rfl
  | n + 1, x => by simp [unpack, unpack_len n]

theorem unpack_lt : ∀ n x, ∀ v ∈ unpack n x, v < 32
  | 0, _ => by simp [unpack]
  | n + 1, x => by
    intro v hv
    rcases List.mem_append.1 hv with h | h
    · exact unpack_lt n _ v h
    · simp at h; omega

theorem pack_unpack : ∀ n x, x < 32 ^ n → pack 0 (unpack n x) = x
  | 0, x, h => by simp at h; subst h; rfl
  | n + 1, x, h => by
    rw [pow_succ] at h
    rw [unpack, pack_append, pack_unpack n _ (by omega)]
    simp only [pack, List.foldl_cons, List.foldl_nil]; omega

/-- Existence and uniqueness of the checksum symbols. -/
theorem polymod_checksum {k n : Nat} (hk : k + 5 = 5 * n) (gen : List Nat)
    (hg : ∀ g ∈ gen, g < 2 ^ (k + 5)) {pre : List Nat} {s const : Nat}
    (hs : pre.foldl (polyStep k gen) 1 = s) (hc : const < 2 ^ (k + 5)) (hn : 0 < n)
    {chk : List Nat} (hl : chk.length = n) (hb : ∀ v ∈ chk, v < 32) :
    polymod k gen (pre ++ chk) = const ↔
      chk = unpack n ((polyMap k gen)^[n] s ^^^ const) := by
  have hp : 32 ^ n = 2 ^ (k + 5) := by rw [hk, pow_mul]; norm_num
  have hlt : (polyMap k gen)^[n] s ^^^ const < 32 ^ n := by
    rw [hp]
    apply Nat.xor_lt_two_pow _ hc
    obtain ⟨m, rfl⟩ : ∃ m, n = m + 1 := ⟨n - 1, by omega⟩
    rw [Function.iterate_succ_apply']
    exact polyMap_lt hg _
  rw [polymod, List.foldl_append, hs, polyFold_from, hl,
    polyFold_pack k gen chk 0 hb (by rw [hl, hp]; omega)]
  constructor
  · intro h
    apply pack_inj (by rw [hl, unpack_len]) hb (unpack_lt _ _)
    rw [pack_unpack _ _ hlt, ← h, ← Nat.xor_assoc, Nat.xor_self, Nat.zero_xor]
  · rintro rfl
    rw [pack_unpack _ _ hlt, ← Nat.xor_assoc, Nat.xor_self, Nat.zero_xor]

end Torsion
