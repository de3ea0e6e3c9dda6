import Verif.Encoding.Base58
import Verif.Util.Spec
import Verif.Encoding.Base16Lemmas
import Mathlib.Data.Nat.Digits.Lemmas
import Mathlib.Tactic.Ring
import Mathlib.Tactic.Linarith

namespace Torsion
namespace Spec

/-- The bitcoin base58 alphabet: digits without `0`, capitals without `I` and `O`, small letters
without `l`. -/
def base58Char (n : Nat) : Byte :=
  if n < 9 then BitVec.ofNat 8 (49 + n)          -- 1-9
  else if n < 17 then BitVec.ofNat 8 (65 + (n - 9))    -- A-H
  else if n < 22 then BitVec.ofNat 8 (74 + (n - 17))   -- J-N
  else if n < 33 then BitVec.ofNat 8 (80 + (n - 22))   -- P-Z
  else if n < 44 then BitVec.ofNat 8 (97 + (n - 33))   -- a-k
  else BitVec.ofNat 8 (109 + (n - 44))                 -- m-z

/-- Base58 text: one `1` per leading zero byte, then the base-58 digits of the number without
leading zeros. -/
def base58 (b : List Byte) : List Byte :=
  List.replicate (b.takeWhile (· == 0)).length (base58Char 0) ++
    ((Nat.digits 58 (beVal b)).reverse.map base58Char)

end Spec
open Spec

/-! ## The carry loop on little-endian digits -/

/-- `base58_inner` as a function on the remaining (little-endian) digits. -/
def inner58 (mul base length : Nat) : Nat → Nat → List Nat → List Nat × Nat × Nat
  | j, carry, [] => ([], carry, j)
  | j, carry, d :: ds =>
    if carry = 0 ∧ j ≥ length then (d :: ds, carry, j)
    else
      let c := carry + d * mul
      let r := inner58 mul base length (j + 1) (c / base) ds
      (c % base :: r.1, r.2)

/-- Bytes of digits. -/
def toB (l : List Nat) : List Byte := l.map (BitVec.ofNat 8)

theorem inner_eq (mul base length : Nat) (hbase : 0 < base) (hb : base ≤ 256) :
    ∀ (ds : List Nat) (j carry : Nat) (lo : List Byte), lo.length = j →
    (∀ d ∈ ds, d < 256) →
    base58_inner mul base (ds.length + j) length ds.length j carry (toB ds.reverse ++ lo) =
      .ok (toB (inner58 mul base length j carry ds).1.reverse ++ lo,
        (inner58 mul base length j carry ds).2)
  | [], j, carry, lo, _, _ => by simp [base58_inner, inner58, toB]
  | d :: ds, j, carry, lo, hj, hd => by
    rw [List.length_cons, base58_inner, inner58]
    by_cases hc : carry = 0 ∧ j ≥ length
    · rw [if_pos hc, if_pos hc]
    · rw [if_neg hc, if_neg hc]
      have hdl : d < 256 := hd d (by simp)
      have hbuf : toB (d :: ds).reverse ++ lo = toB ds.reverse ++ (BitVec.ofNat 8 d :: lo) := by
        simp [toB]
      have hlen : (toB ds.reverse).length = ds.length := by simp [toB]
      have hidx : ds.length + 1 + j - 1 - j = ds.length := by omega
      rw [hbuf, hidx]
      have hr : C.rd (toB ds.reverse ++ (BitVec.ofNat 8 d :: lo)) ds.length =
          .ok (BitVec.ofNat 8 d) := by
        rw [rd_of_lt (by rw [List.length_append, hlen, List.length_cons]; omega)]
        rw [List.getElem_append_right (by omega)]
        simp [hlen]
      have hto : (BitVec.ofNat 8 d).toNat = d := by
        rw [BitVec.toNat_ofNat]; exact Nat.mod_eq_of_lt hdl
      rw [hr, C.ok_bind, hto]
      have hw : C.wr (toB ds.reverse ++ (BitVec.ofNat 8 d :: lo)) ds.length
          (BitVec.ofNat 8 ((carry + d * mul) % base)) =
          .ok (toB ds.reverse ++ (BitVec.ofNat 8 ((carry + d * mul) % base) :: lo)) := by
        unfold C.wr
        rw [if_pos (by rw [List.length_append, hlen, List.length_cons]; omega)]
        congr 1
        rw [List.set_append_right _ _ (by omega)]
        simp [hlen]
      simp only
      rw [hw, C.ok_bind]
      have ih := inner_eq mul base length hbase hb ds (j + 1) ((carry + d * mul) / base)
        (BitVec.ofNat 8 ((carry + d * mul) % base) :: lo) (by simp [hj])
        (fun x hx => hd x (by simp [hx]))
      rw [show ds.length + 1 + j = ds.length + (j + 1) by omega, ih]
      simp [toB]

theorem inner_len (mul base length : Nat) : ∀ (ds : List Nat) (j carry : Nat),
    (inner58 mul base length j carry ds).1.length = ds.length ∧
    j ≤ (inner58 mul base length j carry ds).2.2 ∧
    (inner58 mul base length j carry ds).2.2 ≤ j + ds.length
  | [], j, carry => by simp [inner58]
  | d :: ds, j, carry => by
    rw [inner58]
    by_cases hc : carry = 0 ∧ j ≥ length
    · rw [if_pos hc]; simp
    · rw [if_neg hc]
      obtain ⟨h1, h2, h3⟩ := inner_len mul base length ds (j + 1) ((carry + d * mul) / base)
      simp only [List.length_cons, h1, true_and]
      omega

theorem inner_digits (mul base length : Nat) (hbase : 0 < base) :
    ∀ (ds : List Nat) (j carry : Nat), (∀ d ∈ ds, d < base) →
    ∀ d ∈ (inner58 mul base length j carry ds).1, d < base
  | [], j, carry, _ => by simp [inner58]
  | d :: ds, j, carry, h => by
    rw [inner58]
    by_cases hc : carry = 0 ∧ j ≥ length
    · rw [if_pos hc]; exact h
    · rw [if_neg hc]
      intro x hx
      rcases List.mem_cons.1 hx with rfl | hx
      · exact Nat.mod_lt _ hbase
      · exact inner_digits mul base length hbase ds (j + 1) _
          (fun y hy => h y (by simp [hy])) x hx

theorem ofDigits_zeros {base : Nat} : ∀ {ds : List Nat}, (∀ d ∈ ds, d = 0) →
    Nat.ofDigits base ds = 0
  | [], _ => rfl
  | d :: ds, h => by
    rw [Nat.ofDigits_cons, h d (by simp), ofDigits_zeros (fun x hx => h x (by simp [hx]))]
    simp

/-- Value: `out + carry' * base^n = in * mul + carry`. -/
theorem inner_val (mul base length : Nat) (hbase : 0 < base) :
    ∀ (ds : List Nat) (j carry : Nat), (∀ d ∈ ds.drop (length - j), d = 0) →
    Nat.ofDigits base (inner58 mul base length j carry ds).1 +
      base ^ ds.length * (inner58 mul base length j carry ds).2.1 =
      mul * Nat.ofDigits base ds + carry
  | [], j, carry, _ => by simp [inner58]
  | d :: ds, j, carry, h => by
    rw [inner58]
    by_cases hc : carry = 0 ∧ j ≥ length
    · rw [if_pos hc]
      have h0 : length - j = 0 := by omega
      rw [h0, List.drop_zero] at h
      rw [ofDigits_zeros h, hc.1]; simp
    · rw [if_neg hc]
      have hz : ∀ x ∈ ds.drop (length - (j + 1)), x = 0 := by
        intro x hx
        by_cases hj : length ≤ j
        · rw [show length - (j + 1) = 0 by omega, List.drop_zero] at hx
          exact h x (by rw [show length - j = 0 by omega]; simp [hx])
        · refine h x ?_
          rw [show length - j = (length - (j + 1)) + 1 by omega, List.drop_succ_cons]
          exact hx
      have ih := inner_val mul base length hbase ds (j + 1) ((carry + d * mul) / base) hz
      simp only [Nat.ofDigits_cons, List.length_cons]
      have hdm := Nat.div_add_mod (carry + d * mul) base
      generalize (inner58 mul base length (j + 1) ((carry + d * mul) / base) ds) = r at *
      generalize (carry + d * mul) / base = q at *
      generalize (carry + d * mul) % base = m at *
      have e : base * (Nat.ofDigits base r.1 + base ^ ds.length * r.2.1) =
        base * (mul * Nat.ofDigits base ds + q) := by rw [ih]
      have e2 : base ^ (ds.length + 1) * r.2.1 = base * (base ^ ds.length * r.2.1) := by
        rw [Nat.pow_succ]; ring
      rw [e2]
      nlinarith [e, hdm]

/-- Digits from `j'` on are zero; and if the loop went past `length` the top digit is nonzero. -/
theorem inner_top (mul base length : Nat) (hbase : 0 < base) :
    ∀ (ds : List Nat) (j carry : Nat), (∀ d ∈ ds.drop (length - j), d = 0) →
    (inner58 mul base length j carry ds).2.1 = 0 → length ≤ j + ds.length →
    (∀ d ∈ (inner58 mul base length j carry ds).1.drop
        ((inner58 mul base length j carry ds).2.2 - j), d = 0) ∧
    length ≤ (inner58 mul base length j carry ds).2.2 ∧
    (max j length < (inner58 mul base length j carry ds).2.2 →
      ∃ t, (inner58 mul base length j carry ds).1[
        (inner58 mul base length j carry ds).2.2 - 1 - j]? = some t ∧ t ≠ 0)
  | [], j, carry, _, _, hl => by
    simp [inner58]; simpa using hl
  | d :: ds, j, carry, h, h0, hl => by
    rw [inner58] at h0 ⊢
    by_cases hc : carry = 0 ∧ j ≥ length
    · rw [if_pos hc]
      have e0 : length - j = 0 := by omega
      rw [e0] at h
      refine ⟨?_, hc.2, fun hlt => ?_⟩
      · simpa using h
      · simp only at hlt; omega
    · rw [if_neg hc] at h0 ⊢
      have hz : ∀ x ∈ ds.drop (length - (j + 1)), x = 0 := by
        intro x hx
        by_cases hj : length ≤ j
        · rw [show length - (j + 1) = 0 by omega, List.drop_zero] at hx
          exact h x (by rw [show length - j = 0 by omega]; simp [hx])
        · refine h x ?_
          rw [show length - j = (length - (j + 1)) + 1 by omega, List.drop_succ_cons]
          exact hx
      simp only at h0
      obtain ⟨i1, i2, i3⟩ := inner_top mul base length hbase ds (j + 1)
        ((carry + d * mul) / base) hz h0 (by simp at hl; omega)
      have hn := inner_len mul base length ds (j + 1) ((carry + d * mul) / base)
      have hv := inner_val mul base length hbase ds (j + 1) ((carry + d * mul) / base) hz
      rw [h0] at hv
      simp only
      generalize hR : inner58 mul base length (j + 1) ((carry + d * mul) / base) ds = R at *
      refine ⟨?_, i2, fun hlt => ?_⟩
      · rw [show R.2.2 - j = (R.2.2 - (j + 1)) + 1 by omega, List.drop_succ_cons]; exact i1
      · by_cases hm : max (j + 1) length < R.2.2
        · obtain ⟨t, ht, ht0⟩ := i3 hm
          refine ⟨t, ?_, ht0⟩
          rw [show R.2.2 - 1 - j = (R.2.2 - 1 - (j + 1)) + 1 by omega, List.getElem?_cons_succ]
          exact ht
        · -- the loop stopped right after this digit
          have hj : R.2.2 = j + 1 := by omega
          have hjl : length ≤ j := by omega
          have hd0 : d = 0 := h d (by rw [show length - j = 0 by omega]; simp)
          have hc0 : carry ≠ 0 := fun hh => hc ⟨hh, hjl⟩
          -- the recursive call left every digit zero, so the carry into it was zero
          rw [hj, Nat.sub_self, List.drop_zero] at i1
          rw [ofDigits_zeros i1] at hv
          have hq : (carry + d * mul) / base = 0 := by
            generalize (carry + d * mul) / base = q at *
            omega
          have hlt' : carry + d * mul < base := by
            rcases Nat.div_eq_zero_iff.1 hq with h' | h'
            · omega
            · exact h'
          refine ⟨(carry + d * mul) % base, ?_, ?_⟩
          · rw [hj]; simp
          · rw [Nat.mod_eq_of_lt hlt', hd0]; simpa using hc0

/-! ## The outer loops -/

/-- Digits of the workspace after a prefix of value `v` has been absorbed. -/
structure Inv58 (base size : Nat) (ds : List Nat) (length v : Nat) : Prop where
  len : ds.length = size
  lt : ∀ d ∈ ds, d < base
  val : Nat.ofDigits base ds = v
  zero : ∀ d ∈ ds.drop length, d = 0
  le : length ≤ size
  top : length ≠ 0 → ∃ t, ds[length - 1]? = some t ∧ t ≠ 0

theorem inv_digits {base size : Nat} (hb : 1 < base) {ds : List Nat} {length v : Nat}
    (h : Inv58 base size ds length v) : ds.take length = Nat.digits base v := by
  have hsplit : Nat.ofDigits base ds = Nat.ofDigits base (ds.take length) := by
    conv_lhs => rw [← List.take_append_drop length ds]
    rw [Nat.ofDigits_append, ofDigits_zeros h.zero]; simp
  rw [← h.val, hsplit]
  symm
  apply Nat.digits_ofDigits base hb
  · intro l hl; exact h.lt l (List.mem_of_mem_take hl)
  · intro hne
    have hl0 : length ≠ 0 := by
      rintro rfl; simp at hne
    obtain ⟨t, ht, ht0⟩ := h.top hl0
    have hlen := h.len
    have hle := h.le
    rw [List.getLast_eq_getElem]
    have hlt : length - 1 < ds.length := by omega
    rw [List.getElem?_eq_getElem hlt, Option.some.injEq] at ht
    simp only [List.getElem_take]
    have : (ds.take length).length - 1 = length - 1 := by
      rw [List.length_take]; omega
    simp only [this, ht]
    exact ht0

theorem inv_step {mul base size : Nat} (hb : 1 < base) (hm : 0 < mul) {ds : List Nat}
    {length v c : Nat} (h : Inv58 base size ds length v)
    (hlt : mul * v + c < base ^ size) :
    (inner58 mul base length 0 c ds).2.1 = 0 ∧
    Inv58 base size (inner58 mul base length 0 c ds).1 (inner58 mul base length 0 c ds).2.2
      (mul * v + c) := by
  have hz : ∀ d ∈ ds.drop (length - 0), d = 0 := by simpa using h.zero
  have hv := inner_val mul base length (by omega) ds 0 c hz
  have hn := inner_len mul base length ds 0 c
  have hd := inner_digits mul base length (by omega) ds 0 c h.lt
  rw [h.val, h.len] at hv
  have hc0 : (inner58 mul base length 0 c ds).2.1 = 0 := by
    rcases Nat.eq_zero_or_pos (inner58 mul base length 0 c ds).2.1 with h0 | h0
    · exact h0
    · have : base ^ size * 1 ≤ base ^ size * (inner58 mul base length 0 c ds).2.1 :=
        Nat.mul_le_mul_left _ h0
      omega
  have htop := inner_top mul base length (by omega) ds 0 c hz hc0 (by have := h.len; have := h.le; omega)
  rw [hc0] at hv
  generalize inner58 mul base length 0 c ds = R at *
  obtain ⟨t1, t2, t3⟩ := htop
  refine ⟨hc0, ⟨by rw [hn.1, h.len], hd, by simpa using hv, by simpa using t1,
    by have := h.len; omega, ?_⟩⟩
  intro hR
  by_cases hlt2 : max 0 length < R.2.2
  · obtain ⟨t, ht, ht0⟩ := t3 hlt2
    exact ⟨t, by simpa using ht, ht0⟩
  · -- the length did not change: the value did not shrink
    have hRl : R.2.2 = length := by omega
    have hl0 : length ≠ 0 := by omega
    obtain ⟨t, ht, ht0⟩ := h.top hl0
    have hlen := h.len
    have hle := h.le
    have hlt1 : length - 1 < R.1.length := by rw [hn.1]; omega
    rw [hRl]
    refine ⟨R.1[length - 1], List.getElem?_eq_getElem hlt1, ?_⟩
    intro h0
    -- then the new value is below base^(length-1), but the old one is not
    have hval : Nat.ofDigits base R.1 = mul * v + c := by simpa using hv
    have hnew : Nat.ofDigits base R.1 < base ^ (length - 1) := by
      conv_lhs => rw [← List.take_append_drop (length - 1) R.1]
      rw [Nat.ofDigits_append]
      have hz' : Nat.ofDigits base (R.1.drop (length - 1)) = 0 := by
        apply ofDigits_zeros
        intro x hx
        rw [List.drop_eq_getElem_cons hlt1, List.mem_cons] at hx
        rcases hx with rfl | hx
        · exact h0
        · rw [show length - 1 + 1 = length by omega] at hx
          exact t1 x (by rw [hRl]; simpa using hx)
      rw [hz', Nat.mul_zero, Nat.add_zero]
      have := Nat.ofDigits_lt_base_pow_length (b := base) (l := R.1.take (length - 1)) hb
        (fun x hx => hd x (List.mem_of_mem_take hx))
      rwa [List.length_take, Nat.min_eq_left (by omega)] at this
    have hold : base ^ (length - 1) ≤ v := by
      rw [← h.val]
      conv_rhs => rw [← List.take_append_drop (length - 1) ds]
      rw [Nat.ofDigits_append, List.length_take, Nat.min_eq_left (by omega)]
      have hlt1' : length - 1 < ds.length := by omega
      rw [List.drop_eq_getElem_cons hlt1', Nat.ofDigits_cons]
      rw [List.getElem?_eq_getElem hlt1', Option.some.injEq] at ht
      have h1 : 1 ≤ ds[length - 1] := by omega
      have : base ^ (length - 1) * 1 ≤ base ^ (length - 1) *
          (ds[length - 1] + base * Nat.ofDigits base (ds.drop (length - 1 + 1))) :=
        Nat.mul_le_mul_left _ (by omega)
      omega
    have : v ≤ mul * v := Nat.le_mul_of_pos_left v hm
    omega

theorem inv_init (base size : Nat) (hb : 1 < base) : Inv58 base size (List.replicate size 0) 0 0 where
  len := by simp
  lt := by intro d hd; rw [List.eq_of_mem_replicate hd]; omega
  val := ofDigits_zeros fun d hd => List.eq_of_mem_replicate hd
  zero := by intro d hd; rw [List.drop_zero] at hd; exact List.eq_of_mem_replicate hd
  le := by omega
  top := by intro h; exact absurd rfl h

/-- Absorbing base-`mul` digits, most significant first. -/
def horner (mul : Nat) (v : Nat) (l : List Nat) : Nat := l.foldl (fun a c => mul * a + c) v

theorem horner_ge {mul : Nat} (hm : 0 < mul) (l : List Nat) : ∀ v, v ≤ horner mul v l := by
  induction l with
  | nil => intro v; simp [horner]
  | cons c l ih =>
    intro v
    have := ih (mul * v + c)
    have h2 : v ≤ mul * v := Nat.le_mul_of_pos_left v hm
    simp only [horner, List.foldl_cons] at *
    omega

theorem horner_eq (mul : Nat) (l : List Nat) : ∀ v,
    horner mul v l = mul ^ l.length * v + Nat.ofDigits mul l.reverse := by
  induction l with
  | nil => intro v; simp [horner]
  | cons c l ih =>
    intro v
    have := ih (mul * v + c)
    simp only [horner, List.foldl_cons, List.reverse_cons, Nat.ofDigits_append,
      List.length_cons, List.length_reverse] at *
    rw [this, Nat.ofDigits_singleton, Nat.pow_succ]
    ring

theorem encode_loop58 (size : Nat) : ∀ (src : List Byte) (ds : List Nat) (length v : Nat),
    Inv58 58 size ds length v → horner 256 v (src.map BitVec.toNat) < 58 ^ size →
    ∃ ds' length', base58_encode_loop size (toB ds.reverse) length src =
        .ok (toB ds'.reverse, length') ∧
      Inv58 58 size ds' length' (horner 256 v (src.map BitVec.toNat))
  | [], ds, length, v, h, _ => ⟨ds, length, rfl, h⟩
  | c :: src, ds, length, v, h, hlt => by
    have hs : horner 256 v ((c :: src).map BitVec.toNat) =
      horner 256 (256 * v + c.toNat) (src.map BitVec.toNat) := rfl
    rw [hs] at hlt ⊢
    have hge := horner_ge (mul := 256) (by decide) (src.map BitVec.toNat) (256 * v + c.toNat)
    obtain ⟨h0, hI⟩ := inv_step (mul := 256) (by decide) (by decide) h
      (show 256 * v + c.toNat < 58 ^ size by omega)
    have he := inner_eq 256 58 length (by decide) (by decide) ds 0 c.toNat [] rfl
      (fun d hd => by have := h.lt d hd; omega)
    rw [List.append_nil, List.append_nil, Nat.add_zero, h.len] at he
    rw [base58_encode_loop, he]
    simp only [C.ok_bind]
    have : (C.check ((inner58 256 58 length 0 c.toNat ds).2.1 == 0) : C Unit) = .ok () := by
      rw [h0]; rfl
    rw [this, C.ok_bind]
    exact encode_loop58 size src _ _ _ hI hlt

theorem decode_loop58 (size : Nat) : ∀ (src : List Byte) (ds : List Nat) (length v : Nat),
    Inv58 256 size ds length v → (∀ c ∈ src, look base58_table c &&& 0x80 = 0) →
    horner 58 v (src.map fun c => (look base58_table c).toNat) < 256 ^ size →
    ∃ ds' length', base58_decode_loop size (toB ds.reverse) length src =
        .ok (some (toB ds'.reverse, length')) ∧
      Inv58 256 size ds' length' (horner 58 v (src.map fun c => (look base58_table c).toNat))
  | [], ds, length, v, h, _, _ => ⟨ds, length, rfl, h⟩
  | c :: src, ds, length, v, h, hok, hlt => by
    have hs : horner 58 v ((c :: src).map fun c => (look base58_table c).toNat) =
      horner 58 (58 * v + (look base58_table c).toNat)
        (src.map fun c => (look base58_table c).toNat) := rfl
    rw [hs] at hlt ⊢
    have hge := horner_ge (mul := 58) (by decide) (src.map fun c => (look base58_table c).toNat)
      (58 * v + (look base58_table c).toNat)
    obtain ⟨h0, hI⟩ := inv_step (mul := 58) (by decide) (by decide) h
      (show 58 * v + (look base58_table c).toNat < 256 ^ size by omega)
    have he := inner_eq 58 256 length (by decide) (by decide) ds 0 (look base58_table c).toNat []
      rfl (fun d hd => h.lt d hd)
    rw [List.append_nil, List.append_nil, Nat.add_zero, h.len] at he
    rw [base58_decode_loop]
    have hc := hok c (by simp)
    simp only
    rw [if_neg (by simpa using hc), he]
    simp only [C.ok_bind]
    have : (C.check ((inner58 58 256 length 0 (look base58_table c).toNat ds).2.1 == 0) : C Unit) =
        .ok () := by
      rw [h0]; rfl
    rw [this, C.ok_bind]
    exact decode_loop58 size src _ _ _ hI (fun x hx => hok x (by simp [hx])) hlt

/-- The workspace is always large enough, also on strings with bad characters. -/
theorem decode_loop58_bad (size : Nat) : ∀ (src : List Byte) (ds : List Nat) (length v : Nat),
    Inv58 256 size ds length v → (∃ c ∈ src, look base58_table c &&& 0x80 ≠ 0) →
    (∀ k, horner 58 v (((src.take k).takeWhile (fun c => look base58_table c &&& 0x80 == 0)).map
      fun c => (look base58_table c).toNat) < 256 ^ size) →
    base58_decode_loop size (toB ds.reverse) length src = .ok none
  | [], ds, length, v, h, hb, _ => by simp at hb
  | c :: src, ds, length, v, h, hb, hlt => by
    rw [base58_decode_loop]
    simp only
    by_cases hc : look base58_table c &&& 0x80 = 0
    · rw [if_neg (by simpa using hc)]
      have hs : ∀ k, horner 58 v ((((c :: src).take (k + 1)).takeWhile
          (fun c => look base58_table c &&& 0x80 == 0)).map fun c => (look base58_table c).toNat) =
          horner 58 (58 * v + (look base58_table c).toNat)
          (((src.take k).takeWhile (fun c => look base58_table c &&& 0x80 == 0)).map
            fun c => (look base58_table c).toNat) := by
        intro k
        rw [List.take_succ_cons, List.takeWhile_cons_of_pos (by simpa using hc)]; rfl
      have hlt' : ∀ k, _ := fun k => (hs k) ▸ hlt (k + 1)
      obtain ⟨h0, hI⟩ := inv_step (mul := 58) (by decide) (by decide) h
        (show 58 * v + (look base58_table c).toNat < 256 ^ size from hlt' 0)
      have he := inner_eq 58 256 length (by decide) (by decide) ds 0 (look base58_table c).toNat []
        rfl (fun d hd => h.lt d hd)
      rw [List.append_nil, List.append_nil, Nat.add_zero, h.len] at he
      rw [he]
      simp only [C.ok_bind]
      have : (C.check ((inner58 58 256 length 0 (look base58_table c).toNat ds).2.1 == 0) : C Unit) =
          .ok () := by
        rw [h0]; rfl
      rw [this, C.ok_bind]
      refine decode_loop58_bad size src _ _ _ hI ?_ hlt'
      obtain ⟨x, hx, hxb⟩ := hb
      rcases List.mem_cons.1 hx with rfl | hx
      · exact absurd hc hxb
      · exact ⟨x, hx, hxb⟩
    · rw [if_pos (by simpa using hc)]

/-! ## Sizes of the workspaces -/

theorem pow_bound {a b p q : Nat} (hb : 1 < b) (hq : 0 < q) (h : a ^ q ≤ b ^ p)
    (n : Nat) : a ^ n < b ^ (n * p / q + 1) := by
  have h1 : (a ^ n) ^ q < (b ^ (n * p / q + 1)) ^ q := by
    rw [← Nat.pow_mul, Nat.mul_comm n q, Nat.pow_mul a, ← Nat.pow_mul b]
    refine Nat.lt_of_le_of_lt (Nat.pow_le_pow_left h n) ?_
    rw [← Nat.pow_mul]
    apply Nat.pow_lt_pow_right hb
    have := Nat.lt_div_mul_add hq (a := n * p)
    have e : (n * p / q + 1) * q = n * p / q * q + q := by ring
    rw [e, Nat.mul_comm p n]; exact this
  exact lt_of_pow_lt_pow_left₀ q (Nat.zero_le _) h1

theorem size_encode (n : Nat) : 256 ^ n < 58 ^ (n * 138 / 100 + 1) :=
  pow_bound (by decide) (by decide) (by decide +kernel) n

theorem size_decode (n : Nat) : 58 ^ n < 256 ^ (n * 733 / 1000 + 1) :=
  pow_bound (by decide) (by decide) (by decide +kernel) n

end Torsion
