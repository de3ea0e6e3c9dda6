import Verif.Ecc.EncodeSpec
import Verif.Ecc.MulProps
import Verif.Ecc.CurveProps
import Verif.Dsa.SigLemmas

/-! Lemmas on the encodings of points. -/
namespace Torsion.Ecc

open Torsion.Spec
open WeierstrassCurve.Affine (Point)

/-! ### Bytes -/

theorem slice_take {xs : List Byte} {n : Nat} (h : n ≤ xs.length) : C.slice xs 0 n = .ok (xs.take n) := by
  rw [C.slice, if_pos (by omega), List.drop_zero]

theorem byte_lt (a b : Byte) : (a.setWidth 32 - b.setWidth 32) >>> 31 = if a.toNat < b.toNat then 1#32 else 0#32 := by
  have ha := a.isLt
  have hb := b.isLt
  apply BitVec.eq_of_toNat_eq
  rw [BitVec.toNat_ushiftRight, BitVec.toNat_sub, BitVec.toNat_setWidth, BitVec.toNat_setWidth,
    Nat.mod_eq_of_lt (show a.toNat < 2 ^ 32 by omega), Nat.mod_eq_of_lt (show b.toNat < 2 ^ 32 by omega),
    Nat.shiftRight_eq_div_pow]
  split
  · rw [Nat.mod_eq_of_lt (by omega)]; simp only [BitVec.toNat_ofNat]; omega
  · rw [show 2 ^ 32 - b.toNat + a.toNat = (a.toNat - b.toNat) + 2 ^ 32 by omega, Nat.add_mod_right,
      Nat.mod_eq_of_lt (by omega)]
    simp only [BitVec.toNat_ofNat]; omega

theorem byte_eq (a b : Byte) : ((a.setWidth 32 ^^^ b.setWidth 32) - 1) >>> 31 = if a.toNat = b.toNat then 1#32 else 0#32 := by
  rw [← BitVec.setWidth_xor]
  have hx := (a ^^^ b).isLt
  have h0 : a.toNat = b.toNat ↔ (a ^^^ b).toNat = 0 := by
    rw [BitVec.toNat_xor, Nat.xor_eq_zero_iff]
  apply BitVec.eq_of_toNat_eq
  rw [BitVec.toNat_ushiftRight, BitVec.toNat_sub, BitVec.toNat_setWidth,
    Nat.mod_eq_of_lt (show (a ^^^ b).toNat < 2 ^ 32 by omega), Nat.shiftRight_eq_div_pow]
  simp only [h0]
  split
  · rename_i h; rw [h]; decide
  · rw [show 2 ^ 32 - (1 : BitVec 32).toNat + (a ^^^ b).toNat = ((a ^^^ b).toNat - 1) + 2 ^ 32 by
      have : (1 : BitVec 32).toNat = 1 := rfl
      omega, Nat.add_mod_right, Nat.mod_eq_of_lt (by omega)]
    simp only [BitVec.toNat_ofNat]; omega

theorem take_succ_val {xs : List Byte} {n : Nat} (h : n < xs.length) :
    leVal (xs.take (n + 1)) = leVal (xs.take n) + 256 ^ n * xs[n].toNat := by
  rw [List.take_succ_eq_append_getElem h, leVal_append, leVal_cons, leVal_nil, List.length_take, min_eq_left h.le]
  simp

theorem bytes_lt_loop_ok {xs ys : List Byte} : ∀ (n : Nat), n ≤ xs.length → n ≤ ys.length →
    bytes_lt_loop xs ys n 1 0 = .ok (if leVal (xs.take n) < leVal (ys.take n) then 1 else 0) ∧
    (bytes_lt_loop xs ys n 0 0 = .ok 0) ∧ bytes_lt_loop xs ys n 0 1 = .ok 1
  | 0, _, _ => by simp [bytes_lt_loop, leVal_nil, C.pure_eq]
  | n + 1, hx, hy => by
    obtain ⟨i1, i2, i3⟩ := bytes_lt_loop_ok (xs := xs) (ys := ys) n (by omega) (by omega)
    have hx' : n < xs.length := by omega
    have hy' : n < ys.length := by omega
    have r1 : C.rd xs n = .ok xs[n] := by simp [C.rd, hx']
    have r2 : C.rd ys n = .ok ys[n] := by simp [C.rd, hy']
    refine ⟨?_, ?_, ?_⟩
    · rw [bytes_lt_loop, r1, C.ok_bind, r2, C.ok_bind]
      dsimp only
      rw [byte_lt, byte_eq, take_succ_val hx', take_succ_val hy']
      have l1 := leVal_lt (xs.take n)
      have l2 := leVal_lt (ys.take n)
      rw [List.length_take, min_eq_left (by omega)] at l1 l2
      rcases Nat.lt_trichotomy xs[n].toNat ys[n].toNat with h | h | h
      · rw [if_pos h, if_neg (by omega), if_pos (by
          have : 256 ^ n * (xs[n].toNat + 1) ≤ 256 ^ n * ys[n].toNat := Nat.mul_le_mul_left _ h
          rw [Nat.mul_add] at this
          omega)]
        exact i3
      · rw [if_neg (show ¬ xs[n].toNat < ys[n].toNat by omega), if_pos h, h]
        rw [show (1 : BitVec 32) &&& 1#32 = 1 from rfl, show (0 : BitVec 32) ||| ((1 : BitVec 32) &&& 0#32) = 0 from rfl, i1]
        simp only [Nat.add_lt_add_iff_right]
      · rw [if_neg (show ¬ xs[n].toNat < ys[n].toNat by omega), if_neg (show ¬ xs[n].toNat = ys[n].toNat by omega), if_neg (by
          have : 256 ^ n * (ys[n].toNat + 1) ≤ 256 ^ n * xs[n].toNat := Nat.mul_le_mul_left _ h
          rw [Nat.mul_add] at this
          omega)]
        exact i2
    · rw [bytes_lt_loop, r1, C.ok_bind, r2, C.ok_bind]
      simpa using i2
    · rw [bytes_lt_loop, r1, C.ok_bind, r2, C.ok_bind]
      simpa using i3

section
variable (fe : FieldCode)

theorem feSize_pow [Fact fe.p.Prime] : fe.p < 256 ^ feSize fe := by
  refine (Nat.lt_size_self _).trans_le ?_
  rw [show (256 : Nat) = 2 ^ 8 by norm_num, ← Nat.pow_mul]
  exact Nat.pow_le_pow_right (by norm_num) (by unfold feSize feBits; omega)

theorem feSize_pos [Fact fe.p.Prime] : 0 < feSize fe := by
  have : 0 < fe.p.size := Nat.size_pos.2 (Nat.Prime.pos Fact.out)
  unfold feSize feBits; omega

/-- Masking the top byte. -/
theorem mask_val {xs : List Byte} {n bits : Nat} (hl : xs.length = n + 1) (h1 : 8 * n < bits) (h2 : bits ≤ 8 * (n + 1)) {m : Byte}
    (hm : m = if bits % 8 ≠ 0 then BitVec.ofNat 8 (2 ^ (bits % 8) - 1) else 0xff) :
    ∃ t, C.rd xs n = .ok t ∧ ∃ ys, C.wr xs n (t &&& m) = .ok ys ∧ leVal ys = leVal xs % 2 ^ bits := by
  have hn : n < xs.length := by omega
  refine ⟨xs[n], by simp [C.rd, hn], xs.set n (xs[n] &&& m), by simp [C.wr, hn], ?_⟩
  have hsplit : ∀ c : Byte, leVal (xs.take n ++ [c]) = leVal (xs.take n) + 256 ^ n * c.toNat := by
    intro c
    rw [leVal_append, leVal_cons, leVal_nil, List.length_take, min_eq_left hn.le]; simp
  have e1 : xs = xs.take n ++ [xs[n]] := by
    rw [← List.take_succ_eq_append_getElem hn, List.take_of_length_le (by omega)]
  have e2 : xs.set n (xs[n] &&& m) = xs.take n ++ [xs[n] &&& m] := by
    rw [List.set_eq_take_append_cons_drop, if_pos hn, List.drop_of_length_le (by omega)]
  rw [e2, hsplit]
  conv_rhs => rw [e1, hsplit]
  have hb := xs[n].isLt
  have hlow := leVal_lt (xs.take n)
  rw [List.length_take, min_eq_left hn.le] at hlow
  have hk : (xs[n] &&& m).toNat = xs[n].toNat % 2 ^ (bits - 8 * n) := by
    rw [hm]
    split
    · rename_i h
      rw [BitVec.toNat_and, BitVec.toNat_ofNat, show bits - 8 * n = bits % 8 by omega]
      have hlt : bits % 8 < 8 := by omega
      have : 2 ^ (bits % 8) ≤ 2 ^ 7 := Nat.pow_le_pow_right (by norm_num) (by omega)
      rw [Nat.mod_eq_of_lt (show 2 ^ (bits % 8) - 1 < 2 ^ 8 by omega), Nat.and_two_pow_sub_one_eq_mod]
    · rw [show bits - 8 * n = 8 by omega, Nat.mod_eq_of_lt hb]
      congr 1
      rw [show (0xff : Byte) = BitVec.allOnes 8 from rfl, BitVec.and_allOnes]
  rw [hk, show (256 : Nat) ^ n = 2 ^ (8 * n) by rw [Nat.pow_mul]] at *
  rw [show 2 ^ bits = 2 ^ (8 * n) * 2 ^ (bits - 8 * n) by rw [← Nat.pow_add]; congr 1; omega, Nat.mod_mul,
    Nat.add_mul_mod_self_left, Nat.mod_eq_of_lt hlow, Nat.add_mul_div_left _ _ (by positivity), Nat.div_eq_of_lt hlow,
    Nat.zero_add]

theorem fe_import_ok [Fact fe.p.Prime] {xp : List Byte} (h : feSize fe ≤ xp.length) :
    fe_import fe xp = .ok (((beVal (xp.take (feSize fe)) % 2 ^ fe.p.size : Nat) : ZMod fe.p),
      decide (beVal (xp.take (feSize fe)) < fe.p)) := by
  have hpos := feSize_pos fe
  have hl : (xp.take (feSize fe)).reverse.length = feSize fe := by rw [List.length_reverse, List.length_take]; omega
  have hp0 : 0 < fe.p.size := Nat.size_pos.2 (Nat.Prime.pos Fact.out)
  obtain ⟨t, h1, ys, h2, h3⟩ := mask_val (xs := (xp.take (feSize fe)).reverse) (n := feSize fe - 1) (bits := fe.p.size)
    (m := feMask fe) (by omega) (by unfold feSize feBits; omega) (by unfold feSize feBits; omega) rfl
  unfold fe_import
  rw [slice_take h, C.ok_bind]
  dsimp only
  rw [bytes_lt, (bytes_lt_loop_ok (feSize fe) hl.ge (by rw [Strm.leBytes_len])).1, C.ok_bind, h1, C.ok_bind, h2,
    C.ok_bind, h3, List.take_of_length_le hl.le,
    List.take_of_length_le (l := leBytes (feSize fe) fe.p) (by rw [Strm.leBytes_len]), Strm.leVal_leBytes,
    Nat.mod_eq_of_lt (feSize_pow fe), ← beVal_eq, C.pure_eq]
  congr 2
  split <;> rename_i hc <;> simp [hc]

theorem big_val [Fact fe.p.Prime] (x : ZMod fe.p) : beVal (bigBytes (feSize fe) x.val) = x.val := by
  rw [Drb.beVal_bigBytes, Nat.mod_eq_of_lt (x.val_lt.trans (feSize_pow fe))]

/-- Importing succeeds exactly on what is exported. -/
theorem fe_import_iff [Fact fe.p.Prime] {xp : List Byte} (h : feSize fe ≤ xp.length) :
    ∃ x b, fe_import fe xp = .ok (x, b) ∧ (b = true ↔ xp.take (feSize fe) = bigBytes (feSize fe) x.val) ∧
      ∀ y : ZMod fe.p, xp.take (feSize fe) = bigBytes (feSize fe) y.val → b = true ∧ x = y := by
  have hl : (xp.take (feSize fe)).length = feSize fe := by rw [List.length_take]; omega
  have key : ∀ y : ZMod fe.p, xp.take (feSize fe) = bigBytes (feSize fe) y.val →
      beVal (xp.take (feSize fe)) < fe.p ∧ ((beVal (xp.take (feSize fe)) % 2 ^ fe.p.size : Nat) : ZMod fe.p) = y := by
    intro y hy
    rw [hy, big_val, Nat.mod_eq_of_lt (y.val_lt.trans (Nat.lt_size_self _)), ZMod.natCast_val, ZMod.cast_id', id]
    exact ⟨y.val_lt, rfl⟩
  refine ⟨_, _, fe_import_ok fe h, ⟨fun hb => ?_, fun hb => ?_⟩, fun y hy => ?_⟩
  · have hb := of_decide_eq_true hb
    rw [Nat.mod_eq_of_lt (hb.trans (Nat.lt_size_self _)), ZMod.val_natCast, Nat.mod_eq_of_lt hb]
    exact (Drb.bigBytes_beVal hl).symm
  · exact decide_eq_true (key _ hb).1
  · exact ⟨decide_eq_true (key _ hy).1, (key _ hy).2⟩

theorem odd_neg [Fact fe.p.Prime] (h2 : fe.p % 2 = 1) {y : ZMod fe.p} (hy : y ≠ 0) : (-y).val % 2 = 1 - y.val % 2 := by
  have := y.val_lt
  have h0 : y.val ≠ 0 := by rwa [ne_eq, ZMod.val_eq_zero]
  haveI : NeZero y := ⟨hy⟩
  rw [ZMod.val_neg_of_ne_zero]
  omega

end

section
variable {fe : FieldCode} [Fact fe.p.Prime] {ec : WeiT fe} {G : Pt ec.toCurve}

theorem p_odd (ok : EcOk ec G) : fe.p % 2 = 1 := by
  rcases Nat.Prime.eq_two_or_odd (Fact.out : fe.p.Prime) with h | h
  · exfalso
    apply ok.wei.good.two
    have : ((2 : Nat) : ZMod fe.p) = 0 := by
      rw [ZMod.natCast_eq_zero_iff, h]
    exact_mod_cast this
  · exact h

theorem ord_ne (ok : EcOk ec G) {x y : ZMod fe.p} (h : y ^ 2 = x ^ 3 + ec.a * x + ec.b) : y ≠ 0 := by
  rintro rfl
  exact ok.wei.good.odd (by rw [ok.cofactor]) x (by rw [← h]; ring)

theorem pt_ns (ok : EcOk ec G) {x y : ZMod fe.p} (h : y ^ 2 = x ^ 3 + ec.a * x + ec.b) :
    (weier ec.a ec.b).Nonsingular x y := by
  rw [WeierstrassCurve.Affine.nonsingular_iff]
  refine ⟨?_, Or.inr ?_⟩
  · rw [WeierstrassCurve.Affine.equation_iff]
    simp [weier, h]
  · simp only [weier, zero_mul, sub_zero]
    intro hc
    have : 2 * y = 0 := by linear_combination hc
    exact ord_ne ok h ((mul_eq_zero.1 this).resolve_left ok.wei.good.two)

theorem set_xy_ok (ok : EcOk ec G) (x y : ZMod fe.p) : ∃ (Q : Pt ec.toCurve) (b : Bool),
    wge_set_xy ec.toCurve x y = (affine Q, b) ∧ (b = true ↔ y ^ 2 = x ^ 3 + ec.a * x + ec.b) ∧
    (b = true → ∃ h, Q = .some x y h) ∧ (b = false → Q = 0) := by
  have e : wge_set_xy ec.toCurve x y =
      if y ^ 2 = x ^ 3 + ec.a * x + ec.b then (⟨x, y, false⟩, true) else (wge_zero, false) := by
    simp only [wge_set_xy, wei_validate_xy, fe_equal, solve_y2, ← pow_two]
    split <;> rename_i h <;> simp [h, fe_select, wge_zero]
  rw [e]
  split
  · rename_i h
    exact ⟨.some x y (pt_ns ok h), true, rfl, by simp [h], fun _ => ⟨_, rfl⟩, by simp⟩
  · rename_i h
    exact ⟨0, false, rfl, by simp [h], by simp, fun _ => rfl⟩

theorem set_x_ok (ok : EcOk ec G) (x : ZMod fe.p) (sign : Option Bool) : ∃ (Q : Pt ec.toCurve) (b : Bool),
    wge_set_x ec x sign = .ok (affine Q, b) ∧ (b = true ↔ IsSquare (x ^ 3 + ec.a * x + ec.b)) ∧
    (b = true → ∃ y h, Q = .some x y h ∧ ∀ s, sign = some s → (y.val % 2 = 1 ↔ s = true)) ∧ (b = false → Q = 0) := by
  obtain ⟨r, b, h1, h2, h3⟩ := fe_sqrt_exact fe ok.field (ZMod.card fe.p) 0 0 (by decide) (by decide)
    (wei_solve_y2 ec.toCurve x)
  have hs : wei_solve_y2 ec.toCurve x = x ^ 3 + ec.a * x + ec.b := by rw [solve_y2]
  unfold wge_set_x
  dsimp only
  rw [h1, C.ok_bind]
  rw [hs] at h2 h3
  have hh : ¬ ec.h > 1 := by rw [ok.cofactor]; omega
  have key : ∀ y : ZMod fe.p, (b = true → y ^ 2 = x ^ 3 + ec.a * x + ec.b) → (b = true → ∀ s, sign = some s → (y.val % 2 = 1 ↔ s = true)) →
      ∃ (Q : Pt ec.toCurve) (b' : Bool), (pure ((⟨fe_select x 0 (!b), fe_select y 0 (!b), !b⟩ : Wge (ZMod fe.p)), b) : C _) = .ok (affine Q, b') ∧
      (b' = true ↔ IsSquare (x ^ 3 + ec.a * x + ec.b)) ∧
      (b' = true → ∃ y h, Q = .some x y h ∧ ∀ s, sign = some s → (y.val % 2 = 1 ↔ s = true)) ∧ (b' = false → Q = 0) := by
    intro y hy hys
    cases b with
    | false => exact ⟨0, false, rfl, h2, by simp, fun _ => rfl⟩
    | true => exact ⟨.some x y (pt_ns ok (hy rfl)), true, rfl, h2, fun _ => ⟨y, _, rfl, hys rfl⟩, by simp⟩
  have hr : b = true → r ^ 2 = x ^ 3 + ec.a * x + ec.b := fun hb => by rw [pow_two]; exact h3 (h2.1 hb)
  cases sign with
  | none => exact key r hr (by simp)
  | some s =>
    dsimp only
    rw [if_neg hh]
    refine key (fe_set_odd fe r s) ?_ ?_
    · intro hb
      rw [← hr hb]
      unfold fe_set_odd
      split <;> ring
    · rintro hb s' hs'
      obtain rfl : s = s' := Option.some.inj hs'
      have ho := odd_neg fe (p_odd ok) (ord_ne ok (hr hb))
      have hlt := Nat.mod_lt r.val (show 2 > 0 by omega)
      unfold fe_set_odd fe_is_odd
      cases s <;> by_cases hc : r.val % 2 = 1 <;> simp_all

/-- A point is determined by its abscissa and the parity of its ordinate. -/
theorem parity_inj (ok : EcOk ec G) {x y y' : ZMod fe.p} (h : y ^ 2 = x ^ 3 + ec.a * x + ec.b)
    (h' : y' ^ 2 = x ^ 3 + ec.a * x + ec.b) (hp : y.val % 2 = 1 ↔ y'.val % 2 = 1) : y = y' := by
  have hf : (y - y') * (y + y') = 0 := by linear_combination h - h'
  rcases mul_eq_zero.1 hf with hc | hc
  · exact sub_eq_zero.1 hc
  · exfalso
    have hy : y' = -y := by linear_combination hc
    have ho := odd_neg fe (p_odd ok) (ord_ne ok h)
    rw [hy, ho] at hp
    have := Nat.mod_lt y.val (show 2 > 0 by omega)
    omega

theorem sec1_cons {c : Curve (ZMod fe.p)} {x y : ZMod fe.p} {h} {form : Byte} {t : List Byte} :
    Sec1 (c := c) (.some x y h) (form :: t) ↔ (form = parity 2 y ∧ t = bigBytes (feSize fe) x.val) ∨
      (form = 4 ∧ t = bigBytes (feSize fe) x.val ++ bigBytes (feSize fe) y.val) ∨
      (form = parity 6 y ∧ t = bigBytes (feSize fe) x.val ++ bigBytes (feSize fe) y.val) := by
  simp only [Sec1, sec1Short, sec1Long, List.cons.injEq]
  rfl

theorem sec1_zero {c : Curve (ZMod fe.p)} {raw : List Byte} : ¬ Sec1 (0 : Pt c) raw := by
  intro h; exact h

theorem parity2 (y : ZMod fe.p) : parity 2 y = if y.val % 2 = 1 then 3 else 2 := rfl
theorem parity6 (y : ZMod fe.p) : parity 6 y = if y.val % 2 = 1 then 7 else 6 := rfl

theorem import_ok (ok : EcOk ec G) (raw : List Byte) : ∃ (Q : Pt ec.toCurve) (b : Bool),
    wge_import ec raw = .ok (affine Q, b) ∧ (b = true ↔ Sec1 Q raw) ∧ ∀ P : Pt ec.toCurve, Sec1 P raw → P = Q := by
  have hlen : ∀ v, (bigBytes (feSize fe) v).length = feSize fe := Hsh.bigBytes_len _
  rcases raw with _ | ⟨form, t⟩
  · refine ⟨0, false, rfl, by simp [sec1_zero], ?_⟩
    rintro (_ | ⟨x, y, h⟩) hP
    · exact hP.elim
    · simp [Sec1, sec1Short, sec1Long] at hP
  unfold wge_import
  rw [if_neg (by simp)]
  have hrd : C.rd (form :: t) 0 = .ok form := rfl
  rw [hrd]
  simp only [C.ok_bind, List.drop_one, List.tail_cons, List.length_cons, C.pure_eq]
  have fail : (∀ P : Pt ec.toCurve, ¬ Sec1 P (form :: t)) → ∃ (Q : Pt ec.toCurve) (b : Bool),
      (C.ok ((wge_zero : Wge (ZMod fe.p)), false)) = .ok (affine Q, b) ∧ (b = true ↔ Sec1 Q (form :: t)) ∧
      ∀ P : Pt ec.toCurve, Sec1 P (form :: t) → P = Q := fun h =>
    ⟨0, false, rfl, by simp [sec1_zero], fun P hP => absurd hP (h P)⟩
  by_cases c2 : form = 0x02 ∨ form = 0x03
  · rw [if_pos c2]
    have hform : ∀ {x y : ZMod fe.p} {h}, Sec1 (c := ec.toCurve) (.some x y h) (form :: t) ↔
        form = parity 2 y ∧ t = bigBytes (feSize fe) x.val := by
      intro x y h
      rw [sec1_cons, parity6]
      constructor
      · rintro (h | ⟨h, -⟩ | ⟨h, -⟩)
        · exact h
        · rcases c2 with rfl | rfl <;> simp at h
        · rcases c2 with rfl | rfl <;> split at h <;> simp at h
      · exact Or.inl
    split
    · rename_i hl
      refine fail ?_
      rintro (_ | ⟨x, y, h⟩) hP
      · exact hP
      · exact hl (by rw [(hform.1 hP).2, hlen]; omega)
    · rename_i hl
      have hl : t.length = feSize fe := by omega
      obtain ⟨x, b, e1, e2, e3⟩ := fe_import_iff fe (xp := t) hl.ge
      rw [List.take_of_length_le hl.le] at e2 e3
      obtain ⟨Q, b', f1, f2, f3, f4⟩ := set_x_ok ok x (some (form.toNat % 2 == 1))
      rw [e1, C.ok_bind, f1, C.ok_bind]
      have hpar : ∀ y : ZMod fe.p, form = parity 2 y ↔ (y.val % 2 = 1 ↔ (form.toNat % 2 == 1) = true) := by
        intro y
        rw [parity2]
        rcases c2 with rfl | rfl <;> split <;> rename_i hy <;> simp [hy]
      refine ⟨Q, b && b', rfl, ?_, ?_⟩
      · cases b' with
        | false =>
          rw [f4 rfl]
          simp [sec1_zero]
        | true =>
          obtain ⟨y, h, rfl, hy⟩ := f3 rfl
          rw [hform, hpar, Bool.and_true, e2]
          exact ⟨fun h => ⟨hy _ rfl, h⟩, fun h => h.2⟩
      · rintro (_ | ⟨x', y', h'⟩) hP
        · exact hP.elim
        · rw [hform, hpar] at hP
          obtain ⟨-, rfl⟩ := e3 x' hP.2
          have hb' : b' = true := f2.2 ⟨y', by rw [← eqn h']; ring⟩
          obtain ⟨y, h, rfl, hy⟩ := f3 hb'
          have : y' = y := parity_inj ok (eqn h') (eqn h) (by rw [hP.1, hy _ rfl])
          subst this
          rfl
  · rw [if_neg c2]
    by_cases c4 : form = 0x04 ∨ form = 0x06 ∨ form = 0x07
    · rw [if_pos c4]
      have hform : ∀ {x y : ZMod fe.p} {h}, Sec1 (c := ec.toCurve) (.some x y h) (form :: t) ↔
          (form = 4 ∨ form = parity 6 y) ∧ t = bigBytes (feSize fe) x.val ++ bigBytes (feSize fe) y.val := by
        intro x y h
        rw [sec1_cons, parity2]
        constructor
        · rintro (⟨h, -⟩ | ⟨h, h'⟩ | ⟨h, h'⟩)
          · exfalso; apply c2; split at h <;> simp [h]
          · exact ⟨Or.inl h, h'⟩
          · exact ⟨Or.inr h, h'⟩
        · rintro ⟨h | h, h'⟩
          · exact Or.inr (Or.inl ⟨h, h'⟩)
          · exact Or.inr (Or.inr ⟨h, h'⟩)
      split
      · rename_i hl
        refine fail ?_
        rintro (_ | ⟨x, y, h⟩) hP
        · exact hP
        · exact hl (by rw [(hform.1 hP).2, List.length_append, hlen, hlen]; omega)
      · rename_i hl
        have hl : t.length = feSize fe + feSize fe := by omega
        obtain ⟨x, b, e1, e2, e3⟩ := fe_import_iff fe (xp := t) (by omega)
        obtain ⟨y, b', f1, f2, f3⟩ := fe_import_iff fe (xp := (form :: t).drop (1 + feSize fe)) (by simp; omega)
        have hdrop : (form :: t).drop (1 + feSize fe) = t.drop (feSize fe) := by
          rw [Nat.add_comm, List.drop_succ_cons]
        rw [hdrop, List.take_of_length_le (by simp; omega)] at f2 f3
        obtain ⟨Q, b'', g1, g2, g3, g4⟩ := set_xy_ok ok x y
        rw [e1, C.ok_bind, f1, C.ok_bind]
        dsimp only
        rw [g1]
        have hsplit : ∀ u v : ZMod fe.p, t = bigBytes (feSize fe) u.val ++ bigBytes (feSize fe) v.val ↔
            t.take (feSize fe) = bigBytes (feSize fe) u.val ∧ t.drop (feSize fe) = bigBytes (feSize fe) v.val := by
          intro u v
          constructor
          · intro h
            rw [h]
            exact ⟨List.take_left' (hlen _), List.drop_left' (hlen _)⟩
          · rintro ⟨h1, h2⟩
            rw [← h1, ← h2, List.take_append_drop]
        have hyb : (form == 0x04 || form == if fe_is_odd fe y = true then 0x07 else 0x06) = true ↔ form = 4 ∨ form = parity 6 y := by
          rw [parity6, Bool.or_eq_true, beq_iff_eq, beq_iff_eq]
          simp only [fe_is_odd, beq_iff_eq]
        refine ⟨Q, _, rfl, ?_, ?_⟩
        · rw [Bool.and_eq_true, Bool.and_eq_true, Bool.and_eq_true, hyb, e2, f2]
          cases b'' with
          | false =>
            rw [g4 rfl]
            simp [sec1_zero]
          | true =>
            obtain ⟨h, rfl⟩ := g3 rfl
            rw [hform, hsplit]
            exact ⟨fun h => ⟨h.1.2, h.1.1⟩, fun h => ⟨⟨h.2, h.1⟩, rfl⟩⟩
        · rintro (_ | ⟨x', y', h'⟩) hP
          · exact hP.elim
          · rw [hform, hsplit] at hP
            obtain ⟨-, rfl⟩ := e3 x' hP.2.1
            obtain ⟨-, rfl⟩ := f3 y' hP.2.2
            obtain ⟨h, rfl⟩ := g3 (g2.2 (eqn h'))
            rfl
    · rw [if_neg c4]
      refine fail ?_
      rintro (_ | ⟨x, y, h⟩) hP
      · exact hP
      · rw [sec1_cons, parity2, parity6] at hP
        push Not at c2 c4
        rcases hP with ⟨hP, -⟩ | ⟨hP, -⟩ | ⟨hP, -⟩
        · split at hP
          · exact c2.2 hP
          · exact c2.1 hP
        · exact c4.1 hP
        · split at hP
          · exact c4.2.2 hP
          · exact c4.2.1 hP

theorem export_out (P : Pt ec.toCurve) (compact : Bool) :
    wge_export ec (affine P) compact = (sec1Out P compact, decide (P ≠ 0)) := by
  rcases P with _ | ⟨x, y, h⟩
  · rw [← Point.zero_def, aff_zero]
    cases compact <;> simp [wge_export, sec1Out, sec1Short, sec1Long, parity, fe_is_odd, fe_export, feSize, feBits,
      Point.zero_def]
  · rw [aff_some]
    have : (Point.some x y h : Pt ec.toCurve) ≠ 0 := Point.some_ne_zero h
    cases compact <;>
      simp [wge_export, sec1Out, sec1Short, sec1Long, parity, fe_is_odd, fe_export, feSize, feBits, this]

theorem out_sec1 {P : Pt ec.toCurve} (h : P ≠ 0) (compact : Bool) : Sec1 P (sec1Out P compact) := by
  rcases P with _ | ⟨x, y, hp⟩
  · exact absurd rfl h
  · cases compact
    · exact Or.inr (Or.inl rfl)
    · exact Or.inl rfl

end

end Torsion.Ecc
