import Verif.Ecc.ScalarSpec
import Verif.Ecc.FieldRootLemmas
import Verif.Ecc.RecodeLemmas
import Verif.Mpi.ArithProps
import Verif.Mpi.PowmProps
import Verif.Mpi.GcdProps
import Verif.Mpi.StrProps
import Mathlib.FieldTheory.Finite.Basic
import Mathlib.Data.ZMod.Basic

/-! Lemmas for scalars. -/
namespace Torsion.Sc

open Torsion Spec Mpi

/-- What the initialization establishes. -/
structure Good (sc : ScField) (N : Nat) : Prop where
  endian : sc.endian = 1 ∨ sc.endian = -1
  num : val sc.n = N
  nlen : sc.n.length = sc.limbs
  top : sc.n.getLast? ≠ some 0
  nh : val sc.nh = N / 2
  nhlen : sc.nh.length = sc.limbs
  limbs : sc.limbs = (sc.bits + 63) / 64
  shift : sc.shift = sc.limbs * 2 + 2
  size : sc.size = (sc.bits + 7) / 8
  bits : N.size = sc.bits
  odd : N % 2 = 1
  one : 1 < N
  r2len : sc.r2.length = sc.limbs
  r2 : val sc.r2 = 2 ^ (128 * sc.limbs) % N
  red : ∀ x : List Limb, x.length = sc.shift → ∃ z, mpn_reduce x sc.m sc.n = .ok z ∧ z.length = sc.limbs ∧ val z = val x % N
  mm : ∀ x y : List Limb, x.length = sc.limbs → y.length = sc.limbs → val y < N →
    ∃ z, mpn_sec_montmul x y sc.n sc.k = .ok z ∧ z.length = sc.limbs ∧ val z < N ∧
      2 ^ (64 * sc.limbs) * val z ≡ val x * val y [MOD N]

theorem getLast_ne_zero {x : List Limb} (hne : x ≠ []) (h : 2 ^ (64 * (x.length - 1)) ≤ val x) : x.getLast? ≠ some 0 := by
  intro h0
  obtain ⟨a, t, rfl⟩ : ∃ a t, x = a ++ [t] := ⟨x.dropLast, x.getLast hne, (List.dropLast_concat_getLast _).symm⟩
  rw [List.getLast?_append, List.getLast?_singleton] at h0
  simp at h0
  subst h0
  rw [val_append, List.length_append, List.length_singleton, Nat.add_sub_cancel] at h
  have h1 := val_lt a
  have h2 : val ([0#64] : List Limb) = 0 := rfl
  rw [h2] at h
  omega

theorem init_good {d : ScDef} {N : Nat} (hd : ScDefOk d N) (e : Int) (he : e = 1 ∨ e = -1) :
    ∃ sc, scalar_field_init d e = .ok sc ∧ Good sc N ∧ sc.endian = e ∧ sc.bits = d.bits ∧
      sc.endo_bits = (d.bits + 1) / 2 + 1 ∧ sc.invert = d.invert ∧
      sc.mask = (if d.bits % 8 ≠ 0 then 2 ^ (d.bits % 8) - 1 else 255) := by
  obtain ⟨hl, hn, hb, ho, h1⟩ := hd
  obtain ⟨n, en, ln, vn⟩ := (mpn_import_exact ((d.bits + 63) / 64) d.n).1
  have hlt : N < 2 ^ d.bits := by rw [← hb]; exact Nat.lt_size_self N
  have hge : 2 ^ (d.bits - 1) ≤ N := by
    rw [← Nat.lt_size, hb]
    have : 0 < N.size := Nat.size_pos.2 (by omega)
    omega
  have hbpos : 0 < d.bits := by rw [← hb]; exact Nat.size_pos.2 (by omega)
  have vn' : val n = N := by
    rw [vn, hn]
    apply Nat.mod_eq_of_lt
    exact lt_of_lt_of_le hlt (Nat.pow_le_pow_right (by decide) (by omega))
  have hne : n ≠ [] := by
    intro h; rw [h] at ln; simp at ln; omega
  have htop : n.getLast? ≠ some 0 := by
    apply getLast_ne_zero hne
    rw [vn', ln]
    exact le_trans (Nat.pow_le_pow_right (by decide) (by omega)) hge
  have hpw : val n ≠ 2 ^ (64 * (n.length - 1)) := by
    rw [vn']
    intro h
    rcases Nat.eq_zero_or_pos (64 * (n.length - 1)) with h0 | h0
    · rw [h0] at h; omega
    · have : 2 ∣ N := by rw [h]; exact dvd_pow_self 2 (by omega)
      omega
  obtain ⟨hr1, -, hr3⟩ := mpn_rshift_exact n 1 (by decide) hne
  obtain ⟨m, em, hm⟩ := mpn_barrett_reduce_exact n ((d.bits + 63) / 64 * 2 + 2) htop hne (by rw [ln]; omega) hpw
  obtain ⟨k, r, ek, hk, rl, rv⟩ := mont_val htop (by rw [vn']; exact ho)
  refine ⟨{ endian := e, bits := d.bits, endo_bits := (d.bits + 1) / 2 + 1, limbs := (d.bits + 63) / 64,
            shift := (d.bits + 63) / 64 * 2 + 2, size := (d.bits + 7) / 8,
            mask := if d.bits % 8 ≠ 0 then 2 ^ (d.bits % 8) - 1 else 255,
            n := n, nh := (mpn_rshift n 1).1, m := m, k := k, r2 := r, invert := d.invert }, ?_, ?_, rfl, rfl, rfl, rfl, rfl⟩
  rotate_left
  · refine ⟨he, vn', ln, htop, ?_, ?_, rfl, rfl, rfl, hb, ho, h1, ?_, ?_, ?_, ?_⟩
    · dsimp only; rw [hr1, vn', pow_one]
    · dsimp only; rw [hr3, ln]
    · dsimp only; rw [rl, ln]
    · dsimp only; rw [rv, ln, vn']
    · intro x hx
      obtain ⟨z, h1, h2, h3⟩ := hm x hx
      exact ⟨z, h1, by rw [h2, ln], by rw [h3, vn']⟩
    · intro x y hx hy hlt
      dsimp only at hx hy ⊢
      have hxl := val_lt x
      rw [hx, ← ln] at hxl
      obtain ⟨z, h1, h2, h3, h4⟩ := sec_montmul_val hk (hx.trans ln.symm) (hy.trans ln.symm)
        (lt_RR hxl (by rw [vn']; exact hlt))
      rw [vn', ln] at h4
      exact ⟨z, h1, by rw [h2, ln], by rw [← vn']; exact h3, h4⟩
  · rw [scalar_field_init]
    dsimp only
    rw [if_neg (by omega)]
    show (do let n ← mpn_import ((d.bits + 63) / 64) d.n 1; _) = _
    rw [en, C.ok_bind, em, C.ok_bind, ek, C.ok_bind]
    rfl

theorem good {sc : ScField} {N : Nat} (h : ScInit sc N) : Good sc N := by
  obtain ⟨d, e, hd, he, hi⟩ := h.init
  obtain ⟨sc', h1, h2, _⟩ := init_good hd e he
  rw [h1] at hi
  cases hi
  exact h2

variable {sc : ScField} {N : Nat}

theorem Good.lt_R (g : Good sc N) : N < 2 ^ (64 * sc.limbs) := by
  rw [← g.num, ← g.nlen]; exact val_lt _

theorem Good.lpos (g : Good sc N) : 0 < sc.limbs := by
  rcases Nat.eq_zero_or_pos sc.limbs with h | h
  · have := g.lt_R; rw [h] at this; have := g.one; omega
  · exact h

theorem add_ok (g : Good sc N) {x y a b} (hx : Scalar sc N x a) (hy : Scalar sc N y b) :
    Scalar sc N (sc_add sc x y) ((a + b) % N) := by
  obtain ⟨h1, h2, h3⟩ := mpn_add_n_exact x y (hx.len.trans hy.len.symm)
  rw [hx.len, hx.num, hy.num] at h1
  have ha := hx.lt
  have hb := hy.lt
  have := mpn_reduce_weak_exact (mpn_add_n x y).1 sc.n (mpn_add_n x y).2 (by rw [h2, hx.len, g.nlen])
    (by rw [g.nlen, h1, g.num]; omega)
  rw [g.nlen, h1, g.num] at this
  exact ⟨this.2, this.1, Nat.mod_lt _ (by omega)⟩

theorem borrow_zero (g : Good sc N) {y : List Limb} (hl : y.length = sc.limbs) (hy : val y ≤ N) :
    (mpn_sub_n sc.n y).2 = 0 ∧ val (mpn_sub_n sc.n y).1 = N - val y ∧ (mpn_sub_n sc.n y).1.length = sc.limbs := by
  obtain ⟨h1, h2, h3⟩ := mpn_sub_n_exact sc.n y (g.nlen.trans hl.symm)
  rw [g.num] at h1 h3
  rw [if_neg (by omega)] at h3
  rw [h3] at h1
  exact ⟨BitVec.eq_of_toNat_eq h3, by omega, by rw [h2, g.nlen]⟩

theorem neg_ok (g : Good sc N) {x a} (hx : Scalar sc N x a) :
    ∃ z, sc_neg sc x = .ok z ∧ Scalar sc N z ((N - a) % N) := by
  have ha := hx.lt
  obtain ⟨h1, h2, h3⟩ := borrow_zero g hx.len (by rw [hx.num]; omega)
  rw [hx.num] at h2
  refine ⟨sc_select_zero (mpn_sub_n sc.n x).1 (sc_is_zero x), ?_, ?_⟩
  · rw [sc_neg]
    rw [h1]
    rfl
  · rw [sc_select_zero, cnd_zero_eq, sc_is_zero, sec_zero_p_eq, hx.num]
    by_cases h0 : a = 0
    · rw [flag_pos h0, if_neg (by decide), h3, h0, Nat.sub_zero, Nat.mod_self]
      exact ⟨by simp [mpn_zero], val_zeros _, by omega⟩
    · rw [flag_neg h0, if_pos rfl, Nat.mod_eq_of_lt (by omega)]
      exact ⟨h3, h2, by omega⟩

theorem sub_ok (g : Good sc N) {x y a b} (hx : Scalar sc N x a) (hy : Scalar sc N y b) :
    ∃ z, sc_sub sc x y = .ok z ∧ Scalar sc N z ((a + (N - b)) % N) := by
  have ha := hx.lt
  have hb := hy.lt
  obtain ⟨h1, h2, h3⟩ := borrow_zero g hy.len (by rw [hy.num]; omega)
  rw [hy.num] at h2
  refine ⟨sc_add sc x (mpn_sub_n sc.n y).1, ?_, ?_⟩
  · rw [sc_sub]
    rw [h1]
    rfl
  · -- the second operand may be N itself
    obtain ⟨k1, k2, k3⟩ := mpn_add_n_exact x (mpn_sub_n sc.n y).1 (hx.len.trans h3.symm)
    rw [hx.len, hx.num, h2] at k1
    have := mpn_reduce_weak_exact (mpn_add_n x (mpn_sub_n sc.n y).1).1 sc.n (mpn_add_n x (mpn_sub_n sc.n y).1).2
      (by rw [k2, hx.len, g.nlen]) (by rw [g.nlen, k1, g.num]; omega)
    rw [g.nlen, k1, g.num] at this
    exact ⟨this.2, this.1, Nat.mod_lt _ (by omega)⟩

theorem neg_cond_ok (g : Good sc N) {x a} (hx : Scalar sc N x a) (f : Limb) :
    ∃ z, sc_neg_cond sc x f = .ok z ∧ Scalar sc N z (if f = 0 then a else (N - a) % N) := by
  obtain ⟨y, hy, sy⟩ := neg_ok g hx
  refine ⟨sc_select x y f, by rw [sc_neg_cond, hy]; rfl, ?_⟩
  rw [sc_select, cnd_select_eq x y f (hx.len.trans sy.len.symm)]
  split
  · exact hx
  · exact sy

theorem reduce_ok (g : Good sc N) {xp : List Limb} (h : xp.length = sc.shift) :
    ∃ z, sc_reduce sc xp = .ok z ∧ Scalar sc N z (val xp % N) := by
  obtain ⟨z, h1, h2, h3⟩ := g.red xp h
  refine ⟨z, by rw [sc_reduce, if_neg (by omega), h1], h2, h3, Nat.mod_lt _ (by have := g.one; omega)⟩

theorem pad_val (a : List Limb) (n : Nat) : val (a ++ mpn_zero n) = val a ∧ (a ++ mpn_zero n).length = a.length + n := by
  rw [val_append, val_zeros, List.length_append]
  exact ⟨by omega, by simp [mpn_zero]⟩

theorem mod_ok (g : Good sc N) {xp : List Limb} (h : xp.length ≤ sc.shift) :
    ∃ z, sc_mod sc xp = .ok z ∧ Scalar sc N z (val xp % N) := by
  obtain ⟨h1, h2⟩ := pad_val xp (sc.shift - xp.length)
  obtain ⟨z, h3, h4⟩ := reduce_ok g (xp := xp ++ mpn_zero (sc.shift - xp.length)) (by omega)
  rw [h1] at h4
  exact ⟨z, by rw [sc_mod, Ecc.check_true h]; exact h3, h4⟩

theorem mul_ok (g : Good sc N) {x y a b} (hx : Scalar sc N x a) (hy : Scalar sc N y b) :
    ∃ z, sc_mul sc x y = .ok z ∧ Scalar sc N z (a * b % N) := by
  obtain ⟨h1, h2⟩ := mpn_mul_exact x y
  obtain ⟨k1, k2⟩ := pad_val (mpn_mul x y) (sc.shift - sc.limbs * 2)
  have hs := g.shift
  obtain ⟨z, h3, h4⟩ := reduce_ok g (xp := mpn_mul x y ++ mpn_zero (sc.shift - sc.limbs * 2))
    (by rw [k2, h2, hx.len, hy.len]; omega)
  rw [k1, h1, hx.num, hy.num] at h4
  exact ⟨z, h3, h4⟩

theorem sqr_ok (g : Good sc N) {x a} (hx : Scalar sc N x a) :
    ∃ z, sc_sqr sc x = .ok z ∧ Scalar sc N z (a * a % N) := by
  obtain ⟨h1, h2⟩ := mpn_sqr_exact x
  obtain ⟨k1, k2⟩ := pad_val (mpn_sqr x) (sc.shift - sc.limbs * 2)
  have hs := g.shift
  obtain ⟨z, h3, h4⟩ := reduce_ok g (xp := mpn_sqr x ++ mpn_zero (sc.shift - sc.limbs * 2))
    (by rw [k2, h2, hx.len]; omega)
  rw [k1, h1, hx.num] at h4
  exact ⟨z, h3, h4⟩

theorem mul_word_ok (g : Good sc N) {x a} (hx : Scalar sc N x a) (y : Limb) :
    ∃ z, sc_mul_word sc x y = .ok z ∧ Scalar sc N z (a * y.toNat % N) := by
  obtain ⟨h1, h2⟩ := mpn_mul_1_exact x y
  obtain ⟨k1, k2⟩ := pad_val ((mpn_mul_1 x y).1 ++ [(mpn_mul_1 x y).2]) (sc.shift - (sc.limbs + 1))
  have hs := g.shift
  obtain ⟨z, h3, h4⟩ := reduce_ok g (xp := ((mpn_mul_1 x y).1 ++ [(mpn_mul_1 x y).2]) ++ mpn_zero (sc.shift - (sc.limbs + 1)))
    (by rw [k2, List.length_append, h2, hx.len, List.length_singleton]; omega)
  rw [k1, val_append, val_singleton, h2, h1, hx.num] at h4
  exact ⟨z, h3, h4⟩

/-! Montgomery form -/

/-- The vector holds `a` in Montgomery form. -/
structure MontRep (sc : ScField) (N : Nat) (x : List Limb) (a : Nat) : Prop where
  len : x.length = sc.limbs
  lt : val x < N
  num : val x ≡ a * 2 ^ (64 * sc.limbs) [MOD N]

theorem Good.cop (g : Good sc N) : Nat.gcd N (2 ^ (64 * sc.limbs)) = 1 := by
  apply Nat.Coprime.pow_right
  rw [Nat.coprime_comm, Nat.Prime.coprime_iff_not_dvd Nat.prime_two]
  have := g.odd
  omega

theorem montmul_ok (g : Good sc N) {x y a b} (hx : MontRep sc N x a) (hy : MontRep sc N y b) :
    ∃ z, sc_montmul sc x y = .ok z ∧ MontRep sc N z (a * b) := by
  obtain ⟨z, h1, h2, h3, h4⟩ := g.mm x y hx.len hy.len hy.lt
  refine ⟨z, h1, h2, h3, ?_⟩
  apply Nat.ModEq.cancel_left_of_coprime (c := 2 ^ (64 * sc.limbs)) g.cop
  refine h4.trans ((Nat.ModEq.mul hx.num hy.num).trans ?_)
  rw [show a * 2 ^ (64 * sc.limbs) * (b * 2 ^ (64 * sc.limbs))
    = 2 ^ (64 * sc.limbs) * (a * b * 2 ^ (64 * sc.limbs)) by ring]

theorem one_len (g : Good sc N) : (sc_one sc).length = sc.limbs := by
  have := g.lpos
  simp [sc_one, mpn_set_1, mpn_zero]
  omega

theorem one_val : val (sc_one sc) = 1 := by rw [sc_one, val_set_1]; rfl

theorem mont_ok (g : Good sc N) {x} (hl : x.length = sc.limbs) : ∃ z, sc_mont sc x = .ok z ∧ MontRep sc N z (val x) := by
  obtain ⟨z, h1, h2, h3, h4⟩ := g.mm x sc.r2 hl g.r2len (by rw [g.r2]; exact Nat.mod_lt _ (by have := g.one; omega))
  refine ⟨z, h1, h2, h3, ?_⟩
  apply Nat.ModEq.cancel_left_of_coprime (c := 2 ^ (64 * sc.limbs)) g.cop
  refine h4.trans ?_
  rw [g.r2]
  refine (Nat.ModEq.mul_left _ (Nat.mod_modEq _ _)).trans ?_
  rw [show 2 ^ (64 * sc.limbs) * (val x * 2 ^ (64 * sc.limbs)) = val x * 2 ^ (128 * sc.limbs) by
    rw [show 128 * sc.limbs = 64 * sc.limbs + 64 * sc.limbs by omega, Nat.pow_add]; ring]

theorem normal_ok (g : Good sc N) {x a} (hx : MontRep sc N x a) : ∃ z, sc_normal sc x = .ok z ∧ Scalar sc N z (a % N) := by
  obtain ⟨z, h1, h2, h3, h4⟩ := g.mm x (sc_one sc) hx.len (one_len g) (by rw [one_val]; exact g.one)
  refine ⟨z, h1, h2, ?_, Nat.mod_lt _ (by have := g.one; omega)⟩
  rw [one_val, Nat.mul_one] at h4
  have h5 : val z ≡ a [MOD N] := by
    apply Nat.ModEq.cancel_left_of_coprime (c := 2 ^ (64 * sc.limbs)) g.cop
    refine h4.trans (hx.num.trans ?_)
    rw [Nat.mul_comm]
  rw [← Nat.mod_eq_of_lt h3]
  exact h5

theorem montRep_congr {x a b} (h : MontRep sc N x a) (hab : a ≡ b [MOD N]) : MontRep sc N x b :=
  ⟨h.len, h.lt, h.num.trans (Nat.ModEq.mul_right _ hab)⟩

theorem mont_rel (g : Good sc N) (a : Nat) : ∀ x y i j, MontRep sc N x (a ^ i) → MontRep sc N y (a ^ j) →
    ∃ z, sc_montmul sc x y = .ok z ∧ MontRep sc N z (a ^ (i + j)) := by
  intro x y i j hx hy
  obtain ⟨z, h1, h2⟩ := montmul_ok g hx hy
  exact ⟨z, h1, by rw [Nat.pow_add]; exact h2⟩

theorem sqr_loop_exp (n i : Nat) : sqr_loop Ecc.expMul n i = .ok (2 ^ n * i) := by
  induction n generalizing i with
  | zero => rw [sqr_loop, Nat.pow_zero, Nat.one_mul]
  | succ n ih =>
    rw [sqr_loop, Ecc.expMul, C.ok_bind]
    have := ih (i + i)
    rw [this, Nat.pow_succ]
    congr 1
    ring

theorem montsqrn_ok (g : Good sc N) {x a i} (hx : MontRep sc N x (a ^ i)) {n : Nat} (hn : 0 < n) :
    ∃ z, sc_montsqrn sc x n = .ok z ∧ MontRep sc N z (a ^ (2 ^ n * i)) := by
  obtain ⟨y, h1, h2⟩ := mont_rel g a x x i i hx hx
  obtain ⟨z, j, h3, h4, h5⟩ := Ecc.sqr_loop_rel (R := fun x i => MontRep sc N x (a ^ i)) (mont_rel g a) (n - 1) y (i + i) h2
  rw [sqr_loop_exp] at h4
  cases h4
  refine ⟨z, ?_, ?_⟩
  · rw [sc_montsqrn, Ecc.check_true hn]
    show (do let z ← sc_montmul sc x x; _) = _
    rw [h1, C.ok_bind]
    exact h3
  · rw [show 2 ^ n * i = 2 ^ (n - 1) * (i + i) by
      obtain ⟨m, rfl⟩ : ∃ m, n = m + 1 := ⟨n - 1, by omega⟩
      rw [Nat.add_sub_cancel, Nat.pow_succ]; ring]
    exact h5

theorem chain_ok (g : Good sc N) {prog : List Ins} {e : Nat} (he : Ecc.expAt prog (Ecc.expIn 1) 0 = some e) {x a}
    (hx : Scalar sc N x a) : ∃ z, sc_chain sc prog x = .ok z ∧ Scalar sc N z (a ^ e % N) := by
  obtain ⟨x1, h1, h2⟩ := mont_ok g hx.len
  rw [hx.num] at h2
  obtain ⟨e', he', hz⟩ := Ecc.expAt_some he
  have hr : Ecc.Regs (fun x i => MontRep sc N x (a ^ i)) (regSet (fun _ => none) 1 x1) (Ecc.expIn 1) :=
    Ecc.Regs.set (fun _ _ h => by cases h) 1 (by rw [Nat.pow_one]; exact h2)
  obtain ⟨s', hs, hr'⟩ := Ecc.runIns_rel (mont_rel g a) _ hr he'
  obtain ⟨y, hy, hry⟩ := hr' 0 e hz
  obtain ⟨z, h3, h4⟩ := normal_ok g hry
  refine ⟨z, ?_, h4⟩
  rw [sc_chain, h1, C.ok_bind, hs, C.ok_bind, regGet, hy, C.ok_bind, h3]

/-- The table of `sc_pow`: the powers in order. -/
def WndOk (sc : ScField) (N a : Nat) (w : List (List Limb)) : Prop :=
  ∀ i x, w[i]? = some x → MontRep sc N x (a ^ i)

theorem rd_some {α : Type} {w : List α} {i : Nat} (h : i < w.length) : ∃ x, w[i]? = some x ∧ C.rd w i = .ok x := by
  refine ⟨w[i], List.getElem?_eq_getElem h, ?_⟩
  simp [C.rd, h]

theorem pow_wnd_ok (g : Good sc N) {a : Nat} : ∀ k w, WndOk sc N a w → 2 ≤ w.length → w.length % 2 = 0 →
    ∃ w', sc_pow_wnd sc k w = .ok w' ∧ WndOk sc N a w' ∧ w'.length = w.length + 2 * k := by
  intro k
  induction k with
  | zero => intro w hw h2 _; exact ⟨w, rfl, hw, rfl⟩
  | succ k ih =>
    intro w hw h2 he
    obtain ⟨p, hp, hpr⟩ := rd_some (w := w) (i := w.length / 2) (by omega)
    obtain ⟨q, hq, hqr⟩ := rd_some (w := w) (i := 1) (by omega)
    obtain ⟨b, hb, rb⟩ := mont_rel g a p p _ _ (hw _ _ hp) (hw _ _ hp)
    obtain ⟨c, hc, rc⟩ := mont_rel g a b q _ _ rb (hw _ _ hq)
    obtain ⟨w', h1, h2', h3⟩ := ih (w ++ [b, c]) (by
      intro i x hx
      rcases Nat.lt_or_ge i w.length with hi | hi
      · rw [List.getElem?_append_left hi] at hx; exact hw i x hx
      · rw [List.getElem?_append_right hi] at hx
        rcases hj : i - w.length with _ | _ | j
        · rw [hj] at hx; simp at hx; subst hx
          rw [show i = w.length / 2 + w.length / 2 by omega]; exact rb
        · rw [hj] at hx; simp at hx; subst hx
          rw [show i = w.length / 2 + w.length / 2 + 1 by omega]; exact rc
        · rw [hj] at hx; simp at hx) (by simp) (by simp; omega)
    refine ⟨w', ?_, h2', by rw [h3, List.length_append]; simp; omega⟩
    rw [sc_pow_wnd, hpr, C.ok_bind]
    show (do let b ← sc_montmul sc p p; _) = _
    rw [hb, C.ok_bind, hqr, C.ok_bind, hc, C.ok_bind, h1]

theorem pow_loop_ok (g : Good sc N) {a : Nat} {w : List (List Limb)} (hw : WndOk sc N a w) (hl : w.length = 16)
    (ep : List Limb) (steps : Nat) : ∀ i z, i < steps → MontRep sc N z (a ^ (val ep / 2 ^ (4 * i))) →
    ∃ z', sc_pow_loop sc w ep steps i z = .ok z' ∧ MontRep sc N z' (a ^ val ep) := by
  intro i
  induction i with
  | zero => intro z _ hz; rw [Nat.mul_zero, Nat.pow_zero, Nat.div_one] at hz; exact ⟨z, rfl, hz⟩
  | succ i ih =>
    intro z hi hz
    have hb := getbits_eq ep (i * 4) 4 (by decide)
    have hblt : (mpn_getbits ep (i * 4) 4).toNat < 16 := by rw [hb]; exact Nat.mod_lt _ (by decide)
    obtain ⟨x, hx, hxr⟩ := rd_some (w := w) (i := (mpn_getbits ep (i * 4) 4).toNat) (by omega)
    obtain ⟨y, hy, ry⟩ := montsqrn_ok g hz (n := 4) (by decide)
    obtain ⟨v, hv, rv⟩ := mont_rel g a y x _ _ ry (hw _ _ hx)
    obtain ⟨z', h1, h2⟩ := ih v (by omega) (by
      have e : val ep / 2 ^ (4 * i) = 2 ^ 4 * (val ep / 2 ^ (4 * (i + 1))) + (mpn_getbits ep (i * 4) 4).toNat := by
        rw [hb, Nat.mul_comm i 4, show 4 * (i + 1) = 4 * i + 4 by omega, Nat.pow_add, ← Nat.div_div_eq_div_mul]
        omega
      rw [e]
      exact rv)
    refine ⟨z', ?_, h2⟩
    rw [sc_pow_loop]
    rw [hxr, C.ok_bind, if_neg (by omega), hy, C.ok_bind, hv, C.ok_bind, h1]

theorem pow_ok (g : Good sc N) {x a} (hx : Scalar sc N x a) (ep : List Limb) (he : val ep < 2 ^ sc.bits) :
    ∃ z, sc_pow sc x ep = .ok z ∧ Scalar sc N z (a ^ val ep % N) := by
  obtain ⟨w0, h0, r0⟩ := mont_ok g (one_len g)
  rw [one_val] at r0
  obtain ⟨w1, h1, r1⟩ := mont_ok g hx.len
  rw [hx.num] at r1
  obtain ⟨w, hw, rw', lw⟩ := pow_wnd_ok g (a := a) 7 [w0, w1] (by
    intro i x hx
    rcases i with _ | _ | i
    · simp at hx; subst hx; rw [Nat.pow_zero]; exact r0
    · simp at hx; subst hx; rw [Nat.zero_add, Nat.pow_one]; exact r1
    · simp at hx) (by simp) (by simp)
  have hbpos : 0 < sc.bits := by rw [← g.bits]; exact Nat.size_pos.2 (by have := g.one; omega)
  obtain ⟨steps, hs⟩ : ∃ s, (sc.bits + 3) / 4 = s + 1 := ⟨(sc.bits + 3) / 4 - 1, by omega⟩
  -- the first round only selects
  have hb := getbits_eq ep (steps * 4) 4 (by decide)
  have hblt : (mpn_getbits ep (steps * 4) 4).toNat < 16 := by rw [hb]; exact Nat.mod_lt _ (by decide)
  obtain ⟨y, hy, hyr⟩ := rd_some (w := w) (i := (mpn_getbits ep (steps * 4) 4).toNat) (by rw [lw]; simp; omega)
  have htop : (mpn_getbits ep (steps * 4) 4).toNat = val ep / 2 ^ (4 * steps) := by
    rw [hb, Nat.mul_comm steps 4]
    apply Nat.mod_eq_of_lt
    rw [Nat.div_lt_iff_lt_mul (by positivity), ← Nat.pow_add]
    exact lt_of_lt_of_le he (Nat.pow_le_pow_right (by decide) (by omega))
  have ry := rw' _ _ hy
  rw [htop] at ry
  obtain ⟨z', h2, h3⟩ := pow_loop_ok g rw' (by rw [lw]; rfl) ep (steps + 1) steps y (by omega) ry
  obtain ⟨z, h4, h5⟩ := normal_ok g h3
  refine ⟨z, ?_, h5⟩
  rw [sc_pow]
  rw [h0, C.ok_bind, h1, C.ok_bind, hw, C.ok_bind, hs, sc_pow_loop]
  rw [hyr, C.ok_bind, if_pos (by omega), h2, C.ok_bind, h4]

theorem fermat (g : Good sc N) (hp : N.Prime) {a : Nat} (ha : a < N) (h0 : a ≠ 0) : a ^ (N - 2) % N * a % N = 1 := by
  have := Fact.mk hp
  have h2 : N ≠ 2 := by have := g.odd; omega
  have hgt := g.one
  have h : ((a ^ (N - 2) % N * a : Nat) : ZMod N) = 1 := by
    push_cast
    rw [ZMod.natCast_mod]
    push_cast
    rw [← pow_succ, show N - 2 + 1 = N - 1 by omega]
    apply ZMod.pow_card_sub_one_eq_one
    intro h
    rw [ZMod.natCast_eq_zero_iff] at h
    exact h0 (Nat.eq_zero_of_dvd_of_lt h ha)
  have h' : ((a ^ (N - 2) % N * a : Nat) : ZMod N) = ((1 : Nat) : ZMod N) := by rw [h, Nat.cast_one]
  rw [ZMod.natCast_eq_natCast_iff'] at h'
  rw [h', Nat.mod_eq_of_lt hgt]

/-! Bytes -/

theorem import_val (g : Good sc N) (zn : Nat) (xp : List Byte) :
    ∃ z, mpn_import zn xp sc.endian = .ok z ∧ z.length = zn ∧ val z = bytesVal sc.endian xp % 2 ^ (64 * zn) := by
  rcases g.endian with h | h
  · rw [h]; exact (mpn_import_exact zn xp).1
  · rw [h]; exact (mpn_import_exact zn xp).2.1

theorem bytesVal_lt (e : Int) (b : List Byte) : bytesVal e b < 256 ^ b.length := by
  unfold bytesVal
  split
  · exact Asn1.beVal_lt b
  · exact leVal_lt b

theorem pow256 (n : Nat) : 256 ^ n = 2 ^ (8 * n) := by rw [show (256 : Nat) = 2 ^ 8 by decide, ← Nat.pow_mul]

theorem import_small (g : Good sc N) {xp : List Byte} (h : xp.length ≤ sc.size) :
    ∃ z, mpn_import sc.limbs xp sc.endian = .ok z ∧ z.length = sc.limbs ∧ val z = bytesVal sc.endian xp := by
  obtain ⟨z, h1, h2, h3⟩ := import_val g sc.limbs xp
  refine ⟨z, h1, h2, ?_⟩
  rw [h3]
  apply Nat.mod_eq_of_lt
  refine lt_of_lt_of_le (bytesVal_lt _ _) ?_
  rw [pow256]
  apply Nat.pow_le_pow_right (by decide)
  have := g.size
  have := g.limbs
  omega

theorem flag_xor_one (p : Prop) [Decidable p] : flag p ^^^ 1 = flag (¬ p) := by
  unfold flag; by_cases p <;> simp [*]

theorem one_and_flag (p : Prop) [Decidable p] : 1 &&& flag p = flag p := by
  unfold flag; by_cases p <;> simp [*]

theorem canonical_eq (g : Good sc N) {x : List Limb} (h : x.length = sc.limbs) : sc_is_canonical sc x = flag (val x < N) := by
  rw [sc_is_canonical, sec_lt_p_eq x sc.n (h.trans g.nlen.symm)]
  exact flag_congr (by rw [g.num])

theorem import_tail (g : Good sc N) {z : List Limb} (h : z.length = sc.limbs) (p : Prop) [Decidable p] (hp : p ↔ val z < N) :
    Scalar sc N (sc_select_zero z (flag p ^^^ 1)) (if val z < N then val z else 0) := by
  rw [flag_xor_one, sc_select_zero, cnd_zero_eq]
  by_cases hv : val z < N
  · rw [flag_neg (not_not.2 (hp.2 hv)), if_pos rfl, if_pos hv]
    exact ⟨h, rfl, hv⟩
  · rw [flag_pos (mt hp.1 hv), if_neg (by decide), if_neg hv]
    exact ⟨by simp [mpn_zero, h], val_zeros _, by have := g.one; omega⟩

theorem import_ok (g : Good sc N) {xp : List Byte} (h : xp.length = sc.size) :
    ∃ z, sc_import sc xp = .ok (z, flag (bytesVal sc.endian xp < N)) ∧
      Scalar sc N z (if bytesVal sc.endian xp < N then bytesVal sc.endian xp else 0) := by
  obtain ⟨z, h1, h2, h3⟩ := import_small g (xp := xp) (by omega)
  have hc := canonical_eq g h2
  rw [h3] at hc
  have ht := import_tail g h2 (bytesVal sc.endian xp < N) (by rw [h3])
  rw [h3] at ht
  refine ⟨_, ?_, ht⟩
  rw [sc_import, sc_import_raw, if_neg (by omega), h1, C.ok_bind]
  dsimp only
  rw [hc, one_and_flag]
  rfl

theorem wide_ok (g : Good sc N) {xp : List Byte} (h : xp.length * 8 ≤ sc.shift * 64) :
    ∃ z, sc_import_wide sc xp = .ok (z, flag (bytesVal sc.endian xp < N)) ∧
      Scalar sc N z (bytesVal sc.endian xp % N) := by
  obtain ⟨zp, h1, h2, h3⟩ := import_val g sc.shift xp
  have hv : val zp = bytesVal sc.endian xp := by
    rw [h3]
    apply Nat.mod_eq_of_lt
    refine lt_of_lt_of_le (bytesVal_lt _ _) ?_
    rw [pow256]
    exact Nat.pow_le_pow_right (by decide) (by omega)
  have hs := g.shift
  obtain ⟨z, h4, h5⟩ := reduce_ok g h2
  rw [hv] at h5
  have hsp := val_take_drop sc.limbs zp (by omega)
  have htl : (zp.take sc.limbs).length = sc.limbs := by rw [List.length_take]; omega
  have e1 : mpn_sec_lt_p (zp.take sc.limbs) sc.n = flag (val (zp.take sc.limbs) < N) := by
    rw [sec_lt_p_eq _ _ (htl.trans g.nlen.symm)]
    exact flag_congr (by rw [g.num])
  have hR := g.lt_R
  refine ⟨z, ?_, h5⟩
  rw [sc_import_wide, Ecc.check_true h]
  show (do let zp ← mpn_import sc.shift xp sc.endian; _) = _
  rw [h1, C.ok_bind, h4, C.ok_bind, e1, one_and_flag]
  by_cases hx : xp.length > sc.size
  · rw [if_pos hx, sec_zero_p_eq, flag_and]
    have : (val (zp.take sc.limbs) < N ∧ val (zp.drop sc.limbs) = 0) ↔ bytesVal sc.endian xp < N := by
      rw [← hv]
      constructor
      · rintro ⟨a1, a2⟩; rw [hsp, a2]; omega
      · intro a1
        have : val (zp.drop sc.limbs) = 0 := by
          by_contra hne
          have : 2 ^ (64 * sc.limbs) * 1 ≤ 2 ^ (64 * sc.limbs) * val (zp.drop sc.limbs) :=
            Nat.mul_le_mul_left _ (Nat.pos_of_ne_zero hne)
          omega
        rw [this] at hsp
        exact ⟨by omega, this⟩
    rw [flag_congr this]
    rfl
  · rw [if_neg hx]
    have hlt : bytesVal sc.endian xp < 2 ^ (64 * sc.limbs) := by
      refine lt_of_lt_of_le (bytesVal_lt _ _) ?_
      rw [pow256]
      apply Nat.pow_le_pow_right (by decide)
      have := g.size
      have := g.limbs
      omega
    have hd : val (zp.drop sc.limbs) = 0 := by
      by_contra hne
      have : 2 ^ (64 * sc.limbs) * 1 ≤ 2 ^ (64 * sc.limbs) * val (zp.drop sc.limbs) :=
        Nat.mul_le_mul_left _ (Nat.pos_of_ne_zero hne)
      omega
    rw [hd] at hsp
    rw [flag_congr (show val (zp.take sc.limbs) < N ↔ bytesVal sc.endian xp < N by rw [← hv, hsp]; omega)]
    rfl

theorem weak_flag (x n : List Limb) (hl : x.length = n.length) :
    (mpn_reduce_weak x n 0).2 = decide (val n ≤ val x) := by
  obtain ⟨_, _, h⟩ := mpn_sub_n_exact x n hl
  rw [mpn_reduce_weak]
  dsimp only
  by_cases hlt : val x < val n
  · rw [if_pos hlt] at h
    have : (mpn_sub_n x n).2 = 1 := BitVec.eq_of_toNat_eq h
    rw [this]
    simp [flag]
    omega
  · rw [if_neg hlt] at h
    have : (mpn_sub_n x n).2 = 0 := BitVec.eq_of_toNat_eq h
    rw [this]
    simp [flag]
    omega

theorem weak_ok (g : Good sc N) {xp : List Byte} (h : xp.length = sc.size) (h2 : bytesVal sc.endian xp < 2 * N) :
    ∃ z, sc_import_weak sc xp = .ok (z, flag (bytesVal sc.endian xp < N)) ∧
      Scalar sc N z (bytesVal sc.endian xp % N) := by
  obtain ⟨z, h1, h3, h4⟩ := import_small g (xp := xp) (by omega)
  obtain ⟨k1, k2⟩ := mpn_reduce_weak_exact z sc.n 0 (h3.trans g.nlen.symm) (by
    rw [h4, g.num]; simpa using h2)
  have k3 := weak_flag z sc.n (h3.trans g.nlen.symm)
  rw [h4, g.num] at k1 k3
  refine ⟨(mpn_reduce_weak z sc.n 0).1, ?_, by rw [k2, g.nlen], by simpa using k1, Nat.mod_lt _ (by have := g.one; omega)⟩
  rw [sc_import_weak, sc_import_raw, if_neg (by omega), h1, C.ok_bind]
  dsimp only [sc_reduce_weak]
  rw [k3, flag_xor_one]
  rw [flag_congr (show ¬ decide (N ≤ bytesVal sc.endian xp) = true ↔ bytesVal sc.endian xp < N by simp)]
  rfl

theorem import_reduce_ok (g : Good sc N) {xp : List Byte} (h : xp.length = sc.size) :
    ∃ z, sc_import_reduce sc xp = .ok (z, flag (bytesVal sc.endian xp < N)) ∧
      Scalar sc N z (bytesVal sc.endian xp % N) := by
  have hs := g.size
  have hl := g.limbs
  have hsh := g.shift
  unfold sc_import_reduce
  by_cases hb : sc.bits % 8 = 0
  · rw [if_pos hb]
    apply weak_ok g h
    have h1 := bytesVal_lt sc.endian xp
    rw [pow256, h, show 8 * sc.size = sc.bits by omega] at h1
    have hpos : 0 < N.size := Nat.size_pos.2 (by have := g.one; omega)
    have hge : 2 ^ (sc.bits - 1) ≤ N := by
      rw [← Nat.lt_size, g.bits]
      have := g.bits
      omega
    have : 2 ^ sc.bits = 2 * 2 ^ (sc.bits - 1) := by
      rw [← Nat.pow_succ']
      congr 1
      have := g.bits
      omega
    omega
  · rw [if_neg hb, sc_import_strong, if_neg (by omega)]
    exact wide_ok g (by omega)

theorem leVal_zeros (x : List Byte) (n : Nat) : leVal (x ++ List.replicate n 0) = leVal x := by
  unfold leVal
  rw [List.map_append, Nat.ofDigits_append]
  have : Nat.ofDigits 256 ((List.replicate n (0 : Byte)).map BitVec.toNat) = 0 := by
    induction n with
    | zero => rfl
    | succ n ih => rw [List.replicate_succ, List.map_cons, Nat.ofDigits_cons, ih]; rfl
  rw [this, Nat.mul_zero, Nat.add_zero]

theorem strip_spec (size : Nat) : ∀ xs : List Byte, beVal (pad_strip size xs) = beVal xs ∧
    ((pad_strip size xs).length ≤ size ↔ beVal xs < 256 ^ size) := by
  intro xs
  induction xs with
  | nil => exact ⟨rfl, by simp [pad_strip, beVal]⟩
  | cons x xs ih =>
    rw [pad_strip]
    have hc : beVal (x :: xs) = x.toNat * 256 ^ xs.length + beVal xs := by
      have := Asn1.beVal_append [x] xs
      rw [List.singleton_append] at this
      rw [this]
      congr 2
    by_cases h : (x :: xs).length > size ∧ x = 0
    · rw [if_pos h]
      have : beVal (x :: xs) = beVal xs := by rw [hc, h.2]; simp
      rw [this]
      exact ih
    · rw [if_neg h]
      refine ⟨rfl, ?_⟩
      by_cases hl : (x :: xs).length > size
      · have hx : x ≠ 0 := fun h0 => h ⟨hl, h0⟩
        have hx1 : 1 ≤ x.toNat := by
          rcases Nat.eq_zero_or_pos x.toNat with h0 | h0
          · exact absurd (BitVec.eq_of_toNat_eq h0) hx
          · exact h0
        constructor
        · intro hh; omega
        · intro hh
          exfalso
          rw [List.length_cons] at hl
          have h1 : 256 ^ size ≤ 256 ^ xs.length := Nat.pow_le_pow_right (by decide) (by omega)
          have h2 : 1 * 256 ^ xs.length ≤ x.toNat * 256 ^ xs.length := Nat.mul_le_mul_right _ hx1
          omega
      · constructor
        · intro hh
          exact lt_of_lt_of_le (Asn1.beVal_lt _) (Nat.pow_le_pow_right (by decide) hh)
        · intro _; omega

theorem import_pad_ok (g : Good sc N) (xp : List Byte) :
    ∃ z, sc_import_pad sc xp = .ok (z, flag (bytesVal sc.endian xp < N)) ∧
      Scalar sc N z (if bytesVal sc.endian xp < N then bytesVal sc.endian xp else 0) := by
  have key : ∃ ys : List Byte, (if sc.endian = 1 then pad_strip sc.size xp else (pad_strip sc.size xp.reverse).reverse) = ys ∧
      bytesVal sc.endian ys = bytesVal sc.endian xp ∧ (ys.length ≤ sc.size ↔ bytesVal sc.endian xp < 256 ^ sc.size) := by
    refine ⟨_, rfl, ?_⟩
    unfold bytesVal
    by_cases he : sc.endian = 1
    · simp only [if_pos he]
      exact strip_spec sc.size xp
    · rw [if_neg he, if_neg he]
      obtain ⟨h1, h2⟩ := strip_spec sc.size xp.reverse
      rw [if_neg he, ← List.reverse_reverse xp, ← beVal_eq xp.reverse, List.reverse_reverse, ← h1, beVal_eq, List.length_reverse]
      rw [beVal_eq xp.reverse, List.reverse_reverse] at h2
      rw [h2, ← beVal_eq, h1, beVal_eq xp.reverse, List.reverse_reverse]
      exact ⟨rfl, Iff.rfl⟩
  obtain ⟨ys, hy, hv, hl⟩ := key
  have hbig : N < 256 ^ sc.size := by
    rw [pow256]
    have h1 : N < 2 ^ sc.bits := by rw [← g.bits]; exact Nat.lt_size_self N
    refine lt_of_lt_of_le h1 (Nat.pow_le_pow_right (by decide) ?_)
    have := g.size
    omega
  have e : sc_import_pad_raw sc xp = if ys.length > sc.size then .ok (mpn_zero sc.limbs, 0) else
      (do let z ← mpn_import sc.limbs ys sc.endian; return (z, 1)) := by
    rw [sc_import_pad_raw]
    rw [hy]
    split <;> rfl
  rw [sc_import_pad, e]
  by_cases hg : ys.length > sc.size
  · have hn : ¬ bytesVal sc.endian xp < N := by
      intro h
      have := hl.2 (by omega)
      omega
    rw [if_pos hg, if_neg hn, flag_neg hn, C.ok_bind]
    dsimp only
    rw [show (1 : Limb) &&& 0 = 0#64 by decide, BitVec.zero_and]
    refine ⟨_, rfl, ?_⟩
    rw [sc_select_zero, cnd_zero_eq, if_neg]
    · exact ⟨by simp [mpn_zero], val_zeros _, by have := g.one; omega⟩
    · simp
  · rw [if_neg hg]
    obtain ⟨z, h1, h2, h3⟩ := import_small g (xp := ys) (by omega)
    rw [hv] at h3
    have hc := canonical_eq g h2
    rw [h3] at hc
    have ht := import_tail g h2 (bytesVal sc.endian xp < N) (by rw [h3])
    rw [h3] at ht
    refine ⟨_, ?_, ht⟩
    rw [h1, C.ok_bind, C.pure_eq, C.ok_bind]
    dsimp only
    rw [hc, show (1 : Limb) &&& 1 = 1 by decide, one_and_flag]
    rfl

theorem export_ok (g : Good sc N) {x a} (hx : Scalar sc N x a) :
    ∃ b, sc_export sc x = .ok b ∧ b.length = sc.size ∧ bytesVal sc.endian b = a := by
  have hbig : a < 256 ^ sc.size := by
    rw [pow256]
    have h1 : N < 2 ^ sc.bits := by rw [← g.bits]; exact Nat.lt_size_self N
    have h2 := hx.lt
    refine lt_of_lt_of_le (by omega) (Nat.pow_le_pow_right (by decide) (show sc.bits ≤ 8 * sc.size by have := g.size; omega))
  unfold bytesVal
  rcases g.endian with h | h
  · obtain ⟨b, h1, h2, h3⟩ := (mpn_export_exact sc.size x).1
    rw [hx.num, Nat.mod_eq_of_lt hbig] at h3
    exact ⟨b, by rw [sc_export, h, h1], h2, by rw [if_pos h, h3]⟩
  · obtain ⟨b, h1, h2, h3⟩ := (mpn_export_exact sc.size x).2.1
    rw [hx.num, Nat.mod_eq_of_lt hbig] at h3
    exact ⟨b, by rw [sc_export, h, h1], h2, by rw [if_neg (by rw [h]; decide), h3]⟩

/-! Random scalars -/

theorem val_and_top {z : List Limb} {n b : Nat} (hz : z.length = n + 1) (hb : b ≤ 64) :
    val (z.set n (z.getD n 0 &&& BitVec.ofNat 64 (2 ^ b - 1))) = val z % 2 ^ (64 * n + b) := by
  obtain ⟨a, t, rfl⟩ : ∃ a t, z = a ++ [t] := ⟨z.dropLast, z.getLast (by rintro rfl; simp at hz),
    (List.dropLast_concat_getLast _).symm⟩
  have ha : a.length = n := by simpa using hz
  subst ha
  rw [List.set_append_right _ _ (le_refl _), Nat.sub_self, List.set_cons_zero, List.getD_append_right _ _ _ _ (le_refl _),
    Nat.sub_self, List.getD_cons_zero, val_append, val_append, val_cons, val_cons]
  have hv := val_lt a
  have hlt : 2 ^ b - 1 < 2 ^ 64 := by
    have : 2 ^ b ≤ 2 ^ 64 := Nat.pow_le_pow_right (by decide) hb
    have : 0 < 2 ^ b := by positivity
    omega
  rw [show val ([] : List Limb) = 0 from rfl, Nat.mul_zero, Nat.add_zero, Nat.add_zero, BitVec.toNat_and, BitVec.toNat_ofNat,
    Nat.mod_eq_of_lt hlt, Nat.and_two_pow_sub_one_eq_mod, Nat.pow_add, Nat.mod_mul, Nat.add_mul_mod_self_left,
    Nat.mod_eq_of_lt hv, Nat.add_mul_div_left _ _ (by positivity), Nat.div_eq_of_lt hv, Nat.zero_add]

theorem random_step {S : Type} (g : Good sc N) (rng : ByteGen S) (fuel : Nat) (s : S) :
    ∃ w, Spec.val w = scCandidate rng.gen sc.limbs sc.bits s 0 ∧ w.length = sc.limbs ∧
      sc_random sc rng (fuel + 1) s = if 0 < scCandidate rng.gen sc.limbs sc.bits s 0 ∧
        scCandidate rng.gen sc.limbs sc.bits s 0 < N then .ok (w, (rng.gen s (sc.limbs * 8)).2)
        else sc_random sc rng fuel (rng.gen s (sc.limbs * 8)).2 := by
  obtain ⟨z, h1, h2, h3⟩ := import_le_val (rng.gen s (sc.limbs * 8)).1 sc.limbs 0 (Nat.zero_le _)
  rw [List.drop_zero] at h3
  have hl := g.limbs
  have hpos := g.lpos
  obtain ⟨k, hk⟩ : ∃ k, sc.limbs = k + 1 := ⟨sc.limbs - 1, by omega⟩
  -- the mask
  obtain ⟨b, hb, hb64, hmask⟩ : ∃ b, 64 * k + b = sc.bits ∧ b ≤ 64 ∧
      (if (BitVec.ofNat 64 (2 ^ (sc.bits % 64) - 1)) = 0 then BitVec.allOnes 64 else BitVec.ofNat 64 (2 ^ (sc.bits % 64) - 1))
        = BitVec.ofNat 64 (2 ^ b - 1) := by
    by_cases h0 : sc.bits % 64 = 0
    · refine ⟨64, by omega, le_refl _, ?_⟩
      rw [h0]
      decide
    · refine ⟨sc.bits % 64, by omega, by omega, ?_⟩
      rw [if_neg]
      intro h
      have := congrArg BitVec.toNat h
      rw [BitVec.toNat_ofNat, show BitVec.toNat (0 : Limb) = 0 from rfl, Nat.mod_eq_of_lt] at this
      · have : 2 ^ 1 ≤ 2 ^ (sc.bits % 64) := Nat.pow_le_pow_right (by decide) (by omega)
        omega
      · have : 2 ^ (sc.bits % 64) ≤ 2 ^ 64 := Nat.pow_le_pow_right (by decide) (by omega)
        omega
  have hw := val_and_top (z := z) (n := k) (b := b) (by omega) hb64
  have hcand : val (z.set k (z.getD k 0 &&& BitVec.ofNat 64 (2 ^ b - 1))) = scCandidate rng.gen sc.limbs sc.bits s 0 := by
    rw [hw, hb, h3, scCandidate]
    show _ = leVal (rng.gen s (sc.limbs * 8)).1 % 2 ^ sc.bits
    rw [Nat.mod_mod_of_dvd]
    exact Nat.pow_dvd_pow 2 (by omega)
  have hwl : (z.set k (z.getD k 0 &&& BitVec.ofNat 64 (2 ^ b - 1))).length = sc.limbs := by rw [List.length_set, h2]
  refine ⟨z.set k (z.getD k 0 &&& BitVec.ofNat 64 (2 ^ b - 1)), hcand, hwl, ?_⟩
  have hc := canonical_eq g hwl
  rw [hcand] at hc
  rw [sc_random, sc_random]
  rw [hmask, sc_random_loop, mpn_random]
  rw [h1, C.ok_bind, R.lift_ok, R.ok_bind]
  dsimp only
  rw [hk, Nat.add_sub_cancel, rd_lt (by omega), R.lift_ok, R.ok_bind, wr_lt _ (by omega), R.lift_ok, R.ok_bind, hc,
    one_and_flag, sc_is_zero, sec_zero_p_eq, hcand, flag_xor_one, flag_and, hk]
  by_cases hcc : 0 < scCandidate rng.gen (k + 1) sc.bits s 0 ∧ scCandidate rng.gen (k + 1) sc.bits s 0 < N
  · rw [flag_pos ⟨hcc.2, by omega⟩, if_pos (by decide), if_pos hcc]
    rfl
  · rw [flag_neg (fun h => hcc ⟨by omega, h.1⟩), if_neg (by simp), if_neg hcc]

theorem random_ok {S : Type} (g : Good sc N) (rng : ByteGen S) :
    ∀ fuel s, (∀ i < fuel, (∀ j < i, ¬ (0 < scCandidate rng.gen sc.limbs sc.bits s j ∧
        scCandidate rng.gen sc.limbs sc.bits s j < N)) →
      (0 < scCandidate rng.gen sc.limbs sc.bits s i ∧ scCandidate rng.gen sc.limbs sc.bits s i < N) →
      ∃ w, sc_random sc rng fuel s = .ok (w, stateAfter rng.gen (sc.limbs * 8) s (i + 1)) ∧
        Scalar sc N w (scCandidate rng.gen sc.limbs sc.bits s i)) ∧
      ((∀ j < fuel, ¬ (0 < scCandidate rng.gen sc.limbs sc.bits s j ∧ scCandidate rng.gen sc.limbs sc.bits s j < N)) →
        sc_random sc rng fuel s = .spin)
  | 0, s => ⟨fun i h => absurd h (by omega), fun _ => by rw [sc_random, sc_random_loop]⟩
  | fuel + 1, s => by
    obtain ⟨w, h1, hl, h2⟩ := random_step g rng fuel s
    have hs : ∀ i, scCandidate rng.gen sc.limbs sc.bits (rng.gen s (sc.limbs * 8)).2 i
        = scCandidate rng.gen sc.limbs sc.bits s (i + 1) := by
      intro i; unfold scCandidate; rw [state_shift]
    obtain ⟨h3, h4⟩ := random_ok g rng fuel (rng.gen s (sc.limbs * 8)).2
    simp only [hs] at h3 h4
    rw [h2]
    constructor
    · intro i hi hj hlt
      cases i with
      | zero => rw [if_pos hlt]; exact ⟨w, rfl, hl, h1, hlt.2⟩
      | succ i =>
        rw [if_neg (hj 0 (by omega))]
        obtain ⟨w', h5, h6⟩ := h3 i (by omega) (fun j hlt => hj (j + 1) (by omega)) hlt
        exact ⟨w', by rw [h5, state_shift], h6⟩
    · intro h
      rw [if_neg (h 0 (by omega))]
      exact h4 fun j hj => h (j + 1) (by omega)

end Torsion.Sc
