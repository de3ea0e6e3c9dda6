import Verif.Ecc.ScalarLemmas
import Verif.Ecc.ScalarDefs
import Verif.Ecc.Recode

/-! # C65: arithmetic modulo the group order -/
namespace Torsion

open Spec Sc

/-- A small field for the examples: the integers modulo 1009, with exponentiation for the inverse. -/
def exScDef : ScDef := { bits := 10, n := [3, 0xf1], invert := none }

theorem exScDef_ok : ScDefOk exScDef 1009 := by
  refine ⟨by decide, by decide, by decide +kernel, by decide, by decide⟩

/-- C65. The nine tables of `src/fields/scalar.h` are well-formed: as many bytes as the number of bits wants, the highest
bit set and the number odd. -/
theorem scDefs_ok : ∀ d ∈ scDefs, ScDefOk d (beVal d.n) := by
  have h : ∀ d ∈ scDefs, d.n.length = (d.bits + 7) / 8 ∧ (beVal d.n).size = d.bits ∧ beVal d.n % 2 = 1 ∧ 1 < beVal d.n := by
    decide +kernel
  intro d hd
  obtain ⟨a, b, c, e⟩ := h d hd
  exact ⟨a, rfl, b, c, e⟩

example : scDefs.length = 9 := rfl

/-- C65. `scalar_field_init` succeeds for every well-formed table and either byte order, and derives the bit counts, the
limb counts and the half of the order. -/
theorem scalar_field_init_exact {d : ScDef} {N : Nat} (hd : ScDefOk d N) (e : Int) (he : e = 1 ∨ e = -1) :
    ∃ sc, scalar_field_init d e = .ok sc ∧ ScInit sc N ∧ sc.endian = e ∧ sc.bits = N.size ∧
      sc.endo_bits = (N.size + 1) / 2 + 1 ∧ sc.limbs = (N.size + 63) / 64 ∧ sc.size = (N.size + 7) / 8 ∧
      (N.size % 8 = 0 → sc.mask = 255) ∧ (N.size % 8 ≠ 0 → sc.mask = 2 ^ (N.size % 8) - 1) ∧
      val sc.n = N ∧ val sc.nh = N / 2 := by
  obtain ⟨sc, h1, h2, h3, h4, h5, h6, h7⟩ := init_good hd e he
  have hb := hd.bits
  refine ⟨sc, h1, ⟨d, e, hd, he, h1⟩, h3, h4.trans hb.symm, by rw [h5, hb], by rw [h2.limbs, h2.bits],
    by rw [h2.size, h2.bits], ?_, ?_, h2.num, h2.nh⟩
  · intro h; rw [h7, if_neg (by rw [← hb]; simpa using h)]
  · intro h; rw [h7, if_pos (by rw [← hb]; simpa using h), hb]

example : ∃ sc, scalar_field_init exScDef (-1) = .ok sc ∧ ScInit sc 1009 := by
  obtain ⟨sc, h, k, _⟩ := scalar_field_init_exact exScDef_ok (-1) (Or.inr rfl)
  exact ⟨sc, h, k⟩

variable {sc : ScField} {N : Nat}

/-- C65. Sum, difference, negation and conditional negation modulo the order; the borrow checks never abort. -/
theorem sc_add_sub_neg_exact (h : ScInit sc N) {x y : List Limb} {a b : Nat} (hx : Scalar sc N x a) (hy : Scalar sc N y b)
    (f : Limb) :
    Scalar sc N (sc_add sc x y) ((a + b) % N) ∧
    (∃ z, sc_sub sc x y = .ok z ∧ Scalar sc N z (((a : Int) - b) % N).toNat) ∧
    (∃ z, sc_neg sc x = .ok z ∧ Scalar sc N z ((-(a : Int)) % N).toNat) ∧
    (∃ z, sc_neg_cond sc x f = .ok z ∧ Scalar sc N z (if f = 0 then a else ((-(a : Int)) % N).toNat)) := by
  have g := good h
  have hb := hy.lt
  have ha := hx.lt
  have e1 : ((a : Int) - b) % N = ((a + (N - b) : Nat) : Int) % N := by
    rw [Nat.cast_add, Nat.cast_sub (by omega), show (a : Int) + (N - b) = a - b + N by ring, Int.add_emod_right]
  have e2 : (-(a : Int)) % N = ((N - a : Nat) : Int) % N := by
    rw [Nat.cast_sub (by omega), show (N : Int) - a = -a + N by ring, Int.add_emod_right]
  rw [e1, e2, ← Int.natCast_mod, ← Int.natCast_mod, Int.toNat_natCast, Int.toNat_natCast]
  exact ⟨add_ok g hx hy, sub_ok g hx hy, neg_ok g hx, neg_cond_ok g hx f⟩

/-- C65. Products and squares modulo the order, by the Barrett reduction; also of a scalar and a word, and the reduction
of a vector which may be as long as the working area. -/
theorem sc_mul_exact (h : ScInit sc N) {x y : List Limb} {a b : Nat} (hx : Scalar sc N x a) (hy : Scalar sc N y b) (w : Limb)
    (v : List Limb) (hv : v.length ≤ sc.shift) :
    (∃ z, sc_mul sc x y = .ok z ∧ Scalar sc N z (a * b % N)) ∧ (∃ z, sc_sqr sc x = .ok z ∧ Scalar sc N z (a * a % N)) ∧
    (∃ z, sc_mul_word sc x w = .ok z ∧ Scalar sc N z (a * w.toNat % N)) ∧
    (∃ z, sc_mod sc v = .ok z ∧ Scalar sc N z (val v % N)) :=
  ⟨mul_ok (good h) hx hy, sqr_ok (good h) hx, mul_word_ok (good h) hx w, mod_ok (good h) hv⟩

example : ∃ sc z, scalar_field_init exScDef 1 = .ok sc ∧ sc_mul sc [1000] [999] = .ok z ∧ Scalar sc 1009 z 90 := by
  obtain ⟨sc, h, k, -, -, -, hl, -⟩ := scalar_field_init_exact exScDef_ok 1 (Or.inl rfl)
  have hl' : sc.limbs = 1 := by rw [hl]; decide +kernel
  obtain ⟨⟨z, h1, h2⟩, -⟩ := sc_mul_exact (x := [1000]) (y := [999]) (a := 1000) (b := 999) k ⟨hl'.symm, by decide, by decide⟩
    ⟨hl'.symm, by decide, by decide⟩ 0 [] (Nat.zero_le _)
  exact ⟨sc, z, h, h1, h2⟩

/-- C65. `sc_mulshift` is the rounded quotient of the product by a power of two; its check never aborts. -/
theorem sc_mulshift_exact (h : ScInit sc N) {x y : List Limb} {a b : Nat} (hx : Scalar sc N x a) (hy : Scalar sc N y b)
    (bits : Nat) (h1 : 64 * sc.limbs ≤ bits) (h2 : bits < 128 * sc.limbs) :
    ∃ z, sc_mulshift x y bits = .ok z ∧ Scalar sc N z ((a * b + 2 ^ (bits - 1)) / 2 ^ bits) := by
  have g := good h
  have ha := hx.lt
  have hb := hy.lt
  have hlt : (a * b + 2 ^ (bits - 1)) / 2 ^ bits < N := by
    rw [Nat.div_lt_iff_lt_mul (by positivity)]
    have h3 : a * b ≤ (N - 1) * N := Nat.mul_le_mul (by omega) (by omega)
    have h4 : N ≤ 2 ^ bits := le_trans g.lt_R.le (Nat.pow_le_pow_right (by decide) h1)
    have h5 : (N - 1) * N ≤ (N - 1) * 2 ^ bits := Nat.mul_le_mul_left _ h4
    have h6 : N * 2 ^ bits = (N - 1) * 2 ^ bits + 2 ^ bits := by
      obtain ⟨m, rfl⟩ : ∃ m, N = m + 1 := ⟨N - 1, by omega⟩
      rw [Nat.add_sub_cancel, Nat.succ_mul]
    have h7 : 2 ^ (bits - 1) < 2 ^ bits := Nat.pow_lt_pow_right (by decide) (by have := g.lpos; omega)
    omega
  obtain ⟨z, c, e, hl, hv⟩ := mpn_mulshift_exact x y bits (hx.len.trans hy.len.symm) (by rw [hx.len]; exact h1)
    (by rw [hx.len]; omega)
  rw [hx.num, hy.num, hx.len] at hv
  have hR := g.lt_R
  have hc : c = 0 := by
    apply BitVec.eq_of_toNat_eq
    rcases Nat.eq_zero_or_pos c.toNat with h0 | h0
    · exact h0
    · have := Nat.mul_le_mul_left (2 ^ (64 * sc.limbs)) h0
      omega
  subst hc
  refine ⟨z, ?_, hl.trans hx.len, by simpa using hv, hlt⟩
  rw [sc_mulshift, e, C.ok_bind]
  rfl

/-- C65. The predicates of scalars, constant time and variable time, and the access to their bits. -/
theorem sc_predicates_exact (h : ScInit sc N) {x y : List Limb} {a b : Nat} (hx : Scalar sc N x a) (hy : Scalar sc N y b)
    (pos width : Nat) (hw : width < 64) :
    sc_is_zero x = flag (a = 0) ∧ sc_equal x y = flag (a = b) ∧
    sc_cmp_var x y = (if a < b then -1 else if a = b then 0 else 1) ∧
    sc_is_high sc x = flag (N / 2 < a) ∧ sc_is_high_var sc x = decide (N / 2 < a) ∧
    (∀ v : List Limb, v.length = sc.limbs → sc_is_canonical sc v = flag (val v < N)) ∧
    Sc.sc_bitlen_var x = Torsion.sc_bitlen_var a ∧ (Sc.sc_get_bit x pos).toNat = Torsion.sc_get_bit a pos ∧
    (Sc.sc_get_bits x pos width).toNat = Torsion.sc_get_bits a pos width := by
  have g := good h
  have hxy := hx.len.trans hy.len.symm
  have hxn := hx.len.trans g.nhlen.symm
  refine ⟨?_, ?_, ?_, ?_, ?_, fun v hv => canonical_eq g hv, ?_, ?_, ?_⟩
  · rw [sc_is_zero, Mpi.sec_zero_p_eq, hx.num]
  · rw [sc_equal, Mpi.sec_equal_p_eq x y hxy, hx.num, hy.num]
  · rw [sc_cmp_var, mpn_cmp_exact x y hxy, hx.num, hy.num]
  · rw [sc_is_high, Mpi.sec_gt_p_eq x sc.nh hxn, hx.num, g.nh]
  · rw [sc_is_high_var, mpn_cmp_exact x sc.nh hxn, hx.num, g.nh]
    by_cases h1 : a < N / 2
    · rw [if_pos h1]; simp; omega
    · rw [if_neg h1]
      by_cases h2 : a = N / 2
      · rw [if_pos h2]; simp; omega
      · rw [if_neg h2]; simp; omega
  · rw [Sc.sc_bitlen_var, Mpi.bitlen_val, hx.num]; rfl
  · rw [Sc.sc_get_bit, (mpn_bits_exact x pos).1, hx.num, Mpi.flag_toNat, Torsion.sc_get_bit, Nat.testBit_eq_decide_div_mod_eq]
    simp only [decide_eq_true_eq]
    split <;> omega
  · rw [Sc.sc_get_bits, Mpi.getbits_eq x pos width hw, hx.num]; rfl

/-- C65. `sc_minimize` and `sc_minimize_var` replace a scalar above the half of the order by its negation and say so;
the result is the smaller of the two. -/
theorem sc_minimize_limbs_exact (h : ScInit sc N) {x : List Limb} {a : Nat} (hx : Scalar sc N x a) :
    (∃ z, sc_minimize sc x = .ok (z, flag (N / 2 < a)) ∧ Scalar sc N z (if N / 2 < a then N - a else a)) ∧
    (∃ z, Sc.sc_minimize_var sc x = .ok (z, decide (N / 2 < a)) ∧ Scalar sc N z (if N / 2 < a then N - a else a)) ∧
    (if N / 2 < a then N - a else a) = min a (N - a) ∧
    Torsion.sc_minimize_var N a = ((if N / 2 < a then N - a else a), decide (N / 2 < a)) := by
  have g := good h
  have hp := sc_predicates_exact h hx hx 0 0 (by decide)
  have hodd := g.odd
  have hlt := hx.lt
  refine ⟨?_, ?_, by split <;> omega, ?_⟩
  · obtain ⟨z, h1, h2⟩ := neg_cond_ok g hx (flag (N / 2 < a))
    refine ⟨z, by rw [sc_minimize, hp.2.2.2.1, h1]; rfl, ?_⟩
    by_cases hh : N / 2 < a
    · rw [Mpi.flag_pos hh, if_neg (by decide), Nat.mod_eq_of_lt (by omega)] at h2
      rw [if_pos hh]; exact h2
    · rw [Mpi.flag_neg hh, if_pos rfl] at h2
      rw [if_neg hh]; exact h2
  · rw [Sc.sc_minimize_var]
    rw [hp.2.2.2.2.1]
    by_cases hh : N / 2 < a
    · obtain ⟨z, h1, h2⟩ := neg_ok g hx
      rw [Nat.mod_eq_of_lt (by omega)] at h2
      refine ⟨z, by rw [if_pos (by simpa using hh), h1]; rfl, ?_⟩
      rw [if_pos hh]; exact h2
    · refine ⟨x, by rw [if_neg (by simpa using hh)]; rfl, ?_⟩
      rw [if_neg hh]; exact hx
  · rw [Torsion.sc_minimize_var]
    by_cases hh : N / 2 < a
    · rw [if_pos hh, if_pos hh, if_neg (by omega), decide_eq_true hh]
    · rw [if_neg hh, if_neg hh, decide_eq_false hh]

/-- C65. Bytes to scalars: `sc_import` refuses numbers which are not reduced (the result is then zero), `sc_import_pad`
does so for byte strings of any length, the reducing forms tell whether the number was reduced. -/
theorem sc_import_exact (h : ScInit sc N) (xp : List Byte) :
    (xp.length = sc.size → ∃ z, sc_import sc xp = .ok (z, flag (bytesVal sc.endian xp < N)) ∧
      Scalar sc N z (if bytesVal sc.endian xp < N then bytesVal sc.endian xp else 0)) ∧
    (∃ z, sc_import_pad sc xp = .ok (z, flag (bytesVal sc.endian xp < N)) ∧
      Scalar sc N z (if bytesVal sc.endian xp < N then bytesVal sc.endian xp else 0)) ∧
    (xp.length = sc.size → ∃ z, sc_import_reduce sc xp = .ok (z, flag (bytesVal sc.endian xp < N)) ∧
      Scalar sc N z (bytesVal sc.endian xp % N)) ∧
    (xp.length * 8 ≤ sc.shift * 64 → ∃ z, sc_import_wide sc xp = .ok (z, flag (bytesVal sc.endian xp < N)) ∧
      Scalar sc N z (bytesVal sc.endian xp % N)) :=
  ⟨import_ok (good h), import_pad_ok (good h) xp, import_reduce_ok (good h), wide_ok (good h)⟩

/-- C65. The weak form reduces numbers below twice the order, as the callers have after masking. -/
theorem sc_import_weak_exact (h : ScInit sc N) {xp : List Byte} (hl : xp.length = sc.size) (h2 : bytesVal sc.endian xp < 2 * N) :
    ∃ z, sc_import_weak sc xp = .ok (z, flag (bytesVal sc.endian xp < N)) ∧ Scalar sc N z (bytesVal sc.endian xp % N) :=
  weak_ok (good h) hl h2

example : bytesVal 1 [3, 0xf1] < 2 * 1009 ∧ bytesVal 1 [3, 0xf1] % 1009 = 0 := by decide

example : bytesVal 1 [3, 0xf0] < 1009 ∧ ¬ bytesVal 1 [3, 0xf1] < 1009 ∧ bytesVal (-1) [0xf0, 3, 0] < 1009 := by decide

/-- C65. `sc_export` writes the number in as many bytes as the order has, so that reading gives the scalar back. -/
theorem sc_export_exact (h : ScInit sc N) {x : List Limb} {a : Nat} (hx : Scalar sc N x a) :
    ∃ b, sc_export sc x = .ok b ∧ b.length = sc.size ∧ bytesVal sc.endian b = a ∧ sc_import sc b = .ok (x, 1) := by
  obtain ⟨b, h1, h2, h3⟩ := export_ok (good h) hx
  refine ⟨b, h1, h2, h3, ?_⟩
  obtain ⟨z, h4, h5⟩ := import_ok (good h) h2
  have ha := hx.lt
  rw [h3, if_pos ha] at h5
  rw [h4, h3, Mpi.flag_pos ha, Mpi.val_inj (h5.len.trans hx.len.symm) (h5.num.trans hx.num.symm)]

/-- C65. `sc_set_fe` reduces an exported field element modulo the order, whichever of field and order is the longer, and
tells whether it was reduced already. -/
theorem sc_set_fe_exact (h : ScInit sc N) (fbits : Nat) (raw : List Byte) (hl : raw.length = (fbits + 7) / 8)
    (hlt : bytesVal sc.endian raw < 2 ^ fbits) (hw : (fbits + 7) / 8 * 8 ≤ sc.shift * 64) :
    ∃ z, sc_set_fe sc fbits sc.endian raw = .ok (z, flag (bytesVal sc.endian raw < N)) ∧
      Scalar sc N z (bytesVal sc.endian raw % N) := by
  have g := good h
  have hge : 2 ^ (sc.bits - 1) ≤ N := by
    have hpos : 0 < N.size := Nat.size_pos.2 (by have := g.one; omega)
    rw [← Nat.lt_size, g.bits]
    have := g.bits
    omega
  have hs := g.size
  rw [sc_set_fe]
  by_cases h1 : fbits < sc.bits
  · rw [if_pos h1]
    have hv : bytesVal sc.endian raw < N :=
      lt_of_lt_of_le hlt (le_trans (Nat.pow_le_pow_right (by decide) (by omega)) hge)
    obtain ⟨z, e1, e2, e3⟩ := import_small g (xp := raw) (by omega)
    refine ⟨z, by rw [e1, Mpi.flag_pos hv]; rfl, e2, ?_, Nat.mod_lt _ (by omega)⟩
    rw [e3, Nat.mod_eq_of_lt hv]
  · rw [if_neg h1]
    by_cases h2 : fbits > sc.bits
    · rw [if_pos h2]
      exact wide_ok g (by omega)
    · rw [if_neg h2]
      have e : fbits = sc.bits := by omega
      subst e
      apply weak_ok g (by omega)
      have hpos : 0 < N.size := Nat.size_pos.2 (by have := g.one; omega)
      have : 2 ^ sc.bits = 2 * 2 ^ (sc.bits - 1) := by
        rw [← Nat.pow_succ']
        congr 1
        have := g.bits
        omega
      omega

/-- C65. `sc_pow` is the power modulo the order, for exponents of as many bits as the order has. -/
theorem sc_pow_exact (h : ScInit sc N) {x : List Limb} {a : Nat} (hx : Scalar sc N x a) (ep : List Limb)
    (he : val ep < 2 ^ N.size) : ∃ z, sc_pow sc x ep = .ok z ∧ Scalar sc N z (a ^ val ep % N) :=
  pow_ok (good h) hx ep (by rw [← (good h).bits]; exact he)

/-- C65. The addition chains of the nine inversions in `src/fields/scalar.h` are powers with the exponent `n - 2`. -/
theorem sc_chains_exact : ∀ d ∈ scDefs, ∃ prog, d.invert = some prog ∧
    Ecc.expAt prog (Ecc.expIn 1) 0 = some (beVal d.n - 2) := by
  have h : ∀ d ∈ scDefs, (d.invert.bind fun prog => Ecc.expAt prog (Ecc.expIn 1) 0) = some (beVal d.n - 2) := by
    decide +kernel
  intro d hd
  have := h d hd
  rcases hi : d.invert with _ | prog
  · rw [hi] at this; cases this
  · rw [hi] at this; exact ⟨prog, rfl, this⟩

/-- C65. `sc_invert` modulo a prime order, for the nine tables with their addition chains and for every table without one:
the inverse, and zero for zero, which the flag tells apart. -/
theorem sc_invert_exact {d : ScDef} (hd : ScDefOk d N) (hp : N.Prime) (hi : d ∈ scDefs ∨ d.invert = none) {e : Int}
    (he : e = 1 ∨ e = -1) (hs : scalar_field_init d e = .ok sc) {x : List Limb} {a : Nat} (hx : Scalar sc N x a) :
    ∃ z b, sc_invert sc x = .ok (z, flag (a ≠ 0)) ∧ Scalar sc N z b ∧ b * a % N = (if a = 0 then 0 else 1) ∧
      (a = 0 → b = 0) := by
  obtain ⟨sc', h1, g, -, -, -, hinv, -⟩ := init_good hd e he
  rw [h1] at hs
  cases hs
  have h1 := g.one
  have hodd := g.odd
  have hfin : ∃ z, (match sc.invert with
      | some prog => sc_chain sc prog x
      | none => sc_pow sc x (mpn_sub_1 sc.n 2).1) = .ok z ∧ Scalar sc N z (a ^ (N - 2) % N) := by
    have hnone : ∃ z, sc_pow sc x (mpn_sub_1 sc.n 2).1 = .ok z ∧ Scalar sc N z (a ^ (N - 2) % N) := by
      obtain ⟨k1, k2⟩ := mpn_sub_1_exact sc.n 2
      rw [g.num, show (2 : Limb).toNat = 2 from rfl] at k1
      have k3 := Mpi.val_lt (mpn_sub_1 sc.n 2).1
      rw [k2] at k3
      have : val (mpn_sub_1 sc.n 2).1 = N - 2 := by
        rcases Nat.eq_zero_or_pos (mpn_sub_1 sc.n 2).2.toNat with h0 | h0
        · rw [h0] at k1; omega
        · have := Nat.mul_le_mul_left (2 ^ (64 * sc.n.length)) h0
          omega
      have hlt : N < 2 ^ sc.bits := by rw [← g.bits]; exact Nat.lt_size_self N
      have := pow_ok g hx (mpn_sub_1 sc.n 2).1 (by omega)
      rwa [show val (mpn_sub_1 sc.n 2).1 = N - 2 by assumption] at this
    rw [hinv]
    rcases hi with hi | hi
    · obtain ⟨prog, k1, k2⟩ := sc_chains_exact d hi
      rw [k1]
      rw [hd.num] at k2
      exact chain_ok g k2 hx
    · rw [hi]; exact hnone
  obtain ⟨z, e1, e2⟩ := hfin
  have hflag : sc_is_zero z ^^^ 1 = flag (a ≠ 0) := by
    rw [sc_is_zero, Mpi.sec_zero_p_eq, flag_xor_one, e2.num]
    apply Mpi.flag_congr
    rw [not_iff_not]
    constructor
    · intro h0
      by_contra hne
      have := fermat g hp hx.lt hne
      rw [h0] at this
      simp at this
    · rintro rfl
      rw [Nat.zero_pow (by omega), Nat.zero_mod]
  refine ⟨z, _, ?_, e2, ?_, ?_⟩
  · rw [sc_invert]
    rcases hq : sc.invert with _ | prog
    · rw [hq] at e1
      dsimp only at e1 ⊢
      rw [e1, C.ok_bind, hflag]
      rfl
    · rw [hq] at e1
      dsimp only at e1 ⊢
      rw [e1, C.ok_bind, hflag]
      rfl
  · by_cases h0 : a = 0
    · rw [if_pos h0, h0, Nat.mul_zero, Nat.zero_mod]
    · rw [if_neg h0]
      exact fermat g hp hx.lt h0
  · rintro rfl
    rw [Nat.zero_pow (by omega), Nat.zero_mod]

/-- C65. `sc_invert_var` by the extended Euclidean algorithm: for any odd order, the inverse exactly of the units. -/
theorem sc_invert_var_exact (h : ScInit sc N) {x : List Limb} {a : Nat} (hx : Scalar sc N x a) :
    ∃ z b, sc_invert_var sc x = .ok (z, decide (Nat.gcd a N = 1)) ∧ Scalar sc N z b ∧
      (Nat.gcd a N = 1 → b * a % N = 1) ∧ (Nat.gcd a N ≠ 1 → b = 0) := by
  have g := good h
  obtain ⟨s1, s2, -, -⟩ := mpn_strip_zero_exact x
  have hsl : (mpn_strip x).length ≤ x.length := Mpi.strip_len x
  obtain ⟨z, b, h1, h2, h3, h4, h5⟩ := mpn_invert_exact (mpn_strip x) sc.n s2 g.top (by rw [g.num]; exact g.odd)
    (by rw [g.nlen, ← hx.len]; exact hsl)
  rw [s1, hx.num, g.num] at h3 h5
  have hone := g.one
  have hb : b = decide (Nat.gcd a N = 1) := by
    rw [Bool.eq_iff_iff, h3, decide_eq_true_eq]
    exact ⟨fun h => h.1, fun h => ⟨h, by omega⟩⟩
  refine ⟨z, val z, by rw [sc_invert_var, mpn_invert_n, h1, hb], ⟨h2.trans g.nlen, rfl, ?_⟩, ?_, ?_⟩
  · rcases hbb : b with _ | _
    · rw [h4 hbb]; omega
    · exact (h5 hbb).1
  · intro hg
    have := (h5 (by rw [hb]; simpa using hg)).2
    rw [this, Nat.mod_eq_of_lt hone]
  · intro hg
    exact h4 (by rw [hb]; simpa using hg)

/-- C65. `sc_random` returns the first of the generator's numbers, cut to the bits of the order, which lies strictly
between zero and the order; nothing else is drawn. It keeps on drawing while there is none. -/
theorem sc_random_exact {S : Type} (h : ScInit sc N) (rng : ByteGen S) (fuel : Nat) (s : S) :
    (∀ i < fuel, (∀ j < i, ¬ (0 < scCandidate rng.gen sc.limbs N.size s j ∧ scCandidate rng.gen sc.limbs N.size s j < N)) →
      (0 < scCandidate rng.gen sc.limbs N.size s i ∧ scCandidate rng.gen sc.limbs N.size s i < N) →
      ∃ w, sc_random sc rng fuel s = .ok (w, stateAfter rng.gen (sc.limbs * 8) s (i + 1)) ∧
        Scalar sc N w (scCandidate rng.gen sc.limbs N.size s i)) ∧
    ((∀ j < fuel, ¬ (0 < scCandidate rng.gen sc.limbs N.size s j ∧ scCandidate rng.gen sc.limbs N.size s j < N)) →
      sc_random sc rng fuel s = .spin) := by
  rw [(good h).bits]
  exact random_ok (good h) rng fuel s

/-- A generator which first offers 0xffff…, then the bytes 1, 2, …. -/
def exScGen : ByteGen Nat where
  gen s n := if s = 0 then (List.replicate n 0xff, 1) else ((List.range n).map fun i => BitVec.ofNat 8 (i + 1), s + 1)
  len s n := by split <;> simp

example : ∃ sc w, scalar_field_init exScDef 1 = .ok sc ∧ sc_random sc exScGen 5 0 = .ok (w, 2) ∧ Scalar sc 1009 w 513 := by
  obtain ⟨sc, h, k, -, -, -, hl, -⟩ := scalar_field_init_exact exScDef_ok 1 (Or.inl rfl)
  have hl' : sc.limbs = 1 := by rw [hl]; decide +kernel
  have hz : (1009 : Nat).size = 10 := by decide +kernel
  obtain ⟨w, h1, h2⟩ := (sc_random_exact k exScGen 5 0).1 1 (by decide)
    (by intro j hj; obtain rfl : j = 0 := by omega
        rw [hl', hz]; decide +kernel) (by rw [hl', hz]; decide +kernel)
  rw [hl', hz] at h2
  rw [hl'] at h1
  exact ⟨sc, w, h, h1, h2⟩

end Torsion
