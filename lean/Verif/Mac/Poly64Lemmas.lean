import Verif.Mac.Lemmas

/-!
# Poly1305: the 64-bit back end
-/
namespace Torsion.Mac
open Spec

/-- The three limbs of a 128-bit number in two 64-bit words. -/
theorem limbs64 (T t0 t1 : Nat) (hT : T < 2 ^ 128) (h0 : t0 = T % 2 ^ 64)
    (h1 : t1 = T / 2 ^ 64 % 2 ^ 64) :
    ((t0 >>> 44) ||| w64 (t1 <<< 20)) = T / 2 ^ 44 % 2 ^ 64 ∧ t1 >>> 24 = T / 2 ^ 88 := by
  rw [join64 _ _ (by omega), Nat.shiftRight_eq_div_pow]
  omega

theorem r64 (T t0 t1 : Nat) (hT : T < 2 ^ 128) (h0 : t0 = T % 2 ^ 64)
    (h1 : t1 = T / 2 ^ 64 % 2 ^ 64) :
    let M := 0x0ffffffc0ffffffc0ffffffc0fffffff
    (t0 &&& 0xffc0fffffff) + 2 ^ 44 * (((t0 >>> 44) ||| w64 (t1 <<< 20)) &&& 0xfffffc0ffff) +
      2 ^ 88 * ((t1 >>> 24) &&& 0x00ffffffc0f) = T &&& M ∧
    (t0 &&& 0xffc0fffffff) < 2 ^ 44 ∧ (((t0 >>> 44) ||| w64 (t1 <<< 20)) &&& 0xfffffc0ffff) < 2 ^ 44 ∧
    ((t1 >>> 24) &&& 0x00ffffffc0f) < 2 ^ 36 := by
  intro M
  obtain ⟨e1, e2⟩ := limbs64 T t0 t1 hT h0 h1
  have m0 := mask_limb T M 0 44
  have m1 := mask_limb T M 44 44
  have m2 := mask_limb T M 88 44
  have M0 : M / 2 ^ 0 % 2 ^ 44 = 0xffc0fffffff := by decide
  have M1 : M / 2 ^ 44 % 2 ^ 44 = 0xfffffc0ffff := by decide
  have M2 : M / 2 ^ 88 % 2 ^ 44 = 0x00ffffffc0f := by decide
  have hM : T &&& M < 2 ^ 124 := Nat.lt_of_le_of_lt Nat.and_le_right (by decide)
  rw [M0] at m0
  rw [M1] at m1
  rw [M2] at m2
  rw [e1, e2, mask_low t0 _ 44 (by decide), mask_low (T / 2 ^ 44 % 2 ^ 64) _ 44 (by decide),
    mask_low (T / 2 ^ 88) _ 44 (by decide)]
  have a0 : t0 % 2 ^ 44 = T / 2 ^ 0 % 2 ^ 44 := by omega
  have a1 : T / 2 ^ 44 % 2 ^ 64 % 2 ^ 44 = T / 2 ^ 44 % 2 ^ 44 := by omega
  rw [a0, a1, ← m0, ← m1, ← m2]
  refine ⟨by omega, by omega, by omega, ?_⟩
  omega

/-- The carry chain keeps the value modulo the prime. -/
theorem carry64 (d0 d1 d2 : Nat) :
    d0 + 2 ^ 44 * d1 + 2 ^ 88 * d2 =
      ((d0 % 2 ^ 44 + (d2 + (d1 + d0 / 2 ^ 44) / 2 ^ 44) / 2 ^ 42 * 5) % 2 ^ 44 +
        2 ^ 44 * ((d1 + d0 / 2 ^ 44) % 2 ^ 44 +
          (d0 % 2 ^ 44 + (d2 + (d1 + d0 / 2 ^ 44) / 2 ^ 44) / 2 ^ 42 * 5) / 2 ^ 44) +
        2 ^ 88 * ((d2 + (d1 + d0 / 2 ^ 44) / 2 ^ 44) % 2 ^ 42)) +
      polyP * ((d2 + (d1 + d0 / 2 ^ 44) / 2 ^ 44) / 2 ^ 42) := by
  rw [polyP]
  omega

theorem prod64 (h0 h1 h2 r0 r1 r2 : Nat) :
    (h0 + 2 ^ 44 * h1 + 2 ^ 88 * h2) * (r0 + 2 ^ 44 * r1 + 2 ^ 88 * r2) =
      (h0 * r0 + h1 * (r2 * 20) + h2 * (r1 * 20)) +
      2 ^ 44 * (h0 * r1 + h1 * r0 + h2 * (r2 * 20)) +
      2 ^ 88 * (h0 * r2 + h1 * r1 + h2 * r0) +
      polyP * (4 * (h1 * r2 + h2 * r1 + 2 ^ 44 * (h2 * r2))) := by
  rw [polyP]
  norm_num
  ring

structure Inv64 (st : Poly64) : Prop where
  r0 : st.r0 < 2 ^ 44
  r1 : st.r1 < 2 ^ 44
  r2 : st.r2 < 2 ^ 36
  h0 : st.h0 < 2 ^ 44
  h1 : st.h1 < 2 ^ 44 + 2 ^ 10
  h2 : st.h2 < 2 ^ 42

def val64 (st : Poly64) : Nat := st.h0 + 2 ^ 44 * st.h1 + 2 ^ 88 * st.h2

def mul64 (st : Poly64) : Nat := st.r0 + 2 ^ 44 * st.r1 + 2 ^ 88 * st.r2

theorem mulb {a b A B : Nat} (ha : a < A) (hb : b < B) : a * b ≤ A * B :=
  Nat.mul_le_mul ha.le hb.le

set_option maxHeartbeats 1000000 in
/-- One block: no wrap happens, the bounds are kept and the value is as specified. -/
theorem block64 (final : Bool) (st : Poly64) (v : Vector Byte 16) (inv : Inv64 st) :
    Inv64 (poly64_block final st v) ∧
    val64 (poly64_block final st v) % polyP =
      (val64 st + leVal v.toList + (if final then 0 else 2 ^ 128)) * mul64 st % polyP ∧
    mul64 (poly64_block final st v) = mul64 st ∧
    (poly64_block final st v).pad0 = st.pad0 ∧ (poly64_block final st v).pad1 = st.pad1 := by
  obtain ⟨br0, br1, br2, bh0, bh1, bh2⟩ := inv
  have hT : leVal v.toList < 2 ^ 128 := by
    have := leVal_lt v.toList
    rwa [Vector.length_toList] at this
  unfold poly64_block
  extract_lets hibit s1 s2 t0 t1 h0 h1 h2 d00 d01 d0 d10 d11 d1 d20 d21 d2 c1 e0 d1' c2 e1 d2' c3 e2 f0 c4 g0 g1
  have hibit_le : hibit = if final then 0 else 2 ^ 40 := rfl
  have ht0 : t0 = leVal v.toList % 2 ^ 64 := by
    show (read64le _).toNat = _
    rw [read64_vsub]
    simp
  have ht1 : t1 = leVal v.toList / 2 ^ 64 % 2 ^ 64 := by
    show (read64le _).toNat = _
    rw [read64_vsub]
    rfl
  obtain ⟨l1, l2⟩ := limbs64 _ _ _ hT ht0 ht1
  generalize leVal v.toList = T at *
  have hs1 : s1 = st.r1 * 20 := Nat.mod_eq_of_lt (by omega)
  have hs2 : s2 = st.r2 * 20 := Nat.mod_eq_of_lt (by omega)
  have hh0 : h0 = st.h0 + T % 2 ^ 44 := by
    show w64 (st.h0 + (t0 &&& 0xfffffffffff)) = _
    rw [and44, ht0, w64]; omega
  have hh1 : h1 = st.h1 + T / 2 ^ 44 % 2 ^ 44 := by
    show w64 (st.h1 + (((t0 >>> 44) ||| w64 (t1 <<< 20)) &&& 0xfffffffffff)) = _
    rw [l1, and44, w64]; omega
  have hh2 : h2 = st.h2 + T / 2 ^ 88 + hibit := by
    show w64 (st.h2 + (((t1 >>> 24) &&& 0x3ffffffffff) ||| hibit)) = _
    rw [l2, and42, Nat.mod_eq_of_lt (by omega), hibit_le, w64]
    cases final
    · have := or_two 1 (T / 2 ^ 88) 40 (by omega)
      rw [if_neg (by decide), Nat.or_comm, ← Nat.one_mul (2 ^ 40), this]
      omega
    · rw [if_pos rfl, Nat.or_zero]; omega
  have hhb : hibit ≤ 2 ^ 40 := by rw [hibit_le]; split <;> omega
  have b0 : h0 < 2 ^ 45 := by omega
  have b1 : h1 < 2 ^ 46 := by omega
  have b2 : h2 < 2 ^ 43 := by omega
  have H : h0 + 2 ^ 44 * h1 + 2 ^ 88 * h2 = val64 st + T + (if final then 0 else 2 ^ 128) := by
    rw [hh0, hh1, hh2, hibit_le, val64]
    split <;> omega
  clear_value hibit s1 s2 t0 t1 h0 h1 h2
  have p00 := mulb b0 br0
  have p01 := mulb b1 (show s2 < 2 ^ 41 by omega)
  have p02 := mulb b2 (show s1 < 2 ^ 49 by omega)
  have p10 := mulb b0 br1
  have p11 := mulb b1 br0
  have p12 := mulb b2 (show s2 < 2 ^ 41 by omega)
  have p20 := mulb b0 br2
  have p21 := mulb b1 br1
  have p22 := mulb b2 br0
  have P := prod64 h0 h1 h2 st.r0 st.r1 st.r2
  rw [← hs1, ← hs2] at P
  have hd0 : d0 = h0 * st.r0 + h1 * s2 + h2 * s1 := by
    show w128 (w128 (w128 (h0 * st.r0) + w128 (h1 * s2)) + w128 (h2 * s1)) = _
    simp only [w128]; omega
  have hd1 : d1 = h0 * st.r1 + h1 * st.r0 + h2 * s2 := by
    show w128 (w128 (w128 (h0 * st.r1) + w128 (h1 * st.r0)) + w128 (h2 * s2)) = _
    simp only [w128]; omega
  have hd2 : d2 = h0 * st.r2 + h1 * st.r1 + h2 * st.r0 := by
    show w128 (w128 (w128 (h0 * st.r2) + w128 (h1 * st.r1)) + w128 (h2 * st.r0)) = _
    simp only [w128]; omega
  rw [← hd0, ← hd1, ← hd2, H] at P
  have k0 : d0 < 2 ^ 93 := by omega
  have k1 : d1 < 2 ^ 93 := by omega
  have k2 : d2 < 2 ^ 93 := by omega
  clear_value d0 d1 d2
  have q := carry64 d0 d1 d2
  have hc1 : c1 = d0 / 2 ^ 44 := by
    show w64 (d0 >>> 44) = _
    rw [w64, Nat.shiftRight_eq_div_pow]; omega
  have he0 : e0 = d0 % 2 ^ 44 := by
    show w64 d0 &&& 0xfffffffffff = _
    rw [w64, and44]; omega
  have hd1' : d1' = d1 + d0 / 2 ^ 44 := by
    show w128 (d1 + c1) = _
    rw [w128, hc1]; omega
  rw [← hd1'] at q
  have hc2 : c2 = d1' / 2 ^ 44 := by
    show w64 (d1' >>> 44) = _
    rw [w64, Nat.shiftRight_eq_div_pow]; omega
  have he1 : e1 = d1' % 2 ^ 44 := by
    show w64 d1' &&& 0xfffffffffff = _
    rw [w64, and44]; omega
  have hd2' : d2' = d2 + d1' / 2 ^ 44 := by
    show w128 (d2 + c2) = _
    rw [w128, hc2]; omega
  rw [← hd2'] at q
  have hc3 : c3 = d2' / 2 ^ 42 := by
    show w64 (d2' >>> 42) = _
    rw [w64, Nat.shiftRight_eq_div_pow]; omega
  have he2 : e2 = d2' % 2 ^ 42 := by
    show w64 d2' &&& 0x3ffffffffff = _
    rw [w64, and42]; omega
  have hf0 : f0 = d0 % 2 ^ 44 + d2' / 2 ^ 42 * 5 := by
    show w64 (e0 + w64 (c3 * 5)) = _
    rw [w64, w64, he0, hc3]; omega
  rw [← hf0] at q
  have hg0 : g0 = f0 % 2 ^ 44 := and44 f0
  have hc4 : c4 = f0 / 2 ^ 44 := by
    show f0 >>> 44 = _
    rw [Nat.shiftRight_eq_div_pow]
  have hg1 : g1 = d1' % 2 ^ 44 + f0 / 2 ^ 44 := by
    show w64 (e1 + c4) = _
    rw [w64, he1, hc4]; omega
  rw [← he2, ← hg0, ← hg1] at q
  refine ⟨⟨br0, br1, br2, ?_, ?_, ?_⟩, ?_, rfl, rfl, rfl⟩
  · show g0 < _
    omega
  · show g1 < _
    omega
  · show e2 < _
    omega
  · show (g0 + 2 ^ 44 * g1 + 2 ^ 88 * e2) % polyP = (_ * mul64 st) % polyP
    rw [mul64, P, Nat.add_mul_mod_self_left, q, Nat.add_mul_mod_self_left]

/-- Full carry: the value below 2^130. -/
theorem full64 (h0 h1 h2 : Nat) (b0 : h0 < 2 ^ 44) (b1 : h1 < 2 ^ 44 + 2 ^ 10) (b2 : h2 < 2 ^ 42)
    (c1 a1 a2 c2 a3 f0 c3 g0 g1 c4 i1 g2 c5 j2 j0 c6 k0 k1 : Nat)
    (hc1 : c1 = h1 / 2 ^ 44) (ha1 : a1 = h1 % 2 ^ 44) (ha2 : a2 = h2 + c1)
    (hc2 : c2 = a2 / 2 ^ 42) (ha3 : a3 = a2 % 2 ^ 42) (hf0 : f0 = h0 + c2 * 5)
    (hc3 : c3 = f0 / 2 ^ 44) (hg0 : g0 = f0 % 2 ^ 44) (hg1 : g1 = a1 + c3)
    (hc4 : c4 = g1 / 2 ^ 44) (hi1 : i1 = g1 % 2 ^ 44) (hg2 : g2 = a3 + c4)
    (hc5 : c5 = g2 / 2 ^ 42) (hj2 : j2 = g2 % 2 ^ 42) (hj0 : j0 = g0 + c5 * 5)
    (hc6 : c6 = j0 / 2 ^ 44) (hk0 : k0 = j0 % 2 ^ 44) (hk1 : k1 = i1 + c6) :
    k0 < 2 ^ 44 ∧ k1 < 2 ^ 44 ∧ j2 < 2 ^ 42 ∧
    h0 + 2 ^ 44 * h1 + 2 ^ 88 * h2 = (k0 + 2 ^ 44 * k1 + 2 ^ 88 * j2) + polyP * (c2 + c5) := by
  rw [polyP]
  have q1 : c1 = 0 ∨ c1 = 1 := by omega
  have q2 : c2 = 0 ∨ c2 = 1 := by omega
  have q3 : c3 = 0 ∨ c3 = 1 := by omega
  have q4 : c4 = 0 ∨ c4 = 1 := by omega
  have q5 : c5 = 0 ∨ c5 = 1 := by omega
  have q6 : c6 = 0 ∨ c6 = 1 := by omega
  have q7 : c5 = 1 → c4 = 1 := by omega
  have q8 : c6 = 1 → c5 = 1 := by omega
  have q9 : c4 = 1 → i1 = 0 := by omega
  refine ⟨by omega, by omega, by omega, ?_⟩
  have e1 : h1 = a1 + 2 ^ 44 * c1 := by omega
  have e2 : a2 = a3 + 2 ^ 42 * c2 := by omega
  have e3 : f0 = g0 + 2 ^ 44 * c3 := by omega
  have e4 : g1 = i1 + 2 ^ 44 * c4 := by omega
  have e5 : g2 = j2 + 2 ^ 42 * c5 := by omega
  have e6 : j0 = k0 + 2 ^ 44 * c6 := by omega
  clear hc1 ha1 hc2 ha3 hc3 hg0 hc4 hi1 hc5 hj2 hc6 hk0
  omega

theorem and_ones64 (x : Nat) (h : x < 2 ^ 64) : x &&& (2 ^ 64 - 1) = x := by
  rw [Nat.and_two_pow_sub_one_eq_mod, Nat.mod_eq_of_lt h]

set_option maxHeartbeats 1000000 in
theorem reduce64 (st : Poly64) (inv : Inv64 st) :
    ∃ x0 x1 x2, poly64_reduce st = (x0, x1, x2) ∧ x0 < 2 ^ 44 ∧ x1 < 2 ^ 44 ∧ x2 < 2 ^ 42 ∧
      x0 + 2 ^ 44 * x1 + 2 ^ 88 * x2 = val64 st % polyP := by
  obtain ⟨-, -, -, b0, b1, b2⟩ := inv
  rw [val64]
  unfold poly64_reduce
  extract_lets h0 h1 h2 c1 a1 a2 c2 a3 f0 c3 g0 g1 c4 i1 g2 c5 j2 j0 c6 k0 k1 l0 c7 m0 l1 c8 m1 l2 c9 n0 n1 n2 c10
  change h0 < _ at b0
  change h1 < _ at b1
  change h2 < _ at b2
  show ∃ x0 x1 x2, _ ∧ _ ∧ _ ∧ _ ∧ _ = (h0 + 2 ^ 44 * h1 + 2 ^ 88 * h2) % polyP
  clear_value h0 h1 h2
  have hc1 : c1 = h1 / 2 ^ 44 := by
    show h1 >>> 44 = _
    rw [Nat.shiftRight_eq_div_pow]
  have ha1 : a1 = h1 % 2 ^ 44 := and44 h1
  have ha2 : a2 = h2 + c1 := by
    show w64 (h2 + c1) = _
    rw [w64]; omega
  have hc2 : c2 = a2 / 2 ^ 42 := by
    show a2 >>> 42 = _
    rw [Nat.shiftRight_eq_div_pow]
  have ha3 : a3 = a2 % 2 ^ 42 := and42 a2
  have hf0 : f0 = h0 + c2 * 5 := by
    show w64 (h0 + w64 (c2 * 5)) = _
    rw [w64, w64]; omega
  have hc3 : c3 = f0 / 2 ^ 44 := by
    show f0 >>> 44 = _
    rw [Nat.shiftRight_eq_div_pow]
  have hg0 : g0 = f0 % 2 ^ 44 := and44 f0
  have hg1 : g1 = a1 + c3 := by
    show w64 (a1 + c3) = _
    rw [w64]; omega
  have hc4 : c4 = g1 / 2 ^ 44 := by
    show g1 >>> 44 = _
    rw [Nat.shiftRight_eq_div_pow]
  have hi1 : i1 = g1 % 2 ^ 44 := and44 g1
  have hg2 : g2 = a3 + c4 := by
    show w64 (a3 + c4) = _
    rw [w64]; omega
  have hc5 : c5 = g2 / 2 ^ 42 := by
    show g2 >>> 42 = _
    rw [Nat.shiftRight_eq_div_pow]
  have hj2 : j2 = g2 % 2 ^ 42 := and42 g2
  have hj0 : j0 = g0 + c5 * 5 := by
    show w64 (g0 + w64 (c5 * 5)) = _
    rw [w64, w64]; omega
  have hc6 : c6 = j0 / 2 ^ 44 := by
    show j0 >>> 44 = _
    rw [Nat.shiftRight_eq_div_pow]
  have hk0 : k0 = j0 % 2 ^ 44 := and44 j0
  have hk1 : k1 = i1 + c6 := by
    show w64 (i1 + c6) = _
    rw [w64]; omega
  obtain ⟨B0, B1, B2, HV⟩ := full64 h0 h1 h2 b0 b1 b2 c1 a1 a2 c2 a3 f0 c3 g0 g1 c4 i1 g2 c5 j2 j0 c6
    k0 k1 hc1 ha1 ha2 hc2 ha3 hf0 hc3 hg0 hg1 hc4 hi1 hg2 hc5 hj2 hj0 hc6 hk0 hk1
  rw [HV, Nat.add_mul_mod_self_left]
  clear HV hc1 ha1 ha2 hc2 ha3 hf0 hc3 hg0 hg1 hc4 hi1 hg2 hc5 hj2 hj0 hc6 hk0 hk1
  clear_value k0 k1 j2
  have hl0 : l0 = k0 + 5 := by
    show w64 (k0 + 5) = _
    rw [w64]; omega
  have hc7 : c7 = l0 / 2 ^ 44 := by
    show l0 >>> 44 = _
    rw [Nat.shiftRight_eq_div_pow]
  have hm0 : m0 = l0 % 2 ^ 44 := and44 l0
  have hl1 : l1 = k1 + c7 := by
    show w64 (k1 + c7) = _
    rw [w64]; omega
  have hc8 : c8 = l1 / 2 ^ 44 := by
    show l1 >>> 44 = _
    rw [Nat.shiftRight_eq_div_pow]
  have hm1 : m1 = l1 % 2 ^ 44 := and44 l1
  have hl2 : l2 = (j2 + c8 + (2 ^ 64 - 2 ^ 42)) % 2 ^ 64 := rfl
  have hc9 : c9 = (l2 / 2 ^ 63 + (2 ^ 64 - 1)) % 2 ^ 64 := by
    show w64 (l2 >>> 63 + (2 ^ 64 - 1)) = _
    rw [w64, Nat.shiftRight_eq_div_pow]
  have hn0 : n0 = m0 &&& c9 := rfl
  have hn1 : n1 = m1 &&& c9 := rfl
  have hn2 : n2 = l2 &&& c9 := rfl
  have hc10 : c10 = 2 ^ 64 - 1 - c9 := rfl
  have q7 : c7 = 0 ∨ c7 = 1 := by omega
  have q8 : c8 = 0 ∨ c8 = 1 := by omega
  clear_value l0 c7 m0 l1 c8 m1 l2 c9 n0 n1 n2 c10
  have L : k0 + 2 ^ 44 * k1 + 2 ^ 88 * j2 + 5 = m0 + 2 ^ 44 * m1 + 2 ^ 88 * (j2 + c8) := by omega
  refine ⟨_, _, _, rfl, ?_⟩
  by_cases hlt : j2 + c8 < 2 ^ 42
  · have e9 : c9 = 0 := by omega
    have e10 : c10 = 2 ^ 64 - 1 := by omega
    rw [hn0, hn1, hn2, e9, e10, Nat.and_zero, Nat.and_zero, Nat.and_zero, Nat.or_zero, Nat.or_zero,
      Nat.or_zero, and_ones64 _ (by omega), and_ones64 _ (by omega), and_ones64 _ (by omega)]
    refine ⟨B0, B1, B2, ?_⟩
    rw [Nat.mod_eq_of_lt]
    rw [polyP]
    omega
  · have e8 : j2 + c8 = 2 ^ 42 := by omega
    have el : l2 = 0 := by omega
    have e9 : c9 = 2 ^ 64 - 1 := by rw [hc9, el]; rfl
    have e10 : c10 = 0 := by omega
    rw [hn0, hn1, hn2, e9, e10, Nat.and_zero, Nat.and_zero, Nat.and_zero, Nat.zero_or, Nat.zero_or,
      Nat.zero_or, and_ones64 _ (by omega), and_ones64 _ (by omega), and_ones64 _ (by omega)]
    refine ⟨by omega, by omega, by omega, ?_⟩
    have : k0 + 2 ^ 44 * k1 + 2 ^ 88 * j2 = (m0 + 2 ^ 44 * m1 + 2 ^ 88 * l2) + polyP * 1 := by
      rw [polyP]; omega
    rw [this, Nat.add_mul_mod_self_left, Nat.mod_eq_of_lt]
    rw [polyP]
    omega

/-- The tag of the 64-bit back end. -/
theorem out64 (st : Poly64) (inv : Inv64 st) (s : Nat) (hs : s < 2 ^ 128)
    (h0 : st.pad0 = s % 2 ^ 64) (h1 : st.pad1 = s / 2 ^ 64 % 2 ^ 64) :
    poly64_out st = leBytes 16 ((val64 st % polyP + s) % 2 ^ 128) := by
  obtain ⟨x0, x1, x2, hx, bx0, bx1, bx2, hv⟩ := reduce64 st inv
  rw [← hv]
  unfold poly64_out
  rw [hx]
  obtain ⟨l1, l2⟩ := limbs64 _ _ _ hs h0 h1
  dsimp only
  rw [l1, l2, and44, and44, and44, and44, and42, and42, h0]
  simp only [Nat.shiftRight_eq_div_pow, Nat.shiftLeft_eq, w64]
  have S0 : s % 2 ^ 64 % 2 ^ 44 = s % 2 ^ 44 := by clear hv; omega
  have S1 : s / 2 ^ 44 % 2 ^ 64 % 2 ^ 44 = s / 2 ^ 44 % 2 ^ 44 := by clear hv; omega
  have S2 : s / 2 ^ 88 % 2 ^ 42 = s / 2 ^ 88 := by clear hv; omega
  have S : s = s % 2 ^ 44 + 2 ^ 44 * (s / 2 ^ 44 % 2 ^ 44) + 2 ^ 88 * (s / 2 ^ 88) := by
    clear hv; omega
  have T0 : s % 2 ^ 44 < 2 ^ 44 := Nat.mod_lt _ (by decide)
  have T1 : s / 2 ^ 44 % 2 ^ 44 < 2 ^ 44 := Nat.mod_lt _ (by decide)
  have T2 : s / 2 ^ 88 < 2 ^ 40 := by clear hv; omega
  rw [S0, S1, S2]
  clear hx hv h0 h1 l1 l2 S0 S1 S2
  generalize s % 2 ^ 44 = s0 at *
  generalize s / 2 ^ 44 % 2 ^ 44 = s1 at *
  generalize s / 2 ^ 88 = s2 at *
  generalize hy0 : (x0 + s0) % 2 ^ 64 = y0
  have hy0' : y0 = x0 + s0 := by omega
  generalize hy1 : (x1 + (s1 + y0 / 2 ^ 44) % 2 ^ 64) % 2 ^ 64 = y1
  have hy1' : y1 = x1 + s1 + y0 / 2 ^ 44 := by omega
  generalize hy2 : (x2 + (s2 + y1 / 2 ^ 44) % 2 ^ 64) % 2 ^ 64 = y2
  have hy2' : y2 = x2 + s2 + y1 / 2 ^ 44 := by omega
  clear hy0 hy1 hy2
  have V : x0 + 2 ^ 44 * x1 + 2 ^ 88 * x2 + s = y0 % 2 ^ 44 + 2 ^ 44 * (y1 % 2 ^ 44) + 2 ^ 88 * y2 := by
    omega
  rw [V]
  have e1 : y0 % 2 ^ 44 ||| y1 % 2 ^ 44 * 2 ^ 44 % 2 ^ 64 = y0 % 2 ^ 44 + 2 ^ 44 * (y1 % 2 ^ 20) := by
    have : y1 % 2 ^ 44 * 2 ^ 44 % 2 ^ 64 = (y1 % 2 ^ 20) * 2 ^ 44 := by omega
    rw [this, Nat.or_comm, or_two _ _ 44 (by omega)]; omega
  have e2 : y1 % 2 ^ 44 / 2 ^ 20 ||| y2 % 2 ^ 42 * 2 ^ 24 % 2 ^ 64 =
      y1 % 2 ^ 44 / 2 ^ 20 + 2 ^ 24 * (y2 % 2 ^ 40) := by
    have : y2 % 2 ^ 42 * 2 ^ 24 % 2 ^ 64 = (y2 % 2 ^ 40) * 2 ^ 24 := by omega
    rw [this, Nat.or_comm, or_two _ _ 24 (by omega)]; omega
  rw [e1, e2, Strm.write64le_eq, Strm.write64le_eq, BitVec.toNat_ofNat, BitVec.toNat_ofNat]
  apply leVal_inj
  · simp [Strm.leBytes_len]
  · rw [leVal_append, Strm.leVal_leBytes, Strm.leVal_leBytes, Strm.leVal_leBytes, Strm.leBytes_len]
    norm_num
    omega

/-- The 64-bit state represents the accumulator `acc` for the key. -/
def Rep64 (key : Vector Byte 32) (st : Poly64) (acc : Nat) : Prop :=
  Inv64 st ∧ mul64 st = polyR key.toList ∧ st.pad0 = polyS key.toList % 2 ^ 64 ∧
    st.pad1 = polyS key.toList / 2 ^ 64 % 2 ^ 64 ∧ val64 st % polyP = acc

theorem polyS_lt (key : List Byte) : polyS key < 2 ^ 128 := by
  rw [polyS, leVal_take]
  exact Nat.mod_lt _ (by decide)

theorem rep64_init (key : Vector Byte 32) : Rep64 key (poly64_init key) 0 := by
  have hK : leVal key.toList < 2 ^ 256 := by
    have := leVal_lt key.toList
    rwa [Vector.length_toList] at this
  have hR : polyR key.toList = (leVal key.toList % 2 ^ 128) &&& 0x0ffffffc0ffffffc0ffffffc0fffffff := by
    rw [polyR, leVal_take]; rfl
  have hS : polyS key.toList = leVal key.toList / 2 ^ 128 % 2 ^ 128 := by
    rw [polyS, leVal_take, leVal_drop]; rfl
  obtain ⟨m, b0, b1, b2⟩ := r64 (leVal key.toList % 2 ^ 128) (read64le (vsub key 0 8)).toNat
    (read64le (vsub key 8 8)).toNat (Nat.mod_lt _ (by decide))
    (by rw [read64_vsub]; norm_num) (by rw [read64_vsub]; norm_num; omega)
  refine ⟨⟨b0, b1, b2, ?_, ?_, ?_⟩, ?_, ?_, ?_, ?_⟩
  · show 0 < 2 ^ 44; decide
  · show 0 < 2 ^ 44 + 2 ^ 10; decide
  · show 0 < 2 ^ 42; decide
  · rw [hR]; exact m
  · show (read64le (vsub key 16 8)).toNat = _
    rw [read64_vsub, hS]
    norm_num
  · show (read64le (vsub key 24 8)).toNat = _
    rw [read64_vsub, hS]
    norm_num
    omega
  · rfl

theorem rep64_block (key : Vector Byte 32) (st : Poly64) (acc : Nat) (final : Bool)
    (v : Vector Byte 16) (h : Rep64 key st acc) :
    Rep64 key (poly64_block final st v)
      ((acc + leVal v.toList + if final then 0 else 2 ^ 128) * polyR key.toList % polyP) := by
  obtain ⟨inv, hm, hp0, hp1, hv⟩ := h
  obtain ⟨i1, i2, i3, i4, i5⟩ := block64 final st v inv
  refine ⟨i1, by rw [i3, hm], by rw [i4, hp0], by rw [i5, hp1], ?_⟩
  rw [i2, ← hv, hm, Nat.add_assoc, Nat.add_assoc, Nat.mul_mod, Nat.add_mod]
  conv_rhs => rw [Nat.mul_mod, Nat.add_mod, Nat.mod_mod]

theorem rep64_out (key : Vector Byte 32) (st : Poly64) (acc : Nat) (h : Rep64 key st acc) :
    poly64_out st = leBytes 16 ((acc + polyS key.toList) % 2 ^ 128) := by
  obtain ⟨inv, hm, hp0, hp1, hv⟩ := h
  rw [out64 st inv _ (polyS_lt _) hp0 hp1, hv]

end Torsion.Mac
