import Verif.Mac.Poly64Lemmas

/-!
# Poly1305: the 32-bit back end
-/
namespace Torsion.Mac
open Spec

theorem shr (x k : Nat) : x >>> k = x / 2 ^ k := Nat.shiftRight_eq_div_pow x k

/-- The five limbs of a 128-bit number as read from memory. -/
theorem limbs32 (T : Nat) (hT : T < 2 ^ 128) (a0 a1 a2 a3 a4 : Nat)
    (h0 : a0 = T % 2 ^ 32) (h1 : a1 = T / 2 ^ 24 % 2 ^ 32) (h2 : a2 = T / 2 ^ 48 % 2 ^ 32)
    (h3 : a3 = T / 2 ^ 72 % 2 ^ 32) (h4 : a4 = T / 2 ^ 96 % 2 ^ 32) :
    a0 >>> 0 = T % 2 ^ 32 ∧ a1 >>> 2 = T / 2 ^ 26 % 2 ^ 30 ∧ a2 >>> 4 = T / 2 ^ 52 % 2 ^ 28 ∧
    a3 >>> 6 = T / 2 ^ 78 % 2 ^ 26 ∧ a4 >>> 8 = T / 2 ^ 104 := by
  simp only [shr]
  refine ⟨by omega, by omega, by omega, by omega, by omega⟩

theorem mask_of (x T M i m : Nat) (hx : x % 2 ^ 26 = T / 2 ^ i % 2 ^ 26)
    (hm : M / 2 ^ i % 2 ^ 26 = m) (hb : m < 2 ^ 26) : x &&& m = (T &&& M) / 2 ^ i % 2 ^ 26 := by
  rw [mask_limb, hm, mask_low x _ 26 hb, hx]

theorem r32 (T : Nat) (hT : T < 2 ^ 128) (a0 a1 a2 a3 a4 : Nat)
    (h0 : a0 = T % 2 ^ 32) (h1 : a1 = T / 2 ^ 24 % 2 ^ 32) (h2 : a2 = T / 2 ^ 48 % 2 ^ 32)
    (h3 : a3 = T / 2 ^ 72 % 2 ^ 32) (h4 : a4 = T / 2 ^ 96 % 2 ^ 32) :
    let M := 0x0ffffffc0ffffffc0ffffffc0fffffff
    (a0 >>> 0 &&& 0x3ffffff) + 2 ^ 26 * (a1 >>> 2 &&& 0x3ffff03) +
      2 ^ 52 * (a2 >>> 4 &&& 0x3ffc0ff) + 2 ^ 78 * (a3 >>> 6 &&& 0x3f03fff) +
      2 ^ 104 * (a4 >>> 8 &&& 0x00fffff) = T &&& M ∧
    (a0 >>> 0 &&& 0x3ffffff) < 2 ^ 26 ∧ (a1 >>> 2 &&& 0x3ffff03) < 2 ^ 26 ∧
      (a2 >>> 4 &&& 0x3ffc0ff) < 2 ^ 26 ∧ (a3 >>> 6 &&& 0x3f03fff) < 2 ^ 26 ∧
      (a4 >>> 8 &&& 0x00fffff) < 2 ^ 20 := by
  intro M
  obtain ⟨e0, e1, e2, e3, e4⟩ := limbs32 T hT a0 a1 a2 a3 a4 h0 h1 h2 h3 h4
  have hM : T &&& M < 2 ^ 124 := Nat.lt_of_le_of_lt Nat.and_le_right (by decide)
  have m0 := mask_of (a0 >>> 0) T M 0 0x3ffffff (by rw [e0]; omega) (by decide) (by decide)
  have m1 := mask_of (a1 >>> 2) T M 26 0x3ffff03 (by rw [e1]; omega) (by decide) (by decide)
  have m2 := mask_of (a2 >>> 4) T M 52 0x3ffc0ff (by rw [e2]; omega) (by decide) (by decide)
  have m3 := mask_of (a3 >>> 6) T M 78 0x3f03fff (by rw [e3]; omega) (by decide) (by decide)
  have m4 := mask_of (a4 >>> 8) T M 104 0x00fffff (by rw [e4]) (by decide) (by decide)
  rw [m0, m1, m2, m3, m4]
  generalize T &&& M = N at *
  clear m0 m1 m2 m3 m4 e0 e1 e2 e3 e4 h0 h1 h2 h3 h4
  refine ⟨by omega, by omega, by omega, by omega, by omega, by omega⟩

structure Inv32 (st : Poly32) : Prop where
  r0 : st.r0 < 2 ^ 26
  r1 : st.r1 < 2 ^ 26
  r2 : st.r2 < 2 ^ 26
  r3 : st.r3 < 2 ^ 26
  r4 : st.r4 < 2 ^ 20
  h0 : st.h0 < 2 ^ 26
  h1 : st.h1 < 2 ^ 26 + 2 ^ 6
  h2 : st.h2 < 2 ^ 26
  h3 : st.h3 < 2 ^ 26
  h4 : st.h4 < 2 ^ 26

def val32 (st : Poly32) : Nat :=
  st.h0 + 2 ^ 26 * st.h1 + 2 ^ 52 * st.h2 + 2 ^ 78 * st.h3 + 2 ^ 104 * st.h4

def mul32 (st : Poly32) : Nat :=
  st.r0 + 2 ^ 26 * st.r1 + 2 ^ 52 * st.r2 + 2 ^ 78 * st.r3 + 2 ^ 104 * st.r4

theorem prod32 (h0 h1 h2 h3 h4 r0 r1 r2 r3 r4 : Nat) :
    (h0 + 2 ^ 26 * h1 + 2 ^ 52 * h2 + 2 ^ 78 * h3 + 2 ^ 104 * h4) *
      (r0 + 2 ^ 26 * r1 + 2 ^ 52 * r2 + 2 ^ 78 * r3 + 2 ^ 104 * r4) =
      (h0 * r0 + h1 * (r4 * 5) + h2 * (r3 * 5) + h3 * (r2 * 5) + h4 * (r1 * 5)) +
      2 ^ 26 * (h0 * r1 + h1 * r0 + h2 * (r4 * 5) + h3 * (r3 * 5) + h4 * (r2 * 5)) +
      2 ^ 52 * (h0 * r2 + h1 * r1 + h2 * r0 + h3 * (r4 * 5) + h4 * (r3 * 5)) +
      2 ^ 78 * (h0 * r3 + h1 * r2 + h2 * r1 + h3 * r0 + h4 * (r4 * 5)) +
      2 ^ 104 * (h0 * r4 + h1 * r3 + h2 * r2 + h3 * r1 + h4 * r0) +
      polyP * ((h1 * r4 + h2 * r3 + h3 * r2 + h4 * r1) + 2 ^ 26 * (h2 * r4 + h3 * r3 + h4 * r2) +
        2 ^ 52 * (h3 * r4 + h4 * r3) + 2 ^ 78 * (h4 * r4)) := by
  rw [polyP]
  norm_num
  ring

theorem carry32 (d0 d1 d2 d3 d4 c1 e0 D1 c2 e1 D2 c3 e2 D3 c4 e3 D4 c5 e4 f0 c6 g0 g1 : Nat)
    (hc1 : c1 = d0 / 2 ^ 26) (he0 : e0 = d0 % 2 ^ 26) (hD1 : D1 = d1 + c1)
    (hc2 : c2 = D1 / 2 ^ 26) (he1 : e1 = D1 % 2 ^ 26) (hD2 : D2 = d2 + c2)
    (hc3 : c3 = D2 / 2 ^ 26) (he2 : e2 = D2 % 2 ^ 26) (hD3 : D3 = d3 + c3)
    (hc4 : c4 = D3 / 2 ^ 26) (he3 : e3 = D3 % 2 ^ 26) (hD4 : D4 = d4 + c4)
    (hc5 : c5 = D4 / 2 ^ 26) (he4 : e4 = D4 % 2 ^ 26) (hf0 : f0 = e0 + c5 * 5)
    (hc6 : c6 = f0 / 2 ^ 26) (hg0 : g0 = f0 % 2 ^ 26) (hg1 : g1 = e1 + c6) :
    d0 + 2 ^ 26 * d1 + 2 ^ 52 * d2 + 2 ^ 78 * d3 + 2 ^ 104 * d4 =
      (g0 + 2 ^ 26 * g1 + 2 ^ 52 * e2 + 2 ^ 78 * e3 + 2 ^ 104 * e4) + polyP * c5 := by
  rw [polyP]
  have k0 : d0 = e0 + 2 ^ 26 * c1 := by omega
  have k1 : D1 = e1 + 2 ^ 26 * c2 := by omega
  have k2 : D2 = e2 + 2 ^ 26 * c3 := by omega
  have k3 : D3 = e3 + 2 ^ 26 * c4 := by omega
  have k4 : D4 = e4 + 2 ^ 26 * c5 := by omega
  have k5 : f0 = g0 + 2 ^ 26 * c6 := by omega
  clear hc1 he0 hc2 he1 hc3 he2 hc4 he3 hc5 he4 hc6 hg0
  omega

theorem shr32 (x : Nat) (h : x < 2 ^ 58) : w32 (x >>> 26) = x / 2 ^ 26 := by
  rw [w32, shr]; omega

theorem lo32 (x : Nat) : w32 x &&& 0x3ffffff = x % 2 ^ 26 := by
  rw [w32, and26]; omega

set_option maxHeartbeats 4000000 in
theorem block32 (final : Bool) (st : Poly32) (v : Vector Byte 16) (inv : Inv32 st) :
    Inv32 (poly32_block final st v) ∧
    val32 (poly32_block final st v) % polyP =
      (val32 st + leVal v.toList + (if final then 0 else 2 ^ 128)) * mul32 st % polyP ∧
    mul32 (poly32_block final st v) = mul32 st ∧
    (poly32_block final st v).pad0 = st.pad0 ∧ (poly32_block final st v).pad1 = st.pad1 ∧
    (poly32_block final st v).pad2 = st.pad2 ∧ (poly32_block final st v).pad3 = st.pad3 := by
  obtain ⟨br0, br1, br2, br3, br4, bh0, bh1, bh2, bh3, bh4⟩ := inv
  have hT : leVal v.toList < 2 ^ 128 := by
    have := leVal_lt v.toList
    rwa [Vector.length_toList] at this
  unfold poly32_block
  extract_lets hibit s1 s2 s3 s4 h0 h1 h2 h3 h4 d0 d1 d2 d3 d4 c1 e0 D1 c2 e1 D2 c3 e2 D3 c4 e3 D4 c5 e4 f0 c6 g0 g1
  have hibit_le : hibit = if final then 0 else 2 ^ 24 := rfl
  obtain ⟨l0, l1, l2, l3, l4⟩ := limbs32 (leVal v.toList) hT (read32le (vsub v 0 4)).toNat
    (read32le (vsub v 3 4)).toNat (read32le (vsub v 6 4)).toNat (read32le (vsub v 9 4)).toNat
    (read32le (vsub v 12 4)).toNat (by rw [read32_vsub]; norm_num) (by rw [read32_vsub]; norm_num)
    (by rw [read32_vsub]; norm_num) (by rw [read32_vsub]; norm_num) (by rw [read32_vsub]; norm_num)
  generalize leVal v.toList = T at *
  have hs1 : s1 = st.r1 * 5 := Nat.mod_eq_of_lt (by omega)
  have hs2 : s2 = st.r2 * 5 := Nat.mod_eq_of_lt (by omega)
  have hs3 : s3 = st.r3 * 5 := Nat.mod_eq_of_lt (by omega)
  have hs4 : s4 = st.r4 * 5 := Nat.mod_eq_of_lt (by omega)
  have hh0 : h0 = st.h0 + T % 2 ^ 26 := by
    show w32 (st.h0 + (_ &&& 0x3ffffff)) = _
    rw [l0, and26, w32]; omega
  have hh1 : h1 = st.h1 + T / 2 ^ 26 % 2 ^ 26 := by
    show w32 (st.h1 + (_ &&& 0x3ffffff)) = _
    rw [l1, and26, w32]; omega
  have hh2 : h2 = st.h2 + T / 2 ^ 52 % 2 ^ 26 := by
    show w32 (st.h2 + (_ &&& 0x3ffffff)) = _
    rw [l2, and26, w32]; omega
  have hh3 : h3 = st.h3 + T / 2 ^ 78 % 2 ^ 26 := by
    show w32 (st.h3 + (_ &&& 0x3ffffff)) = _
    rw [l3, and26, w32]; omega
  have hh4 : h4 = st.h4 + T / 2 ^ 104 + hibit := by
    show w32 (st.h4 + (_ ||| hibit)) = _
    rw [l4, hibit_le, w32]
    cases final
    · have := or_two 1 (T / 2 ^ 104) 24 (by omega)
      rw [if_neg (by decide), Nat.or_comm, ← Nat.one_mul (2 ^ 24), this]
      omega
    · rw [if_pos rfl, Nat.or_zero]; omega
  have hhb : hibit ≤ 2 ^ 24 := by rw [hibit_le]; split <;> omega
  have b0 : h0 < 2 ^ 27 := by omega
  have b1 : h1 < 2 ^ 27 + 2 ^ 6 := by omega
  have b2 : h2 < 2 ^ 27 := by omega
  have b3 : h3 < 2 ^ 27 := by omega
  have b4 : h4 < 2 ^ 26 + 2 ^ 25 := by omega
  have H : h0 + 2 ^ 26 * h1 + 2 ^ 52 * h2 + 2 ^ 78 * h3 + 2 ^ 104 * h4 =
      val32 st + T + (if final then 0 else 2 ^ 128) := by
    rw [hh0, hh1, hh2, hh3, hh4, hibit_le, val32]
    clear hh0 hh1 hh2 hh3 hh4 l0 l1 l2 l3 l4
    split <;> omega
  clear hh0 hh1 hh2 hh3 hh4 l0 l1 l2 l3 l4
  clear_value hibit s1 s2 s3 s4 h0 h1 h2 h3 h4
  have P := prod32 h0 h1 h2 h3 h4 st.r0 st.r1 st.r2 st.r3 st.r4
  rw [← hs1, ← hs2, ← hs3, ← hs4, H] at P
  have bs1 : s1 < 5 * 2 ^ 26 := by omega
  have bs2 : s2 < 5 * 2 ^ 26 := by omega
  have bs3 : s3 < 5 * 2 ^ 26 := by omega
  have bs4 : s4 < 5 * 2 ^ 20 := by omega
  have hd0 : d0 = h0 * st.r0 + h1 * s4 + h2 * s3 + h3 * s2 + h4 * s1 ∧ d0 < 2 ^ 57 := by
    have p0 := mulb b0 br0
    have p1 := mulb b1 bs4
    have p2 := mulb b2 bs3
    have p3 := mulb b3 bs2
    have p4 := mulb b4 bs1
    have : d0 = (h0 * st.r0 + h1 * s4 + h2 * s3 + h3 * s2 + h4 * s1) % 2 ^ 64 := rfl
    omega
  have hd1 : d1 = h0 * st.r1 + h1 * st.r0 + h2 * s4 + h3 * s3 + h4 * s2 ∧ d1 < 2 ^ 57 := by
    have p0 := mulb b0 br1
    have p1 := mulb b1 br0
    have p2 := mulb b2 bs4
    have p3 := mulb b3 bs3
    have p4 := mulb b4 bs2
    have : d1 = (h0 * st.r1 + h1 * st.r0 + h2 * s4 + h3 * s3 + h4 * s2) % 2 ^ 64 := rfl
    omega
  have hd2 : d2 = h0 * st.r2 + h1 * st.r1 + h2 * st.r0 + h3 * s4 + h4 * s3 ∧ d2 < 2 ^ 57 := by
    have p0 := mulb b0 br2
    have p1 := mulb b1 br1
    have p2 := mulb b2 br0
    have p3 := mulb b3 bs4
    have p4 := mulb b4 bs3
    have : d2 = (h0 * st.r2 + h1 * st.r1 + h2 * st.r0 + h3 * s4 + h4 * s3) % 2 ^ 64 := rfl
    omega
  have hd3 : d3 = h0 * st.r3 + h1 * st.r2 + h2 * st.r1 + h3 * st.r0 + h4 * s4 ∧ d3 < 2 ^ 57 := by
    have p0 := mulb b0 br3
    have p1 := mulb b1 br2
    have p2 := mulb b2 br1
    have p3 := mulb b3 br0
    have p4 := mulb b4 bs4
    have : d3 = (h0 * st.r3 + h1 * st.r2 + h2 * st.r1 + h3 * st.r0 + h4 * s4) % 2 ^ 64 := rfl
    omega
  have hd4 : d4 = h0 * st.r4 + h1 * st.r3 + h2 * st.r2 + h3 * st.r1 + h4 * st.r0 ∧
      d4 < 2 ^ 55 := by
    have p0 := mulb b0 br4
    have p1 := mulb b1 br3
    have p2 := mulb b2 br2
    have p3 := mulb b3 br1
    have p4 := mulb b4 br0
    have : d4 = (h0 * st.r4 + h1 * st.r3 + h2 * st.r2 + h3 * st.r1 + h4 * st.r0) % 2 ^ 64 := rfl
    omega
  obtain ⟨hd0, k0⟩ := hd0
  obtain ⟨hd1, k1⟩ := hd1
  obtain ⟨hd2, k2⟩ := hd2
  obtain ⟨hd3, k3⟩ := hd3
  obtain ⟨hd4, k4⟩ := hd4
  rw [← hd0, ← hd1, ← hd2, ← hd3, ← hd4] at P
  clear_value d0 d1 d2 d3 d4
  clear hd0 hd1 hd2 hd3 hd4 hs1 hs2 hs3 hs4 bs1 bs2 bs3 bs4 b0 b1 b2 b3 b4 H bh0 bh1 bh2 bh3 bh4
  have hc1 : c1 = d0 / 2 ^ 26 := shr32 d0 (by omega)
  have he0 : e0 = d0 % 2 ^ 26 := lo32 d0
  have hD1 : D1 = d1 + c1 := Nat.mod_eq_of_lt (by omega)
  have hc2 : c2 = D1 / 2 ^ 26 := shr32 D1 (by omega)
  have he1 : e1 = D1 % 2 ^ 26 := lo32 D1
  have hD2 : D2 = d2 + c2 := Nat.mod_eq_of_lt (by omega)
  have hc3 : c3 = D2 / 2 ^ 26 := shr32 D2 (by omega)
  have he2 : e2 = D2 % 2 ^ 26 := lo32 D2
  have hD3 : D3 = d3 + c3 := Nat.mod_eq_of_lt (by omega)
  have hc4 : c4 = D3 / 2 ^ 26 := shr32 D3 (by omega)
  have he3 : e3 = D3 % 2 ^ 26 := lo32 D3
  have hD4 : D4 = d4 + c4 := Nat.mod_eq_of_lt (by omega)
  have hc5 : c5 = D4 / 2 ^ 26 := shr32 D4 (by omega)
  have he4 : e4 = D4 % 2 ^ 26 := lo32 D4
  have hf0 : f0 = e0 + c5 * 5 := by
    show w32 (e0 + w32 (c5 * 5)) = _
    rw [w32, w32]; omega
  have hc6 : c6 = f0 / 2 ^ 26 := shr f0 26
  have hg0 : g0 = f0 % 2 ^ 26 := and26 f0
  have hf0b : f0 < 2 ^ 32 := Nat.mod_lt _ (by decide)
  have hg1 : g1 = e1 + c6 := Nat.mod_eq_of_lt (by omega)
  have q := carry32 d0 d1 d2 d3 d4 c1 e0 D1 c2 e1 D2 c3 e2 D3 c4 e3 D4 c5 e4 f0 c6 g0 g1 hc1 he0 hD1
    hc2 he1 hD2 hc3 he2 hD3 hc4 he3 hD4 hc5 he4 hf0 hc6 hg0 hg1
  refine ⟨⟨br0, br1, br2, br3, br4, ?_, ?_, ?_, ?_, ?_⟩, ?_, rfl, rfl, rfl, rfl, rfl⟩
  · show g0 < _
    rw [hg0]; exact Nat.mod_lt _ (by decide)
  · show g1 < _
    clear q P
    omega
  · show e2 < _
    rw [he2]; exact Nat.mod_lt _ (by decide)
  · show e3 < _
    rw [he3]; exact Nat.mod_lt _ (by decide)
  · show e4 < _
    rw [he4]; exact Nat.mod_lt _ (by decide)
  · show (g0 + 2 ^ 26 * g1 + 2 ^ 52 * e2 + 2 ^ 78 * e3 + 2 ^ 104 * e4) % polyP =
      (_ * mul32 st) % polyP
    rw [mul32, P, Nat.add_mul_mod_self_left, q, Nat.add_mul_mod_self_left]

theorem and_ones32 (x : Nat) (h : x < 2 ^ 32) : x &&& (2 ^ 32 - 1) = x := by
  rw [Nat.and_two_pow_sub_one_eq_mod, Nat.mod_eq_of_lt h]

/-- Full carry: the value below 2^130. -/
theorem full32 (h0 h1 h2 h3 h4 : Nat) (b0 : h0 < 2 ^ 26) (b1 : h1 < 2 ^ 26 + 2 ^ 6)
    (b2 : h2 < 2 ^ 26) (b3 : h3 < 2 ^ 26) (b4 : h4 < 2 ^ 26)
    (c1 a1 a2 c2 e2 a3 c3 e3 a4 c4 e4 a0 c5 e0 e1 : Nat)
    (hc1 : c1 = h1 / 2 ^ 26) (ha1 : a1 = h1 % 2 ^ 26) (ha2 : a2 = h2 + c1)
    (hc2 : c2 = a2 / 2 ^ 26) (he2 : e2 = a2 % 2 ^ 26) (ha3 : a3 = h3 + c2)
    (hc3 : c3 = a3 / 2 ^ 26) (he3 : e3 = a3 % 2 ^ 26) (ha4 : a4 = h4 + c3)
    (hc4 : c4 = a4 / 2 ^ 26) (he4 : e4 = a4 % 2 ^ 26) (ha0 : a0 = h0 + c4 * 5)
    (hc5 : c5 = a0 / 2 ^ 26) (he0 : e0 = a0 % 2 ^ 26) (he1 : e1 = a1 + c5) :
    e0 < 2 ^ 26 ∧ e1 < 2 ^ 26 ∧ e2 < 2 ^ 26 ∧ e3 < 2 ^ 26 ∧ e4 < 2 ^ 26 ∧
    h0 + 2 ^ 26 * h1 + 2 ^ 52 * h2 + 2 ^ 78 * h3 + 2 ^ 104 * h4 =
      (e0 + 2 ^ 26 * e1 + 2 ^ 52 * e2 + 2 ^ 78 * e3 + 2 ^ 104 * e4) + polyP * c4 := by
  rw [polyP]
  have q1 : c1 = 0 ∨ c1 = 1 := by omega
  have q2 : c2 = 0 ∨ c2 = 1 := by omega
  have q3 : c3 = 0 ∨ c3 = 1 := by omega
  have q4 : c4 = 0 ∨ c4 = 1 := by omega
  have q5 : c5 = 0 ∨ c5 = 1 := by omega
  have r1 : c5 = 1 → c4 = 1 := by omega
  have r2 : c4 = 1 → c3 = 1 := by omega
  have r3 : c3 = 1 → c2 = 1 := by omega
  have r4 : c2 = 1 → c1 = 1 := by omega
  have r5 : c1 = 1 → a1 < 2 ^ 6 := by omega
  refine ⟨by omega, by omega, by omega, by omega, by omega, ?_⟩
  have k1 : h1 = a1 + 2 ^ 26 * c1 := by omega
  have k2 : a2 = e2 + 2 ^ 26 * c2 := by omega
  have k3 : a3 = e3 + 2 ^ 26 * c3 := by omega
  have k4 : a4 = e4 + 2 ^ 26 * c4 := by omega
  have k5 : a0 = e0 + 2 ^ 26 * c5 := by omega
  clear hc1 ha1 hc2 he2 hc3 he3 hc4 he4 hc5 he0
  omega

set_option maxHeartbeats 2000000 in
theorem reduce32 (st : Poly32) (inv : Inv32 st) :
    ∃ x0 x1 x2 x3 x4, poly32_reduce st = (x0, x1, x2, x3, x4) ∧ x0 < 2 ^ 26 ∧ x1 < 2 ^ 26 ∧
      x2 < 2 ^ 26 ∧ x3 < 2 ^ 26 ∧ x4 < 2 ^ 26 ∧
      x0 + 2 ^ 26 * x1 + 2 ^ 52 * x2 + 2 ^ 78 * x3 + 2 ^ 104 * x4 = val32 st % polyP := by
  obtain ⟨-, -, -, -, -, b0, b1, b2, b3, b4⟩ := inv
  rw [val32]
  unfold poly32_reduce
  extract_lets h0 h1 h2 h3 h4 c1 a1 a2 c2 e2 a3 c3 e3 a4 c4 e4 a0 c5 e0 e1 l0 c6 m0 l1 c7 m1 l2 c8 m2 l3 c9 m3 l4 msk n0 n1 n2 n3 n4 nmsk
  change h0 < _ at b0
  change h1 < _ at b1
  change h2 < _ at b2
  change h3 < _ at b3
  change h4 < _ at b4
  show ∃ x0 x1 x2 x3 x4, _ ∧ _ ∧ _ ∧ _ ∧ _ ∧ _ ∧
    _ = (h0 + 2 ^ 26 * h1 + 2 ^ 52 * h2 + 2 ^ 78 * h3 + 2 ^ 104 * h4) % polyP
  clear_value h0 h1 h2 h3 h4
  have hc1 : c1 = h1 / 2 ^ 26 := shr h1 26
  have ha1 : a1 = h1 % 2 ^ 26 := and26 h1
  have ha2 : a2 = h2 + c1 := Nat.mod_eq_of_lt (by omega)
  have hc2 : c2 = a2 / 2 ^ 26 := shr a2 26
  have he2 : e2 = a2 % 2 ^ 26 := and26 a2
  have ha3 : a3 = h3 + c2 := Nat.mod_eq_of_lt (by omega)
  have hc3 : c3 = a3 / 2 ^ 26 := shr a3 26
  have he3 : e3 = a3 % 2 ^ 26 := and26 a3
  have ha4 : a4 = h4 + c3 := Nat.mod_eq_of_lt (by omega)
  have hc4 : c4 = a4 / 2 ^ 26 := shr a4 26
  have he4 : e4 = a4 % 2 ^ 26 := and26 a4
  have ha0 : a0 = h0 + c4 * 5 := by
    show w32 (h0 + w32 (c4 * 5)) = _
    rw [w32, w32]; omega
  have hc5 : c5 = a0 / 2 ^ 26 := shr a0 26
  have he0 : e0 = a0 % 2 ^ 26 := and26 a0
  have he1 : e1 = a1 + c5 := Nat.mod_eq_of_lt (by omega)
  obtain ⟨B0, B1, B2, B3, B4, HV⟩ := full32 h0 h1 h2 h3 h4 b0 b1 b2 b3 b4 c1 a1 a2 c2 e2 a3 c3 e3 a4 c4
    e4 a0 c5 e0 e1 hc1 ha1 ha2 hc2 he2 ha3 hc3 he3 ha4 hc4 he4 ha0 hc5 he0 he1
  rw [HV, Nat.add_mul_mod_self_left]
  clear HV hc1 ha1 ha2 hc2 he2 ha3 hc3 he3 ha4 hc4 he4 ha0 hc5 he0 he1
  clear_value e0 e1 e2 e3 e4
  have hl0 : l0 = e0 + 5 := Nat.mod_eq_of_lt (by omega)
  have hc6 : c6 = l0 / 2 ^ 26 := shr l0 26
  have hm0 : m0 = l0 % 2 ^ 26 := and26 l0
  have hl1 : l1 = e1 + c6 := Nat.mod_eq_of_lt (by omega)
  have hc7 : c7 = l1 / 2 ^ 26 := shr l1 26
  have hm1 : m1 = l1 % 2 ^ 26 := and26 l1
  have hl2 : l2 = e2 + c7 := Nat.mod_eq_of_lt (by omega)
  have hc8 : c8 = l2 / 2 ^ 26 := shr l2 26
  have hm2 : m2 = l2 % 2 ^ 26 := and26 l2
  have hl3 : l3 = e3 + c8 := Nat.mod_eq_of_lt (by omega)
  have hc9 : c9 = l3 / 2 ^ 26 := shr l3 26
  have hm3 : m3 = l3 % 2 ^ 26 := and26 l3
  have hl4 : l4 = (e4 + c9 + (2 ^ 32 - 2 ^ 26)) % 2 ^ 32 := rfl
  have hmsk : msk = (l4 / 2 ^ 31 + (2 ^ 32 - 1)) % 2 ^ 32 := by
    show w32 (l4 >>> 31 + (2 ^ 32 - 1)) = _
    rw [w32, shr]
  have hn0 : n0 = m0 &&& msk := rfl
  have hn1 : n1 = m1 &&& msk := rfl
  have hn2 : n2 = m2 &&& msk := rfl
  have hn3 : n3 = m3 &&& msk := rfl
  have hn4 : n4 = l4 &&& msk := rfl
  have hnm : nmsk = 2 ^ 32 - 1 - msk := rfl
  have q9 : c9 = 0 ∨ c9 = 1 := by omega
  have M0 : m0 < 2 ^ 26 := by rw [hm0]; exact Nat.mod_lt _ (by decide)
  have M1 : m1 < 2 ^ 26 := by rw [hm1]; exact Nat.mod_lt _ (by decide)
  have M2 : m2 < 2 ^ 26 := by rw [hm2]; exact Nat.mod_lt _ (by decide)
  have M3 : m3 < 2 ^ 26 := by rw [hm3]; exact Nat.mod_lt _ (by decide)
  clear_value l0 c6 m0 l1 c7 m1 l2 c8 m2 l3 c9 m3 l4 msk n0 n1 n2 n3 n4 nmsk
  have L : e0 + 2 ^ 26 * e1 + 2 ^ 52 * e2 + 2 ^ 78 * e3 + 2 ^ 104 * e4 + 5 =
      m0 + 2 ^ 26 * m1 + 2 ^ 52 * m2 + 2 ^ 78 * m3 + 2 ^ 104 * (e4 + c9) := by
    have k1 : l0 = m0 + 2 ^ 26 * c6 := by omega
    have k2 : l1 = m1 + 2 ^ 26 * c7 := by omega
    have k3 : l2 = m2 + 2 ^ 26 * c8 := by omega
    have k4 : l3 = m3 + 2 ^ 26 * c9 := by omega
    clear hc6 hm0 hc7 hm1 hc8 hm2 hc9 hm3 hl4 hmsk hnm
    omega
  clear hl0 hc6 hm0 hl1 hc7 hm1 hl2 hc8 hm2 hl3 hc9 hm3
  refine ⟨_, _, _, _, _, rfl, ?_⟩
  by_cases hlt : e4 + c9 < 2 ^ 26
  · have e9 : msk = 0 := by omega
    have e10 : nmsk = 2 ^ 32 - 1 := by omega
    rw [hn0, hn1, hn2, hn3, hn4, e9, e10, Nat.and_zero, Nat.and_zero, Nat.and_zero, Nat.and_zero,
      Nat.and_zero, Nat.or_zero, Nat.or_zero, Nat.or_zero, Nat.or_zero, Nat.or_zero,
      and_ones32 _ (by omega), and_ones32 _ (by omega), and_ones32 _ (by omega),
      and_ones32 _ (by omega), and_ones32 _ (by omega)]
    refine ⟨B0, B1, B2, B3, B4, ?_⟩
    rw [Nat.mod_eq_of_lt]
    rw [polyP]
    omega
  · have e8 : e4 + c9 = 2 ^ 26 := by omega
    have el : l4 = 0 := by rw [hl4, e8]; rfl
    have e9 : msk = 2 ^ 32 - 1 := by rw [hmsk, el]; rfl
    have e10 : nmsk = 0 := by rw [hnm, e9]; rfl
    rw [hn0, hn1, hn2, hn3, hn4, e9, e10, Nat.and_zero, Nat.and_zero, Nat.and_zero, Nat.and_zero,
      Nat.and_zero, Nat.zero_or, Nat.zero_or, Nat.zero_or, Nat.zero_or, Nat.zero_or,
      and_ones32 _ (by omega), and_ones32 _ (by omega), and_ones32 _ (by omega),
      and_ones32 _ (by omega), and_ones32 _ (by omega)]
    refine ⟨M0, M1, M2, M3, by omega, ?_⟩
    have : e0 + 2 ^ 26 * e1 + 2 ^ 52 * e2 + 2 ^ 78 * e3 + 2 ^ 104 * e4 =
        (m0 + 2 ^ 26 * m1 + 2 ^ 52 * m2 + 2 ^ 78 * m3 + 2 ^ 104 * l4) + polyP * 1 := by
      rw [polyP]; omega
    rw [this, Nat.add_mul_mod_self_left, Nat.mod_eq_of_lt]
    rw [polyP, el]
    omega

theorem or_hi (a b i k : Nat) (ha : a < 2 ^ i) : a ||| b * 2 ^ i % 2 ^ (i + k) =
    a + 2 ^ i * (b % 2 ^ k) := by
  rw [Nat.mul_comm b, Nat.pow_add, Nat.mul_mod_mul_left, Nat.or_comm, Nat.mul_comm, or_two _ _ i ha,
    Nat.mul_comm, Nat.add_comm]

theorem out32 (st : Poly32) (inv : Inv32 st) (s : Nat) (hs : s < 2 ^ 128)
    (h0 : st.pad0 = s % 2 ^ 32) (h1 : st.pad1 = s / 2 ^ 32 % 2 ^ 32)
    (h2 : st.pad2 = s / 2 ^ 64 % 2 ^ 32) (h3 : st.pad3 = s / 2 ^ 96 % 2 ^ 32) :
    poly32_out st = leBytes 16 ((val32 st % polyP + s) % 2 ^ 128) := by
  obtain ⟨x0, x1, x2, x3, x4, hx, bx0, bx1, bx2, bx3, bx4, hv⟩ := reduce32 st inv
  rw [← hv]
  unfold poly32_out
  rw [hx]
  dsimp only
  rw [and32, and32, and32, and32, h0, h1, h2, h3]
  simp only [shr, Nat.shiftLeft_eq, w32]
  have e0 := or_hi x0 x1 26 6 bx0
  have e1 := or_hi (x1 / 2 ^ 6) x2 20 12 (by omega)
  have e2 := or_hi (x2 / 2 ^ 12) x3 14 18 (by omega)
  have e3 := or_hi (x3 / 2 ^ 18) x4 8 24 (by omega)
  rw [show 26 + 6 = 32 from rfl] at e0
  rw [show 20 + 12 = 32 from rfl] at e1
  rw [show 14 + 18 = 32 from rfl] at e2
  rw [show 8 + 24 = 32 from rfl] at e3
  rw [e0, e1, e2, e3]
  have S : s = s % 2 ^ 32 + 2 ^ 32 * (s / 2 ^ 32 % 2 ^ 32) + 2 ^ 64 * (s / 2 ^ 64 % 2 ^ 32) +
      2 ^ 96 * (s / 2 ^ 96 % 2 ^ 32) := by
    clear hv; omega
  have T0 : s % 2 ^ 32 < 2 ^ 32 := Nat.mod_lt _ (by decide)
  have T1 : s / 2 ^ 32 % 2 ^ 32 < 2 ^ 32 := Nat.mod_lt _ (by decide)
  have T2 : s / 2 ^ 64 % 2 ^ 32 < 2 ^ 32 := Nat.mod_lt _ (by decide)
  have T3 : s / 2 ^ 96 % 2 ^ 32 < 2 ^ 32 := Nat.mod_lt _ (by decide)
  clear hx hv h0 h1 h2 h3 e0 e1 e2 e3
  generalize s % 2 ^ 32 = s0 at *
  generalize s / 2 ^ 32 % 2 ^ 32 = s1 at *
  generalize s / 2 ^ 64 % 2 ^ 32 = s2 at *
  generalize s / 2 ^ 96 % 2 ^ 32 = s3 at *
  have X : (x0 + 2 ^ 26 * x1 + 2 ^ 52 * x2 + 2 ^ 78 * x3 + 2 ^ 104 * x4) % 2 ^ 128 =
      (x0 + 2 ^ 26 * (x1 % 2 ^ 6)) % 2 ^ 32 +
      2 ^ 32 * ((x1 / 2 ^ 6 + 2 ^ 20 * (x2 % 2 ^ 12)) % 2 ^ 32) +
      2 ^ 64 * ((x2 / 2 ^ 12 + 2 ^ 14 * (x3 % 2 ^ 18)) % 2 ^ 32) +
      2 ^ 96 * ((x3 / 2 ^ 18 + 2 ^ 8 * (x4 % 2 ^ 24)) % 2 ^ 32) := by
    omega
  rw [← Nat.mod_add_mod (x0 + 2 ^ 26 * x1 + 2 ^ 52 * x2 + 2 ^ 78 * x3 + 2 ^ 104 * x4), X, S]
  have B0 : (x0 + 2 ^ 26 * (x1 % 2 ^ 6)) % 2 ^ 32 < 2 ^ 32 := Nat.mod_lt _ (by decide)
  have B1 : (x1 / 2 ^ 6 + 2 ^ 20 * (x2 % 2 ^ 12)) % 2 ^ 32 < 2 ^ 32 := Nat.mod_lt _ (by decide)
  have B2 : (x2 / 2 ^ 12 + 2 ^ 14 * (x3 % 2 ^ 18)) % 2 ^ 32 < 2 ^ 32 := Nat.mod_lt _ (by decide)
  have B3 : (x3 / 2 ^ 18 + 2 ^ 8 * (x4 % 2 ^ 24)) % 2 ^ 32 < 2 ^ 32 := Nat.mod_lt _ (by decide)
  clear X S hs
  generalize (x0 + 2 ^ 26 * (x1 % 2 ^ 6)) % 2 ^ 32 = m0 at *
  generalize (x1 / 2 ^ 6 + 2 ^ 20 * (x2 % 2 ^ 12)) % 2 ^ 32 = m1 at *
  generalize (x2 / 2 ^ 12 + 2 ^ 14 * (x3 % 2 ^ 18)) % 2 ^ 32 = m2 at *
  generalize (x3 / 2 ^ 18 + 2 ^ 8 * (x4 % 2 ^ 24)) % 2 ^ 32 = m3 at *
  have k0 : w64 (m0 + s0) = m0 + s0 := Nat.mod_eq_of_lt (by omega)
  rw [k0]
  have k1 : w64 (m1 + s1 + (m0 + s0) / 2 ^ 32) = m1 + s1 + (m0 + s0) / 2 ^ 32 :=
    Nat.mod_eq_of_lt (by omega)
  rw [k1]
  generalize hf0 : m0 + s0 = f0 at *
  generalize hf1 : m1 + s1 + f0 / 2 ^ 32 = f1 at *
  have k2 : w64 (m2 + s2 + f1 / 2 ^ 32) = m2 + s2 + f1 / 2 ^ 32 := Nat.mod_eq_of_lt (by omega)
  rw [k2]
  generalize hf2 : m2 + s2 + f1 / 2 ^ 32 = f2 at *
  have k3 : w64 (m3 + s3 + f2 / 2 ^ 32) = m3 + s3 + f2 / 2 ^ 32 := Nat.mod_eq_of_lt (by omega)
  rw [k3]
  generalize hf3 : m3 + s3 + f2 / 2 ^ 32 = f3 at *
  rw [Strm.write32le_eq, Strm.write32le_eq, Strm.write32le_eq, Strm.write32le_eq]
  simp only [BitVec.toNat_ofNat]
  apply leVal_inj
  · simp [Strm.leBytes_len]
  · simp only [leVal_append, Strm.leVal_leBytes, List.length_append, Strm.leBytes_len]
    have V : m0 + 2 ^ 32 * m1 + 2 ^ 64 * m2 + 2 ^ 96 * m3 +
        (s0 + 2 ^ 32 * s1 + 2 ^ 64 * s2 + 2 ^ 96 * s3) =
        f0 % 2 ^ 32 + 2 ^ 32 * (f1 % 2 ^ 32) + 2 ^ 64 * (f2 % 2 ^ 32) + 2 ^ 96 * f3 := by omega
    have V2 : (m0 + 2 ^ 32 * m1 + 2 ^ 64 * m2 + 2 ^ 96 * m3 +
        (s0 + 2 ^ 32 * s1 + 2 ^ 64 * s2 + 2 ^ 96 * s3)) % 2 ^ 128 =
        f0 % 2 ^ 32 + 2 ^ 32 * (f1 % 2 ^ 32) + 2 ^ 64 * (f2 % 2 ^ 32) + 2 ^ 96 * (f3 % 2 ^ 32) := by
      rw [V]
      clear V hf0 hf1 hf2 hf3 k0 k1 k2 k3
      omega
    rw [V2]
    clear V V2 hf0 hf1 hf2 hf3 k0 k1 k2 k3
    norm_num
    omega

/-- The 32-bit state represents the accumulator `acc` for the key. -/
def Rep32 (key : Vector Byte 32) (st : Poly32) (acc : Nat) : Prop :=
  Inv32 st ∧ mul32 st = polyR key.toList ∧ st.pad0 = polyS key.toList % 2 ^ 32 ∧
    st.pad1 = polyS key.toList / 2 ^ 32 % 2 ^ 32 ∧ st.pad2 = polyS key.toList / 2 ^ 64 % 2 ^ 32 ∧
    st.pad3 = polyS key.toList / 2 ^ 96 % 2 ^ 32 ∧ val32 st % polyP = acc

theorem rep32_init (key : Vector Byte 32) : Rep32 key (poly32_init key) 0 := by
  have hR : polyR key.toList = (leVal key.toList % 2 ^ 128) &&& 0x0ffffffc0ffffffc0ffffffc0fffffff := by
    rw [polyR, leVal_take]; rfl
  have hS : polyS key.toList = leVal key.toList / 2 ^ 128 % 2 ^ 128 := by
    rw [polyS, leVal_take, leVal_drop]; rfl
  obtain ⟨m, b0, b1, b2, b3, b4⟩ := r32 (leVal key.toList % 2 ^ 128) (Nat.mod_lt _ (by decide))
    (read32le (vsub key 0 4)).toNat (read32le (vsub key 3 4)).toNat (read32le (vsub key 6 4)).toNat
    (read32le (vsub key 9 4)).toNat (read32le (vsub key 12 4)).toNat
    (by rw [read32_vsub]; norm_num) (by rw [read32_vsub]; norm_num; omega)
    (by rw [read32_vsub]; norm_num; omega) (by rw [read32_vsub]; norm_num; omega)
    (by rw [read32_vsub]; norm_num; omega)
  refine ⟨⟨b0, b1, b2, b3, b4, ?_, ?_, ?_, ?_, ?_⟩, ?_, ?_, ?_, ?_, ?_, ?_⟩
  · show 0 < 2 ^ 26; decide
  · show 0 < 2 ^ 26 + 2 ^ 6; decide
  · show 0 < 2 ^ 26; decide
  · show 0 < 2 ^ 26; decide
  · show 0 < 2 ^ 26; decide
  · rw [hR]; exact m
  · show (read32le (vsub key 16 4)).toNat = _
    rw [read32_vsub, hS]; norm_num
  · show (read32le (vsub key 20 4)).toNat = _
    rw [read32_vsub, hS]; norm_num; omega
  · show (read32le (vsub key 24 4)).toNat = _
    rw [read32_vsub, hS]; norm_num; omega
  · show (read32le (vsub key 28 4)).toNat = _
    rw [read32_vsub, hS]; norm_num; omega
  · rfl

theorem rep32_block (key : Vector Byte 32) (st : Poly32) (acc : Nat) (final : Bool)
    (v : Vector Byte 16) (h : Rep32 key st acc) :
    Rep32 key (poly32_block final st v)
      ((acc + leVal v.toList + if final then 0 else 2 ^ 128) * polyR key.toList % polyP) := by
  obtain ⟨inv, hm, hp0, hp1, hp2, hp3, hv⟩ := h
  obtain ⟨i1, i2, i3, i4, i5, i6, i7⟩ := block32 final st v inv
  refine ⟨i1, by rw [i3, hm], by rw [i4, hp0], by rw [i5, hp1], by rw [i6, hp2], by rw [i7, hp3], ?_⟩
  rw [i2, ← hv, hm, Nat.add_assoc, Nat.add_assoc, Nat.mul_mod, Nat.add_mod]
  conv_rhs => rw [Nat.mul_mod, Nat.add_mod, Nat.mod_mod]

theorem rep32_out (key : Vector Byte 32) (st : Poly32) (acc : Nat) (h : Rep32 key st acc) :
    poly32_out st = leBytes 16 ((acc + polyS key.toList) % 2 ^ 128) := by
  obtain ⟨inv, hm, hp0, hp1, hp2, hp3, hv⟩ := h
  rw [out32 st inv _ (polyS_lt _) hp0 hp1 hp2 hp3, hv]

end Torsion.Mac
