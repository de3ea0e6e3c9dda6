import Verif.Basic
import Mathlib.Data.Nat.Size

/-!
# Model: recodings of scalars

Scalars are the numbers which the limb vectors stand for; that `sc_bitlen_var`, `sc_get_bit`, `sc_get_bits` and
`sc_neg` give the numbers written here is shown for the limbs in `Ecc/Scalar`. A recoding is the array which the
function fills, of length `max`.
-/
namespace Torsion

/-- src/ecc.c:787-790 `sc_bitlen_var`. -/
def sc_bitlen_var (k : Nat) : Nat := k.size

/-- src/ecc.c:792-795 `sc_get_bit`. -/
def sc_get_bit (k pos : Nat) : Nat := k / 2 ^ pos % 2

/-- src/ecc.c:797-801 `sc_get_bits`. -/
def sc_get_bits (k pos width : Nat) : Nat := k / 2 ^ pos % 2 ^ width

/-- src/ecc.c:1165-1183, `sc_naf_var0`, the loop; `fuel` bounds the number of iterations, each of which
increases `i`. Returns the array, `len` and `carry`. The shift of `carry` must not be by a negative number. -/
def naf_loop (k : Nat) (sign : Int) (width bits : Nat) :
    Nat → Nat → Nat → Nat → List Int → C (List Int × Nat × Nat)
  | 0, _, carry, len, naf => .ok (naf, len, carry)
  | fuel + 1, i, carry, len, naf =>
    if i < bits then
      if sc_get_bit k i = carry then naf_loop k sign width bits fuel (i + 1) carry len naf
      else if width = 0 then .ub
      else do
        let word := sc_get_bits k i width + carry
        let carry := word / 2 ^ (width - 1) % 2
        let word : Int := word - carry * 2 ^ width
        let naf ← C.wr naf i (sign * word)
        naf_loop k sign width bits fuel (i + width) carry (i + 1) naf
    else .ok (naf, len, carry)

/-- src/ecc.c:1143-1189 `sc_naf_var0`. -/
def sc_naf_var0 (k : Nat) (sign : Int) (width max : Nat) : C (List Int × Nat) := do
  let bits := sc_bitlen_var k + 1
  C.check (decide (bits ≤ max))
  let r ← naf_loop k sign width bits bits 0 0 0 (List.replicate max 0)
  C.check (decide (r.2.2 = 0))
  return (r.1, r.2.1)

/-- src/ecc.c:1191-1194 `sc_naf_var`; `sbits` is `sc->bits`. -/
def sc_naf_var (sbits k width : Nat) : C (List Int × Nat) := sc_naf_var0 k 1 width (sbits + 1)

/-- src/ecc.c:1131-1141 `sc_minimize_var`: the number and whether it was negated; `sc->nh` is `n >> 1`. -/
def sc_minimize_var (n k : Nat) : Nat × Bool :=
  if n / 2 < k then (if k = 0 then 0 else n - k, true) else (k, false)

/-- src/ecc.c:1196-1216 `sc_naf_endo_var`; `ebits` is `sc->endo_bits`. -/
def sc_naf_endo_var (n ebits k1 k2 width : Nat) : C (List Int × List Int × Nat) := do
  let c1 := sc_minimize_var n k1
  let c2 := sc_minimize_var n k2
  let r1 ← sc_naf_var0 c1.1 (if c1.2 then -1 else 1) width (ebits + 1)
  let r2 ← sc_naf_var0 c2.1 (if c2.2 then -1 else 1) width (ebits + 1)
  return (r1.1, r2.1, max r1.2 r2.2)

/-- src/ecc.c:1236-1246, `sc_jsf_var0`, the table. -/
def jsf_table : List Int := [-3, -1, -5, -7, 0, 7, 5, 1, 3]

/-- src/ecc.c:1255-1266, `sc_jsf_var0`, `m14` and `m24`. -/
def jsf_m4 (b d : Nat) : Int := if (b % 4 + d) % 4 = 3 then -1 else ((b % 4 + d) % 4 : Nat)

/-- src/ecc.c:1250-1286, `sc_jsf_var0`, the digit `u1` (or `u2`) from the three bits `b`, the carry `d` and the
`m4` of the other scalar. The parity of a negative `int` is that of its two's complement. -/
def jsf_digit (b d : Nat) (other : Int) : Int :=
  let m4 := jsf_m4 b d
  if m4 % 2 ≠ 0 then
    let m8 := (b % 8 + d) % 8
    if (m8 = 3 ∨ m8 = 5) ∧ other = 2 then -m4 else m4
  else 0

/-- src/ecc.c:1290-1295, `sc_jsf_var0`, the new carry. -/
def jsf_carry (d : Nat) (u : Int) : Nat := if 2 * (d : Int) = 1 + u then 1 - d else d

/-- src/ecc.c:1250-1296, `sc_jsf_var0`, the loop: the digits from `i` on, for `steps` steps. -/
def jsf_loop (k1 : Nat) (s1 : Int) (k2 : Nat) (s2 : Int) : Nat → Nat → Nat → Nat → C (List Int)
  | 0, _, _, _ => .ok []
  | steps + 1, i, d1, d2 => do
    let b1 := sc_get_bits k1 i 3
    let b2 := sc_get_bits k2 i 3
    let u1 := jsf_digit b1 d1 (jsf_m4 b2 d2)
    let u2 := jsf_digit b2 d2 (jsf_m4 b1 d1)
    let index := (u1 * s1 + 1) * 3 + (u2 * s2 + 1)
    if index < 0 then .ub
    else
      let z ← C.rd jsf_table index.toNat
      let zs ← jsf_loop k1 s1 k2 s2 steps (i + 1) (jsf_carry d1 u1) (jsf_carry d2 u2)
      return z :: zs

/-- src/ecc.c:1298-1302, `sc_jsf_var0`, the last loop: `i` is reduced while the digit below is zero. -/
def jsf_trim (naf : List Int) : Nat → Nat
  | 0 => 0
  | i + 1 => if naf[i]? = some 0 then jsf_trim naf i else i + 1

/-- src/ecc.c:1218-1304 `sc_jsf_var0`. -/
def sc_jsf_var0 (k1 : Nat) (s1 : Int) (k2 : Nat) (s2 : Int) (max' : Nat) : C (List Int × Nat) := do
  let bits1 := sc_bitlen_var k1 + 1
  let bits2 := sc_bitlen_var k2 + 1
  let bits := if bits1 > bits2 then bits1 else bits2
  C.check (decide (bits ≤ max'))
  let naf ← jsf_loop k1 s1 k2 s2 bits 0 0 0
  let naf := naf ++ List.replicate (max' - bits) 0
  return (naf, jsf_trim naf bits)

/-- src/ecc.c:1306-1309 `sc_jsf_var`. -/
def sc_jsf_var (sbits k1 k2 : Nat) : C (List Int × Nat) := sc_jsf_var0 k1 1 k2 1 (sbits + 1)

/-- src/ecc.c:1311-1324 `sc_jsf_endo_var`. -/
def sc_jsf_endo_var (n ebits k1 k2 : Nat) : C (List Int × Nat) :=
  let c1 := sc_minimize_var n k1
  let c2 := sc_minimize_var n k2
  sc_jsf_var0 c1.1 (if c1.2 then -1 else 1) c2.1 (if c2.2 then -1 else 1) (ebits + 1)

end Torsion
