import Verif.Ecc.Primes
import Verif.Ecc.FieldRootProps
import Verif.Ecc.ScalarProps
import Mathlib.Algebra.Field.ZMod

/-! # The moduli are primes: the nine fields and the nine orders (C65, C66) -/
namespace Torsion

open Spec Ecc Sc

set_option linter.style.longLine false

/-- C66. The modulus of every field in the tables is a prime, so that the integers modulo it are the field of which the
theorems on inverses and roots speak. -/
theorem fieldCodes_prime : ∀ fe ∈ fieldCodes, fe.p.Prime := by
  intro fe h
  simp only [fieldCodes, List.mem_cons, List.not_mem_nil, or_false] at h
  rcases h with rfl | rfl | rfl | rfl | rfl | rfl | rfl | rfl | rfl
  · exact prime_6277101735386680763835789423207666416083908700390324961279
  · exact prime_26959946667150639794667015087019630673557916260026308143510066298881
  · exact prime_115792089210356248762697446949407573530086143415290314195533631308867097853951
  · exact prime_39402006196394479212279040100143613805079739270465446667948293404245721771496870329047266088258938001861606973112319
  · exact prime_6864797660130609714981900799081393217269435300143305409394463459185543183397656052122559640661454554977296311391480858037121987999716643812574028291115057151
  · exact prime_115792089237316195423570985008687907853269984665640564039457584007908834671663
  · exact prime_57896044618658097711785492504343953926634992332820282019728792003956564819949
  · exact prime_726838724295606890549323807888004534353641360687318060281490199180612328166730772686396383698676545930088884461843637361053498018365439
  · exact prime_3618502788666131106986593281521497120414687020801267626233049500247285301239

/-- C66. Inverse, root, decision and quotient root in the field of the integers modulo `p`, without hypotheses. -/
theorem fe_roots_exact (fe : FieldCode) (hfe : fe ∈ fieldCodes) (a v : ZMod fe.p) : letI := Fact.mk (fieldCodes_prime fe hfe)
    fe_invert_code fe 0 1 a = .ok (a⁻¹, decide (a ≠ 0)) ∧
    (∃ r ok, fe_sqrt fe 0 1 a = .ok (r, ok) ∧ (ok = true ↔ IsSquare a) ∧ (IsSquare a → r * r = a)) ∧
    (∃ ok, fe_is_square fe a = .ok ok ∧ (ok = true ↔ IsSquare a)) ∧
    (∃ r ok, fe_isqrt fe 0 a v = .ok (r, ok) ∧ (ok = true ↔ v ≠ 0 ∧ IsSquare (a / v)) ∧ (ok = true → r * r = a / v)) := by
  letI := Fact.mk (fieldCodes_prime fe hfe)
  have hc : Fintype.card (ZMod fe.p) = fe.p := ZMod.card fe.p
  exact ⟨fe_invert_exact fe hfe hc 0 1 (by decide) (by decide) a, fe_sqrt_exact fe hfe hc 0 1 (by decide) (by decide) a,
    fe_is_square_exact fe hfe hc a, fe_isqrt_exact fe hfe hc 0 (by decide) a v⟩

/-- C65. The orders of all nine groups are primes, so that the theorems on inverses of scalars apply to them. -/
theorem scDefs_prime : ∀ d ∈ scDefs, (beVal d.n).Prime := by
  intro d h
  simp only [scDefs, List.mem_cons, List.not_mem_nil, or_false] at h
  rcases h with rfl | rfl | rfl | rfl | rfl | rfl | rfl | rfl | rfl
  · rw [show beVal field_q192.n = 6277101735386680763835789423176059013767194773182842284081 by decide +kernel]; exact prime_6277101735386680763835789423176059013767194773182842284081
  · rw [show beVal field_q224.n = 26959946667150639794667015087019625940457807714424391721682722368061 by decide +kernel]; exact prime_26959946667150639794667015087019625940457807714424391721682722368061
  · rw [show beVal field_q256.n = 115792089210356248762697446949407573529996955224135760342422259061068512044369 by decide +kernel]; exact prime_115792089210356248762697446949407573529996955224135760342422259061068512044369
  · rw [show beVal field_q384.n = 39402006196394479212279040100143613805079739270465446667946905279627659399113263569398956308152294913554433653942643 by decide +kernel]; exact prime_39402006196394479212279040100143613805079739270465446667946905279627659399113263569398956308152294913554433653942643
  · rw [show beVal field_q521.n = 6864797660130609714981900799081393217269435300143305409394463459185543183397655394245057746333217197532963996371363321113864768612440380340372808892707005449 by decide +kernel]; exact prime_6864797660130609714981900799081393217269435300143305409394463459185543183397655394245057746333217197532963996371363321113864768612440380340372808892707005449
  · rw [show beVal field_secq256k1.n = 115792089237316195423570985008687907852837564279074904382605163141518161494337 by decide +kernel]; exact prime_115792089237316195423570985008687907852837564279074904382605163141518161494337
  · rw [show beVal field_q25519.n = 7237005577332262213973186563042994240857116359379907606001950938285454250989 by decide +kernel]; exact prime_7237005577332262213973186563042994240857116359379907606001950938285454250989
  · rw [show beVal field_q448.n = 181709681073901722637330951972001133588410340171829515070372549795146003961539585716195755291692375963310293709091662304773755859649779 by decide +kernel]; exact prime_181709681073901722637330951972001133588410340171829515070372549795146003961539585716195755291692375963310293709091662304773755859649779
  · rw [show beVal field_q251.n = 904625697166532776746648320380374280092339035279495474023489261773642975601 by decide +kernel]; exact prime_904625697166532776746648320380374280092339035279495474023489261773642975601

example : ∃ sc, scalar_field_init field_secq256k1 1 = .ok sc ∧ ∀ x a, Scalar sc (beVal field_secq256k1.n) x a → a ≠ 0 →
    ∃ z b, sc_invert sc x = .ok (z, 1) ∧ Scalar sc (beVal field_secq256k1.n) z b ∧ b * a % beVal field_secq256k1.n = 1 := by
  have hd := scDefs_ok field_secq256k1 (by simp [scDefs])
  obtain ⟨sc, h, -⟩ := scalar_field_init_exact hd 1 (Or.inl rfl)
  refine ⟨sc, h, fun x a hx ha => ?_⟩
  obtain ⟨z, b, h1, h2, h3, -⟩ := sc_invert_exact hd (scDefs_prime _ (by simp [scDefs])) (Or.inl (by simp [scDefs])) (Or.inl rfl) h hx
  rw [Mpi.flag_pos ha] at h1
  rw [if_neg ha] at h3
  exact ⟨z, b, h1, h2, h3⟩

end Torsion
