import Verif.Ecc.EcdhSpec
import Verif.Ecc.EncodeLemmas

/-! Lemmas on the bytes of Montgomery curves: field elements in little-endian order and clamping. -/
namespace Torsion.Ecc

open Torsion.Spec (leVal leBytes beVal clamp)

section
variable (fe : FieldCode)

theorem fe_import_le_ok [Fact fe.p.Prime] {xp : List Byte} (h : feSize fe ≤ xp.length) :
    fe_import_le fe xp = .ok (((leVal (xp.take (feSize fe)) % 2 ^ fe.p.size : Nat) : ZMod fe.p),
      decide (leVal (xp.take (feSize fe)) < fe.p)) := by
  have hpos := feSize_pos fe
  have hl : (xp.take (feSize fe)).length = feSize fe := by rw [List.length_take]; omega
  have hp0 : 0 < fe.p.size := Nat.size_pos.2 (Nat.Prime.pos Fact.out)
  obtain ⟨t, h1, ys, h2, h3⟩ := mask_val (xs := xp.take (feSize fe)) (n := feSize fe - 1) (bits := fe.p.size)
    (m := feMask fe) (by omega) (by unfold feSize feBits; omega) (by unfold feSize feBits; omega) rfl
  unfold fe_import_le
  rw [slice_take h, C.ok_bind]
  rw [bytes_lt, (bytes_lt_loop_ok (feSize fe) hl.ge (by rw [Strm.leBytes_len])).1, C.ok_bind, h1, C.ok_bind, h2,
    C.ok_bind, h3, List.take_of_length_le (l := xp.take (feSize fe)) hl.le,
    List.take_of_length_le (l := leBytes (feSize fe) fe.p) (by rw [Strm.leBytes_len]), Strm.leVal_leBytes,
    Nat.mod_eq_of_lt (feSize_pow fe), C.pure_eq]
  congr 2
  split <;> rename_i hc <;> simp [hc]

theorem le_val [Fact fe.p.Prime] (x : ZMod fe.p) : leVal (fe_export_le fe x) = x.val := by
  rw [fe_export_le, Strm.leVal_leBytes, Nat.mod_eq_of_lt (x.val_lt.trans (feSize_pow fe))]

theorem le_len (x : ZMod fe.p) : (fe_export_le fe x).length = feSize fe := Strm.leBytes_len _ _

theorem le_inj [Fact fe.p.Prime] {x y : ZMod fe.p} (h : fe_export_le fe x = fe_export_le fe y) : x = y := by
  have := congrArg leVal h
  rw [le_val, le_val] at this
  exact ZMod.val_injective _ this

theorem fe_export_import_le [Fact fe.p.Prime] (x : ZMod fe.p) : fe_import_le fe (fe_export_le fe x) = .ok (x, true) := by
  rw [fe_import_le_ok fe (le_len fe x).ge, List.take_of_length_le (le_len fe x).le, le_val,
    Nat.mod_eq_of_lt (x.val_lt.trans (Nat.lt_size_self _)), ZMod.natCast_zmod_val, decide_eq_true (x.val_lt)]

end

/-! ### Clamping -/

theorem clamp_lo : ∀ j < 8, ∀ x < 256,
    (((BitVec.ofNat 8 x).setWidth 32 &&& -(BitVec.ofNat 32 (2 ^ j))).setWidth 8).toNat = x / 2 ^ j * 2 ^ j := by decide +kernel

theorem clamp_hi : ∀ t < 9, 0 < t → ∀ x < 256,
    (((((BitVec.ofNat 8 x).setWidth 32 &&& ((1 : BitVec 32) <<< t - 1)).setWidth 8).setWidth 32 ||| ((1 : BitVec 32) <<< (t - 1))).setWidth 8).toNat
      = x % 2 ^ (t - 1) + 2 ^ (t - 1) := by decide +kernel

theorem clamp_num {K t j lo m hi : Nat} (ht : 0 < t) (hj : j ≤ 8) (hlo : lo < 256) (hm : m < K) :
    lo / 2 ^ j * 2 ^ j + 256 * m + 256 * K * (hi % 2 ^ (t - 1) + 2 ^ (t - 1))
      = (lo + 256 * m + 256 * K * hi) % (256 * K * 2 ^ (t - 1)) / 2 ^ j * 2 ^ j + 256 * K * 2 ^ (t - 1) := by
  have e1 : (lo + 256 * m + 256 * K * hi) % (256 * K * 2 ^ (t - 1)) = lo + 256 * m + 256 * K * (hi % 2 ^ (t - 1)) := by
    rw [Nat.mod_mul, Nat.add_mul_mod_self_left, Nat.mod_eq_of_lt (by nlinarith), Nat.add_mul_div_left _ _ (by nlinarith),
      Nat.div_eq_of_lt (by nlinarith), Nat.zero_add]
  rw [e1]
  have e2 : ∀ M, (lo + 256 * M) / 2 ^ j * 2 ^ j = lo / 2 ^ j * 2 ^ j + 256 * M := by
    intro M
    have : 256 * M = 2 ^ j * (2 ^ (8 - j) * M) := by
      rw [← Nat.mul_assoc, ← Nat.pow_add, Nat.add_sub_cancel' hj]
    rw [this, Nat.add_mul_div_left _ _ (Nat.two_pow_pos j), Nat.add_mul]
    ring
  have e3 := e2 (m + K * (hi % 2 ^ (t - 1)))
  rw [show lo + 256 * m + 256 * K * (hi % 2 ^ (t - 1)) = lo + 256 * (m + K * (hi % 2 ^ (t - 1))) by ring, e3]
  ring

theorem split3 {xs : List Byte} {n : Nat} (h : xs.length = n + 2) : ∃ lo mid hi, xs = lo :: (mid ++ [hi]) ∧ mid.length = n := by
  rcases xs with _ | ⟨lo, xs⟩
  · simp at h
  · have : xs ≠ [] := by rintro rfl; simp at h
    refine ⟨lo, xs.dropLast, xs.getLast this, by rw [List.dropLast_append_getLast], ?_⟩
    rw [List.length_dropLast]
    simp only [List.length_cons] at h
    omega

section
variable {fe : FieldCode} [Fact fe.p.Prime]

theorem clamp_size {n : Nat} (hs : scSize n = feSize fe) (hn : 2 ≤ scSize n) {ec : Mont (ZMod fe.p)} (hnn : ec.n = n) (hb : ec.bits = feBits fe)
    {j : Nat} (hj : j < 8) (hh : ec.h = 2 ^ j) {xs : List Byte} (hl : scSize n ≤ xs.length) :
    ∃ out, mont_clamp ec xs = .ok out ∧ out.length = scSize n ∧ leVal out = clamp ec.bits ec.h (leVal (xs.take (scSize n))) := by
  subst hnn
  obtain ⟨n, hn'⟩ : ∃ n, scSize ec.n = n + 2 := ⟨scSize ec.n - 2, by omega⟩
  obtain ⟨lo, mid, hi, e, hmid⟩ := split3 (xs := xs.take (scSize ec.n)) (n := n) (by rw [List.length_take]; omega)
  have rd1 : ∀ a b : Byte, C.rd (a :: (mid ++ [b])) (n + 1) = .ok b := by
    intro a b
    simp [C.rd, ← hmid]
  have wr1 : ∀ a b c : Byte, C.wr (a :: (mid ++ [b])) (n + 1) c = .ok (a :: (mid ++ [c])) := by
    intro a b c
    simp [C.wr, ← hmid]
  have hbits : 0 < feBits fe := Nat.size_pos.2 (Nat.Prime.pos Fact.out)
  have hfs : feSize fe = (feBits fe + 7) / 8 := rfl
  set top := if ec.bits % 8 = 0 then 8 else ec.bits % 8 with htop
  have ht : 0 < top ∧ top < 9 ∧ ec.bits = 8 * (n + 1) + top := by
    rw [htop]
    split <;> omega
  refine ⟨(((lo.setWidth 32 &&& -(BitVec.ofNat 32 ec.h)).setWidth 8) :: (mid ++
    [(((hi.setWidth 32 &&& ((1 : BitVec 32) <<< top - 1)).setWidth 8).setWidth 32 ||| ((1 : BitVec 32) <<< (top - 1))).setWidth 8])), ?_, ?_, ?_⟩
  · unfold mont_clamp
    dsimp only
    rw [hs, decide_eq_true (le_refl _), C.check, if_pos rfl, C.ok_bind, slice_take (by omega), C.ok_bind, if_neg (lt_irrefl _),
      ← hs, e, show C.rd (lo :: (mid ++ [hi])) 0 = .ok lo from rfl, C.ok_bind,
      show ∀ c : Byte, C.wr (lo :: (mid ++ [hi])) 0 c = .ok (c :: (mid ++ [hi])) from fun c => by simp [C.wr], C.ok_bind, hn',
      show n + 2 - 1 = n + 1 from rfl, rd1, C.ok_bind, wr1, C.ok_bind, rd1, C.ok_bind, wr1]
  · simp [hn', hmid]
  · rw [e, leVal_cons, leVal_cons, leVal_append, leVal_append, leVal_cons, leVal_cons, leVal_nil, hmid]
    have l1 : lo = BitVec.ofNat 8 lo.toNat := by simp
    have l2 : hi = BitVec.ofNat 8 hi.toNat := by simp
    have c1 := clamp_lo j hj lo.toNat lo.isLt
    have c2 := clamp_hi top ht.2.1 ht.1 hi.toNat hi.isLt
    rw [← l1] at c1
    rw [← l2] at c2
    rw [hh, c1, c2]
    have hm := leVal_lt mid
    rw [hmid] at hm
    have := clamp_num (K := 256 ^ n) (t := top) (j := j) (lo := lo.toNat) (m := leVal mid) (hi := hi.toNat) ht.1 (by omega) lo.isLt hm
    unfold clamp
    rw [show 2 ^ (ec.bits - 1) = 256 * 256 ^ n * 2 ^ (top - 1) by
      rw [show ec.bits - 1 = 8 + 8 * n + (top - 1) by omega, pow_add, pow_add, pow_mul, show (2 : Nat) ^ 8 = 256 from rfl]]
    rw [show lo.toNat + 256 * (leVal mid + 256 ^ n * (hi.toNat + 256 * 0)) = lo.toNat + 256 * leVal mid + 256 * 256 ^ n * hi.toNat by ring, ← this]
    ring

end

end Torsion.Ecc
