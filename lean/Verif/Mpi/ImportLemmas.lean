import Verif.Mpi.Str
import Verif.Mpi.MpzScan
import Verif.Util.Props

namespace Torsion.Mpi

open Spec (val leVal beVal Rep Room)

theorem be_snoc (bs : List Byte) (b : Byte) : beVal (bs ++ [b]) = beVal bs * 256 + b.toNat := by
  rw [beVal_eq, beVal_eq, List.reverse_append, List.reverse_singleton, List.singleton_append, leVal_cons]
  omega

theorem be_lt (bs : List Byte) : beVal bs < 256 ^ bs.length := by
  rw [beVal_eq, ← List.length_reverse]
  exact leVal_lt _

theorem be_app (a b : List Byte) : beVal (a ++ b) = beVal b + 256 ^ b.length * beVal a := by
  rw [beVal_eq, beVal_eq, beVal_eq, List.reverse_append, leVal_append, List.length_reverse]

theorem import_tail_snoc (bs : List Byte) (b : Byte) :
    mpn_import_tail (bs ++ [b]) = (mpn_import_tail bs <<< 8) ||| b.setWidth 64 := by
  unfold mpn_import_tail
  rw [List.foldl_append]
  rfl

theorem import_tail_val (bs : List Byte) : bs.length ≤ 8 → (mpn_import_tail bs).toNat = beVal bs := by
  induction bs using List.reverseRecOn with
  | nil => intro _; rfl
  | append_singleton bs b ih =>
    intro h
    rw [List.length_append, List.length_singleton] at h
    have ih := ih (by omega)
    have hlt := be_lt bs
    have h7 : 256 ^ bs.length ≤ 256 ^ 7 := Nat.pow_le_pow_right (by decide) (by omega)
    have hb := b.isLt
    have hw : (b.setWidth 64).toNat = b.toNat := by
      rw [BitVec.toNat_setWidth]; omega
    have hs : (mpn_import_tail bs <<< 8).toNat = beVal bs * 256 := by
      rw [shl_toNat, ih]; omega
    rw [import_tail_snoc, or_disjoint _ _ 8 (by rw [hs]; omega) (by rw [hw]; omega), hs, hw, be_snoc]

theorem rd_of_lt {xs : List Byte} {i : Nat} (h : i < xs.length) : C.rd xs i = .ok xs[i] := by
  unfold C.rd
  rw [List.getElem?_eq_getElem h]

theorem take8 {xs : List Byte} {p : Nat} (h : p + 8 ≤ xs.length) :
    (xs.drop p).take 8 = [xs[p], xs[p + 1], xs[p + 2], xs[p + 3], xs[p + 4], xs[p + 5], xs[p + 6], xs[p + 7]] := by
  apply List.ext_getElem
  · simp; omega
  · intro i h1 h2
    simp only [List.length_cons, List.length_nil] at h2
    match i, h2 with
    | 0, _ => simp
    | 1, _ => simp
    | 2, _ => simp
    | 3, _ => simp
    | 4, _ => simp
    | 5, _ => simp
    | 6, _ => simp
    | 7, _ => simp

theorem import8 {xs : List Byte} {p : Nat} (h : p + 8 ≤ xs.length) :
    (∃ z, mp_import_be xs p = .ok z ∧ z.toNat = beVal ((xs.drop p).take 8)) ∧
    (∃ z, mp_import_le xs p = .ok z ∧ z.toNat = leVal ((xs.drop p).take 8)) := by
  have hv := read64_val #v[xs[p], xs[p + 1], xs[p + 2], xs[p + 3], xs[p + 4], xs[p + 5], xs[p + 6], xs[p + 7]]
  rw [take8 h]
  unfold mp_import_be mp_import_le
  rw [rd_of_lt (by omega : p < _), rd_of_lt (by omega : p + 1 < _), rd_of_lt (by omega : p + 2 < _),
    rd_of_lt (by omega : p + 3 < _), rd_of_lt (by omega : p + 4 < _), rd_of_lt (by omega : p + 5 < _),
    rd_of_lt (by omega : p + 6 < _), rd_of_lt (by omega : p + 7 < _)]
  exact ⟨⟨_, rfl, hv.2⟩, ⟨_, rfl, hv.1⟩⟩

theorem slice_ok {xs : List Byte} {p n : Nat} (h : p + n ≤ xs.length) :
    C.slice xs p n = .ok ((xs.drop p).take n) := if_pos h

theorem limb_mod (a b n : Nat) (ha : a < 2 ^ 64) : a + 2 ^ 64 * (b % 2 ^ (64 * n)) = (a + 2 ^ 64 * b) % 2 ^ (64 * (n + 1)) := by
  rw [pow64', Nat.mod_mul, Nat.add_mul_mod_self_left, Nat.mod_eq_of_lt ha, Nat.add_mul_div_left _ _ (by decide),
    Nat.div_eq_of_lt ha, Nat.zero_add]

theorem small_mod {a n k : Nat} (h : a < 256 ^ k) (hk : k ≤ 8) : a % 2 ^ (64 * (n + 1)) = a := by
  apply Nat.mod_eq_of_lt
  have h1 : 256 ^ k ≤ 256 ^ 8 := Nat.pow_le_pow_right (by decide) hk
  have h2 : 2 ^ 64 ≤ 2 ^ (64 * (n + 1)) := Nat.pow_le_pow_right (by decide) (by omega)
  omega

theorem import_be_val (xs : List Byte) : ∀ zn xn : Nat, xn ≤ xs.length →
    ∃ z, mpn_import_be xs zn xn = .ok z ∧ z.length = zn ∧ val z = beVal (xs.take xn) % 2 ^ (64 * zn)
  | 0, xn, _ => ⟨[], rfl, rfl, by simp [val_nil, Nat.mod_one]⟩
  | zn + 1, xn, h => by
    unfold mpn_import_be
    by_cases h8 : 8 ≤ xn
    · rw [if_pos h8]
      obtain ⟨⟨z, hz, hzv⟩, -⟩ := import8 (xs := xs) (p := xn - 8) (by omega)
      obtain ⟨zp, hzp, hl, hv⟩ := import_be_val xs zn (xn - 8) (by omega)
      rw [hz, C.ok_bind, hzp, C.ok_bind]
      refine ⟨_, rfl, by rw [List.length_cons, hl], ?_⟩
      have hsplit : xs.take xn = xs.take (xn - 8) ++ (xs.drop (xn - 8)).take 8 := by
        rw [← List.take_add]; congr 1; omega
      have hlen : ((xs.drop (xn - 8)).take 8).length = 8 := by simp; omega
      rw [val_cons, hv, hzv, hsplit, be_app, hlen]
      have := z.isLt
      rw [hzv] at this
      exact limb_mod _ _ zn this
    · rw [if_neg h8]
      by_cases h0 : 0 < xn
      · rw [if_pos h0, slice_ok (by omega), C.ok_bind, List.drop_zero]
        have hlen : (xs.take xn).length = xn := by simp; omega
        refine ⟨_, rfl, by rw [List.length_cons, len_zeros], ?_⟩
        rw [val_cons, val_zeros, import_tail_val _ (by omega), Nat.mul_zero, Nat.add_zero,
          small_mod (be_lt _) (by omega)]
      · rw [if_neg h0]
        obtain rfl : xn = 0 := by omega
        refine ⟨_, rfl, len_zeros _, ?_⟩
        rw [val_zeros, List.take_zero]
        rfl

theorem import_le_val (xs : List Byte) : ∀ zn p : Nat, p ≤ xs.length →
    ∃ z, mpn_import_le xs zn p = .ok z ∧ z.length = zn ∧ val z = leVal (xs.drop p) % 2 ^ (64 * zn)
  | 0, p, _ => ⟨[], rfl, rfl, by simp [val_nil, Nat.mod_one]⟩
  | zn + 1, p, h => by
    unfold mpn_import_le
    by_cases h8 : 8 ≤ xs.length - p
    · rw [if_pos h8]
      obtain ⟨-, z, hz, hzv⟩ := import8 (xs := xs) (p := p) (by omega)
      obtain ⟨zp, hzp, hl, hv⟩ := import_le_val xs zn (p + 8) (by omega)
      rw [hz, C.ok_bind, hzp, C.ok_bind]
      refine ⟨_, rfl, by rw [List.length_cons, hl], ?_⟩
      have hsplit : xs.drop p = (xs.drop p).take 8 ++ xs.drop (p + 8) := by
        rw [← List.drop_drop, List.take_append_drop]
      have hlen : ((xs.drop p).take 8).length = 8 := by simp; omega
      rw [val_cons, hv, hzv]
      conv_rhs => rw [hsplit, leVal_append, hlen]
      have := z.isLt
      rw [hzv] at this
      exact limb_mod _ _ zn this
    · rw [if_neg h8]
      have hlen : (xs.drop p).length = xs.length - p := List.length_drop ..
      by_cases h0 : 0 < xs.length - p
      · rw [if_pos h0, slice_ok (by omega), C.ok_bind, ← hlen, List.take_length]
        refine ⟨_, rfl, by rw [List.length_cons, len_zeros], ?_⟩
        rw [val_cons, val_zeros, import_tail_val _ (by rw [List.length_reverse]; omega), Nat.mul_zero, Nat.add_zero,
          beVal_eq, List.reverse_reverse, small_mod (leVal_lt _) (by omega)]
      · rw [if_neg h0]
        refine ⟨_, rfl, len_zeros _, ?_⟩
        rw [val_zeros, List.drop_eq_nil_of_le (by omega)]
        rfl

/-! Export -/

theorem export_tail_val : ∀ (n : Nat) (x : Limb), (mpn_export_tail n x).length = n ∧
    leVal (mpn_export_tail n x) = x.toNat % 256 ^ n
  | 0, x => ⟨rfl, by simp [mpn_export_tail, leVal_nil, Nat.mod_one]⟩
  | n + 1, x => by
    obtain ⟨h1, h2⟩ := export_tail_val n (x >>> 8)
    unfold mpn_export_tail
    refine ⟨by rw [List.length_cons, h1], ?_⟩
    rw [leVal_cons, h2, shr_toNat, BitVec.toNat_setWidth, show (256 : Nat) ^ (n + 1) = 256 * 256 ^ n from Nat.pow_succ',
      Nat.mod_mul (a := 256), show (2 : Nat) ^ 8 = 256 by norm_num]

theorem export8 (x : Limb) : (mp_export_le x).length = 8 ∧ leVal (mp_export_le x) = x.toNat ∧
    mp_export_be x = (mp_export_le x).reverse :=
  ⟨rfl, (write64_val x).1, rfl⟩

theorem export_le_val : ∀ (xp : List Limb) (zn : Nat), (mpn_export_le xp zn).length = zn ∧
    leVal (mpn_export_le xp zn) = val xp % 256 ^ zn
  | [], zn => by
    unfold mpn_export_le
    refine ⟨List.length_replicate .., ?_⟩
    rw [val_nil, Nat.zero_mod]
    induction zn with
    | zero => rfl
    | succ n ih => rw [List.replicate_succ, leVal_cons, ih]; rfl
  | x :: xp, zn => by
    unfold mpn_export_le
    by_cases h8 : 8 ≤ zn
    · obtain ⟨k, rfl⟩ : ∃ k, zn = 8 + k := ⟨zn - 8, by omega⟩
      rw [if_pos h8, Nat.add_sub_cancel_left]
      obtain ⟨h1, h2⟩ := export_le_val xp k
      obtain ⟨e1, e2, -⟩ := export8 x
      refine ⟨by rw [List.length_append, h1, e1], ?_⟩
      have hx := x.isLt
      rw [leVal_append, e1, e2, h2, val_cons, Nat.pow_add, Nat.mod_mul, show (256 : Nat) ^ 8 = 2 ^ 64 by norm_num,
        Nat.add_mul_mod_self_left, Nat.mod_eq_of_lt hx, Nat.add_mul_div_left _ _ (by decide), Nat.div_eq_of_lt hx,
        Nat.zero_add]
    · rw [if_neg h8]
      obtain ⟨h1, h2⟩ := export_tail_val zn x
      refine ⟨h1, ?_⟩
      rw [h2, val_cons]
      obtain ⟨k, e⟩ : ∃ k, zn + k = 8 := ⟨8 - zn, by omega⟩
      have : (2 : Nat) ^ 64 = 256 ^ zn * 256 ^ k := by
        rw [← Nat.pow_add]
        rw [e]; norm_num
      rw [this, Nat.mul_assoc, Nat.add_mul_mod_self_left]

theorem export_be_rev : ∀ (xp : List Limb) (zn : Nat), mpn_export_be xp zn = (mpn_export_le xp zn).reverse
  | [], zn => by simp [mpn_export_be, mpn_export_le]
  | x :: xp, zn => by
    unfold mpn_export_be mpn_export_le
    split
    · rw [List.reverse_append, export_be_rev xp, (export8 x).2.2]
    · rfl

end Torsion.Mpi
