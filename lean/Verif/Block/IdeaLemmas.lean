import Verif.Block.Idea
import Verif.Block.Feistel
import Mathlib.FieldTheory.Finite.Basic
import Mathlib.Tactic.NormNum.Prime

/-!
IDEA: the multiplication is the one modulo 65537 with 0 standing for 65536; decryption undoes
encryption.
-/
namespace Torsion.Blkc

instance : Fact (Nat.Prime 65537) := ⟨by norm_num⟩

/-- The residue a 16-bit word stands for. -/
def ival (x : BitVec 16) : Nat := if x.toNat = 0 then 65536 else x.toNat

theorem ival_lt (x : BitVec 16) : 0 < ival x ∧ ival x < 65537 := by
  have := x.isLt
  unfold ival
  split <;> omega

theorem ival_inj {x y : BitVec 16} (h : ival x = ival y) : x = y := by
  apply BitVec.eq_of_toNat_eq
  have := x.isLt
  have := y.isLt
  unfold ival at h
  split at h <;> split at h <;> omega

theorem zx64 (x : BitVec 16) : (x.zeroExtend 64 : BitVec 64).toNat = x.toNat := by
  show (x.setWidth 64).toNat = x.toNat
  rw [BitVec.toNat_setWidth]
  have := x.isLt
  omega

theorem adj (x : BitVec 16) :
    ((x.zeroExtend 64) ||| ((0x10000 : BitVec 64) &&& -((x.zeroExtend 64 - 1) >>> 63))).toNat =
      ival x := by
  have hx := x.isLt
  by_cases h : x.toNat = 0
  · have e : x = 0 := BitVec.eq_of_toNat_eq h
    subst e
    decide +kernel
  · have e : (x.zeroExtend 64 - 1) >>> 63 = (0 : BitVec 64) := by
      apply BitVec.eq_of_toNat_eq
      rw [BitVec.toNat_ushiftRight, BitVec.toNat_sub, zx64, Nat.shiftRight_eq_div_pow]
      show (2 ^ 64 - 1 + x.toNat) % 2 ^ 64 / 2 ^ 63 = 0
      omega
    rw [e]
    have e2 : (0x10000 : BitVec 64) &&& -(0 : BitVec 64) = 0#64 := by decide +kernel
    rw [e2, BitVec.or_zero, zx64]
    simp only [ival, h, if_false]

theorem residue_ne (x y : BitVec 16) : ival x * ival y % 65537 ≠ 0 := by
  intro h
  have hd := Nat.dvd_of_mod_eq_zero h
  have hp : Nat.Prime 65537 := Fact.out
  rcases (Nat.Prime.dvd_mul hp).1 hd with h' | h'
  · exact absurd (Nat.le_of_dvd (ival_lt x).1 h') (by have := ival_lt x; omega)
  · exact absurd (Nat.le_of_dvd (ival_lt y).1 h') (by have := ival_lt y; omega)

theorem idea_mul_val (x y : BitVec 16) : ival (idea_mul x y) = ival x * ival y % 65537 := by
  have hn := residue_ne x y
  have hl : ival x * ival y < 2 ^ 64 := by
    have h1 := ival_lt x
    have h2 := ival_lt y
    calc ival x * ival y ≤ 65537 * 65537 := Nat.mul_le_mul (by omega) (by omega)
      _ < 2 ^ 64 := by norm_num
  have e : (idea_mul x y).toNat = (ival x * ival y % 65537) % 2 ^ 16 := by
    simp only [idea_mul]
    rw [BitVec.truncate_eq_setWidth, BitVec.toNat_setWidth, BitVec.toNat_umod, BitVec.toNat_mul, adj,
      adj, Nat.mod_eq_of_lt hl]
    rfl
  have hm : ival x * ival y % 65537 < 65537 := Nat.mod_lt _ (by norm_num)
  generalize ival x * ival y % 65537 = r at *
  unfold ival
  rw [e]
  split <;> omega

theorem inv_loop_val (x : BitVec 64) (hx : x.toNat < 65536) : ∀ (n e : Nat) (z : BitVec 64),
    z.toNat = x.toNat ^ e % 65537 →
    (idea_inv_loop x n z).toNat = x.toNat ^ (2 ^ n * (e + 1) - 1) % 65537
  | 0, e, z, h => by simpa [idea_inv_loop] using h
  | n + 1, e, z, h => by
    have hz : z.toNat < 65537 := by rw [h]; exact Nat.mod_lt _ (by norm_num)
    rw [idea_inv_loop, inv_loop_val x hx n (2 * e + 1)]
    · congr 2
      rw [Nat.pow_succ]
      have : 2 ^ n * (2 * e + 1 + 1) = 2 ^ n * 2 * (e + 1) := by ring
      rw [this]
    · have h1 : z.toNat * z.toNat < 2 ^ 33 := by
        calc z.toNat * z.toNat ≤ 65536 * 65536 := Nat.mul_le_mul (by omega) (by omega)
          _ < 2 ^ 33 := by norm_num
      have h2 : z.toNat * z.toNat * x.toNat < 2 ^ 64 := by
        calc z.toNat * z.toNat * x.toNat ≤ 2 ^ 33 * 65536 := Nat.mul_le_mul (by omega) (by omega)
          _ < 2 ^ 64 := by norm_num
      rw [BitVec.toNat_umod, BitVec.toNat_mul, BitVec.toNat_mul,
        Nat.mod_eq_of_lt (show z.toNat * z.toNat < 2 ^ 64 by omega), Nat.mod_eq_of_lt h2, h]
      show _ % 65537 = _
      rw [show 2 * e + 1 = e + e + 1 by ring, pow_succ, pow_add]
      exact ((Nat.ModEq.mul (Nat.mod_modEq _ _) (Nat.mod_modEq _ _)).mul_right _)

theorem fermat (a : Nat) (h0 : 0 < a) (h1 : a < 65537) : a ^ 65535 * a % 65537 = 1 := by
  rw [← pow_succ]
  have hne : (a : ZMod 65537) ≠ 0 := by
    intro h
    rw [ZMod.natCast_eq_zero_iff] at h
    exact absurd (Nat.le_of_dvd h0 h) (by omega)
  have h := ZMod.pow_card_sub_one_eq_one hne
  have h' : ((a ^ 65536 : Nat) : ZMod 65537) = ((1 : Nat) : ZMod 65537) := by
    rw [Nat.cast_pow, Nat.cast_one]; exact h
  rw [ZMod.natCast_eq_natCast_iff] at h'
  exact h'

theorem idea_inv_val (x : BitVec 16) : ival (idea_inv x) * ival x % 65537 = 1 := by
  have hx := x.isLt
  have e1 : (x.zeroExtend 64 : BitVec 64).toNat = x.toNat := zx64 x
  have hl := inv_loop_val (x.zeroExtend 64) (by omega) 15 1 (x.zeroExtend 64) (by
    rw [e1, pow_one, Nat.mod_eq_of_lt (by omega)])
  rw [e1] at hl
  have e2 : (idea_inv x).toNat = (x.toNat ^ 65535 % 65537) % 2 ^ 16 := by
    rw [idea_inv, BitVec.truncate_eq_setWidth, BitVec.toNat_setWidth, hl]
    rfl
  by_cases h : x.toNat = 0
  · rw [h] at e2
    have e3 : (idea_inv x).toNat = 0 := by rw [e2, zero_pow (by norm_num)]; rfl
    simp only [ival, e3, h]
    norm_num
  · have hf := fermat x.toNat (by omega) (by omega)
    have hm : x.toNat ^ 65535 % 65537 < 65537 := Nat.mod_lt _ (by norm_num)
    rw [Nat.mul_mod] at hf
    rw [Nat.mod_eq_of_lt (show x.toNat < 65537 by omega)] at hf
    generalize x.toNat ^ 65535 % 65537 = r at *
    have hr : ival (idea_inv x) = r := by
      unfold ival
      rw [e2]
      have : r ≠ 0 := by
        intro h0; rw [h0] at hf; simp at hf
      split <;> omega
    rw [hr]
    simp only [ival, h, if_false]
    exact hf

theorem mul_inv (a k : BitVec 16) : idea_mul (idea_mul a k) (idea_inv k) = a := by
  apply ival_inj
  rw [idea_mul_val, idea_mul_val]
  have h := idea_inv_val k
  have : (ival a * ival k % 65537) * ival (idea_inv k) % 65537 =
      ival a * (ival (idea_inv k) * ival k % 65537) % 65537 := by
    rw [Nat.mod_mul_mod, Nat.mul_mod_mod]
    congr 1; ring
  rw [this, h, Nat.mul_one, Nat.mod_eq_of_lt (ival_lt a).2]

/-- The first four operations of a round. -/
def idT (k0 k1 k2 k3 : BitVec 16) (q : Quad16) : Quad16 :=
  ⟨idea_mul q.a k0, q.b + k1, q.c + k2, idea_mul q.d k3⟩

/-- The rest of a round, without the exchange of the middle words. -/
def idN (k4 k5 : BitVec 16) (q : Quad16) : Quad16 :=
  let t3 := idea_mul (q.c ^^^ q.a) k4
  let t2 := idea_mul ((q.b ^^^ q.d) + t3) k5
  ⟨q.a ^^^ t2, (t3 + t2) ^^^ q.b, t2 ^^^ q.c, q.d ^^^ (t3 + t2)⟩

def idS (q : Quad16) : Quad16 := ⟨q.a, q.c, q.b, q.d⟩

theorem idN_idN (k4 k5 : BitVec 16) (q : Quad16) : idN k4 k5 (idN k4 k5 q) = q := by
  obtain ⟨a, b, c, d⟩ := q
  have x1 (t : BitVec 16) : t ^^^ c ^^^ (a ^^^ t) = c ^^^ a := by
    rw [BitVec.xor_comm t c, BitVec.xor_comm a t, ← BitVec.xor_assoc, xx]
  have x2 (t : BitVec 16) : t ^^^ b ^^^ (d ^^^ t) = b ^^^ d := by
    rw [BitVec.xor_comm t b, BitVec.xor_comm d t, ← BitVec.xor_assoc, xx]
  have x3 (t y : BitVec 16) : t ^^^ (t ^^^ y) = y := by
    rw [← BitVec.xor_assoc, BitVec.xor_self, BitVec.zero_xor]
  simp only [idN, x1, x2, x3, xx]

theorem idea_round_eq (K : Vector (BitVec 16) 52) (q : Quad16) (i : Fin 8) :
    idea_round K q i = idS (idN K[6 * i.val + 4] K[6 * i.val + 5]
      (idT K[6 * i.val] K[6 * i.val + 1] K[6 * i.val + 2] K[6 * i.val + 3] q)) := rfl

theorem add_neg_self (a b : BitVec 16) : a + b + -b = a := by ring

theorem idT_swap (k0 k1 k2 k3 : BitVec 16) (q : Quad16) :
    idT (idea_inv k0) (-k2) (-k1) (idea_inv k3) (idS (idT k0 k1 k2 k3 q)) = idS q := by
  obtain ⟨a, b, c, d⟩ := q
  simp only [idT, idS, mul_inv, add_neg_self]

theorem idT_undo (k0 k1 k2 k3 : BitVec 16) (q : Quad16) :
    idT (idea_inv k0) (-k1) (-k2) (idea_inv k3) (idT k0 k1 k2 k3 q) = q := by
  obtain ⟨a, b, c, d⟩ := q
  simp only [idT, mul_inv, add_neg_self]

/-- The words of the decryption key. -/
def idea_dk (K : Vector (BitVec 16) 52) : Vector (BitVec 16) 52 :=
  #v[idea_inv K[48], -K[49], -K[50], idea_inv K[51], K[46], K[47],
     idea_inv K[42], -K[44], -K[43], idea_inv K[45], K[40], K[41],
     idea_inv K[36], -K[38], -K[37], idea_inv K[39], K[34], K[35],
     idea_inv K[30], -K[32], -K[31], idea_inv K[33], K[28], K[29],
     idea_inv K[24], -K[26], -K[25], idea_inv K[27], K[22], K[23],
     idea_inv K[18], -K[20], -K[19], idea_inv K[21], K[16], K[17],
     idea_inv K[12], -K[14], -K[13], idea_inv K[15], K[10], K[11],
     idea_inv K[6], -K[8], -K[7], idea_inv K[9], K[4], K[5],
     idea_inv K[0], -K[1], -K[2], idea_inv K[3]]

theorem idea_init_decrypt_eq (K : Vector (BitVec 16) 52) :
    idea_init_decrypt K = .ok (idea_dk K) := rfl

/-- One round of decryption against the round of encryption it undoes. -/
theorem idea_step (K : Vector (BitVec 16) 52) (i j : Fin 8) (s u : Quad16)
    (h : idT (idea_dk K)[6 * j.val] (idea_dk K)[6 * j.val + 1] (idea_dk K)[6 * j.val + 2]
      (idea_dk K)[6 * j.val + 3] u = idS (idea_round K s i))
    (h4 : (idea_dk K)[6 * j.val + 4] = K[6 * i.val + 4])
    (h5 : (idea_dk K)[6 * j.val + 5] = K[6 * i.val + 5]) :
    idea_round (idea_dk K) u j =
      idS (idT K[6 * i.val] K[6 * i.val + 1] K[6 * i.val + 2] K[6 * i.val + 3] s) := by
  rw [idea_round_eq, h, h4, h5, idea_round_eq]
  generalize idT _ _ _ _ s = t
  have e : ∀ q, idS (idS q) = q := fun _ => rfl
  rw [e, idN_idN]

theorem idea_crypt_inv (K : Vector (BitVec 16) 52) (b : Vector Byte 8) :
    idea_crypt (idea_dk K) (idea_crypt K b) = b := by
  unfold idea_crypt
  simp only [load_store4x16be]
  generalize hs0 : load4x16be b = s0
  simp only [List.foldl_cons, List.foldl_nil]
  generalize hs1 : idea_round K s0 0 = s1
  generalize hs2 : idea_round K s1 1 = s2
  generalize hs3 : idea_round K s2 2 = s3
  generalize hs4 : idea_round K s3 3 = s4
  generalize hs5 : idea_round K s4 4 = s5
  generalize hs6 : idea_round K s5 5 = s6
  generalize hs7 : idea_round K s6 6 = s7
  generalize hs8 : idea_round K s7 7 = s8
  have e0 : idT (idea_inv K[48]) (-K[49]) (-K[50]) (idea_inv K[51])
      ⟨idea_mul s8.a K[48], s8.c + K[49], s8.b + K[50], idea_mul s8.d K[51]⟩ = idS s8 :=
    idT_undo K[48] K[49] K[50] K[51] (idS s8)
  rw [idea_step K 7 0 s7 _ (by rw [hs8]; exact e0) rfl rfl,
    idea_step K 6 1 s6 _ (by rw [hs7]; exact idT_swap _ _ _ _ s7) rfl rfl,
    idea_step K 5 2 s5 _ (by rw [hs6]; exact idT_swap _ _ _ _ s6) rfl rfl,
    idea_step K 4 3 s4 _ (by rw [hs5]; exact idT_swap _ _ _ _ s5) rfl rfl,
    idea_step K 3 4 s3 _ (by rw [hs4]; exact idT_swap _ _ _ _ s4) rfl rfl,
    idea_step K 2 5 s2 _ (by rw [hs3]; exact idT_swap _ _ _ _ s3) rfl rfl,
    idea_step K 1 6 s1 _ (by rw [hs2]; exact idT_swap _ _ _ _ s2) rfl rfl,
    idea_step K 0 7 s0 _ (by rw [hs1]; exact idT_swap _ _ _ _ s1) rfl rfl]
  have e1 := idT_undo K[0] K[1] K[2] K[3] s0
  have e2 : store4x16be (idT (idea_inv K[0]) (-K[1]) (-K[2]) (idea_inv K[3])
      (idT K[0] K[1] K[2] K[3] s0)) = b := by rw [e1, ← hs0]; exact store_load4x16be b
  exact e2

theorem zx32 (x : BitVec 16) : (x.zeroExtend 32 : BitVec 32).toNat = x.toNat := by
  show (x.setWidth 32).toNat = x.toNat
  rw [BitVec.toNat_setWidth]
  have := x.isLt
  omega

theorem mask32 (x : BitVec 16) : -((x.zeroExtend 32 - 1) >>> 31 : BitVec 32) =
    if x = 0 then BitVec.allOnes 32 else 0 := by
  have hx := x.isLt
  by_cases h : x.toNat = 0
  · have e : x = 0 := BitVec.eq_of_toNat_eq h
    subst e
    decide +kernel
  · have hne : x ≠ 0 := fun e => h (by rw [e]; rfl)
    have e : (x.zeroExtend 32 - 1) >>> 31 = (0 : BitVec 32) := by
      apply BitVec.eq_of_toNat_eq
      rw [BitVec.toNat_ushiftRight, BitVec.toNat_sub, zx32, Nat.shiftRight_eq_div_pow]
      show (2 ^ 32 - 1 + x.toNat) % 2 ^ 32 / 2 ^ 31 = 0
      omega
    rw [e, if_neg hne]
    decide +kernel

theorem low_hi (w : Nat) (h : w < 2 ^ 32) :
    ((2 ^ 32 - w / 65536 + w % 65536) % 2 ^ 32 + (if w % 65536 < w / 65536 then 1 else 0)) % 2 ^ 32 %
      2 ^ 16 = w % 65537 % 2 ^ 16 := by
  have h1 : w = 65536 * (w / 65536) + w % 65536 := (Nat.div_add_mod w 65536).symm
  have h2 : w % 65536 < 65536 := Nat.mod_lt _ (by norm_num)
  have h3 : w / 65536 < 65536 := by omega
  generalize w / 65536 = q at *
  generalize w % 65536 = r at *
  subst h1
  by_cases hc : r < q
  · have : (65536 * q + r) % 65537 = 65537 + r - q := by omega
    rw [this, if_pos hc]; omega
  · have : (65536 * q + r) % 65537 = r - q := by omega
    rw [this, if_neg hc]; omega

theorem portable_toNat (x y : BitVec 16) :
    (idea_mul_portable x y).toNat = (ival x * ival y % 65537) % 2 ^ 16 := by
  have hx := x.isLt
  have hy := y.isLt
  by_cases h0 : x = 0
  · subst h0
    by_cases h1 : y = 0
    · subst h1; decide +kernel
    · have hyn : y.toNat ≠ 0 := fun e => h1 (BitVec.eq_of_toNat_eq e)
      have e : idea_mul_portable 0 y = ((1 : BitVec 32) - y.zeroExtend 32).truncate 16 := by
        simp only [idea_mul_portable, mask32, h1, if_false, if_true]
        have e1 : (BitVec.zeroExtend 32 (0 : BitVec 16)) * y.zeroExtend 32 = (0 : BitVec 32) := by
          show (0#32) * _ = 0#32
          rw [BitVec.zero_mul]
        rw [e1, BitVec.and_allOnes]
        have e2 : ((0 : BitVec 32) &&& (0xffff : BitVec 32)) - (0 : BitVec 32) >>> 16 +
            (if ((0 : BitVec 32) &&& (0xffff : BitVec 32)) < (0 : BitVec 32) >>> 16 then (1 : BitVec 32) else 0) |||
            (1 : BitVec 32) - BitVec.zeroExtend 32 (0 : BitVec 16) &&& (0 : BitVec 32) = 0#32 := by decide +kernel
        rw [e2, BitVec.zero_or]
      rw [e, BitVec.truncate_eq_setWidth, BitVec.toNat_setWidth, BitVec.toNat_sub, zx32]
      have e3 : ival 0 = 65536 := rfl
      have e4 : ival y = y.toNat := by simp only [ival, hyn, if_false]
      rw [e3, e4]
      show (2 ^ 32 - y.toNat + 1) % 2 ^ 32 % 2 ^ 16 = _
      have : 65536 * y.toNat % 65537 = 65537 - y.toNat := by omega
      rw [this]; omega
  · have hxn : x.toNat ≠ 0 := fun e => h0 (BitVec.eq_of_toNat_eq e)
    by_cases h1 : y = 0
    · subst h1
      have e : idea_mul_portable x 0 = ((1 : BitVec 32) - x.zeroExtend 32).truncate 16 := by
        simp only [idea_mul_portable, mask32, h0, if_false, if_true]
        have e1 : x.zeroExtend 32 * (BitVec.zeroExtend 32 (0 : BitVec 16)) = (0 : BitVec 32) := by
          show _ * (0#32) = 0#32
          rw [BitVec.mul_zero]
        rw [e1, BitVec.and_allOnes]
        have e2 : ((0 : BitVec 32) &&& (0xffff : BitVec 32)) - (0 : BitVec 32) >>> 16 +
            (if ((0 : BitVec 32) &&& (0xffff : BitVec 32)) < (0 : BitVec 32) >>> 16 then (1 : BitVec 32) else 0) = 0#32 := by
          decide +kernel
        have e3 : (1 : BitVec 32) - BitVec.zeroExtend 32 (0 : BitVec 16) &&& (0 : BitVec 32) = 0#32 := by decide +kernel
        rw [e2, e3, BitVec.zero_or, BitVec.or_zero]
      rw [e, BitVec.truncate_eq_setWidth, BitVec.toNat_setWidth, BitVec.toNat_sub, zx32]
      have e3 : ival 0 = 65536 := rfl
      have e4 : ival x = x.toNat := by simp only [ival, hxn, if_false]
      rw [e3, e4]
      show (2 ^ 32 - x.toNat + 1) % 2 ^ 32 % 2 ^ 16 = _
      have : x.toNat * 65536 % 65537 = 65537 - x.toNat := by omega
      rw [this]; omega
    · have hyn : y.toNat ≠ 0 := fun e => h1 (BitVec.eq_of_toNat_eq e)
      simp only [idea_mul_portable, mask32, h0, h1, if_false]
      have ea (a : BitVec 32) : a &&& (0 : BitVec 32) = 0#32 := BitVec.and_zero
      have hw : x.toNat * y.toNat < 2 ^ 32 := by
        calc x.toNat * y.toNat ≤ 65535 * 65535 := Nat.mul_le_mul (by omega) (by omega)
          _ < 2 ^ 32 := by norm_num
      have em : (x.zeroExtend 32 * y.zeroExtend 32 : BitVec 32).toNat = x.toNat * y.toNat := by
        rw [BitVec.toNat_mul, zx32, zx32, Nat.mod_eq_of_lt hw]
      have eh : ((x.zeroExtend 32 * y.zeroExtend 32 : BitVec 32) >>> 16).toNat =
          x.toNat * y.toNat / 65536 := by
        rw [BitVec.toNat_ushiftRight, em, Nat.shiftRight_eq_div_pow]
      have el : ((x.zeroExtend 32 * y.zeroExtend 32 : BitVec 32) &&& (0xffff : BitVec 32)).toNat =
          x.toNat * y.toNat % 65536 := by
        rw [BitVec.toNat_and, em]
        exact Nat.and_two_pow_sub_one_eq_mod _ 16
      rw [ea, ea, BitVec.or_zero, BitVec.or_zero, BitVec.truncate_eq_setWidth, BitVec.toNat_setWidth,
        BitVec.toNat_add, BitVec.toNat_sub, eh, el]
      have hif : (if (x.zeroExtend 32 * y.zeroExtend 32 : BitVec 32) &&& (0xffff : BitVec 32) <
          (x.zeroExtend 32 * y.zeroExtend 32 : BitVec 32) >>> 16 then (1 : BitVec 32) else 0).toNat =
          if x.toNat * y.toNat % 65536 < x.toNat * y.toNat / 65536 then 1 else 0 := by
        have hd : ((x.zeroExtend 32 * y.zeroExtend 32 : BitVec 32) &&& (0xffff : BitVec 32) <
            (x.zeroExtend 32 * y.zeroExtend 32 : BitVec 32) >>> 16) ↔
            x.toNat * y.toNat % 65536 < x.toNat * y.toNat / 65536 := by
          rw [BitVec.lt_def, eh, el]
        by_cases hc : x.toNat * y.toNat % 65536 < x.toNat * y.toNat / 65536
        · rw [if_pos hc, if_pos (hd.2 hc)]; rfl
        · rw [if_neg hc, if_neg (fun hh => hc (hd.1 hh))]; rfl
      rw [hif, low_hi _ hw]
      simp only [ival, hxn, hyn, if_false]

theorem mul_toNat (x y : BitVec 16) :
    (idea_mul x y).toNat = (ival x * ival y % 65537) % 2 ^ 16 := by
  have hl : ival x * ival y < 2 ^ 64 := by
    have h1 := ival_lt x
    have h2 := ival_lt y
    calc ival x * ival y ≤ 65537 * 65537 := Nat.mul_le_mul (by omega) (by omega)
      _ < 2 ^ 64 := by norm_num
  simp only [idea_mul]
  rw [BitVec.truncate_eq_setWidth, BitVec.toNat_setWidth, BitVec.toNat_umod, BitVec.toNat_mul, adj,
    adj, Nat.mod_eq_of_lt hl]
  rfl

theorem portable_mul (x y : BitVec 16) : idea_mul_portable x y = idea_mul x y :=
  BitVec.eq_of_toNat_eq (by rw [portable_toNat, mul_toNat])

theorem portable_inv_loop (x : BitVec 16) : ∀ (n e : Nat) (z : BitVec 16),
    ival z = ival x ^ e % 65537 →
    ival (idea_inv_portable_loop x n z) = ival x ^ (2 ^ n * (e + 1) - 1) % 65537
  | 0, e, z, h => by simpa [idea_inv_portable_loop] using h
  | n + 1, e, z, h => by
    rw [idea_inv_portable_loop, portable_inv_loop x n (2 * e + 1)]
    · congr 2
      rw [Nat.pow_succ]
      have : 2 ^ n * (2 * e + 1 + 1) = 2 ^ n * 2 * (e + 1) := by ring
      rw [this]
    · rw [portable_mul, portable_mul, idea_mul_val, idea_mul_val, h, Nat.mod_mul_mod,
        show 2 * e + 1 = e + e + 1 by ring, pow_succ, pow_add]
      exact ((Nat.ModEq.mul (Nat.mod_modEq _ _) (Nat.mod_modEq _ _)).mul_right _)

theorem portable_inv_val (x : BitVec 16) : ival (idea_inv_portable x) * ival x % 65537 = 1 := by
  have hl := portable_inv_loop x 15 1 x (by rw [pow_one, Nat.mod_eq_of_lt (ival_lt x).2])
  rw [idea_inv_portable, hl, Nat.mod_mul_mod]
  exact fermat _ (ival_lt x).1 (ival_lt x).2

theorem portable_inv (x : BitVec 16) : idea_inv_portable x = idea_inv x := by
  have h1 := mul_inv (idea_inv_portable x) x
  have h2 : idea_mul (idea_inv_portable x) x = 1 := by
    apply ival_inj
    rw [idea_mul_val, portable_inv_val]
    rfl
  have h3 : idea_mul 1 (idea_inv x) = idea_inv x := by
    apply ival_inj
    rw [idea_mul_val]
    show 1 * _ % 65537 = _
    rw [Nat.one_mul, Nat.mod_eq_of_lt (ival_lt _).2]
  rw [h2, h3] at h1
  exact h1.symm

end Torsion.Blkc
