import Verif.Stream.CoreLemmas
import Verif.Mac.SipLemmas
import Verif.Hash.Transform
import Verif.Hash.StdSpec

/-!
# The compression functions against their standards: MD4, MD5, RIPEMD-160, SHA-1, SHA-2
-/
namespace Torsion.Cmp
open Spec Spec.Std Mac Strm

/-! ## Folds -/

theorem foldl_finRange {α β : Type} (n : Nat) (f : α → Fin n → α) (g : β → Fin n → β)
    (I : Nat → α → β → Prop) (a : α) (b : β) (h0 : I 0 a b)
    (hs : ∀ (t : Fin n) a b, I t.val a b → I (t.val + 1) (f a t) (g b t)) :
    I n ((List.finRange n).foldl f a) ((List.finRange n).foldl g b) := by
  induction n with
  | zero => simpa using h0
  | succ n ih =>
    rw [List.finRange_succ_last, List.foldl_append, List.foldl_append, List.foldl_map,
      List.foldl_map]
    exact hs (Fin.last n) _ _
      (ih (fun a t => f a t.castSucc) (fun b t => g b t.castSucc) fun t a b h => hs t.castSucc a b h)

/-! ## Words -/

theorem word32le (c : Vector Byte 64) (i : Fin 16) :
    (words32le (n := 16) c)[i] = leWord 32 c.toList i.val := by
  apply BitVec.eq_of_toNat_eq
  simp only [words32le, Fin.getElem_fin, Vector.getElem_ofFn]
  rw [(read32_val _).1, vsub_toList, leWord, BitVec.toNat_ofNat, Nat.mod_eq_of_lt]
  exact Nat.lt_of_lt_of_le (leVal_lt _) (Nat.pow_le_pow_right (by decide) (List.length_take_le _ _))

theorem word32be (c : Vector Byte 64) (i : Fin 16) :
    (words32be (n := 16) c)[i] = beWord 32 c.toList i.val := by
  apply BitVec.eq_of_toNat_eq
  simp only [words32be, Fin.getElem_fin, Vector.getElem_ofFn]
  rw [(read32_val _).2, vsub_toList, beWord, BitVec.toNat_ofNat, Nat.mod_eq_of_lt]
  rw [beVal_eq]
  refine Nat.lt_of_lt_of_le (leVal_lt _) (Nat.pow_le_pow_right (n := 256) (j := 4) (by decide) ?_)
  rw [List.length_reverse]
  exact List.length_take_le _ _

theorem word64le {n : Nat} (c : Vector Byte (8 * n)) (i : Fin n) :
    (words64le c)[i] = leWord 64 c.toList i.val := by
  apply BitVec.eq_of_toNat_eq
  simp only [words64le, Fin.getElem_fin, Vector.getElem_ofFn]
  rw [(read64_val _).1, vsub_toList, leWord, BitVec.toNat_ofNat, Nat.mod_eq_of_lt]
  exact Nat.lt_of_lt_of_le (leVal_lt _) (Nat.pow_le_pow_right (by decide) (List.length_take_le _ _))

theorem word64be {n : Nat} (c : Vector Byte (8 * n)) (i : Fin n) :
    (words64be c)[i] = beWord 64 c.toList i.val := by
  apply BitVec.eq_of_toNat_eq
  simp only [words64be, Fin.getElem_fin, Vector.getElem_ofFn]
  rw [(read64_val _).2, vsub_toList, beWord, BitVec.toNat_ofNat, Nat.mod_eq_of_lt]
  rw [beVal_eq]
  refine Nat.lt_of_lt_of_le (leVal_lt _) (Nat.pow_le_pow_right (n := 256) (j := 8) (by decide) ?_)
  rw [List.length_reverse]
  exact List.length_take_le _ _

/-! ## Rotating registers -/

/-- The number of the register in place `j` before step `t`. -/
def reg (n : Nat) [NeZero n] (t j : Nat) : Fin n := Fin.ofNat n (j + (n - t % n))

/-- The registers in the order of step `t`. -/
def rot {w n : Nat} [NeZero n] (t : Nat) (s : Vector (BitVec w) n) : Vector (BitVec w) n :=
  Vector.ofFn fun j : Fin n => s[reg n t j.val]

theorem rot_zero {w n : Nat} [NeZero n] (t : Nat) (h : t % n = 0) (s : Vector (BitVec w) n) :
    rot t s = s := by
  apply Vector.ext
  intro i hi
  simp only [rot, reg, Vector.getElem_ofFn, h, Fin.getElem_fin, Fin.val_ofNat]
  congr 1
  rw [Nat.sub_zero, Nat.add_mod_right, Nat.mod_eq_of_lt hi]

theorem vadd_eq {w n : Nat} (x y : Vector (BitVec w) n) :
    (Vector.ofFn fun i : Fin n => x[i] + y[i]) = vadd x y := by
  apply Vector.ext
  intro i hi
  simp [vadd]

/-! ## Bitwise functions -/

theorem ch_or {w : Nat} (x y z : BitVec w) : (x &&& y) ||| (~~~x &&& z) = ch x y z := by
  apply BitVec.eq_of_getLsbD_eq
  intro i hi
  simp [ch, hi]
  cases x[i] <;> cases y[i] <;> cases z[i] <;> rfl

theorem ch_xor {w : Nat} (x y z : BitVec w) : (x &&& (y ^^^ z)) ^^^ z = ch x y z := by
  apply BitVec.eq_of_getLsbD_eq
  intro i hi
  simp [ch, hi]
  cases x[i] <;> cases y[i] <;> cases z[i] <;> rfl

theorem ch_or' {w : Nat} (x y z : BitVec w) : (x &&& z) ||| (y &&& ~~~z) = ch z x y := by
  apply BitVec.eq_of_getLsbD_eq
  intro i hi
  simp [ch, hi]
  cases x[i] <;> cases y[i] <;> cases z[i] <;> rfl

theorem maj_or {w : Nat} (x y z : BitVec w) :
    (x &&& y) ||| (x &&& z) ||| (y &&& z) = maj x y z := by
  apply BitVec.eq_of_getLsbD_eq
  intro i hi
  simp [maj, hi]
  cases x[i] <;> cases y[i] <;> cases z[i] <;> rfl

theorem maj_or' {w : Nat} (x y z : BitVec w) :
    (x &&& (y ||| z)) ||| (y &&& z) = maj x y z := by
  apply BitVec.eq_of_getLsbD_eq
  intro i hi
  simp [maj, hi]
  cases x[i] <;> cases y[i] <;> cases z[i] <;> rfl

/-! ## MD5 -/

/-- The line of the table of the library for step `t`. -/
def md5Line (t : Fin 64) : Md5R :=
  ⟨Fin.ofNat 4 (t.val / 16), reg 4 t 0, reg 4 t 1, reg 4 t 2, reg 4 t 3, md5Idx t, md5T[t], md5Shift t⟩

theorem md5_table : md5_rounds = (List.finRange 64).map md5Line := by
  set_option maxRecDepth 100000 in decide +kernel

theorem md5F_eq (t : Fin 64) (x y z : BitVec 32) :
    md5_F (Fin.ofNat 4 (t.val / 16)) x y z = md5F t x y z := by
  have h : t.val / 16 = 0 ∨ t.val / 16 = 1 ∨ t.val / 16 = 2 ∨ t.val / 16 = 3 := by omega
  unfold md5F
  rcases h with h | h | h | h <;> rw [h]
  · exact ch_or x y z
  · exact ch_or' x y z
  · rfl
  · rfl

theorem md5_core (F : BitVec 32 → BitVec 32 → BitVec 32 → BitVec 32) (x k : BitVec 32) (sh t : Nat)
    (s : Vector (BitVec 32) 4) :
    rot (t + 1) (s.set (reg 4 t 0) (s[reg 4 t 1] + (s[reg 4 t 0] + (F s[reg 4 t 1] s[reg 4 t 2] s[reg 4 t 3] + (x + k))).rotateLeft sh)) =
      #v[(rot t s)[3], (rot t s)[1] + ((rot t s)[0] + (F (rot t s)[1] (rot t s)[2] (rot t s)[3] + (x + k))).rotateLeft sh, (rot t s)[1], (rot t s)[2]] := by
  have h : t % 4 = 0 ∧ (t + 1) % 4 = 1 ∨ t % 4 = 1 ∧ (t + 1) % 4 = 2 ∨ t % 4 = 2 ∧ (t + 1) % 4 = 3 ∨
    t % 4 = 3 ∧ (t + 1) % 4 = 0 := by omega
  obtain ⟨⟨l⟩, hl⟩ := s
  match l, hl with
  | [s0, s1, s2, s3], _ =>
    rcases h with ⟨h, h'⟩ | ⟨h, h'⟩ | ⟨h, h'⟩ | ⟨h, h'⟩ <;> simp only [rot, reg, h, h'] <;> rfl

theorem md5_step (W : Vector (BitVec 32) 16) (s : Vector (BitVec 32) 4) (t : Fin 64) :
    rot (t.val + 1) (md5_R W s (md5Line t)) = md5Step (fun i => W[i]) (rot t.val s) t := by
  have hs : md5Shift t < 32 := by revert t; decide
  unfold md5_R md5Step
  simp only [md5Line, md5F_eq, rotl32_eq _ _ hs, BitVec.add_assoc]
  exact md5_core _ _ _ _ _ _

theorem md5_fold (W : Vector (BitVec 32) 16) (X : Fin 16 → BitVec 32) (hW : (fun i => W[i]) = X)
    (st : Vector (BitVec 32) 4) :
    md5_rounds.foldl (md5_R W) st = (List.finRange 64).foldl (md5Step X) st := by
  rw [md5_table, List.foldl_map]
  have : rot 64 _ = _ := foldl_finRange 64 (fun s t => md5_R W s (md5Line t)) (md5Step X)
    (fun t s v => rot t s = v) st st (rot_zero 0 rfl st) (fun t s v h => by rw [md5_step, h, hW])
  exact (rot_zero 64 (by decide) _).symm.trans this

theorem md5_eq (st : Vector (BitVec 32) 4) (c : Vector Byte 64) :
    md5_transform st c = md5Compress st c.toList := by
  unfold md5_transform md5Compress
  simp only
  rw [vadd_eq, md5_fold _ _ (funext (word32le c))]

/-! ## MD4 -/

/-- The line of the table of the library for step `t`. -/
def md4Line (t : Fin 48) : Md5R :=
  ⟨Fin.ofNat 4 (t.val / 16), reg 4 t 0, reg 4 t 1, reg 4 t 2, reg 4 t 3, md4Idx t, md4K t, md4Shift t⟩

theorem md4_table : md4_rounds = (List.finRange 48).map md4Line := by
  set_option maxRecDepth 100000 in decide +kernel

theorem md4F_eq (t : Fin 48) (x y z : BitVec 32) :
    md4_F (Fin.ofNat 4 (t.val / 16)) x y z = md4F t x y z := by
  have h : t.val / 16 = 0 ∨ t.val / 16 = 1 ∨ t.val / 16 = 2 := by omega
  unfold md4F
  rcases h with h | h | h <;> rw [h]
  · exact ch_or x y z
  · exact maj_or x y z
  · rfl

theorem md4_core (F : BitVec 32 → BitVec 32 → BitVec 32 → BitVec 32) (x k : BitVec 32) (sh t : Nat)
    (s : Vector (BitVec 32) 4) :
    rot (t + 1) (s.set (reg 4 t 0) ((s[reg 4 t 0] + (F s[reg 4 t 1] s[reg 4 t 2] s[reg 4 t 3] + (x + k))).rotateLeft sh)) =
      #v[(rot t s)[3], ((rot t s)[0] + (F (rot t s)[1] (rot t s)[2] (rot t s)[3] + (x + k))).rotateLeft sh, (rot t s)[1], (rot t s)[2]] := by
  have h : t % 4 = 0 ∧ (t + 1) % 4 = 1 ∨ t % 4 = 1 ∧ (t + 1) % 4 = 2 ∨ t % 4 = 2 ∧ (t + 1) % 4 = 3 ∨
    t % 4 = 3 ∧ (t + 1) % 4 = 0 := by omega
  obtain ⟨⟨l⟩, hl⟩ := s
  match l, hl with
  | [s0, s1, s2, s3], _ =>
    rcases h with ⟨h, h'⟩ | ⟨h, h'⟩ | ⟨h, h'⟩ | ⟨h, h'⟩ <;> simp only [rot, reg, h, h'] <;> rfl

theorem md4_step (W : Vector (BitVec 32) 16) (s : Vector (BitVec 32) 4) (t : Fin 48) :
    rot (t.val + 1) (md4_R W s (md4Line t)) = md4Step (fun i => W[i]) (rot t.val s) t := by
  have hs : md4Shift t < 32 := by revert t; decide
  unfold md4_R md4Step
  simp only [md4Line, md4F_eq, rotl32_eq _ _ hs, BitVec.add_assoc]
  exact md4_core _ _ _ _ _ _

theorem md4_fold (W : Vector (BitVec 32) 16) (X : Fin 16 → BitVec 32) (hW : (fun i => W[i]) = X)
    (st : Vector (BitVec 32) 4) :
    md4_rounds.foldl (md4_R W) st = (List.finRange 48).foldl (md4Step X) st := by
  rw [md4_table, List.foldl_map]
  have : rot 48 _ = _ := foldl_finRange 48 (fun s t => md4_R W s (md4Line t)) (md4Step X)
    (fun t s v => rot t s = v) st st (rot_zero 0 rfl st) (fun t s v h => by rw [md4_step, h, hW])
  exact (rot_zero 48 (by decide) _).symm.trans this

theorem md4_eq (st : Vector (BitVec 32) 4) (c : Vector Byte 64) :
    md4_transform st c = md4Compress st c.toList := by
  unfold md4_transform md4Compress
  simp only
  rw [vadd_eq, md4_fold _ _ (funext (word32le c))]

/-! ## RIPEMD-160 -/

/-- The line of the table of the library for step `t`. -/
def rmdLine (right : Bool) (t : Fin 80) : RmdR :=
  ⟨Fin.ofNat 5 (if right then 4 - t.val / 16 else t.val / 16), reg 5 t 0, reg 5 t 1, reg 5 t 2,
    reg 5 t 3, reg 5 t 4, rmdIdx right t, rmdK right t, rmdShift right t⟩

theorem rmd_table : rmd_rounds = (List.finRange 80).map (rmdLine false) := by
  set_option maxRecDepth 100000 in decide +kernel

theorem rmd_tableH : rmd_roundsH = (List.finRange 80).map (rmdLine true) := by
  set_option maxRecDepth 100000 in decide +kernel

theorem rmdF_eq (right : Bool) (t : Fin 80) (x y z : BitVec 32) :
    rmd_F (Fin.ofNat 5 (if right then 4 - t.val / 16 else t.val / 16)) x y z =
      rmdF right t x y z := by
  unfold rmdF
  have h : (if right then 4 - t.val / 16 else t.val / 16) < 5 := by split <;> omega
  generalize (if right then 4 - t.val / 16 else t.val / 16) = j at h
  have h : j = 0 ∨ j = 1 ∨ j = 2 ∨ j = 3 ∨ j = 4 := by omega
  rcases h with h | h | h | h | h <;> rw [h]
  · rfl
  · exact ch_or x y z
  · rfl
  · exact ch_or' x y z
  · rfl

theorem rmd_core (F : BitVec 32 → BitVec 32 → BitVec 32 → BitVec 32) (x k : BitVec 32) (sh t : Nat)
    (s : Vector (BitVec 32) 5) :
    rot (t + 1) ((s.set (reg 5 t 0)
      ((s[reg 5 t 0] + (F s[reg 5 t 1] s[reg 5 t 2] s[reg 5 t 3] + (x + k))).rotateLeft sh +
        s[reg 5 t 4])).set (reg 5 t 2) ((s.set (reg 5 t 0)
      ((s[reg 5 t 0] + (F s[reg 5 t 1] s[reg 5 t 2] s[reg 5 t 3] + (x + k))).rotateLeft sh +
        s[reg 5 t 4]))[reg 5 t 2].rotateLeft 10)) =
      #v[(rot t s)[4], ((rot t s)[0] + (F (rot t s)[1] (rot t s)[2] (rot t s)[3] + (x + k))).rotateLeft sh +
        (rot t s)[4], (rot t s)[1], (rot t s)[2].rotateLeft 10, (rot t s)[3]] := by
  have h : t % 5 = 0 ∧ (t + 1) % 5 = 1 ∨ t % 5 = 1 ∧ (t + 1) % 5 = 2 ∨ t % 5 = 2 ∧ (t + 1) % 5 = 3 ∨
    t % 5 = 3 ∧ (t + 1) % 5 = 4 ∨ t % 5 = 4 ∧ (t + 1) % 5 = 0 := by omega
  obtain ⟨⟨l⟩, hl⟩ := s
  match l, hl with
  | [s0, s1, s2, s3, s4], _ =>
    rcases h with ⟨h, h'⟩ | ⟨h, h'⟩ | ⟨h, h'⟩ | ⟨h, h'⟩ | ⟨h, h'⟩ <;>
      simp only [rot, reg, h, h'] <;> rfl

theorem rmd_step (right : Bool) (W : Vector (BitVec 32) 16) (s : Vector (BitVec 32) 5) (t : Fin 80) :
    rot (t.val + 1) (rmd_R W s (rmdLine right t)) =
      rmdStep right (fun i => W[i]) (rot t.val s) t := by
  have hs : rmdShift right t < 32 := by
    revert t; cases right <;> decide +kernel
  unfold rmd_R rmdStep
  simp only [rmdLine, rmdF_eq, rotl32_eq _ _ hs, rotl32_eq _ 10 (by decide), BitVec.add_assoc]
  exact rmd_core _ _ _ _ _ _

theorem rmd_fold (right : Bool) (W : Vector (BitVec 32) 16) (X : Fin 16 → BitVec 32)
    (hW : (fun i => W[i]) = X) (st : Vector (BitVec 32) 5) :
    ((List.finRange 80).map (rmdLine right)).foldl (rmd_R W) st =
      (List.finRange 80).foldl (rmdStep right X) st := by
  rw [List.foldl_map]
  have : rot 80 _ = _ := foldl_finRange 80 (fun s t => rmd_R W s (rmdLine right t))
    (rmdStep right X) (fun t s v => rot t s = v) st st (rot_zero 0 rfl st)
    (fun t s v h => by rw [rmd_step, h, hW])
  exact (rot_zero 80 (by decide) _).symm.trans this

/-- The last step of RIPEMD-160. -/
def rmdOut (h l r : Vector (BitVec 32) 5) : Vector (BitVec 32) 5 :=
  #v[h[1] + l[2] + r[3], h[2] + l[3] + r[4], h[3] + l[4] + r[0], h[4] + l[0] + r[1],
    h[0] + l[1] + r[2]]

theorem rmdOut_model (st : Vector (BitVec 32) 5) (c : Vector Byte 64) :
    ripemd160_transform st c = rmdOut st (rmd_rounds.foldl (rmd_R (words32le (n := 16) c)) st)
      (rmd_roundsH.foldl (rmd_R (words32le (n := 16) c)) st) := rfl

theorem rmdOut_spec (st : Vector (BitVec 32) 5) (b : List Byte) :
    ripemd160Compress st b = rmdOut st
      ((List.finRange 80).foldl (rmdStep false fun i => leWord 32 b i) st)
      ((List.finRange 80).foldl (rmdStep true fun i => leWord 32 b i) st) := rfl

theorem ripemd160_eq (st : Vector (BitVec 32) 5) (c : Vector Byte 64) :
    ripemd160_transform st c = ripemd160Compress st c.toList := by
  rw [rmdOut_model, rmdOut_spec, rmd_table, rmd_tableH, rmd_fold false _ _ (funext (word32le c)),
    rmd_fold true _ _ (funext (word32le c))]

end Torsion.Cmp
