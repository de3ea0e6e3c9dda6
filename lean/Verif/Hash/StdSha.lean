import Verif.Hash.StdLemmas

/-!
# The compression functions against their standards: SHA-1, SHA-2
-/
namespace Torsion.Cmp
open Spec Spec.Std Mac Strm

theorem rotr32_eq (x : BitVec 32) (y : Nat) (h : y < 32) : rotr32 x y = x.rotateRight y := by
  rw [rotr32, BitVec.rotateRight, BitVec.rotateRightAux, Nat.mod_eq_of_lt h]

theorem rotr64_eq (x : BitVec 64) (y : Nat) (h : y < 64) : rotr64 x y = x.rotateRight y := by
  rw [rotr64, BitVec.rotateRight, BitVec.rotateRightAux, Nat.mod_eq_of_lt h]

/-! ## The ring of the last sixteen words -/

/-- Before step `t` the array holds the last sixteen words of the schedule. -/
def RingOk {w : Nat} (W : Nat → BitVec w) (t : Nat) (R : Vector (BitVec w) 16) : Prop :=
  ∀ j, j < t → t ≤ j + 16 → ring R j = W j

theorem ring_set {w : Nat} (W : Nat → BitVec w) (t : Nat) (R : Vector (BitVec w) 16)
    (h : RingOk W t R) : RingOk W (t + 1) (R.set (t % 16) (W t)) := by
  intro j h1 h2
  unfold ring
  by_cases e : j = t
  · subst e; simp
  · rw [Vector.getElem_set_ne]
    · exact h j (by omega) (by omega)
    · omega

theorem ring_get {w : Nat} (W : Nat → BitVec w) (t k : Nat) (R : Vector (BitVec w) 16)
    (h : RingOk W t R) (ht : 16 ≤ t) (h1 : 1 ≤ k) (h2 : k ≤ 16) : ring R (t + 16 - k) = W (t - k) := by
  rw [← h (t - k) (by omega) (by omega)]
  unfold ring
  congr 1
  omega

/-! ## SHA-1 -/

/-- The line of the table of the library for step `t`. -/
def sha1Line (t : Fin 80) : Sha1R :=
  ⟨Fin.ofNat 4 (t.val / 20), reg 5 t 0, reg 5 t 1, reg 5 t 2, reg 5 t 3, reg 5 t 4, t.val, sha1K t⟩

theorem sha1_table : sha1_rounds = (List.finRange 80).map sha1Line := by
  set_option maxRecDepth 100000 in decide +kernel

theorem sha1F_eq (t : Fin 80) (x y z : BitVec 32) :
    sha1_F (Fin.ofNat 4 (t.val / 20)) x y z = sha1F t x y z := by
  have h : t.val / 20 = 0 ∨ t.val / 20 = 1 ∨ t.val / 20 = 2 ∨ t.val / 20 = 3 := by omega
  unfold sha1F
  rcases h with h | h | h | h <;> rw [h]
  · exact ch_xor x y z
  · rfl
  · exact maj_or' x y z
  · rfl

theorem sha1_core (F : BitVec 32 → BitVec 32 → BitVec 32 → BitVec 32) (x k : BitVec 32) (t : Nat)
    (s : Vector (BitVec 32) 5) :
    rot (t + 1) ((s.set (reg 5 t 4)
      (s[reg 5 t 4] + (s[reg 5 t 0].rotateLeft 5 + F s[reg 5 t 1] s[reg 5 t 2] s[reg 5 t 3] + x + k))).set
        (reg 5 t 1) ((s.set (reg 5 t 4)
      (s[reg 5 t 4] + (s[reg 5 t 0].rotateLeft 5 + F s[reg 5 t 1] s[reg 5 t 2] s[reg 5 t 3] + x +
        k)))[reg 5 t 1].rotateLeft 30)) =
      #v[(rot t s)[4] + ((rot t s)[0].rotateLeft 5 + F (rot t s)[1] (rot t s)[2] (rot t s)[3] + x + k),
        (rot t s)[0], (rot t s)[1].rotateLeft 30, (rot t s)[2], (rot t s)[3]] := by
  have h : t % 5 = 0 ∧ (t + 1) % 5 = 1 ∨ t % 5 = 1 ∧ (t + 1) % 5 = 2 ∨ t % 5 = 2 ∧ (t + 1) % 5 = 3 ∨
    t % 5 = 3 ∧ (t + 1) % 5 = 4 ∨ t % 5 = 4 ∧ (t + 1) % 5 = 0 := by omega
  obtain ⟨⟨l⟩, hl⟩ := s
  match l, hl with
  | [s0, s1, s2, s3, s4], _ =>
    rcases h with ⟨h, h'⟩ | ⟨h, h'⟩ | ⟨h, h'⟩ | ⟨h, h'⟩ | ⟨h, h'⟩ <;>
      simp only [rot, reg, h, h'] <;> rfl

theorem sha1_word (M : Vector (BitVec 32) 16) (W : Nat → BitVec 32)
    (hM : ∀ i : Fin 16, M[i] = W i) (t : Nat) (R : Vector (BitVec 32) 16)
    (h : RingOk (sha1W W) t R) :
    (if t < 16 then ring M t else rotl32 (ring R (t + 16 - 3) ^^^ ring R (t + 16 - 8) ^^^
      ring R (t + 16 - 14) ^^^ ring R (t + 16 - 16)) 1) = sha1W W t := by
  rw [sha1W]
  by_cases ht : t < 16
  · rw [if_pos ht, if_pos ht, ← hM ⟨t, ht⟩]
    unfold ring
    simp only [Fin.getElem_fin]
    congr 1
    omega
  · rw [if_neg ht, if_neg ht, rotl32_eq _ _ (by decide), ring_get _ _ _ _ h (by omega) (by decide) (by decide),
      ring_get _ _ _ _ h (by omega) (by decide) (by decide),
      ring_get _ _ _ _ h (by omega) (by decide) (by decide),
      ring_get _ _ _ _ h (by omega) (by decide) (by decide)]

theorem sha1_step (M : Vector (BitVec 32) 16) (W : Nat → BitVec 32)
    (hM : ∀ i : Fin 16, M[i] = W i) (t : Fin 80) (s : Vector (BitVec 32) 5 × Vector (BitVec 32) 16)
    (h : RingOk (sha1W W) t s.2) :
    rot (t.val + 1) (sha1_R M s (sha1Line t)).1 = sha1Step (sha1W W) (rot t.val s.1) t ∧
      RingOk (sha1W W) (t.val + 1) (sha1_R M s (sha1Line t)).2 := by
  constructor
  · unfold sha1_R sha1Step
    simp only [sha1Line, sha1F_eq, rotl32_eq _ 5 (by decide), rotl32_eq _ 30 (by decide)]
    refine (sha1_core _ (if t.val < 16 then ring M t.val else rotl32 (ring s.2 (t.val + 16 - 3) ^^^
      ring s.2 (t.val + 16 - 8) ^^^ ring s.2 (t.val + 16 - 14) ^^^ ring s.2 (t.val + 16 - 16)) 1)
      _ _ _).trans ?_
    rw [sha1_word M W hM t.val s.2 h]
    have e : ∀ a b c d e : BitVec 32, e + (a + b + c + d) = a + b + e + d + c := by
      intro a b c d e; ac_rfl
    rw [e]
  · have := ring_set _ _ _ h
    rw [← sha1_word M W hM t.val s.2 h] at this
    exact this

theorem sha1_fold (M : Vector (BitVec 32) 16) (W : Nat → BitVec 32)
    (hM : ∀ i : Fin 16, M[i] = W i) (st : Vector (BitVec 32) 5) (R : Vector (BitVec 32) 16) :
    (sha1_rounds.foldl (sha1_R M) (st, R)).1 = (List.finRange 80).foldl (sha1Step (sha1W W)) st := by
  rw [sha1_table, List.foldl_map]
  have : rot 80 _ = _ ∧ _ := foldl_finRange 80 (fun s t => sha1_R M s (sha1Line t)) (sha1Step (sha1W W))
    (fun t s v => rot t s.1 = v ∧ RingOk (sha1W W) t s.2) (st, R) st
    ⟨rot_zero 0 rfl st, fun j hj => absurd hj (by omega)⟩
    (fun t s v h => by
      have := sha1_step M W hM t s h.2
      rw [h.1] at this
      exact this)
  exact (rot_zero 80 (by decide) _).symm.trans this.1

theorem sha1_eq (st : Vector (BitVec 32) 5) (c : Vector Byte 64) :
    sha1_transform st c = sha1Compress st c.toList := by
  unfold sha1_transform sha1Compress
  simp only
  rw [vadd_eq, sha1_fold _ _ (word32be c)]

/-! ## SHA-2 -/

/-- The line of the table of the library for step `t`. -/
def sha2Line {w : Nat} (t : Nat) (k : BitVec w) : Sha2R w :=
  ⟨reg 8 t 0, reg 8 t 1, reg 8 t 2, reg 8 t 3, reg 8 t 4, reg 8 t 5, reg 8 t 6, reg 8 t 7, t, k⟩

theorem sha256_table : sha256_rounds = (List.finRange 64).map fun t => sha2Line t.val (sha256K t) := by
  set_option maxRecDepth 100000 in decide +kernel

theorem sha512_table : sha512_rounds = (List.finRange 80).map fun t => sha2Line t.val sha512K[t] := by
  set_option maxRecDepth 100000 in decide +kernel

/-- The registers after a round: `T` is added to register `h`, that to `d`, and `U` to `h`. -/
def sha2Regs {w : Nat} (T : Vector (BitVec w) 8 → BitVec w) (U : BitVec w → BitVec w → BitVec w → BitVec w)
    (s : Vector (BitVec w) 8) (a b c d h : Fin 8) : Vector (BitVec w) 8 :=
  let x := T s
  let s := s.set h (s[h] + x)
  let s := s.set d (s[d] + s[h])
  s.set h (s[h] + U s[a] s[b] s[c])

theorem sha2_core {w : Nat} (T : Vector (BitVec w) 8 → BitVec w)
    (U : BitVec w → BitVec w → BitVec w → BitVec w) (t : Nat)
    (s : Vector (BitVec w) 8) :
    rot (t + 1) (sha2Regs T U s (reg 8 t 0) (reg 8 t 1) (reg 8 t 2) (reg 8 t 3) (reg 8 t 7)) =
      #v[(rot t s)[7] + T s + U (rot t s)[0] (rot t s)[1] (rot t s)[2], (rot t s)[0], (rot t s)[1],
        (rot t s)[2], (rot t s)[3] + ((rot t s)[7] + T s), (rot t s)[4], (rot t s)[5], (rot t s)[6]] := by
  have h : t % 8 = 0 ∧ (t + 1) % 8 = 1 ∨ t % 8 = 1 ∧ (t + 1) % 8 = 2 ∨ t % 8 = 2 ∧ (t + 1) % 8 = 3 ∨
    t % 8 = 3 ∧ (t + 1) % 8 = 4 ∨ t % 8 = 4 ∧ (t + 1) % 8 = 5 ∨ t % 8 = 5 ∧ (t + 1) % 8 = 6 ∨
    t % 8 = 6 ∧ (t + 1) % 8 = 7 ∨ t % 8 = 7 ∧ (t + 1) % 8 = 0 := by omega
  unfold sha2Regs
  generalize T s = x
  obtain ⟨⟨l⟩, hl⟩ := s
  match l, hl with
  | [s0, s1, s2, s3, s4, s5, s6, s7], _ =>
    rcases h with ⟨h, h'⟩ | ⟨h, h'⟩ | ⟨h, h'⟩ | ⟨h, h'⟩ | ⟨h, h'⟩ | ⟨h, h'⟩ | ⟨h, h'⟩ | ⟨h, h'⟩ <;>
      simp only [rot, reg, h, h'] <;> rfl

theorem rot_get {w n : Nat} [NeZero n] (t : Nat) (s : Vector (BitVec w) n) (j : Nat) (h : j < n) :
    (rot t s)[j] = s[reg n t j] := by
  simp [rot]

theorem sha2_word {w : Nat} (S : Sha2Fns w) (M : Vector (BitVec w) 16) (W : Nat → BitVec w)
    (hM : ∀ i : Fin 16, M[i] = W i) (t : Nat) (R : Vector (BitVec w) 16)
    (h : RingOk (sha2W S.sigma0 S.sigma1 W) t R) :
    (if t < 16 then ring M t else S.sigma1 (ring R (t + 16 - 2)) + ring R (t + 16 - 7) +
      S.sigma0 (ring R (t + 16 - 15)) + ring R (t + 16 - 16)) = sha2W S.sigma0 S.sigma1 W t := by
  rw [sha2W]
  by_cases ht : t < 16
  · rw [if_pos ht, if_pos ht, ← hM ⟨t, ht⟩]
    unfold ring
    simp only [Fin.getElem_fin]
    congr 1
    omega
  · rw [if_neg ht, if_neg ht, ring_get _ _ _ _ h (by omega) (by decide) (by decide),
      ring_get _ _ _ _ h (by omega) (by decide) (by decide),
      ring_get _ _ _ _ h (by omega) (by decide) (by decide),
      ring_get _ _ _ _ h (by omega) (by decide) (by decide)]

theorem sha2_step {w : Nat} (S : Sha2Fns w) (M : Vector (BitVec w) 16) (W : Nat → BitVec w)
    (hM : ∀ i : Fin 16, M[i] = W i) (t : Nat) (k : BitVec w)
    (s : Vector (BitVec w) 8 × Vector (BitVec w) 16)
    (h : RingOk (sha2W S.sigma0 S.sigma1 W) t s.2) :
    rot (t + 1) (sha2_R S M s (sha2Line t k)).1 =
      sha2Step S.Sigma0 S.Sigma1 (rot t s.1) k (sha2W S.sigma0 S.sigma1 W t) ∧
      RingOk (sha2W S.sigma0 S.sigma1 W) (t + 1) (sha2_R S M s (sha2Line t k)).2 := by
  constructor
  · have e : (sha2_R S M s (sha2Line t k)).1 =
        sha2Regs (fun s' => S.Sigma1 s'[reg 8 t 4] +
            ((s'[reg 8 t 4] &&& (s'[reg 8 t 5] ^^^ s'[reg 8 t 6])) ^^^ s'[reg 8 t 6]) + k +
            (if t < 16 then ring M t else S.sigma1 (ring s.2 (t + 16 - 2)) + ring s.2 (t + 16 - 7) +
              S.sigma0 (ring s.2 (t + 16 - 15)) + ring s.2 (t + 16 - 16)))
          (fun a b c => S.Sigma0 a + ((a &&& (b ||| c)) ||| (b &&& c))) s.1
          (reg 8 t 0) (reg 8 t 1) (reg 8 t 2) (reg 8 t 3) (reg 8 t 7) := rfl
    rw [e, sha2_core, sha2_word S M W hM t s.2 h]
    simp only [ch_xor, maj_or', ← rot_get t s.1 4 (by decide), ← rot_get t s.1 5 (by decide),
      ← rot_get t s.1 6 (by decide), sha2Step, BitVec.add_assoc]
  · have := ring_set _ _ _ h
    rw [← sha2_word S M W hM t s.2 h] at this
    exact this

theorem sha256_fold (M : Vector (BitVec 32) 16) (W : Nat → BitVec 32)
    (hM : ∀ i : Fin 16, M[i] = W i) (st : Vector (BitVec 32) 8) (R : Vector (BitVec 32) 16) :
    (sha256_rounds.foldl (sha2_R sha256_fns M) (st, R)).1 =
      (List.finRange 64).foldl (fun v t => sha2Step sha256_fns.Sigma0 sha256_fns.Sigma1 v (sha256K t)
        (sha2W sha256_fns.sigma0 sha256_fns.sigma1 W t.val)) st := by
  rw [sha256_table, List.foldl_map]
  have : rot 64 _ = _ ∧ _ := foldl_finRange 64 (fun s t => sha2_R sha256_fns M s (sha2Line t.val (sha256K t)))
    (fun v t => sha2Step sha256_fns.Sigma0 sha256_fns.Sigma1 v (sha256K t)
        (sha2W sha256_fns.sigma0 sha256_fns.sigma1 W t.val))
    (fun t s v => rot t s.1 = v ∧ RingOk (sha2W sha256_fns.sigma0 sha256_fns.sigma1 W) t s.2) (st, R) st
    ⟨rot_zero 0 rfl st, fun j hj => absurd hj (by omega)⟩
    (fun t s v h => by
      have := sha2_step sha256_fns M W hM t (sha256K t) s h.2
      rw [h.1] at this
      exact this)
  exact (rot_zero 64 (by decide) _).symm.trans this.1

theorem sha512_fold (M : Vector (BitVec 64) 16) (W : Nat → BitVec 64)
    (hM : ∀ i : Fin 16, M[i] = W i) (st : Vector (BitVec 64) 8) (R : Vector (BitVec 64) 16) :
    (sha512_rounds.foldl (sha2_R sha512_fns M) (st, R)).1 =
      (List.finRange 80).foldl (fun v (t : Fin 80) => sha2Step sha512_fns.Sigma0 sha512_fns.Sigma1 v sha512K[t]
        (sha2W sha512_fns.sigma0 sha512_fns.sigma1 W t.val)) st := by
  rw [sha512_table, List.foldl_map]
  have : rot 80 _ = _ ∧ _ := foldl_finRange 80
    (fun s (t : Fin 80) => sha2_R sha512_fns M s (sha2Line t.val sha512K[t]))
    (fun v (t : Fin 80) => sha2Step sha512_fns.Sigma0 sha512_fns.Sigma1 v sha512K[t]
        (sha2W sha512_fns.sigma0 sha512_fns.sigma1 W t.val))
    (fun t s v => rot t s.1 = v ∧ RingOk (sha2W sha512_fns.sigma0 sha512_fns.sigma1 W) t s.2) (st, R) st
    ⟨rot_zero 0 rfl st, fun j hj => absurd hj (by omega)⟩
    (fun t s v h => by
      have := sha2_step sha512_fns M W hM t.val sha512K[t] s h.2
      rw [h.1] at this
      exact this)
  exact (rot_zero 80 (by decide) _).symm.trans this.1

theorem sha256_fns_eq : sha256_fns = ⟨sha256S0, sha256S1, sha256s0, sha256s1⟩ := by
  simp only [sha256_fns, Sha2Fns.mk.injEq]
  refine ⟨?_, ?_, ?_, ?_⟩ <;> funext x <;>
    simp only [sha256S0, sha256S1, sha256s0, sha256s1] <;> repeat rw [rotr32_eq _ _ (by decide)]

theorem sha512_fns_eq : sha512_fns = ⟨sha512S0, sha512S1, sha512s0, sha512s1⟩ := by
  simp only [sha512_fns, Sha2Fns.mk.injEq]
  refine ⟨?_, ?_, ?_, ?_⟩ <;> funext x <;>
    simp only [sha512S0, sha512S1, sha512s0, sha512s1] <;> repeat rw [rotr64_eq _ _ (by decide)]

theorem sha256_eq (st : Vector (BitVec 32) 8) (c : Vector Byte 64) :
    sha256_transform st c = sha256Compress st c.toList := by
  unfold sha256_transform sha256Compress
  simp only
  rw [vadd_eq, sha256_fold _ _ (word32be c), sha256_fns_eq]

theorem sha512_eq (st : Vector (BitVec 64) 8) (c : Vector Byte 128) :
    sha512_transform st c = sha512Compress st c.toList := by
  unfold sha512_transform sha512Compress
  simp only
  rw [vadd_eq, sha512_fold _ _ (word64be (n := 16) c), sha512_fns_eq]

end Torsion.Cmp
