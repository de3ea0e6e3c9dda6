import Verif.Ecc.Fiat.FieldCheckW32
import Verif.Ecc.Fiat.LangB32

/-!
# The check of straight-line programs with calls on 32-bit words
-/
namespace Torsion.Fiat.B32

def aeval (M : Nat) (bnd : List (List Nat)) (env : List AV) : Ex → Option AV
  | .x i => env[i]?
  | .a w k i =>
    match bnd[k]? with
    | none => none
    | some l =>
      match l[i]? with
      | none => none
      | some b => bif Nat.blt b (2 ^ w) && (Nat.blt k 7 && Nat.blt i 100) then some ⟨w, 0, b, [(aAtom k i, 1)], none⟩ else none
  | .lit w n => some ⟨w, n, n, [(0, n)], none⟩
  | .add e f =>
    match aeval M bnd env e with
    | none => none
    | some u =>
      match aeval M bnd env f with
      | none => none
      | some v => bif Nat.blt (u.hi + v.hi) (2 ^ join u.w v.w) then
          some ⟨join u.w v.w, u.lo + v.lo, u.hi + v.hi, padd M u.p v.p, none⟩ else none
  | .sub e f =>
    match aeval M bnd env e with
    | none => none
    | some u =>
      match aeval M bnd env f with
      | none => none
      | some v => bif Nat.ble v.hi u.lo && Nat.blt u.hi (2 ^ join u.w v.w) then
          some ⟨join u.w v.w, u.lo - v.hi, u.hi - v.lo, padd M u.p (pneg M v.p), none⟩ else none
  | .mul e f =>
    match aeval M bnd env e with
    | none => none
    | some u =>
      match aeval M bnd env f with
      | none => none
      | some v =>
        match pmul M u.p v.p with
        | none => none
        | some q => bif Nat.blt (u.hi * v.hi) (2 ^ join u.w v.w) then
            some ⟨join u.w v.w, u.lo * v.lo, u.hi * v.hi, q, none⟩ else none
  | .shr e s =>
    match e with
    | .x i =>
      match env[i]? with
      | none => none
      | some u => bif Nat.blt s (prom u.w) && (Nat.blt i 4000 && Nat.blt s 128) then
          some ⟨prom u.w, u.lo / 2 ^ s, u.hi / 2 ^ s, [(qAtom i s, 1)], none⟩ else none
    | _ => none
  | .shl e s =>
    match aeval M bnd env e with
    | none => none
    | some u => bif Nat.blt s (prom u.w) && Nat.blt (u.hi * 2 ^ s) (2 ^ prom u.w) then
        some ⟨prom u.w, u.lo * 2 ^ s, u.hi * 2 ^ s, pscale M (2 ^ s) u.p, none⟩ else none
  | .land e f =>
    match e with
    | .x i =>
      match f with
      | .lit w m =>
        match env[i]? with
        | none => none
        | some u =>
          match u.msk with
          | some j => bif Nat.blt m (2 ^ 32) && Nat.blt j 4000 then some ⟨join u.w w, 0, m, [(vAtom j, m)], none⟩ else none
          | none => bif Nat.beq (m + 1) (2 ^ Nat.log2 (m + 1)) && (Nat.blt i 4000 && Nat.blt (Nat.log2 (m + 1)) 128) then
              some ⟨join u.w w, 0, bif Nat.ble u.hi m then u.hi else m,
                padd M u.p [(qAtom i (Nat.log2 (m + 1)), M - (m + 1) % M)], none⟩ else none
      | _ => none
    | _ => none
  | .cast w e =>
    match aeval M bnd env e with
    | none => none
    | some u => bif Nat.blt u.hi (2 ^ w) then some ⟨w, u.lo, u.hi, u.p, none⟩ else none

/-- What a statement adds. -/
def astep (M : Nat) (bnd : List (List Nat)) (env : List AV) : St → Option (List AV)
  | .set w e =>
    match aeval M bnd env e with
    | none => none
    | some u => bif Nat.blt u.hi (2 ^ w) then some [⟨w, u.lo, u.hi, u.p, none⟩] else none
  | .addc s c a b =>
    match aeval M bnd env c with
    | none => none
    | some c =>
      match aeval M bnd env a with
      | none => none
      | some a =>
        match aeval M bnd env b with
        | none => none
        | some b =>
          bif Nat.blt (c.hi + a.hi + b.hi) (2 ^ 32) && (Nat.blt ((c.hi + a.hi + b.hi) / 2 ^ s) 256 && (Nat.blt c.hi 256 && Nat.blt (env.length + 1) 4000)) then
            some [⟨32, 0, 2 ^ s - 1, padd M (padd M c.p (padd M a.p b.p)) [(vAtom (env.length + 1), M - 2 ^ s % M)], none⟩,
              ⟨8, 0, (c.hi + a.hi + b.hi) / 2 ^ s, [(vAtom (env.length + 1), 1)], none⟩]
          else none
  | .subb s c a b =>
    match aeval M bnd env c with
    | none => none
    | some c =>
      match aeval M bnd env a with
      | none => none
      | some a =>
        match aeval M bnd env b with
        | none => none
        | some b =>
          bif Nat.ble c.hi 1 && (Nat.blt a.hi (b.lo + 2 ^ s) && (Nat.blt b.hi (2 ^ s) && (Nat.blt s 30 && (Nat.blt a.hi (2 ^ 30) && Nat.blt (env.length + 1) 4000)))) then
            some [⟨32, 0, 2 ^ s - 1, padd M a.p (padd M (pneg M c.p) (padd M (pneg M b.p) [(vAtom (env.length + 1), 2 ^ s % M)])), none⟩,
              ⟨8, 0, 1, [(vAtom (env.length + 1), 1)], none⟩]
          else none
  | .cmov c a b =>
    match c with
    | .x j =>
      match a with
      | .lit _ n =>
        match b with
        | .lit _ m =>
          match env[j]? with
          | none => none
          | some u => bif Nat.ble u.hi 1 && (Nat.beq n 0 && (Nat.beq m (2 ^ 32 - 1) && Nat.blt env.length 4000)) then
              some [⟨32, 0, 2 ^ 32 - 1, [(vAtom env.length, 1)], some j⟩] else none
        | _ => none
      | _ => none
    | _ => none

def asteps (M : Nat) (bnd : List (List Nat)) : List St → List AV → Option (List AV)
  | [], env => some env
  | s :: r, env =>
    match astep M bnd env s with
    | none => none
    | some l => asteps M bnd r (env ++ l)

def Inv (M : Nat) (ρ : Nat → ZMod M) (env : List Val) (aenv : List AV) : Prop :=
  env.length = aenv.length ∧ ∀ (i : Nat) (v : AV), aenv[i]? = some v → ∃ u : Val, env[i]? = some u ∧ Holds M ρ u v ∧
    ∀ j : Nat, v.msk = some j → ∃ t : Val, env[j]? = some t ∧ t.n ≤ 1 ∧ u.n = t.n * (2 ^ 32 - 1)

section
variable {M : Nat} {args bnd : List (List Nat)} {σ : Nat → Nat}

theorem eval_sound (hM : 0 < M) (hw : Within args bnd) {env : List Val} {aenv : List AV} (hI : Inv M (rho M args σ) env aenv) (hA : Agree σ env) :
    ∀ (e : Ex) (v : AV), aeval M bnd aenv e = some v → ∃ u, eval args env e = .ok u ∧ Holds M (rho M args σ) u v
  | .x i, v, h => by
    obtain ⟨u, h1, h2, _⟩ := hI.2 i v h
    exact ⟨u, rd_of_some h1, h2⟩
  | .a w k i, v, h => by
    rw [aeval] at h
    split at h
    · exact absurd h (by simp)
    next l hl =>
      split at h
      · exact absurd h (by simp)
      next b hb =>
        rcases hc : (Nat.blt b (2 ^ w) && (Nat.blt k 7 && Nat.blt i 100)) with _ | _
        · rw [hc, cond_false] at h; exact absurd h (by simp)
        · rw [hc, cond_true] at h
          simp only [Bool.and_eq_true, Nat.blt_eq] at hc
          obtain ⟨hc1, hc2, hc3⟩ := hc
          cases h
          obtain ⟨m, hm, hmi⟩ := hw k l hl
          obtain ⟨n, hn, hnb⟩ := hmi i b hb
          refine ⟨⟨w, n⟩, ?_, rfl, Nat.zero_le _, hnb, ?_⟩
          · rw [eval, rd_of_some hm, C.ok_bind, rd_of_some hn, C.ok_bind, if_pos (by omega)]
          · rw [pval_one _ (by unfold aAtom; omega) (by unfold aAtom KB; omega), rho_a hc2 hc3 hm hn, Nat.cast_one, one_mul]
  | .lit w n, v, h => by
    rw [aeval] at h
    cases h
    exact ⟨⟨w, n⟩, rfl, rfl, Nat.le_refl _, Nat.le_refl _, (pval_const _ _).symm⟩
  | .add e f, v, h => by
    rw [aeval] at h
    split at h
    · exact absurd h (by simp)
    next u hu =>
      split at h
      · exact absurd h (by simp)
      next t ht =>
        rcases hc : Nat.blt (u.hi + t.hi) (2 ^ join u.w t.w) with _ | _
        · rw [hc, cond_false] at h; exact absurd h (by simp)
        · rw [hc, cond_true] at h
          rw [Nat.blt_eq] at hc
          cases h
          obtain ⟨a, a1, a2, a3, a4, a5⟩ := eval_sound hM hw hI hA e u hu
          obtain ⟨b, b1, b2, b3, b4, b5⟩ := eval_sound hM hw hI hA f t ht
          refine ⟨⟨join u.w t.w, a.n + b.n⟩, ?_, rfl, by dsimp only; omega, by dsimp only; omega, ?_⟩
          · rw [eval, a1, C.ok_bind, b1, C.ok_bind, a2, b2, fit_ok (by omega)]
          · dsimp only
            rw [padd_val, Nat.cast_add, a5, b5]
  | .sub e f, v, h => by
    rw [aeval] at h
    split at h
    · exact absurd h (by simp)
    next u hu =>
      split at h
      · exact absurd h (by simp)
      next t ht =>
        rcases hc : (Nat.ble t.hi u.lo && Nat.blt u.hi (2 ^ join u.w t.w)) with _ | _
        · rw [hc, cond_false] at h; exact absurd h (by simp)
        · rw [hc, cond_true] at h
          rw [Bool.and_eq_true, Nat.blt_eq, Nat.ble_eq] at hc
          obtain ⟨hc1, hc2⟩ := hc
          cases h
          obtain ⟨a, a1, a2, a3, a4, a5⟩ := eval_sound hM hw hI hA e u hu
          obtain ⟨b, b1, b2, b3, b4, b5⟩ := eval_sound hM hw hI hA f t ht
          refine ⟨⟨join u.w t.w, a.n - b.n⟩, ?_, rfl, by dsimp only; omega, by dsimp only; omega, ?_⟩
          · rw [eval, a1, C.ok_bind, b1, C.ok_bind, a2, b2]
            dsimp only
            split
            · next e31 => rw [if_pos (by omega), e31]
            · rw [Nat.mod_eq_of_lt (show b.n < 2 ^ join u.w t.w by omega),
                show a.n + (2 ^ join u.w t.w - b.n) = (a.n - b.n) + 2 ^ join u.w t.w by omega, Nat.add_mod_right, Nat.mod_eq_of_lt (by omega)]
          · dsimp only
            rw [padd_val, pneg_val hM, Nat.cast_sub (by omega), a5, b5, sub_eq_add_neg]
  | .mul e f, v, h => by
    rw [aeval] at h
    split at h
    · exact absurd h (by simp)
    next u hu =>
      split at h
      · exact absurd h (by simp)
      next t ht =>
        split at h
        · exact absurd h (by simp)
        next q hq =>
          rcases hc : Nat.blt (u.hi * t.hi) (2 ^ join u.w t.w) with _ | _
          · rw [hc, cond_false] at h; exact absurd h (by simp)
          · rw [hc, cond_true] at h
            rw [Nat.blt_eq] at hc
            cases h
            obtain ⟨a, a1, a2, a3, a4, a5⟩ := eval_sound hM hw hI hA e u hu
            obtain ⟨b, b1, b2, b3, b4, b5⟩ := eval_sound hM hw hI hA f t ht
            have hle := Nat.mul_le_mul a4 b4
            refine ⟨⟨join u.w t.w, a.n * b.n⟩, ?_, rfl, Nat.mul_le_mul a3 b3, hle, ?_⟩
            · rw [eval, a1, C.ok_bind, b1, C.ok_bind, a2, b2, fit_ok (by omega)]
            · dsimp only
              rw [pmul_val _ _ _ hq, Nat.cast_mul, a5, b5]
  | .shr e s, v, h => by
    rw [aeval.eq_def] at h
    dsimp only at h
    split at h
    next i =>
      split at h
      · exact absurd h (by simp)
      next u hu =>
        rcases hc : (Nat.blt s (prom u.w) && (Nat.blt i 4000 && Nat.blt s 128)) with _ | _
        · rw [hc, cond_false] at h; exact absurd h (by simp)
        · rw [hc, cond_true] at h
          simp only [Bool.and_eq_true, Nat.blt_eq] at hc
          obtain ⟨hc1, hc2, hc3⟩ := hc
          cases h
          obtain ⟨a, a1, ⟨a2, a3, a4, a5⟩, _⟩ := hI.2 i u hu
          refine ⟨⟨prom u.w, a.n >>> s⟩, ?_, rfl, ?_, ?_, ?_⟩
          · rw [eval, eval, rd_of_some a1, C.ok_bind, a2, if_pos hc1]
          · dsimp only; rw [Nat.shiftRight_eq_div_pow]; exact Nat.div_le_div_right a3
          · dsimp only; rw [Nat.shiftRight_eq_div_pow]; exact Nat.div_le_div_right a4
          · dsimp only
            rw [pval_one _ (by unfold qAtom; omega) (by unfold qAtom KB; omega), rho_q hc2 hc3, hA i a a1, Nat.shiftRight_eq_div_pow, Nat.cast_one, one_mul]
    · exact absurd h (by simp)
  | .shl e s, v, h => by
    rw [aeval] at h
    split at h
    · exact absurd h (by simp)
    next u hu =>
      rcases hc : (Nat.blt s (prom u.w) && Nat.blt (u.hi * 2 ^ s) (2 ^ prom u.w)) with _ | _
      · rw [hc, cond_false] at h; exact absurd h (by simp)
      · rw [hc, cond_true] at h
        rw [Bool.and_eq_true, Nat.blt_eq, Nat.blt_eq] at hc
        obtain ⟨hc1, hc2⟩ := hc
        cases h
        obtain ⟨a, a1, a2, a3, a4, a5⟩ := eval_sound hM hw hI hA e u hu
        have hle := Nat.mul_le_mul_right (2 ^ s) a4
        refine ⟨⟨prom u.w, a.n * 2 ^ s⟩, ?_, rfl, Nat.mul_le_mul_right _ a3, hle, ?_⟩
        · rw [eval, a1, C.ok_bind, a2, if_pos hc1, Nat.shiftLeft_eq, fit_ok (by omega)]
        · dsimp only
          rw [pscale_val, Nat.cast_mul, a5, mul_comm]
  | .land e f, v, h => by
    rw [aeval.eq_def] at h
    dsimp only at h
    split at h
    next i =>
      split at h
      next w m =>
        split at h
        · exact absurd h (by simp)
        next u hu =>
          obtain ⟨a, a1, ⟨a2, a3, a4, a5⟩, a6⟩ := hI.2 i u hu
          split at h
          next j hj =>
            rcases hc : (Nat.blt m (2 ^ 32) && Nat.blt j 4000) with _ | _
            · rw [hc, cond_false] at h; exact absurd h (by simp)
            · rw [hc, cond_true] at h
              rw [Bool.and_eq_true, Nat.blt_eq, Nat.blt_eq] at hc
              obtain ⟨hc1, hc2⟩ := hc
              cases h
              obtain ⟨t, t1, t2, t3⟩ := a6 j hj
              refine ⟨⟨join u.w w, a.n &&& m⟩, ?_, rfl, Nat.zero_le _, Nat.and_le_right, ?_⟩
              · rw [eval, eval, rd_of_some a1, C.ok_bind, eval, C.ok_bind, a2]
              · dsimp only
                rw [pval_one _ (by unfold vAtom; omega) (by unfold vAtom KB; omega), rho_v, hA j t t1, t3]
                have : t.n * (2 ^ 32 - 1) &&& m = m * t.n := by
                  rcases (show t.n = 0 ∨ t.n = 1 by omega) with e | e
                  · rw [e, Nat.zero_mul, Nat.mul_zero, Nat.zero_and]
                  · rw [e, Nat.one_mul, Nat.mul_one, Nat.and_comm, Nat.and_two_pow_sub_one_eq_mod, Nat.mod_eq_of_lt hc1]
                rw [this, Nat.cast_mul]
          next hj =>
            rcases hc : (Nat.beq (m + 1) (2 ^ Nat.log2 (m + 1)) && (Nat.blt i 4000 && Nat.blt (Nat.log2 (m + 1)) 128)) with _ | _
            · rw [hc, cond_false] at h; exact absurd h (by simp)
            · rw [hc, cond_true] at h
              simp only [Bool.and_eq_true, Nat.blt_eq] at hc
              obtain ⟨hc1, hc2, hc3⟩ := hc
              have hc1 := Nat.eq_of_beq_eq_true hc1
              generalize Nat.log2 (m + 1) = s at *
              cases h
              have hm : m = 2 ^ s - 1 := by omega
              have hv : a.n &&& m = a.n % 2 ^ s := by rw [hm, Nat.and_two_pow_sub_one_eq_mod]
              refine ⟨⟨join u.w w, a.n &&& m⟩, ?_, rfl, Nat.zero_le _, ?_, ?_⟩
              · rw [eval, eval, rd_of_some a1, C.ok_bind, eval, C.ok_bind, a2]
              · dsimp only
                cases Nat.ble u.hi m
                · exact Nat.and_le_right
                · exact Nat.le_trans Nat.and_le_left a4
              · dsimp only
                rw [padd_val, pval_one _ (by unfold qAtom; omega) (by unfold qAtom KB; omega), rho_q hc2 hc3, hA i a a1, negc hM, ← a5, hv, hc1]
                have := congrArg (Nat.cast (R := ZMod M)) (Nat.div_add_mod a.n (2 ^ s))
                push_cast at this ⊢
                linear_combination this
      · exact absurd h (by simp)
    · exact absurd h (by simp)
  | .cast w e, v, h => by
    rw [aeval] at h
    split at h
    · exact absurd h (by simp)
    next u hu =>
      rcases hc : Nat.blt u.hi (2 ^ w) with _ | _
      · rw [hc, cond_false] at h; exact absurd h (by simp)
      · rw [hc, cond_true] at h
        rw [Nat.blt_eq] at hc
        cases h
        obtain ⟨a, a1, a2, a3, a4, a5⟩ := eval_sound hM hw hI hA e u hu
        refine ⟨⟨w, a.n⟩, ?_, rfl, a3, a4, a5⟩
        rw [eval, a1, C.ok_bind, Nat.mod_eq_of_lt (by omega)]

end
end Torsion.Fiat.B32
