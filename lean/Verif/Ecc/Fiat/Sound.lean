import Verif.Ecc.Fiat.Check

/-!
# The check is sound
-/
namespace Torsion.Fiat

theorem addcarryx_eq {s c a b : Nat} (h : c + a + b < 2 ^ 64) (h8 : (c + a + b) / 2 ^ s < 256) :
    addcarryx s c a b = ((c + a + b) % 2 ^ s, (c + a + b) / 2 ^ s) := by
  unfold addcarryx
  dsimp only
  rw [Nat.mod_eq_of_lt (show c + a < 2 ^ 64 by omega), Nat.mod_eq_of_lt h, Nat.and_two_pow_sub_one_eq_mod, Nat.shiftRight_eq_div_pow, Nat.mod_eq_of_lt h8]

theorem subborrowx_eq {s c a b : Nat} (hc : c ≤ 1) (ha : a < 2 ^ 62) (hs : s < 62) (hb : b < 2 ^ s) (hab : a < b + 2 ^ s) :
    ∃ x y, subborrowx s c a b = .ok (x, y) ∧ x < 2 ^ s ∧ y ≤ 1 ∧ (x : Int) = a - c - b + 2 ^ s * y := by
  have hs2 : 2 ^ s ≤ 2 ^ 61 := Nat.pow_le_pow_right (by decide) (by omega)
  have h1 : s64 ((a + (2 ^ 64 - c)) % 2 ^ 64) = (a : Int) - c := by
    unfold s64
    by_cases h : c ≤ a
    · rw [show a + (2 ^ 64 - c) = (a - c) + 2 ^ 64 by omega, Nat.add_mod_right, Nat.mod_eq_of_lt (by omega), if_pos (by omega)]; omega
    · rw [Nat.mod_eq_of_lt (by omega), if_neg (by omega)]; omega
  have h2 : s64 b = (b : Int) := by
    unfold s64
    rw [if_pos (by omega)]
  have hcast : ((2 ^ s : Nat) : Int) = 2 ^ s := by push_cast; rfl
  unfold subborrowx
  dsimp only
  rw [h1, h2, if_pos (by constructor <;> omega)]
  have hmod : ∀ d : Int, (d % 2 ^ 64).toNat &&& (2 ^ s - 1) = (d % 2 ^ s).toNat := by
    intro d
    rw [Nat.and_two_pow_sub_one_eq_mod]
    have hp : (0 : Int) ≤ d % 2 ^ 64 := Int.emod_nonneg _ (by decide)
    have hd : (2 ^ s : Int) ∣ 2 ^ 64 := pow_dvd_pow 2 (by omega)
    apply Int.ofNat_inj.1
    rw [Int.natCast_emod, Int.toNat_of_nonneg hp, hcast, Int.emod_emod_of_dvd _ hd, Int.toNat_of_nonneg (Int.emod_nonneg _ (by rw [← hcast]; omega))]
  rw [hmod]
  by_cases hn : (a : Int) - c - b < 0
  · have hdiv : ((a : Int) - c - b) / 2 ^ s = -1 := by
      rw [← hcast]
      apply Int.le_antisymm
      · have := Int.ediv_lt_of_lt_mul (a := (a : Int) - c - b) (b := 0) (c := ((2 ^ s : Nat) : Int)) (by omega) (by omega)
        omega
      · exact Int.le_ediv_of_mul_le (by omega) (by omega)
    have he := Int.emod_add_mul_ediv ((a : Int) - c - b) (2 ^ s)
    rw [hdiv] at he
    rw [hdiv]
    have hx : 0 ≤ ((a : Int) - c - b) % 2 ^ s := Int.emod_nonneg _ (by rw [← hcast]; omega)
    refine ⟨_, 1, rfl, ?_, Nat.le_refl _, ?_⟩
    · have := Int.emod_lt_of_pos ((a : Int) - c - b) (show (0 : Int) < 2 ^ s by rw [← hcast]; omega)
      rw [← hcast] at this
      omega
    · rw [Int.toNat_of_nonneg hx]
      push_cast
      omega
  · have hdiv : ((a : Int) - c - b) / 2 ^ s = 0 := Int.ediv_eq_zero_of_lt (by omega) (by rw [← hcast]; omega)
    rw [hdiv]
    have hm : ((a : Int) - c - b) % 2 ^ s = a - c - b := Int.emod_eq_of_lt (by omega) (by rw [← hcast]; omega)
    rw [hm]
    refine ⟨_, 0, rfl, by omega, by omega, ?_⟩
    rw [Int.toNat_of_nonneg (by omega)]
    push_cast
    omega

theorem cmovznz_mask {c : Nat} (hc : c ≤ 1) : cmovznz c 0 (2 ^ 64 - 1) = c * (2 ^ 64 - 1) := by
  rcases (show c = 0 ∨ c = 1 by omega) with h | h <;> subst h <;> decide

section
variable {M : Nat} {args bnd : List (List Nat)}

/-- The invariant for all later values of the locals. -/
def InvAll (M : Nat) (args : List (List Nat)) (env : List Val) (aenv : List AV) : Prop :=
  ∀ σ, Agree σ env → Inv M (rho M args σ) env aenv

theorem agree_self (env : List Val) : Agree (fun i => (env[i]?.map Val.n).getD 0) env := by
  intro i u h
  simp only [h, Option.map_some, Option.getD_some]

theorem agree_app {σ : Nat → Nat} {env l : List Val} (h : Agree σ (env ++ l)) : Agree σ env := by
  intro i u hu
  refine h i u ?_
  obtain ⟨hi, _⟩ := List.getElem?_eq_some_iff.1 hu
  rw [List.getElem?_append_left hi, hu]

theorem eval_all (hM : 0 < M) (hw : Within args bnd) {env : List Val} {aenv : List AV} (hI : InvAll M args env aenv) {e : Ex} {v : AV}
    (h : aeval M bnd aenv e = some v) : ∃ u, eval args env e = .ok u ∧ ∀ σ, Agree σ env → Holds M (rho M args σ) u v := by
  obtain ⟨u, h1, _⟩ := eval_sound hM hw (hI _ (agree_self env)) (agree_self env) e v h
  refine ⟨u, h1, fun σ hA => ?_⟩
  obtain ⟨u', h1', h2'⟩ := eval_sound hM hw (hI σ hA) hA e v h
  rw [h1] at h1'
  cases h1'
  exact h2'

/-- Appending values that are as described. -/
theorem inv_app {env l : List Val} {aenv al : List AV} (hI : InvAll M args env aenv)
    (hl : ∀ σ, Agree σ (env ++ l) → List.Forall₂ (fun u v => Holds M (rho M args σ) u v ∧
      ∀ j : Nat, v.msk = some j → ∃ t : Val, env[j]? = some t ∧ t.n ≤ 1 ∧ u.n = t.n * (2 ^ 64 - 1)) l al) :
    InvAll M args (env ++ l) (aenv ++ al) := by
  intro σ hA
  obtain ⟨h1, h2⟩ := hI σ (agree_app hA)
  have hf := hl σ hA
  refine ⟨by rw [List.length_append, List.length_append, h1, hf.length_eq], fun i v hv => ?_⟩
  have hext : ∀ (j : Nat) (t : Val), env[j]? = some t → (env ++ l)[j]? = some t := by
    intro j t ht
    obtain ⟨hj, _⟩ := List.getElem?_eq_some_iff.1 ht
    rw [List.getElem?_append_left hj, ht]
  rcases Nat.lt_or_ge i aenv.length with hi | hi
  · rw [List.getElem?_append_left hi] at hv
    obtain ⟨u, u1, u2, u3⟩ := h2 i v hv
    refine ⟨u, hext i u u1, u2, fun j hj => ?_⟩
    obtain ⟨t, t1, t2⟩ := u3 j hj
    exact ⟨t, hext j t t1, t2⟩
  · rw [List.getElem?_append_right hi] at hv
    rw [List.getElem?_append_right (by omega), h1]
    obtain ⟨hi', hv'⟩ := List.getElem?_eq_some_iff.1 hv
    have hlen := hf.length_eq
    have := List.forall₂_iff_get.1 hf
    obtain ⟨g1, g2⟩ := this.2 (i - aenv.length) (by omega) hi'
    rw [List.get_eq_getElem, List.get_eq_getElem, hv'] at *
    refine ⟨l[i - aenv.length], List.getElem?_eq_getElem _, g1, fun j hj => ?_⟩
    obtain ⟨t, t1, t2⟩ := g2 j hj
    exact ⟨t, hext j t t1, t2⟩

theorem none_msk {env : List Val} {n : Nat} {v : AV} (h : v.msk = none) : ∀ j : Nat, v.msk = some j → ∃ t : Val, env[j]? = some t ∧ t.n ≤ 1 ∧ n = t.n * (2 ^ 64 - 1) := by
  intro j hj
  rw [h] at hj
  exact absurd hj (by simp)

theorem step_sound (hM : 0 < M) (hw : Within args bnd) {env : List Val} {aenv : List AV} (hI : InvAll M args env aenv)
    (s : St) (al : List AV) (h : astep M bnd aenv s = some al) :
    ∃ l, step args env s = .ok (env ++ l) ∧ InvAll M args (env ++ l) (aenv ++ al) := by
  have hlen : env.length = aenv.length := (hI _ (agree_self env)).1
  cases s with
  | set w e =>
    rw [astep] at h
    split at h
    · exact absurd h (by simp)
    next u hu =>
      rcases hc : Nat.blt u.hi (2 ^ w) with _ | _
      · rw [hc, cond_false] at h; exact absurd h (by simp)
      · rw [hc, cond_true] at h
        rw [Nat.blt_eq] at hc
        cases h
        obtain ⟨a, a1, a2⟩ := eval_all hM hw hI hu
        have ab := a2 _ (agree_self env)
        refine ⟨[⟨w, a.n⟩], ?_, inv_app hI (fun σ hA => ?_)⟩
        · rw [step, a1, C.ok_bind, Nat.mod_eq_of_lt (by have := ab.2.2.1; omega)]
        · obtain ⟨_, b2, b3, b4⟩ := a2 σ (agree_app hA)
          exact .cons ⟨⟨rfl, b2, b3, b4⟩, none_msk rfl⟩ .nil
  | addc s c a b =>
    rw [astep] at h
    split at h
    · exact absurd h (by simp)
    next c' hc' =>
      split at h
      · exact absurd h (by simp)
      next a' ha' =>
        split at h
        · exact absurd h (by simp)
        next b' hb' =>
          rcases hc : (Nat.blt (c'.hi + a'.hi + b'.hi) (2 ^ 64) && (Nat.blt ((c'.hi + a'.hi + b'.hi) / 2 ^ s) 256 && (Nat.blt c'.hi 256 && Nat.blt (aenv.length + 1) 4000))) with _ | _
          · rw [hc, cond_false] at h; exact absurd h (by simp)
          · rw [hc, cond_true] at h
            simp only [Bool.and_eq_true, Nat.blt_eq] at hc
            obtain ⟨k1, k2, k3, k4⟩ := hc
            cases h
            obtain ⟨x, x1, x2⟩ := eval_all hM hw hI hc'
            obtain ⟨y, y1, y2⟩ := eval_all hM hw hI ha'
            obtain ⟨z, z1, z2⟩ := eval_all hM hw hI hb'
            obtain ⟨_, _, xb, _⟩ := x2 _ (agree_self env)
            obtain ⟨_, _, yb, _⟩ := y2 _ (agree_self env)
            obtain ⟨_, _, zb, _⟩ := z2 _ (agree_self env)
            have hdle : (x.n + y.n + z.n) / 2 ^ s ≤ (c'.hi + a'.hi + b'.hi) / 2 ^ s := Nat.div_le_div_right (by omega)
            refine ⟨[⟨64, (x.n + y.n + z.n) % 2 ^ s⟩, ⟨8, (x.n + y.n + z.n) / 2 ^ s⟩], ?_, inv_app hI (fun σ hA => ?_)⟩
            · rw [step, x1, C.ok_bind, y1, C.ok_bind, z1, C.ok_bind, Nat.mod_eq_of_lt (show x.n < 2 ^ 8 by omega), Nat.mod_eq_of_lt (show y.n < 2 ^ 64 by omega),
                Nat.mod_eq_of_lt (show z.n < 2 ^ 64 by omega), addcarryx_eq (by omega) (by omega)]
            · obtain ⟨_, _, _, x5⟩ := x2 σ (agree_app hA)
              obtain ⟨_, _, _, y5⟩ := y2 σ (agree_app hA)
              obtain ⟨_, _, _, z5⟩ := z2 σ (agree_app hA)
              have hv : σ (aenv.length + 1) = (x.n + y.n + z.n) / 2 ^ s := by
                refine hA _ ⟨8, (x.n + y.n + z.n) / 2 ^ s⟩ ?_
                rw [List.getElem?_append_right (by omega), hlen, Nat.add_sub_cancel_left]
                rfl
              have hp : 0 < 2 ^ s := Nat.two_pow_pos s
              have hv1 : ∀ co : Nat, pval (rho M args σ) [(vAtom (aenv.length + 1), co)] = (co : ZMod M) * (((x.n + y.n + z.n) / 2 ^ s : Nat) : ZMod M) := by
                intro co
                rw [pval_one _ (by unfold vAtom; omega) (by unfold vAtom KB; omega), rho_v, hv]
              refine .cons ⟨⟨rfl, Nat.zero_le _, ?_, ?_⟩, none_msk rfl⟩ (.cons ⟨⟨rfl, Nat.zero_le _, hdle, ?_⟩, none_msk rfl⟩ .nil)
              · have := Nat.mod_lt (x.n + y.n + z.n) hp
                dsimp only
                omega
              · dsimp only
                rw [padd_val, padd_val, padd_val, hv1, negc hM, ← x5, ← y5, ← z5]
                have := congrArg (Nat.cast (R := ZMod M)) (Nat.div_add_mod (x.n + y.n + z.n) (2 ^ s))
                rw [Nat.cast_add, Nat.cast_mul, Nat.cast_add, Nat.cast_add] at this
                linear_combination this
              · dsimp only
                rw [hv1, Nat.cast_one, one_mul]
  | subb s c a b =>
    rw [astep] at h
    split at h
    · exact absurd h (by simp)
    next c' hc' =>
      split at h
      · exact absurd h (by simp)
      next a' ha' =>
        split at h
        · exact absurd h (by simp)
        next b' hb' =>
          rcases hc : (Nat.ble c'.hi 1 && (Nat.blt a'.hi (b'.lo + 2 ^ s) && (Nat.blt b'.hi (2 ^ s) && (Nat.blt s 62 && (Nat.blt a'.hi (2 ^ 62) && Nat.blt (aenv.length + 1) 4000))))) with _ | _
          · rw [hc, cond_false] at h; exact absurd h (by simp)
          · rw [hc, cond_true] at h
            simp only [Bool.and_eq_true, Nat.blt_eq, Nat.ble_eq] at hc
            obtain ⟨k1, k2, k3, k4, k5, k6⟩ := hc
            cases h
            obtain ⟨x, x1, x2⟩ := eval_all hM hw hI hc'
            obtain ⟨y, y1, y2⟩ := eval_all hM hw hI ha'
            obtain ⟨z, z1, z2⟩ := eval_all hM hw hI hb'
            obtain ⟨_, _, xb, _⟩ := x2 _ (agree_self env)
            obtain ⟨_, _, yb, _⟩ := y2 _ (agree_self env)
            obtain ⟨_, zl, zb, _⟩ := z2 _ (agree_self env)
            have hs2 : 2 ^ s ≤ 2 ^ 61 := Nat.pow_le_pow_right (by decide) (by omega)
            obtain ⟨o, q, hq, q1, q2, q3⟩ := subborrowx_eq (s := s) (c := x.n) (a := y.n) (b := z.n) (by omega) (by omega) k4 (by omega) (by omega)
            refine ⟨[⟨64, o⟩, ⟨8, q⟩], ?_, inv_app hI (fun σ hA => ?_)⟩
            · rw [step, x1, C.ok_bind, y1, C.ok_bind, z1, C.ok_bind, Nat.mod_eq_of_lt (show x.n < 2 ^ 8 by omega), Nat.mod_eq_of_lt (show y.n < 2 ^ 64 by omega),
                Nat.mod_eq_of_lt (show z.n < 2 ^ 64 by omega), hq, C.ok_bind]
            · obtain ⟨_, _, _, x5⟩ := x2 σ (agree_app hA)
              obtain ⟨_, _, _, y5⟩ := y2 σ (agree_app hA)
              obtain ⟨_, _, _, z5⟩ := z2 σ (agree_app hA)
              have hv : σ (aenv.length + 1) = q := by
                refine hA _ ⟨8, q⟩ ?_
                rw [List.getElem?_append_right (by omega), hlen, Nat.add_sub_cancel_left]
                rfl
              have hv1 : ∀ co : Nat, pval (rho M args σ) [(vAtom (aenv.length + 1), co)] = (co : ZMod M) * (q : ZMod M) := by
                intro co
                rw [pval_one _ (by unfold vAtom; omega) (by unfold vAtom KB; omega), rho_v, hv]
              refine .cons ⟨⟨rfl, Nat.zero_le _, ?_, ?_⟩, none_msk rfl⟩ (.cons ⟨⟨rfl, Nat.zero_le _, q2, ?_⟩, none_msk rfl⟩ .nil)
              · dsimp only
                omega
              · dsimp only
                rw [padd_val, padd_val, padd_val, pneg_val hM, pneg_val hM, hv1, ZMod.natCast_mod, ← x5, ← y5, ← z5]
                have := congrArg (Int.cast (R := ZMod M)) q3
                push_cast at this ⊢
                linear_combination this
              · dsimp only
                rw [hv1, Nat.cast_one, one_mul]
  | cmov c a b =>
    rw [astep.eq_def] at h
    dsimp only at h
    split at h
    next j =>
      split at h
      next w1 n =>
        split at h
        next w2 m =>
          split at h
          · exact absurd h (by simp)
          next u hu =>
            rcases hc : (Nat.ble u.hi 1 && (Nat.beq n 0 && (Nat.beq m (2 ^ 64 - 1) && Nat.blt aenv.length 4000))) with _ | _
            · rw [hc, cond_false] at h; exact absurd h (by simp)
            · rw [hc, cond_true] at h
              simp only [Bool.and_eq_true, Nat.blt_eq, Nat.ble_eq, Nat.beq_eq] at hc
              obtain ⟨k1, k2, k3, k4⟩ := hc
              cases h
              obtain ⟨t, t1, ⟨_, _, t4, _⟩, _⟩ := (hI _ (agree_self env)).2 j u hu
              refine ⟨[⟨64, t.n * (2 ^ 64 - 1)⟩], ?_, inv_app hI (fun σ hA => ?_)⟩
              · rw [step, eval, rd_of_some t1, C.ok_bind, eval, C.ok_bind, eval, C.ok_bind, k2, k3]
                dsimp only
                rw [Nat.mod_eq_of_lt (show t.n < 2 ^ 8 by omega), Nat.zero_mod, show (2 ^ 64 - 1) % 2 ^ 64 = 2 ^ 64 - 1 from rfl, cmovznz_mask (by omega)]
              · have hv : σ aenv.length = t.n * (2 ^ 64 - 1) := by
                  refine hA _ ⟨64, t.n * (2 ^ 64 - 1)⟩ ?_
                  rw [List.getElem?_append_right (by omega), hlen, Nat.sub_self]
                  rfl
                refine .cons ⟨⟨rfl, Nat.zero_le _, ?_, ?_⟩, ?_⟩ .nil
                · dsimp only
                  omega
                · dsimp only
                  rw [pval_one _ (by unfold vAtom; omega) (by unfold vAtom KB; omega), rho_v, hv, Nat.cast_one, one_mul]
                · intro j' hj'
                  cases hj'
                  exact ⟨t, t1, by omega, rfl⟩
        · exact absurd h (by simp)
      · exact absurd h (by simp)
    · exact absurd h (by simp)

theorem steps_sound (hM : 0 < M) (hw : Within args bnd) : ∀ (b : List St) (env : List Val) (aenv aenv' : List AV), InvAll M args env aenv →
    asteps M bnd b aenv = some aenv' → ∃ env', steps args b env = .ok env' ∧ InvAll M args env' aenv'
  | [], env, aenv, aenv', hI, h => by
    rw [asteps] at h
    cases h
    exact ⟨env, rfl, hI⟩
  | s :: r, env, aenv, aenv', hI, h => by
    rw [asteps] at h
    split at h
    · exact absurd h (by simp)
    next l hl =>
      obtain ⟨l', s1, s2⟩ := step_sound hM hw hI s l hl
      obtain ⟨e, e1, e2⟩ := steps_sound hM hw r _ _ _ s2 h
      exact ⟨e, by rw [steps, s1, C.ok_bind, e1], e2⟩

/-- What is known of the outputs. -/
def aouts (aenv : List AV) : List Ex → Option (List AV)
  | [] => some []
  | e :: r =>
    match e with
    | .x i =>
      match aenv[i]? with
      | none => none
      | some v =>
        match aouts aenv r with
        | none => none
        | some l => some (v :: l)
    | _ => none

theorem outs_sound {σ : Nat → Nat} {env : List Val} {aenv : List AV} (hI : Inv M (rho M args σ) env aenv) : ∀ (o : List Ex) (al : List AV),
    aouts aenv o = some al → ∃ out, outputs args env o = .ok out ∧
      List.Forall₂ (fun (n : Nat) (v : AV) => v.lo ≤ n ∧ n ≤ v.hi ∧ (n : ZMod M) = pval (rho M args σ) v.p) out al
  | [], al, h => by
    rw [aouts] at h
    cases h
    exact ⟨[], rfl, .nil⟩
  | e :: r, al, h => by
    rw [aouts.eq_def] at h
    dsimp only at h
    split at h
    next i =>
      split at h
      · exact absurd h (by simp)
      next v hv =>
        split at h
        · exact absurd h (by simp)
        next l hl =>
          cases h
          obtain ⟨u, u1, u2, _⟩ := hI.2 i v hv
          obtain ⟨out, o1, o2⟩ := outs_sound hI r l hl
          refine ⟨u.n :: out, ?_, .cons u2.2 o2⟩
          rw [outputs, eval, rd_of_some u1, C.ok_bind, o1, C.ok_bind]
    · exact absurd h (by simp)

/-- A program that passes runs without anything undefined, and its outputs are as the check says. -/
theorem run_sound (hM : 0 < M) (hw : Within args bnd) {p : Prog} {aenv al : List AV} (h : asteps M bnd p.body [] = some aenv)
    (ho : aouts aenv p.outs = some al) : ∃ out env, ∃ σ : Nat → Nat, run p args = .ok out ∧ Inv M (rho M args σ) env aenv ∧ Agree σ env ∧
      List.Forall₂ (fun (n : Nat) (v : AV) => v.lo ≤ n ∧ n ≤ v.hi ∧ (n : ZMod M) = pval (rho M args σ) v.p) out al := by
  have h0 : InvAll M args [] [] := fun σ _ => ⟨rfl, fun i v hv => absurd hv (by simp)⟩
  obtain ⟨env, e1, e2⟩ := steps_sound hM hw p.body [] [] aenv h0 h
  obtain ⟨out, o1, o2⟩ := outs_sound (e2 _ (agree_self env)) p.outs al ho
  refine ⟨out, env, _, ?_, e2 _ (agree_self env), agree_self env, o2⟩
  rw [run, e1, C.ok_bind, o1]

end
end Torsion.Fiat
