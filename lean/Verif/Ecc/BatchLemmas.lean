import Verif.Ecc.SchnorrLemmas

/-! Lemmas on verification in batches. -/
namespace Torsion.Ecc

open Torsion.Spec
open WeierstrassCurve.Affine (Point)

/-! ### The seed -/

theorem batch_seed_loop_ok (junk : Nat → Byte) : ∀ (ts : List (List Byte × List Byte × List Byte)) (c : MdCtx sha256Alg) (m : List Byte),
    (∀ t ∈ ts, t.1.length < 2 ^ 64 ∧ t.2.1.length < 2 ^ 64 ∧ t.2.2.length < 2 ^ 64) → Hsh.MdRep Hsh.okSha256 Hsh.ivSha256 c m →
    ∃ c', batch_seed_loop junk ts c = .ok c' ∧ Hsh.MdRep Hsh.okSha256 Hsh.ivSha256 c'
      (m ++ ts.flatMap fun t => Spec.sha256 t.1 ++ t.2.1 ++ t.2.2)
  | [], c, m, _, h => ⟨c, rfl, by simpa using h⟩
  | (msg, sig, key) :: ts, c, m, hl, h => by
    obtain ⟨l1, l2, l3⟩ := hl _ List.mem_cons_self
    obtain ⟨i, e1, r1⟩ := Hsh.md_rep_update Hsh.okSha256 (Hsh.sha256_ini junk) msg l1
    obtain ⟨o1, e2, r2⟩ := Hsh.md_rep_update Hsh.okSha256 h (Spec.sha256 msg) (by rw [Hsh.sha256_len]; decide)
    obtain ⟨o2, e3, r3⟩ := Hsh.md_rep_update Hsh.okSha256 r2 sig l2
    obtain ⟨o3, e4, r4⟩ := Hsh.md_rep_update Hsh.okSha256 r3 key l3
    obtain ⟨o4, e5, r5⟩ := batch_seed_loop_ok junk ts o3 _ (fun t ht => hl t (List.mem_cons_of_mem _ ht)) r4
    refine ⟨o4, ?_, ?_⟩
    · rw [batch_seed_loop, e1, C.ok_bind, Hsh.sha256_fin r1, C.ok_bind, List.nil_append, e2, C.ok_bind, e3, C.ok_bind, e4, C.ok_bind, e5]
    · rw [List.flatMap_cons]
      simpa only [List.append_assoc] using r5

theorem batch_seed_ok (junk : Nat → Byte) {ts : List (List Byte × List Byte × List Byte)}
    (hl : ∀ t ∈ ts, t.1.length < 2 ^ 64 ∧ t.2.1.length < 2 ^ 64 ∧ t.2.2.length < 2 ^ 64) :
    batch_seed junk ts = .ok (Spec.sha256 (ts.flatMap fun t => Spec.sha256 t.1 ++ t.2.1 ++ t.2.2)) := by
  obtain ⟨c, e, r⟩ := batch_seed_loop_ok junk ts _ _ hl (Hsh.sha256_ini junk)
  rw [batch_seed, e, C.ok_bind, Hsh.sha256_fin r, List.nil_append]

/-! ### The loop -/

theorem num_random_ok {S : Type} (rng : ByteGen S) (n : Nat) : ∀ (fuel : Nat) (st : S),
    num_random rng n fuel st = .spin ∨ ∃ a st', num_random rng n fuel st = .ok (a, st') ∧ Draw rng.gen n st a st'
  | 0, st => Or.inl rfl
  | fuel + 1, st => by
    rw [num_random]
    split
    · rename_i h
      exact Or.inr ⟨_, _, rfl, .take rfl h.1 h.2⟩
    · rename_i h
      rcases num_random_ok rng n fuel (rng.gen st ((n.size + 63) / 64 * 8)).2 with h' | ⟨a, st', h1, h2⟩
      · exact Or.inl h'
      · exact Or.inr ⟨a, st', h1, .skip h h2⟩

theorem draw_range {S : Type} {gen : S → Nat → List Byte × S} {n : Nat} {s s' : S} {a : Nat} (h : Draw gen n s a s') : 0 < a ∧ a < n := by
  induction h with
  | take _ h0 h1 => exact ⟨h0, h1⟩
  | skip _ _ ih => exact ih

theorem draw_unique {S : Type} {gen : S → Nat → List Byte × S} {n : Nat} {s s' : S} {a : Nat} (h : Draw gen n s a s') :
    ∀ {b s''}, Draw gen n s b s'' → a = b ∧ s' = s'' := by
  induction h with
  | take e h0 h1 =>
    intro b s'' h
    cases h with
    | take e' _ _ => exact ⟨e.symm.trans e', rfl⟩
    | skip hn _ => exact absurd ⟨e ▸ h0, e ▸ h1⟩ hn
  | skip hn _ ih =>
    intro b s'' h
    cases h with
    | take e' h0 h1 => exact absurd ⟨e' ▸ h0, e' ▸ h1⟩ hn
    | skip _ h => exact ih h

/-- One coefficient. -/
def Coef {S : Type} (gen : S → Nat → List Byte × S) (n m : Nat) (s : S) (a : Nat) (s' : S) : Prop :=
  (m = 0 ∧ a = 1 ∧ s' = s) ∨ (0 < m ∧ Draw gen n s a s')

theorem coef_unique {S : Type} {gen : S → Nat → List Byte × S} {n m : Nat} {s s' s'' : S} {a b : Nat} (h : Coef gen n m s a s')
    (h' : Coef gen n m s b s'') : a = b ∧ s' = s'' := by
  rcases h with ⟨h1, h2, h3⟩ | ⟨h1, h2⟩ <;> rcases h' with ⟨g1, g2, g3⟩ | ⟨g1, g2⟩
  · exact ⟨h2.trans g2.symm, h3.trans g3.symm⟩
  · omega
  · omega
  · exact draw_unique h2 g2

theorem coeffs_cons {S : Type} {gen : S → Nat → List Byte × S} {n cap m : Nat} {s : S} {a : Nat} {as : List Nat} :
    Coeffs gen n cap m s (a :: as) ↔ ∃ s', Coef gen n m s a s' ∧ Coeffs gen n cap ((m + 1) % cap) s' as := by
  constructor
  · intro h
    cases h with
    | first h => exact ⟨s, Or.inl ⟨rfl, rfl, rfl⟩, h⟩
    | next h1 h2 h3 => exact ⟨_, Or.inr ⟨h1, h2⟩, h3⟩
  · rintro ⟨s', ⟨rfl, rfl, rfl⟩ | ⟨h1, h2⟩, h⟩
    · exact .first h
    · exact .next h1 h2 h

theorem coeffs_range {S : Type} {gen : S → Nat → List Byte × S} {n cap m : Nat} {s : S} {as : List Nat} (hn : 1 < n)
    (h : Coeffs gen n cap m s as) : ∀ a ∈ as, 0 < a ∧ a < n := by
  induction h with
  | nil => simp
  | first _ ih =>
    intro a ha
    rcases List.mem_cons.1 ha with rfl | ha
    · omega
    · exact ih a ha
  | next _ h _ ih =>
    intro a ha
    rcases List.mem_cons.1 ha with rfl | ha
    · exact draw_range h
    · exact ih a ha

section
variable {M : Type} [AddCommGroup M]

/-- What a batch computes: `Dt t D` means that `t` is well-formed and `D` is its defect, which is zero for a valid signature;
`m` is the number of signatures in the current chunk and `acc` their combination. -/
inductive BatchRun {S T : Type} (gen : S → Nat → List Byte × S) (Dt : T → M → Prop) (n cap : Nat) :
    Nat → S → M → List T → Bool → Prop
  | nil {m st acc b} : (b = true ↔ acc = 0) → BatchRun gen Dt n cap m st acc [] b
  | bad {m st acc t ts} : (∀ D, ¬ Dt t D) → BatchRun gen Dt n cap m st acc (t :: ts) false
  | full {m st acc t ts D a st' b} : Dt t D → Coef gen n m st a st' → m + 1 = cap → acc + a • D = 0 →
      BatchRun gen Dt n cap 0 st' 0 ts b → BatchRun gen Dt n cap m st acc (t :: ts) b
  | stop {m st acc t ts D a st'} : Dt t D → Coef gen n m st a st' → m + 1 = cap → acc + a • D ≠ 0 →
      BatchRun gen Dt n cap m st acc (t :: ts) false
  | more {m st acc t ts D a st' b} : Dt t D → Coef gen n m st a st' → m + 1 < cap →
      BatchRun gen Dt n cap (m + 1) st' (acc + a • D) ts b → BatchRun gen Dt n cap m st acc (t :: ts) b

/-- The sum of terms. -/
def termSum (ts : List (M × Nat)) : M := (ts.map fun t => t.2 • t.1).sum

end

section
variable {fe : FieldCode} [Fact fe.p.Prime] {ec : WeiT fe} {G : Pt ec.toCurve}

theorem batch_check_ok (ok : EcOk ec G) {size sum : Nat} (hs : sum < ec.n) {ts : List (Pt ec.toCurve × Nat)}
    (hk : ∀ t ∈ ts, t.2 < ec.n) (hl : ts.length ≤ size) :
    ∃ b, batch_check ec size sum (ts.map fun t => (affine t.1, t.2)) = .ok b ∧ (b = true ↔ sum • G - termSum ts = 0) := by
  have hn := ok.prime.pos
  have h := wei_mul_multi_exact ok.wei (k0 := num_neg ec.n sum) (Nat.mod_lt _ hn) ts hk (Or.inr fun t _ => ok.all _) size
  rw [if_pos hl] at h
  obtain ⟨j, e, hj⟩ := h
  unfold batch_check
  rw [e, C.ok_bind]
  refine ⟨_, rfl, ?_⟩
  rw [num_neg_smul ok hs] at hj
  have hz : sum • G - termSum ts = 0 ↔ -(sum • G) + termSum ts = 0 := by
    rw [neg_add_eq_sub, ← neg_sub, neg_eq_zero]
  rw [hz]
  change Jac j (-(sum • G) + termSum ts) at hj
  generalize -(sum • G) + termSum ts = P at *
  unfold jge_is_zero
  rcases P with _ | ⟨x, y, h⟩
  · rw [show j = ⟨1, 1, 0, true, false⟩ from hj]
    simp [Point.zero_def]
  · rw [hj.1]
    simp

theorem batch_loop_ok {S T : Type} (rng : ByteGen S) (ok : EcOk ec G) {size : Nat} (hsz : 2 ≤ size) (fuel : Nat)
    {parse : T → C (Option (BatchItem (ZMod fe.p)))} {Dt : T → Pt ec.toCurve → Prop} : ∀ (ts : List T),
    (∀ t ∈ ts, (parse t = .ok none ∧ ∀ D, ¬ Dt t D) ∨ ∃ s e, ∃ W A : Pt ec.toCurve, parse t = .ok (some ⟨s, affine W, affine A, e⟩) ∧
      s < ec.n ∧ e < ec.n ∧ Dt t (s • G - (W + e • A))) →
    ∀ (sum : Nat) (terms : List (Pt ec.toCurve × Nat)) (st : S) (m : Nat), sum < ec.n → (∀ t ∈ terms, t.2 < ec.n) →
      terms.length = 2 * m → m < size / 2 → (m = 0 → sum = 0) →
      (batch_loop rng fuel ec size parse ts sum (terms.map fun t => (affine t.1, t.2)) st = .spin ∧ size / 2 ≠ 1) ∨
      ∃ b, batch_loop rng fuel ec size parse ts sum (terms.map fun t => (affine t.1, t.2)) st = .ok b ∧
        BatchRun rng.gen Dt ec.n (size / 2) m st (sum • G - termSum terms) ts b
  | [], _, sum, terms, st, m, hs, hk, hl, hm, h0 => by
    right
    rw [batch_loop, List.length_map]
    by_cases hz : terms.length > 0
    · rw [if_pos hz]
      obtain ⟨b, e1, e2⟩ := batch_check_ok ok hs hk (show terms.length ≤ size by omega)
      refine ⟨b, ?_, .nil e2⟩
      rw [R.liftM_eq, e1, R.lift_ok]
    · rw [if_neg hz]
      have ht : terms = [] := List.length_eq_zero_iff.1 (by omega)
      have hm0 : m = 0 := by omega
      refine ⟨true, rfl, .nil ?_⟩
      rw [h0 hm0, ht]
      simp [termSum]
  | t :: ts, hp, sum, terms, st, m, hs, hk, hl, hm, h0 => by
    have hn := ok.prime.pos
    have ih := batch_loop_ok rng ok hsz fuel ts (fun u hu => hp u (List.mem_cons_of_mem _ hu))
    rw [batch_loop]
    rcases hp t List.mem_cons_self with ⟨e1, e2⟩ | ⟨s, e, W, A, e1, hs', he', hD⟩
    · rw [e1, R.lift_ok, R.ok_bind]
      exact Or.inr ⟨false, rfl, .bad e2⟩
    rw [e1, R.lift_ok, R.ok_bind]
    dsimp only
    rw [List.length_map]
    have hcoef : ((if terms.length = 0 then (R.ok (1, st) : R (Nat × S)) else num_random rng ec.n fuel st) = .spin ∧ size / 2 ≠ 1) ∨
        ∃ a st', (if terms.length = 0 then (R.ok (1, st) : R (Nat × S)) else num_random rng ec.n fuel st) = .ok (a, st') ∧
          Coef rng.gen ec.n m st a st' := by
      split
      · exact Or.inr ⟨1, st, rfl, Or.inl ⟨by omega, rfl, rfl⟩⟩
      · rcases num_random_ok rng ec.n fuel st with h | ⟨a, st', h1, h2⟩
        · exact Or.inl ⟨h, by omega⟩
        · exact Or.inr ⟨a, st', h1, Or.inr ⟨by omega, h2⟩⟩
    have key : ∀ x : R (Nat × S), ((x = .spin ∧ size / 2 ≠ 1) ∨ ∃ a st', x = .ok (a, st') ∧ Coef rng.gen ec.n m st a st') →
        ∀ z : R Bool, z = (x >>= fun a => 
          if (terms.map (fun t => (affine t.1, t.2)) ++ [((affine W), a.1), (affine A, e * a.1 % ec.n)]).length = size - size % 2 then
            (R.lift (batch_check ec size ((sum + s * a.1 % ec.n) % ec.n)
              (terms.map (fun t => (affine t.1, t.2)) ++ [((affine W), a.1), (affine A, e * a.1 % ec.n)]))) >>= fun ok =>
              if !ok then .ok false else batch_loop rng fuel ec size parse ts 0 [] a.2
          else batch_loop rng fuel ec size parse ts ((sum + s * a.1 % ec.n) % ec.n)
            (terms.map (fun t => (affine t.1, t.2)) ++ [((affine W), a.1), (affine A, e * a.1 % ec.n)]) a.2) →
        (z = .spin ∧ size / 2 ≠ 1) ∨ ∃ b, z = .ok b ∧ BatchRun rng.gen Dt ec.n (size / 2) m st (sum • G - termSum terms) (t :: ts) b := by
      rintro x (⟨rfl, hc⟩ | ⟨a, st', rfl, ha⟩) z rfl
      · exact Or.inl ⟨rfl, hc⟩
      have han : a < ec.n := by
        rcases ha with ⟨-, rfl, -⟩ | ⟨-, h⟩
        · exact ok.prime.one_lt
        · exact (draw_range h).2
      rw [R.ok_bind]
      dsimp only
      have hmap : terms.map (fun t => (affine t.1, t.2)) ++ [((affine W), a), (affine A, e * a % ec.n)] =
          (terms ++ [(W, a), (A, e * a % ec.n)]).map (fun t => (affine t.1, t.2)) := by simp
      rw [hmap, List.length_map]
      have hk' : ∀ u ∈ terms ++ [(W, a), (A, e * a % ec.n)], u.2 < ec.n := by
        intro u hu
        rw [List.mem_append] at hu
        rcases hu with hu | hu
        · exact hk u hu
        · simp only [List.mem_cons, List.not_mem_nil, or_false] at hu
          rcases hu with rfl | rfl
          · exact han
          · exact Nat.mod_lt _ hn
      have hs2 : (sum + s * a % ec.n) % ec.n < ec.n := Nat.mod_lt _ hn
      have hl2 : (terms ++ [(W, a), (A, e * a % ec.n)]).length = 2 * (m + 1) := by rw [List.length_append, hl]; rfl
      have hacc : ((sum + s * a % ec.n) % ec.n) • G - termSum (terms ++ [(W, a), (A, e * a % ec.n)]) =
          sum • G - termSum terms + a • (s • G - (W + e • A)) := by
        have q1 : ((sum + s * a % ec.n) % ec.n) • G = sum • G + a • (s • G) := by
          rw [← mul_nsmul', ← add_nsmul]
          refine smul_cast ok ?_ G
          push_cast [ZMod.natCast_mod]; ring
        have q2 : (e * a % ec.n) • A = a • (e • A) := by
          rw [← mul_nsmul']
          refine smul_cast ok ?_ A
          push_cast [ZMod.natCast_mod]; ring
        have q3 : termSum (terms ++ [(W, a), (A, e * a % ec.n)]) = termSum terms + (a • W + (e * a % ec.n) • A) := by
          simp [termSum]
        rw [q1, q3, q2, nsmul_sub, nsmul_add]
        abel
      have hcap : size - size % 2 = 2 * (size / 2) := by omega
      rw [hl2, hcap]
      by_cases hfull : m + 1 = size / 2
      · rw [if_pos (by rw [hfull])]
        obtain ⟨b, c1, c2⟩ := batch_check_ok ok hs2 hk' (show _ ≤ size by omega)
        rw [c1, R.lift_ok, R.ok_bind]
        rw [hacc] at c2
        cases b with
        | false =>
          refine Or.inr ⟨false, rfl, .stop hD ha hfull fun hc => ?_⟩
          exact absurd (c2.2 hc) (by simp)
        | true =>
          simp only [Bool.not_true, Bool.false_eq_true, if_false]
          rcases ih 0 [] st' 0 hn (by simp) rfl (by omega) (fun _ => rfl) with h | ⟨b, h1, h2⟩
          · exact Or.inl h
          · refine Or.inr ⟨b, h1, .full hD ha hfull (c2.1 rfl) ?_⟩
            simpa [termSum] using h2
      · rw [if_neg (by omega)]
        rcases ih _ _ st' (m + 1) hs2 hk' hl2 (by omega) (fun h => absurd h (by omega)) with h | ⟨b, h1, h2⟩
        · exact Or.inl h
        · refine Or.inr ⟨b, h1, .more hD ha (by omega) ?_⟩
          rwa [hacc] at h2
    exact key _ hcoef _ (by split <;> rfl)

end

/-! ### Consequences -/

section
variable {M : Type} [AddCommGroup M]

variable {S T : Type} {gen : S → Nat → List Byte × S} {Dt : T → M → Prop}

theorem run_complete (hu : ∀ t D D', Dt t D → Dt t D' → D = D') {n cap m : Nat} {st : S} {acc : M} {ts : List T} {b : Bool}
    (h : BatchRun gen Dt n cap m st acc ts b) : acc = 0 → (∀ t ∈ ts, Dt t 0) → b = true := by
  induction h with
  | nil hb => intro h _; exact hb.2 h
  | bad hb => intro _ hv; exact absurd (hv _ List.mem_cons_self) (hb 0)
  | full _ _ _ _ _ ih => intro _ hv; exact ih rfl fun t ht => hv t (List.mem_cons_of_mem _ ht)
  | stop hD _ _ hne =>
    intro h0 hv
    rw [hu _ _ _ hD (hv _ List.mem_cons_self), h0, smul_zero, add_zero] at hne
    exact absurd rfl hne
  | more hD _ _ _ ih =>
    intro h0 hv
    refine ih ?_ fun t ht => hv t (List.mem_cons_of_mem _ ht)
    rw [hu _ _ _ hD (hv _ List.mem_cons_self), h0, smul_zero, add_zero]

/-- With chunks of one signature the batch checks every signature. -/
theorem run_single {n m : Nat} {st : S} {acc : M} {ts : List T} {b : Bool}
    (h : BatchRun gen Dt n 1 m st acc ts b) : m = 0 → acc = 0 → b = true → ∀ t ∈ ts, Dt t 0 := by
  induction h with
  | nil hb => intro _ _ _ t ht; cases ht
  | bad hb => intro _ _ h; cases h
  | full hD hc _ hz _ ih =>
    rintro rfl rfl rfl t ht
    rcases List.mem_cons.1 ht with rfl | ht
    · rcases hc with ⟨-, rfl, -⟩ | ⟨h, -⟩
      · rw [zero_add, one_nsmul] at hz
        rwa [hz] at hD
      · omega
    · exact ih rfl rfl rfl t ht
  | stop => intro _ _ h; cases h
  | more _ _ hm => omega

/-- The condition for the rest of a batch. -/
def Rest (gen : S → Nat → List Byte × S) (Dt : T → M → Prop) (n cap m : Nat) (st : S) (acc : M) (ts : List T) :
    Prop :=
  ∃ (as : List Nat) (Ds : List M), Coeffs gen n cap m st as ∧ List.Forall₂ Dt ts Ds ∧ as.length = ts.length ∧
    acc + ((List.zipWith (· • ·) as Ds).take (cap - m)).sum = 0 ∧
    ∀ q, (((List.zipWith (· • ·) as Ds).drop (cap - m + q * cap)).take cap).sum = 0

theorem rest_cons (hu : ∀ t D D', Dt t D → Dt t D' → D = D') {n cap m : Nat} {st st' : S} {acc D : M} {t : T} {ts : List T}
    {a : Nat} (hD : Dt t D) (hc : Coef gen n m st a st') :
    Rest gen Dt n cap m st acc (t :: ts) ↔ ∃ (as : List Nat) (Ds : List M), Coeffs gen n cap ((m + 1) % cap) st' as ∧
      List.Forall₂ Dt ts Ds ∧ as.length = ts.length ∧ acc + ((a • D :: List.zipWith (· • ·) as Ds).take (cap - m)).sum = 0 ∧
      ∀ q, (((a • D :: List.zipWith (· • ·) as Ds).drop (cap - m + q * cap)).take cap).sum = 0 := by
  constructor
  · rintro ⟨as, Ds, h1, h2, h3, h4, h5⟩
    cases h2 with
    | @cons _ D' _ Ds' g1 g2 =>
      rcases as with _ | ⟨a', as⟩
      · simp at h3
      obtain rfl := hu _ _ _ hD g1
      obtain ⟨s2, c1, c2⟩ := coeffs_cons.1 h1
      obtain ⟨rfl, rfl⟩ := coef_unique hc c1
      exact ⟨as, Ds', c2, g2, by simpa using h3, h4, h5⟩
  · rintro ⟨as, Ds, h1, h2, h3, h4, h5⟩
    exact ⟨a :: as, D :: Ds, coeffs_cons.2 ⟨st', hc, h1⟩, .cons hD h2, by simp [h3], h4, h5⟩

theorem rest_full (hu : ∀ t D D', Dt t D → Dt t D' → D = D') {n cap m : Nat} {st st' : S} {acc D : M} {t : T} {ts : List T}
    {a : Nat} (hD : Dt t D) (hc : Coef gen n m st a st') (hm : m + 1 = cap) :
    Rest gen Dt n cap m st acc (t :: ts) ↔ acc + a • D = 0 ∧ Rest gen Dt n cap 0 st' 0 ts := by
  rw [rest_cons hu hD hc, hm, Nat.mod_self, show cap - m = 1 by omega]
  simp only [List.take_succ_cons, List.take_zero, List.sum_cons, List.sum_nil, add_zero]
  have hq : ∀ L : List M, (∀ q, (((a • D :: L).drop (1 + q * cap)).take cap).sum = 0) ↔
      (L.take cap).sum = 0 ∧ ∀ q, ((L.drop (cap + q * cap)).take cap).sum = 0 := by
    intro L
    simp only [show ∀ q, 1 + q * cap = q * cap + 1 from fun q => Nat.add_comm _ _, List.drop_succ_cons]
    constructor
    · intro h
      refine ⟨by simpa using h 0, fun q => ?_⟩
      have := h (q + 1)
      rwa [show (q + 1) * cap = cap + q * cap by ring] at this
    · rintro ⟨h0, h⟩ (_ | q)
      · simpa using h0
      · rw [show (q + 1) * cap = cap + q * cap by ring]; exact h q
  constructor
  · rintro ⟨as, Ds, h1, h2, h3, h4, h5⟩
    obtain ⟨q1, q2⟩ := (hq _).1 h5
    exact ⟨h4, as, Ds, h1, h2, h3, by rw [zero_add, Nat.sub_zero]; exact q1, by rw [Nat.sub_zero]; exact q2⟩
  · rintro ⟨h4, as, Ds, h1, h2, h3, q1, q2⟩
    rw [zero_add, Nat.sub_zero] at q1
    rw [Nat.sub_zero] at q2
    exact ⟨as, Ds, h1, h2, h3, h4, (hq _).2 ⟨q1, q2⟩⟩

theorem rest_more (hu : ∀ t D D', Dt t D → Dt t D' → D = D') {n cap m : Nat} {st st' : S} {acc D : M} {t : T} {ts : List T}
    {a : Nat} (hD : Dt t D) (hc : Coef gen n m st a st') (hm : m + 1 < cap) :
    Rest gen Dt n cap m st acc (t :: ts) ↔ Rest gen Dt n cap (m + 1) st' (acc + a • D) ts := by
  rw [rest_cons hu hD hc, Nat.mod_eq_of_lt hm, show cap - m = cap - (m + 1) + 1 by omega]
  unfold Rest
  refine exists_congr fun as => exists_congr fun Ds => and_congr_right fun _ => and_congr_right fun _ => and_congr_right fun _ => ?_
  rw [List.take_succ_cons, List.sum_cons, ← add_assoc]
  refine and_congr_right fun _ => forall_congr' fun q => ?_
  rw [show cap - (m + 1) + 1 + q * cap = cap - (m + 1) + q * cap + 1 by ring, List.drop_succ_cons]

theorem run_exact (hu : ∀ t D D', Dt t D → Dt t D' → D = D') {n cap m : Nat} {st : S} {acc : M} {ts : List T} {b : Bool}
    (h : BatchRun gen Dt n cap m st acc ts b) : m < cap → (b = true ↔ Rest gen Dt n cap m st acc ts) := by
  induction h with
  | nil hb =>
    intro _
    rw [hb]
    constructor
    · rintro rfl; exact ⟨[], [], .nil, .nil, rfl, by simp, by simp⟩
    · rintro ⟨as, Ds, h1, h2, h3, h4, h5⟩
      cases h2
      simpa using h4
  | bad hb =>
    intro _
    simp only [Bool.false_eq_true, false_iff]
    rintro ⟨as, Ds, h1, h2, h3, h4, h5⟩
    cases h2 with
    | cons g1 g2 => exact hb _ g1
  | full hD hc hm hz _ ih =>
    intro hlt
    rw [rest_full hu hD hc hm, ih (by omega)]
    exact ⟨fun h => ⟨hz, h⟩, fun h => h.2⟩
  | stop hD hc hm hz =>
    intro hlt
    rw [rest_full hu hD hc hm]
    simp [hz]
  | more hD hc hm _ ih =>
    intro hlt
    rw [rest_more hu hD hc hm, ih hm]

/-- The condition for a whole batch. -/
theorem rest_start {n cap : Nat} {st : S} {ts : List T} : Rest gen Dt n cap 0 st 0 ts ↔
    ∃ (as : List Nat) (Ds : List M), Coeffs gen n cap 0 st as ∧ as.length = ts.length ∧ List.Forall₂ Dt ts Ds ∧
      ChunksVanish cap as Ds := by
  unfold Rest ChunksVanish
  refine exists_congr fun as => exists_congr fun Ds => ?_
  rw [zero_add, Nat.sub_zero]
  constructor
  · rintro ⟨h1, h2, h3, h4, h5⟩
    refine ⟨h1, h3, h2, ?_⟩
    rintro (_ | q)
    · simpa using h4
    · rw [show (q + 1) * cap = cap + q * cap by ring]; exact h5 q
  · rintro ⟨h1, h3, h2, h4⟩
    refine ⟨h1, h2, h3, by simpa using h4 0, fun q => ?_⟩
    rw [show cap + q * cap = (q + 1) * cap by ring]; exact h4 _

theorem sum_single {A : Type} [AddCommMonoid A] : ∀ (l : List A) (k : Nat) (hk : k < l.length),
    (∀ j (hj : j < l.length), j ≠ k → l[j] = 0) → l.sum = l[k]
  | [], k, hk, _ => absurd hk (by simp)
  | x :: l, 0, hk, h => by
    have : l.sum = 0 := List.sum_eq_zero fun y hy => by
      obtain ⟨j, hj, rfl⟩ := List.getElem_of_mem hy
      exact h (j + 1) (by simpa using hj) (by omega)
    simp [this]
  | x :: l, k + 1, hk, h => by
    have h0 : x = 0 := h 0 (by simp) (by omega)
    rw [List.sum_cons, h0, zero_add, List.getElem_cons_succ]
    exact sum_single l k (by simpa using hk) fun j hj hne => h (j + 1) (by simpa using hj) (by omega)

/-- If all but one of the points of a chunk vanish, so does that one. -/
theorem chunk_alone {n cap : Nat} (hcap : 0 < cap) {as : List Nat} {Ds : List M} (hn : ∀ D ∈ Ds, ∀ a, 0 < a → a < n → a • D = 0 → D = 0)
    (hl : as.length = Ds.length) (ha : ∀ a ∈ as, 0 < a ∧ a < n) (h : ChunksVanish cap as Ds) {i : Nat} (hi : i < Ds.length)
    (ho : ∀ j (hj : j < Ds.length), j ≠ i → j / cap = i / cap → Ds[j] = 0) : Ds[i] = 0 := by
  have hz := h (i / cap)
  have hdm := Nat.div_add_mod i cap
  have hml := Nat.mod_lt i hcap
  rw [mul_comm] at hdm
  have hlen : (List.zipWith (· • ·) as Ds).length = Ds.length := by rw [List.length_zipWith, hl, min_self]
  have hk : i % cap < (((List.zipWith (· • ·) as Ds).drop (i / cap * cap)).take cap).length := by
    rw [List.length_take, List.length_drop, hlen]; omega
  rw [sum_single _ (i % cap) hk ?_] at hz
  · rw [List.getElem_take, List.getElem_drop] at hz
    simp only [hdm, List.getElem_zipWith] at hz
    have hai := ha _ (List.getElem_mem (show i < as.length by omega))
    exact hn _ (List.getElem_mem hi) _ hai.1 hai.2 hz
  · intro j hj hne
    rw [List.getElem_take, List.getElem_drop, List.getElem_zipWith]
    rw [List.length_take, List.length_drop, hlen] at hj
    rw [ho (i / cap * cap + j) (by omega) (by omega) ?_, smul_zero]
    rw [Nat.add_comm, Nat.add_mul_div_right _ _ hcap, Nat.div_eq_of_lt (by omega), Nat.zero_add]

end

section
variable {fe : FieldCode} [Fact fe.p.Prime] {ec : WeiT fe} {G : Pt ec.toCurve}

theorem chunk_single (ok : EcOk ec G) {cap : Nat} (hcap : 0 < cap) {as : List Nat} {Ds : List (Pt ec.toCurve)} (hl : as.length = Ds.length)
    (ha : ∀ a ∈ as, 0 < a ∧ a < ec.n) (h : ChunksVanish cap as Ds) {i : Nat} (hi : i < Ds.length)
    (ho : ∀ j (hj : j < Ds.length), j ≠ i → j / cap = i / cap → Ds[j] = 0) : Ds[i] = 0 := by
  refine chunk_alone hcap (fun D _ a h0 h1 hz => ?_) hl ha h hi ho
  by_contra hne
  rw [smul_zero_iff ok hne, Nat.mod_eq_of_lt h1] at hz
  omega

end

/-! ### BIP 340 -/

section
variable {fe : FieldCode} [Fact fe.p.Prime] {ec : WeiT fe} {G : Pt ec.toCurve} {xof : HashId}

theorem bip340_valid_defect {msg sig pub : List Byte} :
    Bip340Valid xof G ec.n msg sig pub ↔ Bip340Defect xof G ec.n msg sig pub 0 := by
  unfold Bip340Valid Bip340Defect
  simp only [eq_comm (a := (0 : Pt ec.toCurve)), sub_eq_zero]

theorem schnorrSig_inj {R R' : Pt ec.toCurve} {s s' : Nat} (hs : s < ec.n) (hs' : s' < ec.n)
    (h : schnorrSig ec.n R s = schnorrSig ec.n R' s') : xBytes R = xBytes R' ∧ s = s' := by
  unfold schnorrSig at h
  obtain ⟨h1, h2⟩ := List.append_inj h (by rw [xBytes_len, xBytes_len])
  refine ⟨h1, ?_⟩
  have := congrArg beVal h2
  rwa [show (ec.n.size + 7) / 8 = scSize ec.n from rfl, Drb.beVal_bigBytes, Drb.beVal_bigBytes,
    Nat.mod_eq_of_lt (hs.trans (scSize_pow _)), Nat.mod_eq_of_lt (hs'.trans (scSize_pow _))] at this

theorem bip340_defect_unique (ok : EcOk ec G) {msg sig pub : List Byte} {D D' : Pt ec.toCurve}
    (h : Bip340Defect xof G ec.n msg sig pub D) (h' : Bip340Defect xof G ec.n msg sig pub D') : D = D' := by
  obtain ⟨A, R, s, a1, a2, a3, a4, rfl⟩ := h
  obtain ⟨A', R', s', b1, b2, b3, b4, rfl⟩ := h'
  obtain ⟨e1, rfl⟩ := schnorrSig_inj a3 b3 (a4.symm.trans b4)
  obtain rfl := even_inj ok a2 b2 (xBytes_inj e1)
  obtain rfl := even_inj ok a1.1 b1.1 (xBytes_inj (a1.2.symm.trans b1.2))
  rfl

theorem bip340_item_ok (ok : EcOk ec G) (hx : XofOk xof ec.n) (hz : feSize fe < 2 ^ 64) (junk : Nat → Byte)
    {msg sig pub : List Byte} (hm : msg.length < 2 ^ 64) (hl : sig.length = feSize fe + scSize ec.n) (hp : pub.length = feSize fe) :
    (bip340_item junk xof ec (msg, sig, pub) = .ok none ∧ ∀ D, ¬ Bip340Defect xof G ec.n msg sig pub D) ∨
    ∃ s e, ∃ R A : Pt ec.toCurve, bip340_item junk xof ec (msg, sig, pub) = .ok (some ⟨s, affine R, affine A, e⟩) ∧
      s < ec.n ∧ e < ec.n ∧ Bip340Defect xof G ec.n msg sig pub (s • G - (R + e • A)) := by
  have hn := ok.prime.pos
  have hdl : (sig.drop (feSize fe)).length = scSize ec.n := by rw [List.length_drop]; omega
  obtain ⟨s, b2, e2, l2, i2, j2, -⟩ := num_import_lt (xp := sig.drop (feSize fe)) hn hdl.ge
  rw [List.take_of_length_le hdl.le] at i2 j2
  have hpt : pub.take (feSize fe) = pub := List.take_of_length_le hp.le
  unfold bip340_item
  dsimp only
  rw [e2, C.ok_bind]
  dsimp only
  cases b2 with
  | false =>
    refine Or.inl ⟨rfl, ?_⟩
    rintro D ⟨A, R, s', -, hR, hs, he, -⟩
    have := ((sig_split hl hs).1 he).2
    exact absurd (i2.2 (this ▸ hs)) (by simp)
  | true =>
  obtain rfl := j2 rfl
  simp only [Bool.not_true, Bool.false_eq_true, if_false]
  rcases import_even_ok ok (raw := sig) (by omega) with ⟨R, r1, r2, r3⟩ | ⟨R, r1, r2⟩
  swap
  · rw [r1, C.ok_bind]
    refine Or.inl ⟨rfl, ?_⟩
    rintro D ⟨A', R', s', -, hR, hs, he, -⟩
    exact r2 R' ⟨hR, ((sig_split hl hs).1 he).1⟩
  rw [r2, C.ok_bind]
  simp only [Bool.not_true, Bool.false_eq_true, if_false]
  rcases import_even_ok ok hp.ge with ⟨A, q1, q2, q3⟩ | ⟨A, q1, q2⟩
  swap
  · rw [q1, C.ok_bind]
    refine Or.inl ⟨rfl, ?_⟩
    rintro D ⟨A', R', s', hA, -⟩
    exact q2 A' (hpt.symm ▸ hA)
  rw [hpt] at q1 q3
  rw [q2, C.ok_bind]
  simp only [Bool.not_true, Bool.false_eq_true, if_false]
  rw [challenge_ok hx hn junk (by omega) hp.ge hz hm, C.ok_bind, hpt]
  refine Or.inr ⟨_, _, R, A, rfl, l2, digestScalar_lt hn _, A, R, _, q1, r1.1, l2, (sig_split hl l2).2 ⟨r1.2, rfl⟩, ?_⟩
  rw [r1.2]

theorem bip340_seed_args_ok : ∀ ts : List (List Byte × List Byte × List Byte),
    (∀ t ∈ ts, t.2.1.length = feSize fe + scSize ec.n ∧ t.2.2.length = feSize fe) → bip340_seed_args ec ts = .ok ts
  | [], _ => rfl
  | (msg, sig, pub) :: ts, h => by
    obtain ⟨h1, h2⟩ := h _ List.mem_cons_self
    dsimp only at h1 h2
    rw [bip340_seed_args]
    dsimp only
    rw [slice_take (by rw [bip340_sig_size]; omega), C.ok_bind, slice_take h2.ge, C.ok_bind,
      bip340_seed_args_ok ts (fun t ht => h t (List.mem_cons_of_mem _ ht)), C.ok_bind,
      List.take_of_length_le h2.le, List.take_of_length_le (by rw [bip340_sig_size]; omega)]

theorem bip340_batch_run {S : Type} (rng : Source S) (ok : EcOk ec G) (hx : XofOk xof ec.n) (hz : feSize fe + scSize ec.n < 2 ^ 64)
    (junk : Nat → Byte) {size : Nat} (hsz : 2 ≤ size) (fuel : Nat) {ts : List (List Byte × List Byte × List Byte)}
    (hl : ∀ t ∈ ts, t.1.length < 2 ^ 64 ∧ t.2.1.length = feSize fe + scSize ec.n ∧ t.2.2.length = feSize fe) :
    (bip340_verify_batch rng fuel junk xof ec size ts = .spin ∧ size / 2 ≠ 1) ∨
    ∃ b, bip340_verify_batch rng fuel junk xof ec size ts = .ok b ∧
      BatchRun rng.gen (fun t D => Bip340Defect xof G ec.n t.1 t.2.1 t.2.2 D) ec.n (size / 2) 0 (rng.init (batchSeed ts))
        (0 : Pt ec.toCurve) ts b := by
  unfold bip340_verify_batch
  rw [show C.check (size ≥ 2) = .ok () by rw [decide_eq_true (show size ≥ 2 by omega)]; rfl, R.lift_ok, R.ok_bind,
    bip340_seed_args_ok ts (fun t ht => (hl t ht).2), R.lift_ok, R.ok_bind,
    batch_seed_ok junk (fun t ht => by obtain ⟨h1, h2, h3⟩ := hl t ht; omega), R.lift_ok, R.ok_bind]
  have := batch_loop_ok rng.toByteGen ok hsz fuel (parse := bip340_item junk xof ec)
    (Dt := fun t D => Bip340Defect xof G ec.n t.1 t.2.1 t.2.2 D) ts
    (fun t ht => by obtain ⟨h1, h2, h3⟩ := hl t ht; exact bip340_item_ok ok hx (by omega) junk h1 h2 h3) 0 []
    (rng.init (Spec.sha256 (ts.flatMap fun t => Spec.sha256 t.1 ++ t.2.1 ++ t.2.2))) 0 ok.prime.pos (by simp) rfl (by omega)
    (fun _ => rfl)
  simpa [termSum, batchSeed] using this

end

end Torsion.Ecc
