import Verif.Ecc.EddsaLemmas
import Verif.Ecc.BatchLemmas

/-! Lemmas on the verification of EdDSA signatures in batches. -/
namespace Torsion.Ecc

open Torsion.Spec

theorem smul_mod_of {M : Type} [AddCommGroup M] {P : M} {n : Nat} (h : n • P = 0) (k : Nat) : (k % n) • P = k • P := by
  conv_rhs => rw [← Nat.mod_add_div k n, add_nsmul, mul_comm, mul_nsmul', h, smul_zero, add_zero]

section
variable {d : EdwardsDef} (hd : d ∈ edDefs) [Fact d.fe.p.Prime] {ec : Edwards (ZMod d.fe.p)} [g : EdGood ec.a ec.d] {G : EPt ec.a ec.d}
  (ok : EdCurve d ec G)

include ok in
theorem ed_batch_check {size sum : Nat} {ss : List (Xge (ZMod d.fe.p) × Nat)} {ts : List (EPt ec.a ec.d × Nat)}
    (hss : List.Forall₂ XTerm ss ts) (hk : ∀ t ∈ ts, t.2 < ec.n) (hl : ts.length ≤ size) :
    ∃ b, eddsa_batch_check ec size sum ss = .ok b ∧ (b = true ↔ ec.h • sum • G - termSum ts = 0) := by
  have hn0 : 0 < ec.n := ok.pos
  have hlen := hss.length_eq
  obtain ⟨j, e, hj⟩ := xmulti ok.toEdOk (k0 := num_neg ec.n (sum * ec.h % ec.n)) (Nat.mod_lt _ hn0) hss hk (size := size) (by omega)
  unfold eddsa_batch_check
  dsimp only
  rw [e, C.ok_bind]
  refine ⟨_, rfl, ?_⟩
  have hneg : num_neg ec.n (sum * ec.h % ec.n) • G = -(ec.h • sum • G) := by
    rw [num_neg, ed_smul_mod ok, sub_nsmul _ (Nat.mod_lt _ hn0).le, ok.order, ed_smul_mod ok, mul_nsmul, zero_add]
  rw [hneg] at hj
  rw [is_zero_iff hj, neg_add_eq_sub, ← neg_sub, neg_eq_zero]
  rfl

/-- The defect which a batch combines. -/
def EdDt (d : EdwardsDef) [Fact d.fe.p.Prime] {a b : ZMod d.fe.p} [EdGood a b] (G : EPt a b) (dom : List Byte)
    (t : List Byte × List Byte × List Byte) (D : EPt a b) : Prop :=
  ∃ D', EddsaDefect d G dom t.1 t.2.1 t.2.2 D' ∧ D = d.h • D'

include hd ok in
theorem ed_batch_loop {S : Type} (rng : ByteGen S) {size : Nat} (hsz : 2 ≤ size) (fuel : Nat) (junk : Nat → Byte) (ph : Int)
    (ctx : List Byte) : ∀ (ts : List (List Byte × List Byte × List Byte)),
    (∀ t ∈ ts, t.1.length < 2 ^ 64 ∧ t.2.1.length = 2 * edLen d.fe ∧ t.2.2.length = edLen d.fe) →
    ∀ (sum : Nat) (ss : List (Xge (ZMod d.fe.p) × Nat)) (terms : List (EPt ec.a ec.d × Nat)) (st : S) (m : Nat),
      List.Forall₂ XTerm ss terms → (∀ t ∈ terms, t.2 < ec.n) → terms.length = 2 * m → m < size / 2 → (m = 0 → sum = 0) →
      (eddsa_batch_loop rng fuel junk ec size ph ctx ts sum ss st = .spin ∧ size / 2 ≠ 1) ∨
      ∃ b, eddsa_batch_loop rng fuel junk ec size ph ctx ts sum ss st = .ok b ∧
        BatchRun rng.gen (EdDt d G (edDom d ph ctx)) ec.n (size / 2) m st (ec.h • sum • G - termSum terms) ts b
  | [], _, sum, ss, terms, st, m, hss, hk, hl, hm, h0 => by
    right
    rw [eddsa_batch_loop, hss.length_eq]
    by_cases hz : terms.length > 0
    · rw [if_pos hz]
      obtain ⟨b, e1, e2⟩ := ed_batch_check ok (sum := sum) hss hk (show terms.length ≤ size by omega)
      refine ⟨b, ?_, .nil e2⟩
      rw [R.liftM_eq, e1, R.lift_ok]
    · rw [if_neg hz]
      have ht : terms = [] := List.length_eq_zero_iff.1 (by omega)
      refine ⟨true, rfl, .nil ?_⟩
      rw [h0 (by omega), ht]
      simp [termSum]
  | t :: ts, hp, sum, ss, terms, st, m, hss, hk, hl, hm, h0 => by
    have hn : 0 < ec.n := ok.pos
    have hpr := ed_prime hd ok
    have ih := ed_batch_loop rng hsz fuel junk ph ctx ts (fun u hu => hp u (List.mem_cons_of_mem _ hu))
    obtain ⟨p1, p2, p3⟩ := hp t List.mem_cons_self
    rw [eddsa_batch_loop]
    rcases eddsa_item_ok hd ok junk p1 p2 p3 ph ctx with ⟨e1, e2⟩ | ⟨s, e, W, A, e1, hs', he', hD⟩
    · rw [e1, R.lift_ok, R.ok_bind]
      refine Or.inr ⟨false, rfl, .bad ?_⟩
      rintro D ⟨D', ⟨A, R, s, q1, q2, q3, -⟩, -⟩
      exact e2 _ _ _ _ ⟨q1, q2, q3, rfl⟩
    rw [e1, R.lift_ok, R.ok_bind]
    dsimp only
    have hDt : EdDt d G (edDom d ph ctx) t (ec.h • (s • G - (W + e • A))) := by
      obtain ⟨q1, q2, q3, q4⟩ := hD
      exact ⟨_, ⟨A, W, s, q1, q2, q3, rfl⟩, by rw [q4, ok.hval]⟩
    obtain ⟨jR, k1, k2⟩ := ed_mulh hd ok (ext_aff W)
    obtain ⟨jA, k3, k4⟩ := ed_mulh hd ok (ext_aff A)
    have hcoef : ((if ss.length = 0 then (R.ok (1, st) : R (Nat × S)) else num_random rng ec.n fuel st) = .spin ∧ size / 2 ≠ 1) ∨
        ∃ a st', (if ss.length = 0 then (R.ok (1, st) : R (Nat × S)) else num_random rng ec.n fuel st) = .ok (a, st') ∧
          Coef rng.gen ec.n m st a st' := by
      have := hss.length_eq
      split
      · exact Or.inr ⟨1, st, rfl, Or.inl ⟨by omega, rfl, rfl⟩⟩
      · rcases num_random_ok rng ec.n fuel st with h | ⟨a, st', h1, h2⟩
        · exact Or.inl ⟨h, by omega⟩
        · exact Or.inr ⟨a, st', h1, Or.inr ⟨by omega, h2⟩⟩
    have key : ∀ x : R (Nat × S), ((x = .spin ∧ size / 2 ≠ 1) ∨ ∃ a st', x = .ok (a, st') ∧ Coef rng.gen ec.n m st a st') →
        ∀ z : R Bool, z = (x >>= fun a =>
          R.lift (xge_mulh ec (xaff W)) >>= fun R' => R.lift (xge_mulh ec (xaff A)) >>= fun A' =>
          if (ss ++ [(R', a.1), (A', e * a.1 % ec.n)]).length = size - size % 2 then
            (R.lift (eddsa_batch_check ec size ((sum + s * a.1 % ec.n) % ec.n) (ss ++ [(R', a.1), (A', e * a.1 % ec.n)]))) >>= fun ok =>
              if !ok then .ok false else eddsa_batch_loop rng fuel junk ec size ph ctx ts 0 [] a.2
          else eddsa_batch_loop rng fuel junk ec size ph ctx ts ((sum + s * a.1 % ec.n) % ec.n) (ss ++ [(R', a.1), (A', e * a.1 % ec.n)]) a.2) →
        (z = .spin ∧ size / 2 ≠ 1) ∨ ∃ b, z = .ok b ∧ BatchRun rng.gen (EdDt d G (edDom d ph ctx)) ec.n (size / 2) m st
          (ec.h • sum • G - termSum terms) (t :: ts) b := by
      rintro x (⟨rfl, hc⟩ | ⟨a, st', rfl, ha⟩) z rfl
      · exact Or.inl ⟨rfl, hc⟩
      have han : a < ec.n := by
        rcases ha with ⟨-, rfl, -⟩ | ⟨-, h⟩
        · exact hpr.one_lt
        · exact (draw_range h).2
      rw [R.ok_bind, k1, R.lift_ok, R.ok_bind, k3, R.lift_ok, R.ok_bind]
      dsimp only
      have hss' : List.Forall₂ XTerm (ss ++ [(jR, a), (jA, e * a % ec.n)]) (terms ++ [(ec.h • W, a), (ec.h • A, e * a % ec.n)]) :=
        List.rel_append hss (.cons ⟨k2, rfl⟩ (.cons ⟨k4, rfl⟩ .nil))
      rw [hss'.length_eq]
      have hk' : ∀ u ∈ terms ++ [(ec.h • W, a), (ec.h • A, e * a % ec.n)], u.2 < ec.n := by
        intro u hu
        rw [List.mem_append] at hu
        rcases hu with hu | hu
        · exact hk u hu
        · simp only [List.mem_cons, List.not_mem_nil, or_false] at hu
          rcases hu with rfl | rfl
          · exact han
          · exact Nat.mod_lt _ hn
      have hl2 : (terms ++ [(ec.h • W, a), (ec.h • A, e * a % ec.n)]).length = 2 * (m + 1) := by rw [List.length_append, hl]; rfl
      have hacc : ec.h • ((sum + s * a % ec.n) % ec.n) • G - termSum (terms ++ [(ec.h • W, a), (ec.h • A, e * a % ec.n)]) =
          ec.h • sum • G - termSum terms + a • (ec.h • (s • G - (W + e • A))) := by
        have q1 : ((sum + s * a % ec.n) % ec.n) • G = sum • G + a • (s • G) := by
          rw [ed_smul_mod ok, add_nsmul, ed_smul_mod ok, mul_nsmul]
        have q2 : (e * a % ec.n) • (ec.h • A) = a • (ec.h • (e • A)) := by
          rw [smul_mod_of (ed_kill hd ok A), mul_comm, mul_nsmul', smul_comm ec.h e]
        have q3 : termSum (terms ++ [(ec.h • W, a), (ec.h • A, e * a % ec.n)]) =
            termSum terms + (a • (ec.h • W) + (e * a % ec.n) • (ec.h • A)) := by
          simp [termSum]
        rw [q1, q3, q2, nsmul_sub, nsmul_add, nsmul_add, nsmul_sub, nsmul_add, smul_comm ec.h a]
        abel
      have hcap : size - size % 2 = 2 * (size / 2) := by omega
      rw [hl2, hcap]
      by_cases hfull : m + 1 = size / 2
      · rw [if_pos (by rw [hfull])]
        obtain ⟨b, c1, c2⟩ := ed_batch_check ok (sum := (sum + s * a % ec.n) % ec.n) hss' hk' (show _ ≤ size by omega)
        rw [c1, R.lift_ok, R.ok_bind]
        rw [hacc] at c2
        cases b with
        | false =>
          refine Or.inr ⟨false, rfl, .stop hDt ha hfull fun hc => ?_⟩
          exact absurd (c2.2 hc) (by simp)
        | true =>
          simp only [Bool.not_true, Bool.false_eq_true, if_false]
          rcases ih 0 [] [] st' 0 .nil (by simp) rfl (by omega) (fun _ => rfl) with h | ⟨b, h1, h2⟩
          · exact Or.inl h
          · refine Or.inr ⟨b, h1, .full hDt ha hfull (c2.1 rfl) ?_⟩
            simpa [termSum] using h2
      · rw [if_neg (by omega)]
        rcases ih ((sum + s * a % ec.n) % ec.n) _ _ st' (m + 1) hss' hk' hl2 (by omega) (fun h => absurd h (by omega)) with h | ⟨b, h1, h2⟩
        · exact Or.inl h
        · refine Or.inr ⟨b, h1, .more hDt ha (by omega) ?_⟩
          rwa [hacc] at h2
    exact key _ hcoef _ (by split <;> rfl)

omit g in
theorem ed_seed_args : ∀ (ts : List (List Byte × List Byte × List Byte)),
    (∀ t ∈ ts, t.2.1.length = 2 * edLen d.fe ∧ t.2.2.length = edLen d.fe) → eddsa_seed_args ec ts = .ok ts
  | [], _ => rfl
  | t :: ts, h => by
    obtain ⟨h1, h2⟩ := h t List.mem_cons_self
    rw [eddsa_seed_args, adj_eq, mul_comm, Ecc.slice_take h1.ge, C.ok_bind, Ecc.slice_take h2.ge, C.ok_bind,
      ed_seed_args ts fun u hu => h u (List.mem_cons_of_mem _ hu), C.ok_bind, List.take_of_length_le h1.le, List.take_of_length_le h2.le]

include hd ok in
theorem ed_batch_run {S : Type} (rng : Source S) {size : Nat} (hsz : 2 ≤ size) (fuel : Nat) (junk : Nat → Byte) (ph : Int)
    (ctx : List Byte) {ts : List (List Byte × List Byte × List Byte)}
    (hl : ∀ t ∈ ts, t.1.length < 2 ^ 64 ∧ t.2.1.length = 2 * edLen d.fe ∧ t.2.2.length = edLen d.fe) :
    (eddsa_verify_batch rng fuel junk ec size ts ph ctx = .spin ∧ size / 2 ≠ 1) ∨
    ∃ b, eddsa_verify_batch rng fuel junk ec size ts ph ctx = .ok b ∧
      BatchRun rng.gen (EdDt d G (edDom d ph ctx)) ec.n (size / 2) 0 (rng.init (batchSeed ts)) (0 : EPt ec.a ec.d) ts b := by
  have h57 := (ed_sizes d hd).2.2.2.2.1
  unfold eddsa_verify_batch
  rw [show C.check (size ≥ 2) = .ok () by rw [decide_eq_true (show size ≥ 2 by omega)]; rfl, R.lift_ok, R.ok_bind,
    ed_seed_args ts (fun t ht => (hl t ht).2), R.lift_ok, R.ok_bind,
    batch_seed_ok junk (fun t ht => by obtain ⟨h1, h2, h3⟩ := hl t ht; omega), R.lift_ok, R.ok_bind]
  have := ed_batch_loop hd ok rng.toByteGen hsz fuel junk ph ctx ts hl 0 [] []
    (rng.init (Spec.sha256 (ts.flatMap fun t => Spec.sha256 t.1 ++ t.2.1 ++ t.2.2))) 0 .nil (by simp) rfl (by omega) (fun _ => rfl)
  simpa [termSum, batchSeed] using this

/-! ### Defects -/

include hd ok in
theorem ed_defect_unique {dom msg sig pub : List Byte} {D D' : EPt ec.a ec.d} (h : EddsaDefect d G dom msg sig pub D)
    (h' : EddsaDefect d G dom msg sig pub D') : D = D' := by
  obtain ⟨A, R, s, a1, a2, a3, rfl⟩ := h
  obtain ⟨A', R', s', b1, b2, b3, rfl⟩ := h'
  obtain ⟨rfl, -, rfl, rfl⟩ := parsed_unique hd ok (dom := dom) (msg := msg) ⟨a1, a2, a3, rfl⟩ ⟨b1, b2, b3, rfl⟩
  rfl

theorem ed_valid_defect {dom msg sig pub : List Byte} : EddsaValid d G dom msg sig pub ↔ EddsaDefect d G dom msg sig pub 0 := by
  unfold EddsaValid EddsaDefect
  simp only [eq_comm (a := (0 : EPt ec.a ec.d)), sub_eq_zero]

theorem ed_validH_defect {dom msg sig pub : List Byte} :
    EddsaValidH d G dom msg sig pub ↔ ∃ D, EddsaDefect d G dom msg sig pub D ∧ d.h • D = 0 := by
  unfold EddsaValidH EddsaDefect
  constructor
  · rintro ⟨A, R, s, h1, h2, h3, h4⟩
    refine ⟨_, ⟨A, R, s, h1, h2, h3, rfl⟩, ?_⟩
    rw [nsmul_sub, h4, nsmul_add, mul_nsmul', sub_self]
  · rintro ⟨D, ⟨A, R, s, h1, h2, h3, rfl⟩, h4⟩
    refine ⟨A, R, s, h1, h2, h3, ?_⟩
    rw [mul_nsmul']
    rwa [nsmul_sub, nsmul_add, sub_eq_zero] at h4

include hd ok in
theorem edDt_unique (dom : List Byte) (t : List Byte × List Byte × List Byte) (D D' : EPt ec.a ec.d) (h : EdDt d G dom t D)
    (h' : EdDt d G dom t D') : D = D' := by
  obtain ⟨E, h1, rfl⟩ := h
  obtain ⟨E', h2, rfl⟩ := h'
  rw [ed_defect_unique hd ok h1 h2]

theorem edDt_zero (dom : List Byte) (t : List Byte × List Byte × List Byte) :
    EdDt d G dom t 0 ↔ EddsaValidH d G dom t.1 t.2.1 t.2.2 := by
  rw [ed_validH_defect]
  exact exists_congr fun D => and_congr_right fun _ => eq_comm

end

end Torsion.Ecc
