import Verif.Rand.Lemmas
import Mathlib.Data.Fintype.Card
import Mathlib.Data.Finset.Card
import Mathlib.Data.Set.Card
import Mathlib.Data.Fintype.Basic

/-!
# Properties of src/rand.c

C29 (`torsion_uniform` is unbiased) and C30 (reseeding after a fork, single use of pool words).
-/
namespace Torsion
open Spec

/-! ## C30 -/

/-- Every history of calls, whatever processes they are made in and whatever the entropy sources answer,
runs without undefined behaviour and returns what the queue model `histSpec` says; the state left in
memory is the one of the queue model. -/
theorem rng_history (hist : List (Env × RCall)) :
    ∃ rng, histRng rng_zero hist = .ok ((histSpec none hist).1, rng) ∧
      absRng rng = (histSpec none hist).2 := by
  obtain ⟨r, h1, -, h3⟩ := Rnd.hist_eq hist rng_zero Rnd.wf_zero
  exact ⟨r, h1, h3⟩

/-- In every reachable state the words already handed out and the eight words used for the key are
erased from the pool. -/
theorem rng_erased (hist : List (Env × RCall)) (vs : List RVal) (rng : Rng)
    (h : histRng rng_zero hist = .ok (vs, rng)) :
    rng.pool.length = 128 ∧ rng.pos ≤ 120 ∧ ∀ i, rng.pos ≤ i → i < 128 → rng.pool[i]? = some 0 := by
  obtain ⟨r, h1, h2, -⟩ := Rnd.hist_eq hist rng_zero Rnd.wf_zero
  rw [h] at h1
  cases h1
  refine ⟨h2.pool, h2.pos, fun i h3 h4 => ?_⟩
  have := h2.erased i h3
  have hl : i < rng.pool.length := by rw [h2.pool]; exact h4
  rw [List.getElem?_eq_getElem hl]
  rw [List.getD_eq_getElem?_getD, List.getElem?_eq_getElem hl] at this
  exact congrArg some this

/-- From an empty queue, the next `k ≤ 120` words are the key stream words 119, 118, ... in this order,
each once; the words 120 to 127 go into the key only. -/
theorem rng_queue (hw : Nat → BitVec 32) (s : RngSt) (hs : s.left = []) (k : Nat) (hk : k ≤ 120) :
    ((List.range k).foldl (fun (a : List (BitVec 32) × RngSt) i =>
        (a.1 ++ [(rngWord (hw i) a.2).1], (rngWord (hw i) a.2).2)) ([], s)).1
      = (List.range k).map fun i => (wordsOf 128 (rngStream s.key s.nonce)).getD (119 - i) 0 := by
  set ks := wordsOf 128 (rngStream s.key s.nonce) with hks
  have hl : ks.length = 128 := Rnd.wordsOf_len _ _
  suffices H : (List.range k).foldl (fun (a : List (BitVec 32) × RngSt) i =>
        (a.1 ++ [(rngWord (hw i) a.2).1], (rngWord (hw i) a.2).2)) ([], s)
      = ((List.range k).map fun i => ks.getD (119 - i) 0,
         if k = 0 then s else { refill (hw 0) s with left := ((ks.take 120).reverse).drop k }) by
    rw [H]
  induction k with
  | zero => simp
  | succ k ih =>
    rw [List.range_succ, List.foldl_append, ih (by omega), List.foldl_cons, List.foldl_nil,
      List.map_append, List.map_singleton, if_neg (show ¬ k + 1 = 0 by omega)]
    have hd : ((ks.take 120).reverse).drop k = ks.getD (119 - k) 0 :: ((ks.take 120).reverse).drop (k + 1) := by
      rw [List.drop_eq_getElem_cons (by simp [hl]; omega)]
      congr 1
      rw [List.getElem_reverse, List.getElem_take, List.getD_eq_getElem?_getD,
        List.getElem?_eq_getElem (by omega)]
      simp [hl]
    by_cases h0 : k = 0
    · subst h0
      rw [if_pos rfl, rngWord, if_pos hs]
      have e : (refill (hw 0) s).left = ks.getD (119 - 0) 0 :: ((ks.take 120).reverse).drop (0 + 1) := by
        rw [← hd]; rfl
      simp [e]
    · rw [if_neg h0]
      have e : ∀ g : BitVec 32, rngWord g { refill (hw 0) s with left := ((ks.take 120).reverse).drop k }
          = (ks.getD (119 - k) 0,
            { refill (hw 0) s with left := ((ks.take 120).reverse).drop (k + 1) }) := by
        intro g
        rw [hd]
        simp [rngWord]
      rw [e]

/-- Reseeding: a call made in a process other than the one the state belongs to (or with no state)
depends on nothing in the old state: output and new state are the same as from any other such state. -/
theorem rng_fork (env : Env) (c : RCall) (rng rng' : Rng)
    (h : rng.started = false ∨ rng.pid ≠ env.pid) (h' : rng'.started = false ∨ rng'.pid ≠ env.pid) :
    callRng env rng c = callRng env rng' c := by
  have e : ∀ r : Rng, (r.started = false ∨ r.pid ≠ env.pid) →
      rng_global_init env r = rng_global_init env rng_zero := by
    intro r hr
    rw [rng_global_init, rng_global_init]
    dsimp only
    rw [if_pos (show (!r.started) = true ∨ r.pid ≠ env.pid by simpa using hr),
      if_pos (show (!rng_zero.started) = true ∨ rng_zero.pid ≠ env.pid from Or.inl rfl)]
  cases c <;>
    simp only [callRng, torsion_getrandom, torsion_random, torsion_uniform, e rng h, e rng' h']

/-- The same for all later calls: after a fork, the outputs of the child are a function of what its own
entropy sources return. -/
theorem rng_fork_history (env : Env) (c : RCall) (hist : List (Env × RCall)) (rng rng' : Rng)
    (h : rng.started = false ∨ rng.pid ≠ env.pid) (h' : rng'.started = false ∨ rng'.pid ≠ env.pid) :
    histRng rng ((env, c) :: hist) = histRng rng' ((env, c) :: hist) := by
  rw [histRng, histRng, rng_fork env c rng rng' h h']

/-- Parent and child after a fork: the stored state with process id 7 is not used by process 8. -/
example (key : List (BitVec 32)) :
    ({ rng_zero with key := key, started := true, pid := 7 } : Rng).started = false ∨
    ({ rng_zero with key := key, started := true, pid := 7 } : Rng).pid ≠ 8 := Or.inr (by show (7 : Int) ≠ 8; decide)

/-- A call reports success exactly if the state belongs to the current process or the mandatory entropy
source answered; on success the state belongs to the current process afterwards, on failure the output is
zero and the state is empty. -/
theorem rng_success (hist : List (Env × RCall)) (vs : List RVal) (rng : Rng)
    (hr : histRng rng_zero hist = .ok (vs, rng)) (env : Env) (c : RCall) :
    ∃ v rng', callRng env rng c = .ok (v, rng') ∧
      (if (rng.started = true ∧ rng.pid = env.pid) ∨
          (if env.hasSysrand then env.sysrand.isSome else env.hwrand.isSome) then
        ((∃ b, v = .bytes true b) ∨ (∃ x, v = .word true x) ∨ (∃ x, v = .num true x)) ∧
          rng'.started = true ∧ rng'.pid = env.pid
      else ((∃ n, v = .bytes false (List.replicate n 0)) ∨ v = .word false 0 ∨ v = .num false (some 0)) ∧
        rng' = rng_zero) := by
  obtain ⟨r, h1, h2, -⟩ := Rnd.hist_eq hist rng_zero Rnd.wf_zero
  rw [hr] at h1
  cases h1
  have hseed : (if env.hasSysrand then env.sysrand.isSome else env.hwrand.isSome) = (seedOf env).isSome := by
    rw [seedOf]; split <;> simp
  have huse : (useRng env (absRng rng)).isSome = true ↔
      (rng.started = true ∧ rng.pid = env.pid) ∨ (seedOf env).isSome = true := by
    rw [absRng]
    by_cases hs : rng.started = true
    · rw [if_pos hs, useRng]
      by_cases hp : rng.pid = env.pid
      · simp [hp, hs]
      · simp [hp, hs, freshRng]
    · rw [if_neg hs, useRng]
      simp [hs, freshRng]
  rw [hseed]
  obtain ⟨r', g1, g2, g3⟩ := Rnd.call_eq env rng h2 c
  rcases Rnd.global_eq env rng h2 with ⟨e1, e2⟩ | ⟨s, q, e1, -⟩
  · have hc := mt huse.mpr (by rw [e1]; simp)
    simp only [if_neg hc]
    cases c <;> simp only [callRng, torsion_getrandom, torsion_random, torsion_uniform, e2, C.ok_bind]
    · exact ⟨_, _, rfl, Or.inl ⟨_, rfl⟩, rfl⟩
    · exact ⟨_, _, rfl, Or.inr (Or.inl rfl), rfl⟩
    · exact ⟨_, _, rfl, Or.inr (Or.inr rfl), rfl⟩
  · have hc := huse.mp (by rw [e1]; rfl)
    simp only [if_pos hc]
    refine ⟨_, r', g1, ?_, ?_⟩
    · cases c with
      | bytes n => simp only [callSpec, e1]; exact Or.inl ⟨_, rfl⟩
      | word => simp only [callSpec, e1]; exact Or.inr (Or.inl ⟨_, rfl⟩)
      | uniform m f => simp only [callSpec, e1]; split <;> exact Or.inr (Or.inr ⟨_, rfl⟩)
    · have h5 : ∃ s', (callSpec env (absRng rng) c).2 = some (env.pid, s') := by
        cases c with
        | bytes n => simp only [callSpec, e1]; exact ⟨_, rfl⟩
        | word => simp only [callSpec, e1]; exact ⟨_, rfl⟩
        | uniform m f => simp only [callSpec, e1]; split <;> exact ⟨_, rfl⟩
      obtain ⟨s', h5⟩ := h5
      rw [h5, absRng] at g3
      by_cases hs : r'.started = true
      · rw [if_pos hs] at g3
        injection g3 with g3
        exact ⟨hs, congrArg Prod.fst g3⟩
      · rw [if_neg hs] at g3; cases g3

/-- The limit of the fork detection: the process id is the only test. In a process that got the id
recorded in the state (a grandchild, after process id reuse, with no call made in between), no entropy is
read: the outputs are the same as those the recorded process produces. -/
theorem rng_pid_reuse (env env' : Env) (c : RCall) (rng : Rng) (hs : rng.started = true)
    (h : rng.pid = env.pid) (h' : env'.pid = env.pid) (hr : env'.rdrand32 = env.rdrand32)
    (hj : env'.junk = env.junk) : callRng env' rng c = callRng env rng c := by
  have e : ∀ v : Env, v.pid = env.pid → rng_global_init v rng = .ok (true, rng) := by
    intro v hv
    rw [rng_global_init]
    dsimp only
    rw [if_neg (by simp [hs, h, hv])]
  have hc : ∀ r d, rng_crypt env' r d = rng_crypt env r d := by
    intro r d; rw [rng_crypt, rng_crypt, hj]
  have hg : ∀ n, rng_generate env' rng n = rng_generate env rng n := by
    intro n; simp only [rng_generate, rng_read, hc, hr]
  have hw : ∀ x r, rng_random env' x r = rng_random env x r := by
    intro x r; simp only [rng_random, rng_read, hc]
  have hu : ∀ m n i r, uniform_loop env' m n i r = uniform_loop env m n i r := by
    intro m n
    induction n with
    | zero => intro i r; rfl
    | succ n ih => intro i r; simp only [uniform_loop, hw, hr, ih]
  cases c with
  | bytes n =>
    simp only [callRng, torsion_getrandom, e env rfl, e env' h', C.ok_bind, hg]
  | word => simp only [callRng, torsion_random, e env rfl, e env' h', C.ok_bind, hw, hr]
  | uniform m f =>
    simp only [callRng, torsion_uniform, e env rfl, e env' h', C.ok_bind, rng_uniform, hu]

/-! ## C29 -/

/-- One draw `x` of the loop: it is accepted exactly if it is below the largest multiple of `max` in
32 bits, and then the result is `x % max`. -/
theorem uniform_draw (env : Env) (rng : Rng) (max x : BitVec 32) (hm : 2 ≤ max.toNat) (p : Nat)
    (hp : rng.pos = p + 1) (hx : rng.pool[p]? = some x) :
    rng_uniform env 1 rng max =
      .ok (if x.toNat < 2 ^ 32 / max.toNat * max.toNat then
             some (BitVec.ofNat 32 (x.toNat % max.toNat)) else none,
           { rng with pool := rng.pool.set p 0, pos := p }) := by
  obtain ⟨hl, hx⟩ := List.getElem?_eq_some_iff.mp hx
  rw [rng_uniform, if_neg (show ¬ max ≤ 1 by rw [BitVec.le_def]; exact not_le.mpr hm), uniform_loop,
    rng_random, if_neg (by omega), C.ok_bind]
  dsimp only
  rw [hp, Nat.add_sub_cancel, Rnd.rd_ok 0 hl, C.ok_bind, Rnd.wr_ok _ hl, C.ok_bind, C.ok_bind,
    List.getD_eq_getElem?_getD, List.getElem?_eq_getElem hl, hx, Option.getD_some]
  have e : x % max = BitVec.ofNat 32 (x.toNat % max.toNat) := by
    apply BitVec.eq_of_toNat_eq
    rw [BitVec.toNat_umod, BitVec.toNat_ofNat, Nat.mod_eq_of_lt (b := 2 ^ 32)]
    exact lt_of_le_of_lt (Nat.mod_le _ _) x.isLt
  by_cases hx : x.toNat < 2 ^ 32 / max.toNat * max.toNat
  · rw [if_neg (fun g => (Rnd.accept_iff _ max hm).mp g hx), if_pos hx, e]
  · rw [if_pos ((Rnd.accept_iff _ max hm).mpr hx), if_neg hx]
    rfl

example : (2 : Nat) ≤ (6 : BitVec 32).toNat ∧
    ({ rng_zero with pos := 1 } : Rng).pool[0]? = some 0 := by decide

/-- Unbiased: among the 2^32 possible draws, the number of those for which the loop stops with result `r`
is the same for all `r < max`: it is `2^32 / max`. (The draw is the word `x` at the end of the pool.) -/
theorem uniform_unbiased (env : Env) (rng : Rng) (max r : BitVec 32) (hm : 2 ≤ max.toNat)
    (hr : r.toNat < max.toNat) (p : Nat) (hp : rng.pos = p + 1) (hl : p < rng.pool.length) :
    Set.ncard {x : BitVec 32 | ∃ rng', rng_uniform env 1
        { rng with pool := rng.pool.set p x } max = .ok (some r, rng')} = 2 ^ 32 / max.toNat := by
  have hlt : max.toNat < 2 ^ 32 := max.isLt
  have hset : {x : BitVec 32 | ∃ rng', rng_uniform env 1
        { rng with pool := rng.pool.set p x } max = .ok (some r, rng')}
      = (fun q : Nat => BitVec.ofNat 32 (q * max.toNat + r.toNat)) ''
          (Finset.range (2 ^ 32 / max.toNat) : Set Nat) := by
    ext x
    simp only [Set.mem_ofPred_eq, Set.mem_image, Finset.coe_range, Set.mem_Iio]
    rw [uniform_draw env { rng with pool := rng.pool.set p x } max x hm p hp
      (by simp [hl])]
    have hx := x.isLt
    have hxm := Nat.mod_lt x.toNat (show 0 < max.toNat by omega)
    constructor
    · rintro ⟨rng', h⟩
      injection h with h
      injection h with h
      split at h
      · rename_i hacc
        injection h with h
        have h := congrArg BitVec.toNat h
        rw [BitVec.toNat_ofNat, Nat.mod_eq_of_lt (by omega)] at h
        refine ⟨x.toNat / max.toNat, Nat.div_lt_of_lt_mul (by rwa [Nat.mul_comm]), ?_⟩
        rw [← h, Nat.mul_comm, Nat.div_add_mod]
        simp
      · cases h
    · rintro ⟨q, hq, rfl⟩
      have h1 : q * max.toNat + r.toNat < 2 ^ 32 / max.toNat * max.toNat := by
        have h2 : (q + 1) * max.toNat ≤ 2 ^ 32 / max.toNat * max.toNat := Nat.mul_le_mul_right _ hq
        rw [Nat.add_mul] at h2
        omega
      have h2 : 2 ^ 32 / max.toNat * max.toNat ≤ 2 ^ 32 := Nat.div_mul_le_self _ _
      rw [BitVec.toNat_ofNat, Nat.mod_eq_of_lt (a := q * max.toNat + r.toNat) (by omega), if_pos h1,
        Nat.mul_comm, Nat.mul_add_mod, Nat.mod_eq_of_lt hr]
      exact ⟨_, by simp; rfl⟩
  rw [hset, Set.InjOn.ncard_image, Set.ncard_coe_finset, Finset.card_range]
  intro a ha b hb hab
  simp only [Finset.coe_range, Set.mem_Iio] at ha hb
  have hab := congrArg BitVec.toNat hab
  have h2 : 2 ^ 32 / max.toNat * max.toNat ≤ 2 ^ 32 := Nat.div_mul_le_self _ _
  have key : ∀ c, c < 2 ^ 32 / max.toNat → c * max.toNat + r.toNat < 2 ^ 32 := by
    intro c hc
    have h2 : (c + 1) * max.toNat ≤ 2 ^ 32 / max.toNat * max.toNat := Nat.mul_le_mul_right _ hc
    rw [Nat.add_mul] at h2
    omega
  rw [BitVec.toNat_ofNat, BitVec.toNat_ofNat, Nat.mod_eq_of_lt (key a ha), Nat.mod_eq_of_lt (key b hb)]
    at hab
  exact Nat.eq_of_mul_eq_mul_right (show 0 < max.toNat by omega) (by omega)

/-- More than half of all draws are accepted, so that the loop ends after two draws on average. -/
theorem uniform_accept_half (max : Nat) (h : 2 ≤ max) (hm : max < 2 ^ 32) :
    2 ^ 31 < 2 ^ 32 / max * max := by
  have h1 := Nat.div_add_mod (2 ^ 32) max
  have h2 := Nat.mod_lt (2 ^ 32) (show 0 < max by omega)
  rw [Nat.mul_comm] at h1
  by_cases h3 : max ≤ 2 ^ 31
  · omega
  · have h4 : 1 ≤ 2 ^ 32 / max := (Nat.one_le_div_iff (by omega)).mpr (by omega)
    have h5 := Nat.mul_le_mul_right max h4
    omega

/-- In every history: a result returned by `torsion_uniform` is below `max` (0 if `max` is 0). -/
theorem uniform_range (hist : List (Env × RCall)) (vs : List RVal) (rng : Rng)
    (hr : histRng rng_zero hist = .ok (vs, rng)) (env : Env) (max : BitVec 32) (fuel : Nat) :
    ∃ ok x rng', torsion_uniform env fuel rng max = .ok (ok, x, rng') ∧
      (max.toNat ≤ 1 → x = some 0) ∧ (2 ≤ max.toNat → ∀ r, x = some r → r.toNat < max.toNat) := by
  obtain ⟨r, h1, h2, -⟩ := Rnd.hist_eq hist rng_zero Rnd.wf_zero
  rw [hr] at h1
  cases h1
  have hbelow : ∀ (n i : Nat) (s : RngSt), 2 ≤ max.toNat → ∀ r,
      (rngBelow env.rdrand32 max n i s).1 = some r → r.toNat < max.toNat := by
    intro n
    induction n with
    | zero => intro i s _ r hr; cases hr
    | succ n ih =>
      intro i s hm r hr
      simp only [rngBelow] at hr
      generalize rngWord (env.rdrand32 i) s = q at hr
      split at hr
      · injection hr with hr
        subst hr
        have h1 := Nat.mod_lt q.1.toNat (show 0 < max.toNat by omega)
        have h2 := max.isLt
        rw [BitVec.toNat_ofNat, Nat.mod_eq_of_lt (by omega)]
        exact h1
      · exact ih _ _ hm r hr
  obtain ⟨r', g1, -, -⟩ := Rnd.call_eq env rng h2 (.uniform max fuel)
  rw [callRng] at g1
  cases ht : torsion_uniform env fuel rng max with
  | abort => rw [ht] at g1; cases g1
  | ub => rw [ht] at g1; cases g1
  | ok t =>
    obtain ⟨ok, x, rng'⟩ := t
    rw [ht, C.ok_bind] at g1
    injection g1 with g1
    have g1 := congrArg Prod.fst g1
    dsimp only at g1
    have hv : x = match useRng env (absRng rng) with
        | none => some 0
        | some s => if max.toNat ≤ 1 then some 0 else (rngBelow env.rdrand32 max fuel 0 s).1 := by
      cases hu : useRng env (absRng rng) with
      | none => simp only [callSpec, hu, RVal.num.injEq] at g1; exact g1.2
      | some s =>
        simp only [callSpec, hu] at g1
        dsimp only
        split
        · rename_i hm
          rw [if_pos hm] at g1
          simp only [RVal.num.injEq] at g1
          exact g1.2
        · rename_i hm
          rw [if_neg hm] at g1
          simp only [RVal.num.injEq] at g1
          exact g1.2
    refine ⟨ok, x, rng', rfl, ?_, ?_⟩
    · intro hm
      rw [hv]
      split
      · rfl
      · rw [if_pos hm]
    · intro hm r hx
      rw [hv] at hx
      split at hx
      · injection hx with hx
        subst hx
        show (0 : Nat) < _
        omega
      · rw [if_neg (by omega)] at hx
        exact hbelow _ _ _ hm r hx

/-- The bound on the number of draws in the model is harmless: once a result is there, a larger bound
does not change it. -/
theorem uniform_fuel (env : Env) (max : BitVec 32) (n k : Nat) (rng rng' : Rng) (r : BitVec 32)
    (h : rng_uniform env n rng max = .ok (some r, rng')) :
    rng_uniform env (n + k) rng max = .ok (some r, rng') := by
  have key : ∀ n i (rng : Rng), uniform_loop env max n i rng = .ok (some r, rng') →
      uniform_loop env max (n + k) i rng = .ok (some r, rng') := by
    intro n
    induction n with
    | zero => intro i rng h; cases h
    | succ n ih =>
      intro i rng h
      rw [Nat.add_right_comm, uniform_loop]
      rw [uniform_loop] at h
      cases hq : rng_random env (env.rdrand32 i) rng with
      | abort => rw [hq] at h; cases h
      | ub => rw [hq] at h; cases h
      | ok q =>
        rw [hq, C.ok_bind] at h
        rw [C.ok_bind]
        dsimp only at h ⊢
        split at h
        · rename_i hc
          rw [if_pos hc]
          exact ih _ _ h
        · rename_i hc
          rw [if_neg hc]
          exact h
  rw [rng_uniform] at h ⊢
  split
  · rename_i hc; rwa [if_pos hc] at h
  · rename_i hc; rw [if_neg hc] at h; exact key _ _ _ h

end Torsion
