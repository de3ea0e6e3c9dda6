import Verif.Ecc.Fiat.Sound
import Verif.Ecc.Fiat.Field
import Verif.Ecc.Fiat.Spec
import Mathlib.Tactic.Linarith

/-!
# The checks of whole functions, and their soundness
-/
namespace Torsion.Fiat
open Torsion.Spec

/-- The value of an argument. -/
def wpoly (M k : Nat) : Nat → Nat → List Nat → Poly
  | _, _, [] => []
  | i, w, b :: bs => (aAtom k i, w) :: wpoly M k (i + 1) (w * 2 ^ b % M) bs

/-- The value of the outputs. -/
def opoly (M : Nat) : Nat → List Nat → List AV → Option Poly
  | _, [], [] => some []
  | w, b :: bs, v :: vs =>
    match opoly M (w * 2 ^ b % M) bs vs with
    | some q => some (padd M q (pscale M w v.p))
    | none => none
  | _, _, _ => none

/-- The outputs are bounded. -/
def obound (k : Nat) : List Nat → List AV → Bool
  | [], [] => true
  | b :: bs, v :: vs => Nat.ble v.hi (k * 2 ^ b) && obound k bs vs
  | _, _ => false

def opCheck (M k : Nat) (bnd : List (List Nat)) (bits : List Nat) (prog : Prog) (spec : Poly) : Bool :=
  match asteps M bnd prog.body [] with
  | none => false
  | some aenv =>
    match aouts aenv prog.outs with
    | none => false
    | some al =>
      match opoly M 1 bits al with
      | none => false
      | some q => obound k bits al && peq M q spec

theorem wpoly_val {M : Nat} {args : List (List Nat)} {σ : Nat → Nat} {k : Nat} {l : List Nat} (hk : k < 7) (hl : args[k]? = some l) :
    ∀ (bits : List Nat) (i w : Nat) (r : List Nat), (∀ j : Nat, r[j]? = l[i + j]?) → i + bits.length ≤ 100 → r.length = bits.length →
      pval (rho M args σ) (wpoly M k i w bits) = (w : ZMod M) * (radixValue bits r : ZMod M)
  | [], i, w, r, _, _, _ => by simp [wpoly, pval, radixValue]
  | b :: bs, i, w, [], _, _, h => absurd h (by simp)
  | b :: bs, i, w, x :: xs, hr, hi, h => by
    have h0 := hr 0
    simp only [List.length_cons] at hi h
    have ih := wpoly_val (M := M) (σ := σ) hk hl bs (i + 1) (w * 2 ^ b % M) xs (fun j => by
      have := hr (j + 1)
      rw [List.getElem?_cons_succ] at this
      rw [this]
      congr 1
      omega) (by omega) (by omega)
    have ha : pval (rho M args σ) [(aAtom k i, w)] = (w : ZMod M) * rho M args σ (aAtom k i) :=
      pval_one _ (by unfold aAtom; omega) (by unfold aAtom KB; omega)
    have e : pval (rho M args σ) (wpoly M k i w (b :: bs)) = pval (rho M args σ) [(aAtom k i, w)] + pval (rho M args σ) (wpoly M k (i + 1) (w * 2 ^ b % M) bs) := by
      simp [wpoly, pval]
    rw [e, ha, ih, rho_a hk (by omega) hl (by rw [Nat.add_zero] at h0; rw [← h0]; rfl : l[i]? = some x), radixValue, ZMod.natCast_mod]
    push_cast
    ring

theorem opoly_val {M : Nat} {ρ : Nat → ZMod M} : ∀ (bits : List Nat) (w : Nat) (al : List AV) (q : Poly) (out : List Nat), opoly M w bits al = some q →
    List.Forall₂ (fun (n : Nat) (v : AV) => v.lo ≤ n ∧ n ≤ v.hi ∧ (n : ZMod M) = pval ρ v.p) out al →
      pval ρ q = (w : ZMod M) * (radixValue bits out : ZMod M)
  | [], w, [], q, out, h, ho => by
    cases ho
    rw [opoly] at h
    cases h
    simp [pval, radixValue]
  | [], w, v :: vs, q, out, h, ho => by simp [opoly] at h
  | b :: bs, w, [], q, out, h, ho => by simp [opoly] at h
  | b :: bs, w, v :: vs, q, [], h, ho => by cases ho
  | b :: bs, w, v :: vs, q, n :: ns, h, ho => by
    rw [opoly] at h
    cases ho with
    | cons h1 h2 =>
      split at h
      next q' hq =>
        cases h
        rw [padd_val, pscale_val, opoly_val bs _ vs q' ns hq h2, ← h1.2.2, radixValue, ZMod.natCast_mod]
        push_cast
        ring
      next => exact absurd h (by simp)

theorem obound_val {M : Nat} {ρ : Nat → ZMod M} {k : Nat} : ∀ (bits : List Nat) (al : List AV) (out : List Nat), obound k bits al = true →
    List.Forall₂ (fun (n : Nat) (v : AV) => v.lo ≤ n ∧ n ≤ v.hi ∧ (n : ZMod M) = pval ρ v.p) out al →
      List.Forall₂ (fun b x => x ≤ k * 2 ^ b) bits out
  | [], [], out, h, ho => by cases ho; exact .nil
  | [], v :: vs, out, h, ho => by simp [obound] at h
  | b :: bs, [], out, h, ho => by simp [obound] at h
  | b :: bs, v :: vs, [], h, ho => by cases ho
  | b :: bs, v :: vs, n :: ns, h, ho => by
    rw [obound, Bool.and_eq_true] at h
    cases ho with
    | cons h1 h2 => exact .cons (le_trans h1.2.1 (Nat.le_of_ble_eq_true h.1)) (obound_val bs vs ns h.2 h2)

theorem op_sound {M k : Nat} (hM : 0 < M) {bnd args : List (List Nat)} {bits : List Nat} {prog : Prog} {spec : Poly}
    (h : opCheck M k bnd bits prog spec = true) (hw : Within args bnd) :
    ∃ out, run prog args = .ok out ∧ List.Forall₂ (fun b x => x ≤ k * 2 ^ b) bits out ∧
      ∃ σ : Nat → Nat, (radixValue bits out : ZMod M) = pval (rho M args σ) spec := by
  unfold opCheck at h
  split at h
  · exact absurd h (by simp)
  next aenv ha =>
    split at h
    · exact absurd h (by simp)
    next al hal =>
      split at h
      · exact absurd h (by simp)
      next q hq =>
        rw [Bool.and_eq_true] at h
        obtain ⟨out, env, σ, r1, r2, r3, r4⟩ := run_sound hM hw ha hal
        refine ⟨out, r1, obound_val bits al out h.1 r4, σ, ?_⟩
        rw [← peq_val hM h.2, opoly_val bits 1 al q out hq r4]
        simp

/-- The bounds of an argument. -/
def lims (k : Nat) (bits : List Nat) : List Nat := bits.map (fun b => k * 2 ^ b)

/-- Each number is at most its bound. -/
abbrev Below (x bnd : List Nat) : Prop := List.Forall₂ (fun n b => n ≤ b) x bnd

theorem below_get : ∀ {x bnd : List Nat}, Below x bnd → ∀ (i b : Nat), bnd[i]? = some b → ∃ n, x[i]? = some n ∧ n ≤ b
  | _, _, .nil, i, b, h => absurd h (by simp)
  | _, _, .cons h1 h2, 0, b, h => by
    simp only [List.getElem?_cons_zero, Option.some.injEq] at h
    exact ⟨_, rfl, h ▸ h1⟩
  | _, _, .cons h1 h2, i + 1, b, h => by
    rw [List.getElem?_cons_succ] at h
    obtain ⟨n, n1, n2⟩ := below_get h2 i b h
    exact ⟨n, by rw [List.getElem?_cons_succ, n1], n2⟩

theorem below_lims {k : Nat} : ∀ {bits x : List Nat}, List.Forall₂ (fun b x => x ≤ k * 2 ^ b) bits x → Below x (lims k bits)
  | _, _, .nil => .nil
  | _, _, .cons h1 h2 => .cons h1 (below_lims h2)

theorem within_one {x b : List Nat} (h : Below x b) : Within [x] [b] := by
  intro k l hl
  match k, hl with
  | 0, hl =>
    simp only [List.getElem?_cons_zero, Option.some.injEq] at hl
    exact ⟨x, rfl, hl ▸ below_get h⟩
  | k + 1, hl => exact absurd hl (by simp)

theorem within_two {x y b c : List Nat} (h : Below x b) (h' : Below y c) : Within [x, y] [b, c] := by
  intro k l hl
  match k, hl with
  | 0, hl =>
    simp only [List.getElem?_cons_zero, Option.some.injEq] at hl
    exact ⟨x, rfl, hl ▸ below_get h⟩
  | 1, hl =>
    simp only [List.getElem?_cons_succ, List.getElem?_cons_zero, Option.some.injEq] at hl
    exact ⟨y, rfl, hl ▸ below_get h'⟩
  | k + 2, hl => exact absurd hl (by simp)

/-- The value of argument `k`, whose limbs have the widths `bits`. -/
def argp (M k : Nat) (bits : List Nat) : Poly := wpoly M k 0 1 bits

theorem argp_val {M : Nat} {args : List (List Nat)} {σ : Nat → Nat} {k : Nat} {l bits : List Nat} (hk : k < 7) (hl : args[k]? = some l)
    (hb : bits.length ≤ 100) (hlen : l.length = bits.length) :
    pval (rho M args σ) (argp M k bits) = (radixValue bits l : ZMod M) := by
  rw [argp, wpoly_val hk hl bits 0 1 l (fun j => by rw [Nat.zero_add]) (by omega) hlen]
  simp

/-- Functions of one argument that multiply by a constant. -/
def linCheck (M kin kout : Nat) (bits : List Nat) (prog : Prog) (c : Nat) : Bool :=
  opCheck M kout [lims kin bits] bits prog (pscale M c (argp M 0 bits))

theorem lin_sound {M kin kout : Nat} (hM : 0 < M) {bits : List Nat} {prog : Prog} {c : Nat} (h : linCheck M kin kout bits prog c = true)
    (hb : bits.length ≤ 100) {x : List Nat} {z : ZMod M} (hx : FieldRep bits M kin x z) :
    ∃ out, run prog [x] = .ok out ∧ FieldRep bits M kout out ((c : ZMod M) * z) := by
  obtain ⟨out, o1, o2, σ, o3⟩ := op_sound hM h (within_one (below_lims hx.1))
  refine ⟨out, o1, o2, ?_⟩
  rw [o3, pscale_val, argp_val (by omega) rfl hb hx.1.length_eq.symm, hx.2]

/-- Sums: `s` is the factor of the second argument. -/
def addCheck (M kin kout : Nat) (bits : List Nat) (prog : Prog) (s : Nat) : Bool :=
  opCheck M kout [lims kin bits, lims kin bits] bits prog (padd M (argp M 0 bits) (pscale M s (argp M 1 bits)))

theorem add_sound {M kin kout : Nat} (hM : 0 < M) {bits : List Nat} {prog : Prog} {s : Nat} (h : addCheck M kin kout bits prog s = true)
    (hb : bits.length ≤ 100) {x y : List Nat} {u v : ZMod M} (hx : FieldRep bits M kin x u) (hy : FieldRep bits M kin y v) :
    ∃ out, run prog [x, y] = .ok out ∧ FieldRep bits M kout out (u + (s : ZMod M) * v) := by
  obtain ⟨out, o1, o2, σ, o3⟩ := op_sound hM h (within_two (below_lims hx.1) (below_lims hy.1))
  refine ⟨out, o1, o2, ?_⟩
  rw [o3, padd_val, pscale_val, argp_val (by omega) rfl hb hx.1.length_eq.symm, argp_val (by omega) rfl hb hy.1.length_eq.symm, hx.2, hy.2]

def mulCheck (M kin kout : Nat) (bits : List Nat) (prog : Prog) : Bool :=
  match pmul M (argp M 0 bits) (argp M 1 bits) with
  | none => false
  | some q => opCheck M kout [lims kin bits, lims kin bits] bits prog q

theorem mul_sound {M kin kout : Nat} (hM : 0 < M) {bits : List Nat} {prog : Prog} (h : mulCheck M kin kout bits prog = true)
    (hb : bits.length ≤ 100) {x y : List Nat} {u v : ZMod M} (hx : FieldRep bits M kin x u) (hy : FieldRep bits M kin y v) :
    ∃ out, run prog [x, y] = .ok out ∧ FieldRep bits M kout out (u * v) := by
  unfold mulCheck at h
  split at h
  · exact absurd h (by simp)
  next q hq =>
    obtain ⟨out, o1, o2, σ, o3⟩ := op_sound hM h (within_two (below_lims hx.1) (below_lims hy.1))
    refine ⟨out, o1, o2, ?_⟩
    rw [o3, pmul_val _ _ _ hq, argp_val (by omega) rfl hb hx.1.length_eq.symm, argp_val (by omega) rfl hb hy.1.length_eq.symm, hx.2, hy.2]

def sqrCheck (M kin kout : Nat) (bits : List Nat) (prog : Prog) : Bool :=
  match pmul M (argp M 0 bits) (argp M 0 bits) with
  | none => false
  | some q => opCheck M kout [lims kin bits] bits prog q

theorem sqr_sound {M kin kout : Nat} (hM : 0 < M) {bits : List Nat} {prog : Prog} (h : sqrCheck M kin kout bits prog = true)
    (hb : bits.length ≤ 100) {x : List Nat} {u : ZMod M} (hx : FieldRep bits M kin x u) :
    ∃ out, run prog [x] = .ok out ∧ FieldRep bits M kout out (u * u) := by
  unfold sqrCheck at h
  split at h
  · exact absurd h (by simp)
  next q hq =>
    obtain ⟨out, o1, o2, σ, o3⟩ := op_sound hM h (within_one (below_lims hx.1))
    refine ⟨out, o1, o2, ?_⟩
    rw [o3, pmul_val _ _ _ hq, argp_val (by omega) rfl hb hx.1.length_eq.symm, hx.2]

/-- Functions of one argument with other widths and bounds. -/
def readCheck (M : Nat) (bin bnd bits : List Nat) (prog : Prog) : Bool := opCheck M 1 [bnd] bits prog (argp M 0 bin)

theorem read_sound {M : Nat} (hM : 0 < M) {bin bnd bits : List Nat} {prog : Prog} (h : readCheck M bin bnd bits prog = true)
    (hb : bin.length ≤ 100) {x : List Nat} (hx : Below x bnd) (hl : x.length = bin.length) :
    ∃ out, run prog [x] = .ok out ∧ FieldRep bits M 1 out (radixValue bin x : ZMod M) := by
  obtain ⟨out, o1, o2, σ, o3⟩ := op_sound hM h (within_one hx)
  exact ⟨out, o1, o2, by rw [o3, argp_val (by omega) rfl hb hl]⟩

theorem radix_le : ∀ (bits : List Nat) {x y : List Nat}, List.Forall₂ (fun n m => n ≤ m) x y → radixValue bits x ≤ radixValue bits y
  | [], _, _, _ => by simp [radixValue]
  | b :: bs, _, _, .nil => by simp [radixValue]
  | b :: bs, _, _, .cons h1 h2 => by
    rw [radixValue, radixValue]
    exact Nat.add_le_add h1 (Nat.mul_le_mul_left _ (radix_le bs h2))

/-- The check of the reduction and of the bytes it gives: `n` limbs, a chain of subtractions of the modulus, its borrow makes a mask,
then a chain of additions. -/
def bytesCheck (M p size : Nat) (bits : List Nat) (prog : Prog) : Bool :=
  match asteps M [lims 1 bits] prog.body [] with
  | none => false
  | some aenv =>
    match aouts aenv prog.outs, aouts aenv ((List.range bits.length).map (fun i => Ex.x (2 * i))), aenv[2 * bits.length - 1]?, aenv[4 * bits.length]? with
    | some al, some tl, some vb, some vc =>
      match opoly M 1 (List.replicate size 8) al, opoly M 1 bits tl with
      | some q, some t =>
        Nat.ble vb.hi 1 && Nat.ble vc.hi 1 && (obound 1 (List.replicate size 8) al && al.all (fun v => Nat.blt v.hi 256)) &&
        Nat.blt (radixValue (List.replicate size 8) (al.map AV.hi)) (2 ^ bits.sum) &&
        Nat.blt (radixValue bits (tl.map AV.hi)) (2 ^ bits.sum) &&
        Nat.blt (radixValue bits (lims 1 bits)) (2 * p) && Nat.ble p (2 ^ bits.sum) && Nat.blt (8 * 2 ^ bits.sum) M &&
        Nat.blt (4 * bits.length) 4000 && Nat.blt 0 p &&
        peq M (padd M t [(0, p)]) (padd M (argp M 0 bits) [(vAtom (2 * bits.length - 1), 2 ^ bits.sum)]) &&
        peq M (padd M q [(0, p), (vAtom (4 * bits.length), 2 ^ bits.sum)])
          (padd M (argp M 0 bits) [(vAtom (2 * bits.length - 1), 2 ^ bits.sum + p)])
      | _, _ => false
    | _, _, _, _ => false

theorem nat_of_zmod {M a b : Nat} (h : (a : ZMod M) = (b : ZMod M)) (ha : a < M) (hb : b < M) : a = b := by
  rw [ZMod.natCast_eq_natCast_iff'] at h
  rwa [Nat.mod_eq_of_lt ha, Nat.mod_eq_of_lt hb] at h

theorem hi_of {M : Nat} {ρ : Nat → ZMod M} : ∀ {out : List Nat} {al : List AV},
    List.Forall₂ (fun (n : Nat) (v : AV) => v.lo ≤ n ∧ n ≤ v.hi ∧ (n : ZMod M) = pval ρ v.p) out al → List.Forall₂ (fun n m => n ≤ m) out (al.map AV.hi)
  | _, _, .nil => .nil
  | _, _, .cons h1 h2 => .cons h1.2.1 (hi_of h2)

theorem bytes_sound {M p size : Nat} {bits : List Nat} {prog : Prog} (h : bytesCheck M p size bits prog = true) (hb : bits.length ≤ 100)
    {x : List Nat} (hx : List.Forall₂ (fun b x => x ≤ 1 * 2 ^ b) bits x) :
    ∃ out, run prog [x] = .ok out ∧ (out.length = size ∧ ∀ b ∈ out, b < 256) ∧
      radixValue (List.replicate size 8) out = radixValue bits x % p := by
  unfold bytesCheck at h
  split at h
  · exact absurd h (by simp)
  next aenv ha =>
    split at h
    next al tl vb vc hal htl hvb hvc =>
      split at h
      next q t hq ht =>
        simp only [Bool.and_eq_true] at h
        obtain ⟨⟨⟨⟨⟨⟨⟨⟨⟨⟨⟨c1, c2⟩, c3⟩, c4⟩, c5⟩, c6⟩, c7⟩, c8⟩, c9⟩, c10⟩, c11⟩, c12⟩ := h
        have c4 := Nat.blt_eq.mp c4
        have c5 := Nat.blt_eq.mp c5
        have c6 := Nat.blt_eq.mp c6
        have c7 := Nat.le_of_ble_eq_true c7
        have c8 := Nat.blt_eq.mp c8
        have c9 := Nat.blt_eq.mp c9
        have c10 := Nat.blt_eq.mp c10
        have hM : 0 < M := by omega
        obtain ⟨out, env, σ, r1, r2, r3, r4⟩ := run_sound hM (within_one (below_lims hx)) ha hal
        obtain ⟨tv, _, t2⟩ := outs_sound r2 _ tl htl
        obtain ⟨ub, u1, u2, _⟩ := r2.2 _ vb hvb
        obtain ⟨uc, w1, w2, _⟩ := r2.2 _ vc hvc
        have hbv : σ (2 * bits.length - 1) ≤ 1 := by
          rw [r3 _ _ u1]
          exact le_trans u2.2.2.1 (Nat.le_of_ble_eq_true c1)
        have hcv : σ (4 * bits.length) ≤ 1 := by
          rw [r3 _ _ w1]
          exact le_trans w2.2.2.1 (Nat.le_of_ble_eq_true c2)
        have e1 := peq_val (ρ := rho M [x] σ) hM c11
        have e2 := peq_val (ρ := rho M [x] σ) hM c12
        have at1 : ∀ i c : Nat, i < 4000 → pval (rho M [x] σ) [(vAtom i, c)] = (c : ZMod M) * (σ i : ZMod M) := by
          intro i c hi
          rw [pval_one _ (by unfold vAtom; omega) (by unfold vAtom KB; omega), rho_v]
        have hT := lt_of_le_of_lt (radix_le bits (hi_of t2)) c5
        have hO := lt_of_le_of_lt (radix_le (List.replicate size 8) (hi_of r4)) c4
        have hV := lt_of_le_of_lt (radix_le bits (below_lims hx)) c6
        have app : pval (rho M [x] σ) [(0, p), (vAtom (4 * bits.length), 2 ^ bits.sum)] = (p : ZMod M) + ((2 ^ bits.sum : Nat) : ZMod M) * (σ (4 * bits.length) : ZMod M) := by
          rw [← at1 (4 * bits.length) (2 ^ bits.sum) (by omega)]
          have : ∀ r : Poly, pval (rho M [x] σ) ((0, p) :: r) = pval (rho M [x] σ) [(0, p)] + pval (rho M [x] σ) r := by
            intro r
            simp [pval]
          rw [this, pval_const]
        rw [padd_val, padd_val, pval_const, opoly_val _ _ _ _ _ ht t2, argp_val (by omega) rfl hb hx.length_eq.symm, at1 _ _ (by omega)] at e1
        rw [padd_val, padd_val, app, opoly_val _ _ _ _ _ hq r4, argp_val (by omega) rfl hb hx.length_eq.symm, at1 _ _ (by omega)] at e2
        generalize radixValue bits tv = T at *
        generalize radixValue bits x = V at *
        have hout : out.length = size ∧ ∀ b ∈ out, b < 256 := by
          refine ⟨by simpa using (obound_val _ _ _ c3.1 r4).length_eq.symm, ?_⟩
          have hall := List.all_eq_true.mp c3.2
          clear * - hall r4
          induction r4 with
          | nil => simp
          | cons h1 _ ih =>
            intro b hb
            rcases List.mem_cons.mp hb with rfl | hb
            · exact lt_of_le_of_lt h1.2.1 (Nat.blt_eq.mp (hall _ (List.mem_cons_self ..)))
            · exact ih (fun v hv => hall v (List.mem_cons_of_mem _ hv)) b hb
        refine ⟨out, r1, hout, ?_⟩
        generalize radixValue (List.replicate size 8) out = O at *
        generalize σ (2 * bits.length - 1) = b at *
        generalize σ (4 * bits.length) = c at *
        generalize 2 ^ bits.sum = W at *
        have hWb : W * b ≤ W := by nlinarith
        have hWc : W * c ≤ W := by nlinarith
        have hWp : (W + p) * b ≤ W + p := by nlinarith
        have f1 : T + p = V + W * b := by
          apply nat_of_zmod (M := M) _ (by omega) (by omega)
          push_cast
          push_cast at e1
          rw [one_mul] at e1
          exact e1
        have f2 : O + (p + W * c) = V + (W + p) * b := by
          apply nat_of_zmod (M := M) _ (by omega) (by omega)
          push_cast
          push_cast at e2
          rw [one_mul] at e2
          exact e2
        rcases (by omega : b = 0 ∨ b = 1) with rfl | rfl
        · rcases (by omega : c = 0 ∨ c = 1) with rfl | rfl
          · have : V = O + p := by omega
            rw [this, Nat.add_mod_right, Nat.mod_eq_of_lt (by omega)]
          · omega
        · rcases (by omega : c = 0 ∨ c = 1) with rfl | rfl
          · omega
          · have : V = O := by omega
            rw [this, Nat.mod_eq_of_lt (by omega)]
      next => exact absurd h (by simp)
    next => exact absurd h (by simp)

end Torsion.Fiat
