import Verif.Ecc.Fiat.SoundB32

/-!
# The check of the serialisation on 32-bit words
-/
namespace Torsion.Fiat.B32
open Torsion.Spec

/-- The check of the reduction and of the bytes it gives: `n` limbs, a chain of subtractions of the modulus, its borrow makes a mask,
then a chain of additions. -/
def bytesCheck (M p size : Nat) (bits tight : List Nat) (prog : Prog) : Bool :=
  match asteps M [tight] prog.body [] with
  | none => false
  | some aenv =>
    match aouts aenv prog.outs, aouts aenv ((List.range bits.length).map (fun i => Ex.x (2 * i))), aenv[2 * bits.length - 1]?, aenv[4 * bits.length]? with
    | some al, some tl, some vb, some vc =>
      match opoly M 1 (List.replicate size 8) al, opoly M 1 bits tl with
      | some q, some t =>
        Nat.ble vb.hi 1 && Nat.ble vc.hi 1 && (obound 1 (List.replicate size 8) al && al.all (fun v => Nat.blt v.hi 256)) &&
        Nat.blt (radixValue (List.replicate size 8) (al.map AV.hi)) (2 ^ bits.sum) &&
        Nat.blt (radixValue bits (tl.map AV.hi)) (2 ^ bits.sum) &&
        Nat.blt (radixValue bits (tight)) (2 * p) && Nat.ble p (2 ^ bits.sum) && Nat.blt (8 * 2 ^ bits.sum) M &&
        Nat.blt (4 * bits.length) 4000 && Nat.blt 0 p &&
        peq M (padd M t [(0, p)]) (padd M (argp M 0 bits) [(vAtom (2 * bits.length - 1), 2 ^ bits.sum)]) &&
        peq M (padd M q [(0, p), (vAtom (4 * bits.length), 2 ^ bits.sum)])
          (padd M (argp M 0 bits) [(vAtom (2 * bits.length - 1), 2 ^ bits.sum + p)])
      | _, _ => false
    | _, _, _, _ => false

theorem bytes_sound {M p size : Nat} {bits tight : List Nat} {prog : Prog} (h : bytesCheck M p size bits tight prog = true) (hb : bits.length ≤ 100)
    {x : List Nat} (hx : Below x tight) (hxl : x.length = bits.length) :
    ∃ out, run prog [x] = .ok out ∧ (out.length = size ∧ ∀ b ∈ out, b < 256) ∧
      radixValue (List.replicate size 8) out = radixValue bits x % p := by
  unfold bytesCheck at h
  split at h
  · exact absurd h (by simp)
  next aenv ha =>
    split at h
    next al tl vb vc hal htl hvb hvc =>
      split at h
      next q t hq ht =>
        simp only [Bool.and_eq_true] at h
        obtain ⟨⟨⟨⟨⟨⟨⟨⟨⟨⟨⟨c1, c2⟩, c3⟩, c4⟩, c5⟩, c6⟩, c7⟩, c8⟩, c9⟩, c10⟩, c11⟩, c12⟩ := h
        have c4 := Nat.blt_eq.mp c4
        have c5 := Nat.blt_eq.mp c5
        have c6 := Nat.blt_eq.mp c6
        have c7 := Nat.le_of_ble_eq_true c7
        have c8 := Nat.blt_eq.mp c8
        have c9 := Nat.blt_eq.mp c9
        have c10 := Nat.blt_eq.mp c10
        have hM : 0 < M := by omega
        obtain ⟨out, env, σ, r1, r2, r3, r4⟩ := run_sound hM (within_one hx) ha hal
        obtain ⟨tv, _, t2⟩ := outs_sound r2 _ tl htl
        obtain ⟨ub, u1, u2, _⟩ := r2.2 _ vb hvb
        obtain ⟨uc, w1, w2, _⟩ := r2.2 _ vc hvc
        have hbv : σ (2 * bits.length - 1) ≤ 1 := by
          rw [r3 _ _ u1]
          exact le_trans u2.2.2.1 (Nat.le_of_ble_eq_true c1)
        have hcv : σ (4 * bits.length) ≤ 1 := by
          rw [r3 _ _ w1]
          exact le_trans w2.2.2.1 (Nat.le_of_ble_eq_true c2)
        have e1 := peq_val (ρ := rho M [x] σ) hM c11
        have e2 := peq_val (ρ := rho M [x] σ) hM c12
        have at1 : ∀ i c : Nat, i < 4000 → pval (rho M [x] σ) [(vAtom i, c)] = (c : ZMod M) * (σ i : ZMod M) := by
          intro i c hi
          rw [pval_one _ (by unfold vAtom; omega) (by unfold vAtom KB; omega), rho_v]
        have hT := lt_of_le_of_lt (radix_le bits (hi_of t2)) c5
        have hO := lt_of_le_of_lt (radix_le (List.replicate size 8) (hi_of r4)) c4
        have hV := lt_of_le_of_lt (radix_le bits hx) c6
        have app : pval (rho M [x] σ) [(0, p), (vAtom (4 * bits.length), 2 ^ bits.sum)] = (p : ZMod M) + ((2 ^ bits.sum : Nat) : ZMod M) * (σ (4 * bits.length) : ZMod M) := by
          rw [← at1 (4 * bits.length) (2 ^ bits.sum) (by omega)]
          have : ∀ r : Poly, pval (rho M [x] σ) ((0, p) :: r) = pval (rho M [x] σ) [(0, p)] + pval (rho M [x] σ) r := by
            intro r
            simp [pval]
          rw [this, pval_const]
        rw [padd_val, padd_val, pval_const, opoly_val _ _ _ _ _ ht t2, argp_val (by omega) rfl hb hxl, at1 _ _ (by omega)] at e1
        rw [padd_val, padd_val, app, opoly_val _ _ _ _ _ hq r4, argp_val (by omega) rfl hb hxl, at1 _ _ (by omega)] at e2
        generalize radixValue bits tv = T at *
        generalize radixValue bits x = V at *
        have hout : out.length = size ∧ ∀ b ∈ out, b < 256 := by
          refine ⟨by simpa using (obound_val _ _ _ c3.1 r4).length_eq.symm, ?_⟩
          have hall := List.all_eq_true.mp c3.2
          clear * - hall r4
          induction r4 with
          | nil => simp
          | cons h1 _ ih =>
            intro b hb
            rcases List.mem_cons.mp hb with rfl | hb
            · exact lt_of_le_of_lt h1.2.1 (Nat.blt_eq.mp (hall _ (List.mem_cons_self ..)))
            · exact ih (fun v hv => hall v (List.mem_cons_of_mem _ hv)) b hb
        refine ⟨out, r1, hout, ?_⟩
        generalize radixValue (List.replicate size 8) out = O at *
        generalize σ (2 * bits.length - 1) = b at *
        generalize σ (4 * bits.length) = c at *
        generalize 2 ^ bits.sum = W at *
        have hWb : W * b ≤ W := by nlinarith
        have hWc : W * c ≤ W := by nlinarith
        have hWp : (W + p) * b ≤ W + p := by nlinarith
        have f1 : T + p = V + W * b := by
          apply nat_of_zmod (M := M) _ (by omega) (by omega)
          push_cast
          push_cast at e1
          rw [one_mul] at e1
          exact e1
        have f2 : O + (p + W * c) = V + (W + p) * b := by
          apply nat_of_zmod (M := M) _ (by omega) (by omega)
          push_cast
          push_cast at e2
          rw [one_mul] at e2
          exact e2
        rcases (by omega : b = 0 ∨ b = 1) with rfl | rfl
        · rcases (by omega : c = 0 ∨ c = 1) with rfl | rfl
          · have : V = O + p := by omega
            rw [this, Nat.add_mod_right, Nat.mod_eq_of_lt (by omega)]
          · omega
        · rcases (by omega : c = 0 ∨ c = 1) with rfl | rfl
          · omega
          · have : V = O := by omega
            rw [this, Nat.mod_eq_of_lt (by omega)]
      next => exact absurd h (by simp)
    next => exact absurd h (by simp)

end Torsion.Fiat.B32
