import Verif.Ecc.Fiat.FieldCheck
import Verif.Ecc.Fiat.FieldW32
import Verif.Ecc.Fiat.SpecW32

/-!
# The checks of whole functions, with bounds for each limb
-/
namespace Torsion.Fiat.W32
open Torsion.Spec

/-- The outputs are bounded. -/
def obnd : List Nat → List AV → Bool
  | [], [] => true
  | b :: bs, v :: vs => Nat.ble v.hi b && obnd bs vs
  | _, _ => false

def opCheck (M : Nat) (bnd : List (List Nat)) (bout bits : List Nat) (prog : Prog) (spec : Poly) : Bool :=
  match asteps M bnd prog.body [] with
  | none => false
  | some aenv =>
    match aouts aenv prog.outs with
    | none => false
    | some al =>
      match opoly M 1 bits al with
      | none => false
      | some q => obnd bout al && peq M q spec

def linCheck (fe : FiatField) (bin bout : List Nat) (prog : Prog) (c : Nat) : Bool :=
  opCheck fe.p [bin] bout fe.bits prog (pscale fe.p c (argp fe.p 0 fe.bits))

def addCheck (fe : FiatField) (prog : Prog) (s : Nat) : Bool :=
  opCheck fe.p [fe.tight, fe.tight] fe.loose fe.bits prog (padd fe.p (argp fe.p 0 fe.bits) (pscale fe.p s (argp fe.p 1 fe.bits)))

def mulCheck (fe : FiatField) : Bool :=
  match pmul fe.p (argp fe.p 0 fe.bits) (argp fe.p 1 fe.bits) with
  | none => false
  | some q => opCheck fe.p [fe.loose, fe.loose] fe.tight fe.bits fe.mul q

def sqrCheck (fe : FiatField) : Bool :=
  match pmul fe.p (argp fe.p 0 fe.bits) (argp fe.p 0 fe.bits) with
  | none => false
  | some q => opCheck fe.p [fe.loose] fe.tight fe.bits fe.square q

def a24Check (fe : FiatField) : Bool :=
  match fe.scmul_a24 with
  | none => true
  | some (.ofNat k, [q]) => linCheck fe fe.loose fe.tight q k
  | _ => false

def dCheck (fe : FiatField) : Bool :=
  match fe.scmul_d with
  | none => true
  | some (.negSucc k, [o, q]) => linCheck fe fe.tight fe.loose o (fe.p - 1) && linCheck fe fe.loose fe.tight q (k + 1)
  | _ => false

/-- The bounds of the bytes that `from_bytes` takes. -/
def byteBounds (fe : FiatField) : List Nat := List.replicate (fe.size - 1) 255 ++ [fe.mask]

def readCheck (fe : FiatField) : Bool :=
  opCheck fe.p [byteBounds fe] fe.tight fe.bits fe.from_bytes (argp fe.p 0 (List.replicate fe.size 8))

def wordCheck (fe : FiatField) : Bool :=
  linCheck fe ((2 ^ 32 - 1) :: List.replicate (fe.bits.length - 1) 0) fe.tight fe.carry 1

def fieldCheck (fe : FiatField) : Bool :=
  addCheck fe fe.add 1 && addCheck fe fe.sub (fe.p - 1) && linCheck fe fe.tight fe.loose fe.opp (fe.p - 1) &&
  linCheck fe fe.loose fe.tight fe.carry 1 && mulCheck fe && sqrCheck fe && linCheck fe fe.loose fe.tight fe.scmul_3 3 &&
  linCheck fe fe.loose fe.tight fe.scmul_4 4 && linCheck fe fe.loose fe.tight fe.scmul_8 8 && a24Check fe && dCheck fe && readCheck fe &&
  wordCheck fe && Nat.ble fe.bits.length 100 && Nat.ble fe.size 100 && Nat.blt 0 fe.p && Nat.blt 0 fe.size && Nat.blt 0 fe.bits.length

theorem obnd_len : ∀ (bits : List Nat) (w : Nat) {M : Nat} {al : List AV} {q : Poly}, opoly M w bits al = some q → al.length = bits.length
  | [], w, M, [], q, _ => rfl
  | [], w, M, v :: vs, q, h => by simp [opoly] at h
  | b :: bs, w, M, [], q, h => by simp [opoly] at h
  | b :: bs, w, M, v :: vs, q, h => by
    rw [opoly] at h
    split at h
    next q' hq => rw [List.length_cons, List.length_cons, obnd_len bs _ hq]
    next => exact absurd h (by simp)

theorem obnd_val {M : Nat} {ρ : Nat → ZMod M} : ∀ (bnd : List Nat) (al : List AV) (out : List Nat), obnd bnd al = true →
    List.Forall₂ (fun (n : Nat) (v : AV) => v.lo ≤ n ∧ n ≤ v.hi ∧ (n : ZMod M) = pval ρ v.p) out al → Below out bnd
  | [], [], out, h, ho => by cases ho; exact .nil
  | [], v :: vs, out, h, ho => by simp [obnd] at h
  | b :: bs, [], out, h, ho => by simp [obnd] at h
  | b :: bs, v :: vs, [], h, ho => by cases ho
  | b :: bs, v :: vs, n :: ns, h, ho => by
    rw [obnd, Bool.and_eq_true] at h
    cases ho with
    | cons h1 h2 => exact .cons (le_trans h1.2.1 (Nat.le_of_ble_eq_true h.1)) (obnd_val bs vs ns h.2 h2)

theorem op_sound {M : Nat} (hM : 0 < M) {bnd args : List (List Nat)} {bout bits : List Nat} {prog : Prog} {spec : Poly}
    (h : opCheck M bnd bout bits prog spec = true) (hw : Within args bnd) :
    ∃ out, run prog args = .ok out ∧ out.length = bits.length ∧ Below out bout ∧
      ∃ σ : Nat → Nat, (radixValue bits out : ZMod M) = pval (rho M args σ) spec := by
  unfold opCheck at h
  split at h
  · exact absurd h (by simp)
  next aenv ha =>
    split at h
    · exact absurd h (by simp)
    next al hal =>
      split at h
      · exact absurd h (by simp)
      next q hq =>
        rw [Bool.and_eq_true] at h
        obtain ⟨out, env, σ, r1, r2, r3, r4⟩ := run_sound hM hw ha hal
        refine ⟨out, r1, by rw [r4.length_eq, obnd_len bits 1 hq], obnd_val bout al out h.1 r4, σ, ?_⟩
        rw [← peq_val hM h.2, opoly_val bits 1 al q out hq r4]
        simp

theorem check_parts {fe : FiatField} (h : fieldCheck fe = true) :
    (addCheck fe fe.add 1 = true ∧ addCheck fe fe.sub (fe.p - 1) = true ∧ linCheck fe fe.tight fe.loose fe.opp (fe.p - 1) = true ∧
      linCheck fe fe.loose fe.tight fe.carry 1 = true ∧ mulCheck fe = true ∧ sqrCheck fe = true) ∧
    (linCheck fe fe.loose fe.tight fe.scmul_3 3 = true ∧ linCheck fe fe.loose fe.tight fe.scmul_4 4 = true ∧
      linCheck fe fe.loose fe.tight fe.scmul_8 8 = true ∧ a24Check fe = true ∧ dCheck fe = true ∧ readCheck fe = true ∧ wordCheck fe = true) ∧
    fe.bits.length ≤ 100 ∧ fe.size ≤ 100 ∧ 0 < fe.p ∧ 0 < fe.size ∧ 0 < fe.bits.length := by
  unfold fieldCheck at h
  simp only [Bool.and_eq_true] at h
  obtain ⟨⟨⟨⟨⟨⟨⟨⟨⟨⟨⟨⟨⟨⟨⟨⟨⟨a1, a2⟩, a3⟩, a4⟩, a5⟩, a6⟩, a7⟩, a8⟩, a9⟩, a10⟩, a11⟩, a12⟩, a13⟩, a14⟩, a15⟩, a16⟩, a17⟩, a18⟩ := h
  exact ⟨⟨a1, a2, a3, a4, a5, a6⟩, ⟨a7, a8, a9, a10, a11, a12, a13⟩, Nat.le_of_ble_eq_true a14, Nat.le_of_ble_eq_true a15,
    Nat.blt_eq.mp a16, Nat.blt_eq.mp a17, Nat.blt_eq.mp a18⟩

section
variable {fe : FiatField} (h : fieldCheck fe = true)
include h

theorem lin_ok {bin bout : List Nat} {prog : Prog} {c : Nat} (hc : linCheck fe bin bout prog c = true) {x : List Nat} {z : ZMod fe.p}
    (hx : LimbRep fe.bits bin fe.p x z) : ∃ out, run prog [x] = .ok out ∧ LimbRep fe.bits bout fe.p out ((c : ZMod fe.p) * z) := by
  obtain ⟨out, o1, o2, o3, σ, o4⟩ := op_sound (check_parts h).2.2.2.2.1 hc (within_one hx.2.1)
  refine ⟨out, o1, o2, o3, ?_⟩
  rw [o4, pscale_val, argp_val (by omega) rfl (check_parts h).2.2.1 hx.1, hx.2.2]

theorem two_ok {prog : Prog} {s : Nat} (hc : addCheck fe prog s = true) {x y : List Nat} {u v : ZMod fe.p}
    (hx : LimbRep fe.bits fe.tight fe.p x u) (hy : LimbRep fe.bits fe.tight fe.p y v) :
    ∃ out, run prog [x, y] = .ok out ∧ LimbRep fe.bits fe.loose fe.p out (u + (s : ZMod fe.p) * v) := by
  obtain ⟨out, o1, o2, o3, σ, o4⟩ := op_sound (check_parts h).2.2.2.2.1 hc (within_two hx.2.1 hy.2.1)
  refine ⟨out, o1, o2, o3, ?_⟩
  rw [o4, padd_val, pscale_val, argp_val (by omega) rfl (check_parts h).2.2.1 hx.1, argp_val (by omega) rfl (check_parts h).2.2.1 hy.1, hx.2.2, hy.2.2]

theorem mul_ok {x y : List Nat} {u v : ZMod fe.p} (hx : LimbRep fe.bits fe.loose fe.p x u) (hy : LimbRep fe.bits fe.loose fe.p y v) :
    ∃ out, run fe.mul [x, y] = .ok out ∧ LimbRep fe.bits fe.tight fe.p out (u * v) := by
  have hc := (check_parts h).1.2.2.2.2.1
  unfold mulCheck at hc
  split at hc
  · exact absurd hc (by simp)
  next q hq =>
    obtain ⟨out, o1, o2, o3, σ, o4⟩ := op_sound (check_parts h).2.2.2.2.1 hc (within_two hx.2.1 hy.2.1)
    refine ⟨out, o1, o2, o3, ?_⟩
    rw [o4, pmul_val _ _ _ hq, argp_val (by omega) rfl (check_parts h).2.2.1 hx.1, argp_val (by omega) rfl (check_parts h).2.2.1 hy.1, hx.2.2, hy.2.2]

theorem sqr_ok {x : List Nat} {u : ZMod fe.p} (hx : LimbRep fe.bits fe.loose fe.p x u) :
    ∃ out, run fe.square [x] = .ok out ∧ LimbRep fe.bits fe.tight fe.p out (u * u) := by
  have hc := (check_parts h).1.2.2.2.2.2
  unfold sqrCheck at hc
  split at hc
  · exact absurd hc (by simp)
  next q hq =>
    obtain ⟨out, o1, o2, o3, σ, o4⟩ := op_sound (check_parts h).2.2.2.2.1 hc (within_one hx.2.1)
    refine ⟨out, o1, o2, o3, ?_⟩
    rw [o4, pmul_val _ _ _ hq, argp_val (by omega) rfl (check_parts h).2.2.1 hx.1, hx.2.2]

theorem read_ok {x : List Nat} (hx : Below x (byteBounds fe)) (hl : x.length = fe.size) :
    ∃ out, run fe.from_bytes [x] = .ok out ∧ LimbRep fe.bits fe.tight fe.p out (bytesValue x : ZMod fe.p) := by
  obtain ⟨out, o1, o2, o3, σ, o4⟩ := op_sound (check_parts h).2.2.2.2.1 (check_parts h).2.1.2.2.2.2.2.1 (within_one hx)
  refine ⟨out, o1, o2, o3, ?_⟩
  rw [o4, argp_val (by omega) rfl (by rw [List.length_replicate]; exact (check_parts h).2.2.2.1) (by rw [hl, List.length_replicate]),
    bytesValue, hl]

theorem minus_one : ((fe.p - 1 : Nat) : ZMod fe.p) = -1 := by
  rw [Nat.cast_sub (check_parts h).2.2.2.2.1]
  simp

theorem opp_ok {x : List Nat} {z : ZMod fe.p} (hx : LimbRep fe.bits fe.tight fe.p x z) :
    ∃ out, run fe.opp [x] = .ok out ∧ LimbRep fe.bits fe.loose fe.p out (-z) := by
  obtain ⟨o, o1, o2⟩ := lin_ok h (check_parts h).1.2.2.1 hx
  rw [minus_one h] at o2
  exact ⟨o, o1, by simpa using o2⟩

theorem carry_ok {x : List Nat} {z : ZMod fe.p} (hx : LimbRep fe.bits fe.loose fe.p x z) :
    ∃ out, run fe.carry [x] = .ok out ∧ LimbRep fe.bits fe.tight fe.p out z := by
  obtain ⟨o, o1, o2⟩ := lin_ok h (check_parts h).1.2.2.2.1 hx
  exact ⟨o, o1, by simpa using o2⟩

theorem add_ok {x y : List Nat} {u v : ZMod fe.p} (hx : LimbRep fe.bits fe.tight fe.p x u) (hy : LimbRep fe.bits fe.tight fe.p y v) :
    ∃ out, run fe.add [x, y] = .ok out ∧ LimbRep fe.bits fe.loose fe.p out (u + v) := by
  obtain ⟨o, o1, o2⟩ := two_ok h (check_parts h).1.1 hx hy
  exact ⟨o, o1, by simpa using o2⟩

theorem sub_ok {x y : List Nat} {u v : ZMod fe.p} (hx : LimbRep fe.bits fe.tight fe.p x u) (hy : LimbRep fe.bits fe.tight fe.p y v) :
    ∃ out, run fe.sub [x, y] = .ok out ∧ LimbRep fe.bits fe.loose fe.p out (u - v) := by
  obtain ⟨o, o1, o2⟩ := two_ok h (check_parts h).1.2.1 hx hy
  rw [minus_one h, neg_one_mul, ← sub_eq_add_neg] at o2
  exact ⟨o, o1, o2⟩

theorem scmul_a24_ok {c : Int} {q : List Prog} (hq : fe.scmul_a24 = some (c, q)) {x : List Nat} {z : ZMod fe.p}
    (hx : LimbRep fe.bits fe.loose fe.p x z) :
    ∃ out, runAll q x = .ok out ∧ LimbRep fe.bits fe.tight fe.p out ((c : ZMod fe.p) * z) := by
  have hc := (check_parts h).2.1.2.2.2.1
  unfold a24Check at hc
  rw [hq] at hc
  split at hc
  next he => simp at he
  next k r he =>
    cases he
    obtain ⟨o, o1, o2⟩ := lin_ok h hc hx
    refine ⟨o, by rw [runAll, o1, C.ok_bind, runAll], ?_⟩
    simpa using o2
  next => exact absurd hc (by simp)

theorem scmul_d_ok {c : Int} {q : List Prog} (hq : fe.scmul_d = some (c, q)) {x : List Nat} {z : ZMod fe.p}
    (hx : LimbRep fe.bits fe.tight fe.p x z) :
    ∃ out, runAll q x = .ok out ∧ LimbRep fe.bits fe.tight fe.p out ((c : ZMod fe.p) * z) := by
  have hc := (check_parts h).2.1.2.2.2.2.1
  unfold dCheck at hc
  rw [hq] at hc
  split at hc
  next he => simp at he
  next k o r he =>
    cases he
    rw [Bool.and_eq_true] at hc
    obtain ⟨a, a1, a2⟩ := lin_ok h hc.1 hx
    obtain ⟨b, b1, b2⟩ := lin_ok h hc.2 a2
    refine ⟨b, by rw [runAll, a1, C.ok_bind, runAll, b1, C.ok_bind, runAll], ?_⟩
    rw [minus_one h] at b2
    have : ((Int.negSucc k : Int) : ZMod fe.p) = -((k + 1 : Nat) : ZMod fe.p) := by
      rw [Int.cast_negSucc]
    rw [this]
    have e : ((k + 1 : Nat) : ZMod fe.p) * (-1 * z) = -((k + 1 : Nat) : ZMod fe.p) * z := by ring
    rw [← e]
    exact b2
  next => exact absurd hc (by simp)

end
end Torsion.Fiat.W32
