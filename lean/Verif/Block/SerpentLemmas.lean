import Verif.Block.Serpent
import Verif.Block.Spec
import Verif.Block.Feistel
import Mathlib.Tactic.FinCases

/-!
Serpent: the Boolean functions of the S-boxes, bit by bit, are the published tables; the rounds of
decryption undo those of encryption. The functions `bitN` are the formulas of the model read on
single bits.
-/
namespace Torsion.Blkc

def bit_sb0 (r0 r1 r2 r3 : Bool) : Bool × Bool × Bool × Bool :=
  let t0 := r0 ^^ r3
  let t1 := r2 ^^ t0
  let t2 := r1 ^^ t1
  let r3 := (r0 && r3) ^^ t2
  let t3 := r0 ^^ (r1 && t0)
  let r2 := t2 ^^ (r2 || t3)
  let t4 := r3 && (t1 ^^ t3)
  let r1 := (!t1) ^^ t4
  let r0 := t4 ^^ (!t3)
  (r0, r1, r2, r3)

theorem slice_sb0 (q : Quad) (i : Nat) (hi : i < 32) :
    ((serpent_sb0 q).a.getLsbD i, (serpent_sb0 q).b.getLsbD i, (serpent_sb0 q).c.getLsbD i,
      (serpent_sb0 q).d.getLsbD i) =
    bit_sb0 (q.a.getLsbD i) (q.b.getLsbD i) (q.c.getLsbD i) (q.d.getLsbD i) := by
  simp only [serpent_sb0, bit_sb0, BitVec.getLsbD_xor, BitVec.getLsbD_and, BitVec.getLsbD_or,
    BitVec.getLsbD_not, hi, decide_true, Bool.true_and]

def bit_sb0inv (r0 r1 r2 r3 : Bool) : Bool × Bool × Bool × Bool :=
  let t0 := !(r0)
  let t1 := r0 ^^ r1
  let t2 := r3 ^^ (t0 || t1)
  let t3 := r2 ^^ t2
  let r2 := t1 ^^ t3
  let t4 := t0 ^^ (r3 && t1)
  let r1 := t2 ^^ (r2 && t4)
  let r3 := (r0 && t2) ^^ (t3 || r1)
  let r0 := r3 ^^ (t3 ^^ t4)
  (r0, r1, r2, r3)

theorem slice_sb0inv (q : Quad) (i : Nat) (hi : i < 32) :
    ((serpent_sb0inv q).a.getLsbD i, (serpent_sb0inv q).b.getLsbD i, (serpent_sb0inv q).c.getLsbD i,
      (serpent_sb0inv q).d.getLsbD i) =
    bit_sb0inv (q.a.getLsbD i) (q.b.getLsbD i) (q.c.getLsbD i) (q.d.getLsbD i) := by
  simp only [serpent_sb0inv, bit_sb0inv, BitVec.getLsbD_xor, BitVec.getLsbD_and, BitVec.getLsbD_or,
    BitVec.getLsbD_not, hi, decide_true, Bool.true_and]

def bit_sb1 (r0 r1 r2 r3 : Bool) : Bool × Bool × Bool × Bool :=
  let t0 := r1 ^^ (!(r0))
  let t1 := r2 ^^ (r0 || t0)
  let r2 := r3 ^^ t1
  let t2 := r1 ^^ (r3 || t0)
  let t3 := t0 ^^ r2
  let r3 := t3 ^^ (t1 && t2)
  let t4 := t1 ^^ t2
  let r1 := r3 ^^ t4
  let r0 := t1 ^^ (t3 && t4)
  (r0, r1, r2, r3)

theorem slice_sb1 (q : Quad) (i : Nat) (hi : i < 32) :
    ((serpent_sb1 q).a.getLsbD i, (serpent_sb1 q).b.getLsbD i, (serpent_sb1 q).c.getLsbD i,
      (serpent_sb1 q).d.getLsbD i) =
    bit_sb1 (q.a.getLsbD i) (q.b.getLsbD i) (q.c.getLsbD i) (q.d.getLsbD i) := by
  simp only [serpent_sb1, bit_sb1, BitVec.getLsbD_xor, BitVec.getLsbD_and, BitVec.getLsbD_or,
    BitVec.getLsbD_not, hi, decide_true, Bool.true_and]

def bit_sb1inv (r0 r1 r2 r3 : Bool) : Bool × Bool × Bool × Bool :=
  let t0 := r1 ^^ r3
  let t1 := r0 ^^ (r1 && t0)
  let t2 := t0 ^^ t1
  let r3 := r2 ^^ t2
  let t3 := r1 ^^ (t0 && t1)
  let t4 := r3 || t3
  let r1 := t1 ^^ t4
  let t5 := !(r1)
  let t6 := r3 ^^ t3
  let r0 := t5 ^^ t6
  let r2 := t2 ^^ (t5 || t6)
  (r0, r1, r2, r3)

theorem slice_sb1inv (q : Quad) (i : Nat) (hi : i < 32) :
    ((serpent_sb1inv q).a.getLsbD i, (serpent_sb1inv q).b.getLsbD i, (serpent_sb1inv q).c.getLsbD i,
      (serpent_sb1inv q).d.getLsbD i) =
    bit_sb1inv (q.a.getLsbD i) (q.b.getLsbD i) (q.c.getLsbD i) (q.d.getLsbD i) := by
  simp only [serpent_sb1inv, bit_sb1inv, BitVec.getLsbD_xor, BitVec.getLsbD_and, BitVec.getLsbD_or,
    BitVec.getLsbD_not, hi, decide_true, Bool.true_and]

def bit_sb2 (r0 r1 r2 r3 : Bool) : Bool × Bool × Bool × Bool :=
  let v0 := r0
  let v3 := r3
  let t0 := !v0
  let t1 := r1 ^^ v3
  let t2 := r2 && t0
  let r0 := t1 ^^ t2
  let t3 := r2 ^^ t0
  let t4 := r2 ^^ r0
  let t5 := r1 && t4
  let r3 := t3 ^^ t5
  let r2 := v0 ^^ ((v3 || t5) && (r0 || t3))
  let r1 := (t1 ^^ r3) ^^ (r2 ^^ (v3 || t0))
  (r0, r1, r2, r3)

theorem slice_sb2 (q : Quad) (i : Nat) (hi : i < 32) :
    ((serpent_sb2 q).a.getLsbD i, (serpent_sb2 q).b.getLsbD i, (serpent_sb2 q).c.getLsbD i,
      (serpent_sb2 q).d.getLsbD i) =
    bit_sb2 (q.a.getLsbD i) (q.b.getLsbD i) (q.c.getLsbD i) (q.d.getLsbD i) := by
  simp only [serpent_sb2, bit_sb2, BitVec.getLsbD_xor, BitVec.getLsbD_and, BitVec.getLsbD_or,
    BitVec.getLsbD_not, hi, decide_true, Bool.true_and]

def bit_sb2inv (r0 r1 r2 r3 : Bool) : Bool × Bool × Bool × Bool :=
  let v0 := r0
  let v3 := r3
  let t0 := r1 ^^ v3
  let t1 := !t0
  let t2 := v0 ^^ r2
  let t3 := r2 ^^ t0
  let t4 := r1 && t3
  let r0 := t2 ^^ t4
  let t5 := v0 || t1
  let t6 := v3 ^^ t5
  let t7 := t2 || t6
  let r3 := t0 ^^ t7
  let t8 := !t3
  let t9 := r0 || r3
  let r1 := t8 ^^ t9
  let r2 := (v3 && t8) ^^ (t2 ^^ t9)
  (r0, r1, r2, r3)

theorem slice_sb2inv (q : Quad) (i : Nat) (hi : i < 32) :
    ((serpent_sb2inv q).a.getLsbD i, (serpent_sb2inv q).b.getLsbD i, (serpent_sb2inv q).c.getLsbD i,
      (serpent_sb2inv q).d.getLsbD i) =
    bit_sb2inv (q.a.getLsbD i) (q.b.getLsbD i) (q.c.getLsbD i) (q.d.getLsbD i) := by
  simp only [serpent_sb2inv, bit_sb2inv, BitVec.getLsbD_xor, BitVec.getLsbD_and, BitVec.getLsbD_or,
    BitVec.getLsbD_not, hi, decide_true, Bool.true_and]

def bit_sb3 (r0 r1 r2 r3 : Bool) : Bool × Bool × Bool × Bool :=
  let v1 := r1
  let v3 := r3
  let t0 := r0 ^^ r1
  let t1 := r0 && r2
  let t2 := r0 || r3
  let t3 := r2 ^^ r3
  let t4 := t0 && t2
  let t5 := t1 || t4
  let r2 := t3 ^^ t5
  let t6 := r1 ^^ t2
  let t7 := t5 ^^ t6
  let t8 := t3 && t7
  let r0 := t0 ^^ t8
  let t9 := r2 && r0
  let r1 := t7 ^^ t9
  let r3 := (v1 || v3) ^^ (t3 ^^ t9)
  (r0, r1, r2, r3)

theorem slice_sb3 (q : Quad) (i : Nat) (hi : i < 32) :
    ((serpent_sb3 q).a.getLsbD i, (serpent_sb3 q).b.getLsbD i, (serpent_sb3 q).c.getLsbD i,
      (serpent_sb3 q).d.getLsbD i) =
    bit_sb3 (q.a.getLsbD i) (q.b.getLsbD i) (q.c.getLsbD i) (q.d.getLsbD i) := by
  simp only [serpent_sb3, bit_sb3, BitVec.getLsbD_xor, BitVec.getLsbD_and, BitVec.getLsbD_or,
    BitVec.getLsbD_not, hi, decide_true, Bool.true_and]

def bit_sb3inv (r0 r1 r2 r3 : Bool) : Bool × Bool × Bool × Bool :=
  let t0 := r0 || r1
  let t1 := r1 ^^ r2
  let t2 := r1 && t1
  let t3 := r0 ^^ t2
  let t4 := r2 ^^ t3
  let t5 := r3 || t3
  let r0 := t1 ^^ t5
  let t6 := t1 || t5
  let t7 := r3 ^^ t6
  let r2 := t4 ^^ t7
  let t8 := t0 ^^ t7
  let t9 := r0 && t8
  let r3 := t3 ^^ t9
  let r1 := r3 ^^ (r0 ^^ t8)
  (r0, r1, r2, r3)

theorem slice_sb3inv (q : Quad) (i : Nat) (hi : i < 32) :
    ((serpent_sb3inv q).a.getLsbD i, (serpent_sb3inv q).b.getLsbD i, (serpent_sb3inv q).c.getLsbD i,
      (serpent_sb3inv q).d.getLsbD i) =
    bit_sb3inv (q.a.getLsbD i) (q.b.getLsbD i) (q.c.getLsbD i) (q.d.getLsbD i) := by
  simp only [serpent_sb3inv, bit_sb3inv, BitVec.getLsbD_xor, BitVec.getLsbD_and, BitVec.getLsbD_or,
    BitVec.getLsbD_not, hi, decide_true, Bool.true_and]

def bit_sb4 (r0 r1 r2 r3 : Bool) : Bool × Bool × Bool × Bool :=
  let v0 := r0
  let t0 := v0 ^^ r3
  let t1 := r3 && t0
  let t2 := r2 ^^ t1
  let t3 := r1 || t2
  let r3 := t0 ^^ t3
  let t4 := !(r1)
  let t5 := t0 || t4
  let r0 := t2 ^^ t5
  let t6 := v0 && r0
  let t7 := t0 ^^ t4
  let t8 := t3 && t7
  let r2 := t6 ^^ t8
  let r1 := (v0 ^^ t2) ^^ (t7 && r2)
  (r0, r1, r2, r3)

theorem slice_sb4 (q : Quad) (i : Nat) (hi : i < 32) :
    ((serpent_sb4 q).a.getLsbD i, (serpent_sb4 q).b.getLsbD i, (serpent_sb4 q).c.getLsbD i,
      (serpent_sb4 q).d.getLsbD i) =
    bit_sb4 (q.a.getLsbD i) (q.b.getLsbD i) (q.c.getLsbD i) (q.d.getLsbD i) := by
  simp only [serpent_sb4, bit_sb4, BitVec.getLsbD_xor, BitVec.getLsbD_and, BitVec.getLsbD_or,
    BitVec.getLsbD_not, hi, decide_true, Bool.true_and]

def bit_sb4inv (r0 r1 r2 r3 : Bool) : Bool × Bool × Bool × Bool :=
  let v3 := r3
  let t0 := r2 || v3
  let t1 := r0 && t0
  let t2 := r1 ^^ t1
  let t3 := r0 && t2
  let t4 := r2 ^^ t3
  let r1 := v3 ^^ t4
  let t5 := !(r0)
  let t6 := t4 && r1
  let r3 := t2 ^^ t6
  let t7 := r1 || t5
  let t8 := v3 ^^ t7
  let r0 := r3 ^^ t8
  let r2 := (t2 && t8) ^^ (r1 ^^ t5)
  (r0, r1, r2, r3)

theorem slice_sb4inv (q : Quad) (i : Nat) (hi : i < 32) :
    ((serpent_sb4inv q).a.getLsbD i, (serpent_sb4inv q).b.getLsbD i, (serpent_sb4inv q).c.getLsbD i,
      (serpent_sb4inv q).d.getLsbD i) =
    bit_sb4inv (q.a.getLsbD i) (q.b.getLsbD i) (q.c.getLsbD i) (q.d.getLsbD i) := by
  simp only [serpent_sb4inv, bit_sb4inv, BitVec.getLsbD_xor, BitVec.getLsbD_and, BitVec.getLsbD_or,
    BitVec.getLsbD_not, hi, decide_true, Bool.true_and]

def bit_sb5 (r0 r1 r2 r3 : Bool) : Bool × Bool × Bool × Bool :=
  let v1 := r1
  let t0 := !(r0)
  let t1 := r0 ^^ v1
  let t2 := r0 ^^ r3
  let t3 := r2 ^^ t0
  let t4 := t1 || t2
  let r0 := t3 ^^ t4
  let t5 := r3 && r0
  let t6 := t1 ^^ r0
  let r1 := t5 ^^ t6
  let t7 := t0 || r0
  let t8 := t1 || t5
  let t9 := t2 ^^ t7
  let r2 := t8 ^^ t9
  let r3 := (v1 ^^ t5) ^^ (r1 && t9)
  (r0, r1, r2, r3)

theorem slice_sb5 (q : Quad) (i : Nat) (hi : i < 32) :
    ((serpent_sb5 q).a.getLsbD i, (serpent_sb5 q).b.getLsbD i, (serpent_sb5 q).c.getLsbD i,
      (serpent_sb5 q).d.getLsbD i) =
    bit_sb5 (q.a.getLsbD i) (q.b.getLsbD i) (q.c.getLsbD i) (q.d.getLsbD i) := by
  simp only [serpent_sb5, bit_sb5, BitVec.getLsbD_xor, BitVec.getLsbD_and, BitVec.getLsbD_or,
    BitVec.getLsbD_not, hi, decide_true, Bool.true_and]

def bit_sb5inv (r0 r1 r2 r3 : Bool) : Bool × Bool × Bool × Bool :=
  let v0 := r0
  let v1 := r1
  let v3 := r3
  let t0 := !(r2)
  let t1 := v1 && t0
  let t2 := v3 ^^ t1
  let t3 := v0 && t2
  let t4 := v1 ^^ t0
  let r3 := t3 ^^ t4
  let t5 := v1 || r3
  let t6 := v0 && t5
  let r1 := t2 ^^ t6
  let t7 := v0 || v3
  let t8 := t0 ^^ t5
  let r0 := t7 ^^ t8
  let r2 := (v1 && t7) ^^ (t3 || (v0 ^^ r2))
  (r0, r1, r2, r3)

theorem slice_sb5inv (q : Quad) (i : Nat) (hi : i < 32) :
    ((serpent_sb5inv q).a.getLsbD i, (serpent_sb5inv q).b.getLsbD i, (serpent_sb5inv q).c.getLsbD i,
      (serpent_sb5inv q).d.getLsbD i) =
    bit_sb5inv (q.a.getLsbD i) (q.b.getLsbD i) (q.c.getLsbD i) (q.d.getLsbD i) := by
  simp only [serpent_sb5inv, bit_sb5inv, BitVec.getLsbD_xor, BitVec.getLsbD_and, BitVec.getLsbD_or,
    BitVec.getLsbD_not, hi, decide_true, Bool.true_and]

def bit_sb6 (r0 r1 r2 r3 : Bool) : Bool × Bool × Bool × Bool :=
  let t0 := !(r0)
  let t1 := r0 ^^ r3
  let t2 := r1 ^^ t1
  let t3 := t0 || t1
  let t4 := r2 ^^ t3
  let r1 := r1 ^^ t4
  let t5 := t1 || r1
  let t6 := r3 ^^ t5
  let t7 := t4 && t6
  let r2 := t2 ^^ t7
  let t8 := t4 ^^ t6
  let r0 := r2 ^^ t8
  let r3 := (!t4) ^^ (t2 && t8)
  (r0, r1, r2, r3)

theorem slice_sb6 (q : Quad) (i : Nat) (hi : i < 32) :
    ((serpent_sb6 q).a.getLsbD i, (serpent_sb6 q).b.getLsbD i, (serpent_sb6 q).c.getLsbD i,
      (serpent_sb6 q).d.getLsbD i) =
    bit_sb6 (q.a.getLsbD i) (q.b.getLsbD i) (q.c.getLsbD i) (q.d.getLsbD i) := by
  simp only [serpent_sb6, bit_sb6, BitVec.getLsbD_xor, BitVec.getLsbD_and, BitVec.getLsbD_or,
    BitVec.getLsbD_not, hi, decide_true, Bool.true_and]

def bit_sb6inv (r0 r1 r2 r3 : Bool) : Bool × Bool × Bool × Bool :=
  let v1 := r1
  let v3 := r3
  let t0 := !(r0)
  let t1 := r0 ^^ v1
  let t2 := r2 ^^ t1
  let t3 := r2 || t0
  let t4 := v3 ^^ t3
  let r1 := t2 ^^ t4
  let t5 := t2 && t4
  let t6 := t1 ^^ t5
  let t7 := v1 || t6
  let r3 := t4 ^^ t7
  let t8 := v1 || r3
  let r0 := t6 ^^ t8
  let r2 := (v3 && t0) ^^ (t2 ^^ t8)
  (r0, r1, r2, r3)

theorem slice_sb6inv (q : Quad) (i : Nat) (hi : i < 32) :
    ((serpent_sb6inv q).a.getLsbD i, (serpent_sb6inv q).b.getLsbD i, (serpent_sb6inv q).c.getLsbD i,
      (serpent_sb6inv q).d.getLsbD i) =
    bit_sb6inv (q.a.getLsbD i) (q.b.getLsbD i) (q.c.getLsbD i) (q.d.getLsbD i) := by
  simp only [serpent_sb6inv, bit_sb6inv, BitVec.getLsbD_xor, BitVec.getLsbD_and, BitVec.getLsbD_or,
    BitVec.getLsbD_not, hi, decide_true, Bool.true_and]

def bit_sb7 (r0 r1 r2 r3 : Bool) : Bool × Bool × Bool × Bool :=
  let t0 := r1 ^^ r2
  let t1 := r2 && t0
  let t2 := r3 ^^ t1
  let t3 := r0 ^^ t2
  let t4 := r3 || t0
  let t5 := t3 && t4
  let r1 := r1 ^^ t5
  let t6 := t2 || r1
  let t7 := r0 && t3
  let r3 := t0 ^^ t7
  let t8 := t3 ^^ t6
  let t9 := r3 && t8
  let r2 := t2 ^^ t9
  let r0 := (!t8) ^^ (r3 && r2)
  (r0, r1, r2, r3)

theorem slice_sb7 (q : Quad) (i : Nat) (hi : i < 32) :
    ((serpent_sb7 q).a.getLsbD i, (serpent_sb7 q).b.getLsbD i, (serpent_sb7 q).c.getLsbD i,
      (serpent_sb7 q).d.getLsbD i) =
    bit_sb7 (q.a.getLsbD i) (q.b.getLsbD i) (q.c.getLsbD i) (q.d.getLsbD i) := by
  simp only [serpent_sb7, bit_sb7, BitVec.getLsbD_xor, BitVec.getLsbD_and, BitVec.getLsbD_or,
    BitVec.getLsbD_not, hi, decide_true, Bool.true_and]

def bit_sb7inv (r0 r1 r2 r3 : Bool) : Bool × Bool × Bool × Bool :=
  let v0 := r0
  let v3 := r3
  let t0 := r2 || (v0 && r1)
  let t1 := v3 && (v0 || r1)
  let r3 := t0 ^^ t1
  let t2 := !v3
  let t3 := r1 ^^ t1
  let t4 := t3 || (r3 ^^ t2)
  let r1 := v0 ^^ t4
  let r0 := (r2 ^^ t3) ^^ (v3 || r1)
  let r2 := (t0 ^^ r1) ^^ (r0 ^^ (v0 && r3))
  (r0, r1, r2, r3)

theorem slice_sb7inv (q : Quad) (i : Nat) (hi : i < 32) :
    ((serpent_sb7inv q).a.getLsbD i, (serpent_sb7inv q).b.getLsbD i, (serpent_sb7inv q).c.getLsbD i,
      (serpent_sb7inv q).d.getLsbD i) =
    bit_sb7inv (q.a.getLsbD i) (q.b.getLsbD i) (q.c.getLsbD i) (q.d.getLsbD i) := by
  simp only [serpent_sb7inv, bit_sb7inv, BitVec.getLsbD_xor, BitVec.getLsbD_and, BitVec.getLsbD_or,
    BitVec.getLsbD_not, hi, decide_true, Bool.true_and]

theorem quad_ext {p q : Quad} (h : ∀ i, i < 32 → (p.a.getLsbD i, p.b.getLsbD i, p.c.getLsbD i,
    p.d.getLsbD i) = (q.a.getLsbD i, q.b.getLsbD i, q.c.getLsbD i, q.d.getLsbD i)) : p = q := by
  obtain ⟨a, b, c, d⟩ := p
  obtain ⟨a', b', c', d'⟩ := q
  have ha : a = a' := BitVec.eq_of_getLsbD_eq fun i hi => congrArg (·.1) (h i hi)
  have hb : b = b' := BitVec.eq_of_getLsbD_eq fun i hi => congrArg (·.2.1) (h i hi)
  have hc : c = c' := BitVec.eq_of_getLsbD_eq fun i hi => congrArg (·.2.2.1) (h i hi)
  have hd : d = d' := BitVec.eq_of_getLsbD_eq fun i hi => congrArg (·.2.2.2) (h i hi)
  subst ha hb hc hd
  rfl

def bit_tbl (t : Vector (Fin 16) 16) (a b c d : Bool) : Bool × Bool × Bool × Bool :=
  let v := Spec.nibbleAt t a b c d
  (v.testBit 0, v.testBit 1, v.testBit 2, v.testBit 3)

theorem slice_tbl (t : Vector (Fin 16) 16) (q : Quad) (i : Nat) (hi : i < 32) :
    ((Spec.sliceBox t q).a.getLsbD i, (Spec.sliceBox t q).b.getLsbD i,
      (Spec.sliceBox t q).c.getLsbD i, (Spec.sliceBox t q).d.getLsbD i) =
    bit_tbl t (q.a.getLsbD i) (q.b.getLsbD i) (q.c.getLsbD i) (q.d.getLsbD i) := by
  simp only [Spec.sliceBox, bit_tbl, BitVec.getLsbD_ofFnLE, hi, dite_true]

theorem box_0 (q : Quad) : serpent_sb0 q = Spec.sliceBox Spec.serpentS[0] q := by
  apply quad_ext
  intro i hi
  rw [slice_sb0 q i hi, slice_tbl _ q i hi]
  generalize q.a.getLsbD i = a
  generalize q.b.getLsbD i = b
  generalize q.c.getLsbD i = c
  generalize q.d.getLsbD i = d
  revert a b c d
  decide +kernel

theorem box_0_undo (q : Quad) : serpent_sb0inv (serpent_sb0 q) = q := by
  apply quad_ext
  intro i hi
  rw [slice_sb0inv _ i hi]
  have h := slice_sb0 q i hi
  have h1 := congrArg (·.1) h
  have h2 := congrArg (·.2.1) h
  have h3 := congrArg (·.2.2.1) h
  have h4 := congrArg (·.2.2.2) h
  simp only at h1 h2 h3 h4
  rw [h1, h2, h3, h4]
  generalize q.a.getLsbD i = a
  generalize q.b.getLsbD i = b
  generalize q.c.getLsbD i = c
  generalize q.d.getLsbD i = d
  revert a b c d
  decide +kernel

theorem box_1 (q : Quad) : serpent_sb1 q = Spec.sliceBox Spec.serpentS[1] q := by
  apply quad_ext
  intro i hi
  rw [slice_sb1 q i hi, slice_tbl _ q i hi]
  generalize q.a.getLsbD i = a
  generalize q.b.getLsbD i = b
  generalize q.c.getLsbD i = c
  generalize q.d.getLsbD i = d
  revert a b c d
  decide +kernel

theorem box_1_undo (q : Quad) : serpent_sb1inv (serpent_sb1 q) = q := by
  apply quad_ext
  intro i hi
  rw [slice_sb1inv _ i hi]
  have h := slice_sb1 q i hi
  have h1 := congrArg (·.1) h
  have h2 := congrArg (·.2.1) h
  have h3 := congrArg (·.2.2.1) h
  have h4 := congrArg (·.2.2.2) h
  simp only at h1 h2 h3 h4
  rw [h1, h2, h3, h4]
  generalize q.a.getLsbD i = a
  generalize q.b.getLsbD i = b
  generalize q.c.getLsbD i = c
  generalize q.d.getLsbD i = d
  revert a b c d
  decide +kernel

theorem box_2 (q : Quad) : serpent_sb2 q = Spec.sliceBox Spec.serpentS[2] q := by
  apply quad_ext
  intro i hi
  rw [slice_sb2 q i hi, slice_tbl _ q i hi]
  generalize q.a.getLsbD i = a
  generalize q.b.getLsbD i = b
  generalize q.c.getLsbD i = c
  generalize q.d.getLsbD i = d
  revert a b c d
  decide +kernel

theorem box_2_undo (q : Quad) : serpent_sb2inv (serpent_sb2 q) = q := by
  apply quad_ext
  intro i hi
  rw [slice_sb2inv _ i hi]
  have h := slice_sb2 q i hi
  have h1 := congrArg (·.1) h
  have h2 := congrArg (·.2.1) h
  have h3 := congrArg (·.2.2.1) h
  have h4 := congrArg (·.2.2.2) h
  simp only at h1 h2 h3 h4
  rw [h1, h2, h3, h4]
  generalize q.a.getLsbD i = a
  generalize q.b.getLsbD i = b
  generalize q.c.getLsbD i = c
  generalize q.d.getLsbD i = d
  revert a b c d
  decide +kernel

theorem box_3 (q : Quad) : serpent_sb3 q = Spec.sliceBox Spec.serpentS[3] q := by
  apply quad_ext
  intro i hi
  rw [slice_sb3 q i hi, slice_tbl _ q i hi]
  generalize q.a.getLsbD i = a
  generalize q.b.getLsbD i = b
  generalize q.c.getLsbD i = c
  generalize q.d.getLsbD i = d
  revert a b c d
  decide +kernel

theorem box_3_undo (q : Quad) : serpent_sb3inv (serpent_sb3 q) = q := by
  apply quad_ext
  intro i hi
  rw [slice_sb3inv _ i hi]
  have h := slice_sb3 q i hi
  have h1 := congrArg (·.1) h
  have h2 := congrArg (·.2.1) h
  have h3 := congrArg (·.2.2.1) h
  have h4 := congrArg (·.2.2.2) h
  simp only at h1 h2 h3 h4
  rw [h1, h2, h3, h4]
  generalize q.a.getLsbD i = a
  generalize q.b.getLsbD i = b
  generalize q.c.getLsbD i = c
  generalize q.d.getLsbD i = d
  revert a b c d
  decide +kernel

theorem box_4 (q : Quad) : serpent_sb4 q = Spec.sliceBox Spec.serpentS[4] q := by
  apply quad_ext
  intro i hi
  rw [slice_sb4 q i hi, slice_tbl _ q i hi]
  generalize q.a.getLsbD i = a
  generalize q.b.getLsbD i = b
  generalize q.c.getLsbD i = c
  generalize q.d.getLsbD i = d
  revert a b c d
  decide +kernel

theorem box_4_undo (q : Quad) : serpent_sb4inv (serpent_sb4 q) = q := by
  apply quad_ext
  intro i hi
  rw [slice_sb4inv _ i hi]
  have h := slice_sb4 q i hi
  have h1 := congrArg (·.1) h
  have h2 := congrArg (·.2.1) h
  have h3 := congrArg (·.2.2.1) h
  have h4 := congrArg (·.2.2.2) h
  simp only at h1 h2 h3 h4
  rw [h1, h2, h3, h4]
  generalize q.a.getLsbD i = a
  generalize q.b.getLsbD i = b
  generalize q.c.getLsbD i = c
  generalize q.d.getLsbD i = d
  revert a b c d
  decide +kernel

theorem box_5 (q : Quad) : serpent_sb5 q = Spec.sliceBox Spec.serpentS[5] q := by
  apply quad_ext
  intro i hi
  rw [slice_sb5 q i hi, slice_tbl _ q i hi]
  generalize q.a.getLsbD i = a
  generalize q.b.getLsbD i = b
  generalize q.c.getLsbD i = c
  generalize q.d.getLsbD i = d
  revert a b c d
  decide +kernel

theorem box_5_undo (q : Quad) : serpent_sb5inv (serpent_sb5 q) = q := by
  apply quad_ext
  intro i hi
  rw [slice_sb5inv _ i hi]
  have h := slice_sb5 q i hi
  have h1 := congrArg (·.1) h
  have h2 := congrArg (·.2.1) h
  have h3 := congrArg (·.2.2.1) h
  have h4 := congrArg (·.2.2.2) h
  simp only at h1 h2 h3 h4
  rw [h1, h2, h3, h4]
  generalize q.a.getLsbD i = a
  generalize q.b.getLsbD i = b
  generalize q.c.getLsbD i = c
  generalize q.d.getLsbD i = d
  revert a b c d
  decide +kernel

theorem box_6 (q : Quad) : serpent_sb6 q = Spec.sliceBox Spec.serpentS[6] q := by
  apply quad_ext
  intro i hi
  rw [slice_sb6 q i hi, slice_tbl _ q i hi]
  generalize q.a.getLsbD i = a
  generalize q.b.getLsbD i = b
  generalize q.c.getLsbD i = c
  generalize q.d.getLsbD i = d
  revert a b c d
  decide +kernel

theorem box_6_undo (q : Quad) : serpent_sb6inv (serpent_sb6 q) = q := by
  apply quad_ext
  intro i hi
  rw [slice_sb6inv _ i hi]
  have h := slice_sb6 q i hi
  have h1 := congrArg (·.1) h
  have h2 := congrArg (·.2.1) h
  have h3 := congrArg (·.2.2.1) h
  have h4 := congrArg (·.2.2.2) h
  simp only at h1 h2 h3 h4
  rw [h1, h2, h3, h4]
  generalize q.a.getLsbD i = a
  generalize q.b.getLsbD i = b
  generalize q.c.getLsbD i = c
  generalize q.d.getLsbD i = d
  revert a b c d
  decide +kernel

theorem box_7 (q : Quad) : serpent_sb7 q = Spec.sliceBox Spec.serpentS[7] q := by
  apply quad_ext
  intro i hi
  rw [slice_sb7 q i hi, slice_tbl _ q i hi]
  generalize q.a.getLsbD i = a
  generalize q.b.getLsbD i = b
  generalize q.c.getLsbD i = c
  generalize q.d.getLsbD i = d
  revert a b c d
  decide +kernel

theorem box_7_undo (q : Quad) : serpent_sb7inv (serpent_sb7 q) = q := by
  apply quad_ext
  intro i hi
  rw [slice_sb7inv _ i hi]
  have h := slice_sb7 q i hi
  have h1 := congrArg (·.1) h
  have h2 := congrArg (·.2.1) h
  have h3 := congrArg (·.2.2.1) h
  have h4 := congrArg (·.2.2.2) h
  simp only at h1 h2 h3 h4
  rw [h1, h2, h3, h4]
  generalize q.a.getLsbD i = a
  generalize q.b.getLsbD i = b
  generalize q.c.getLsbD i = c
  generalize q.d.getLsbD i = d
  revert a b c d
  decide +kernel

theorem sb_eq (i : Fin 8) (q : Quad) : serpent_sb i q = Spec.sliceBox Spec.serpentS[i] q := by
  fin_cases i
  · exact box_0 q
  · exact box_1 q
  · exact box_2 q
  · exact box_3 q
  · exact box_4 q
  · exact box_5 q
  · exact box_6 q
  · exact box_7 q

theorem sb_undo (i : Fin 8) (q : Quad) : serpent_sbinv i (serpent_sb i q) = q := by
  fin_cases i
  · exact box_0_undo q
  · exact box_1_undo q
  · exact box_2_undo q
  · exact box_3_undo q
  · exact box_4_undo q
  · exact box_5_undo q
  · exact box_6_undo q
  · exact box_7_undo q

theorem rot32_undo (x : BitVec 32) (b : Fin 32) :
    (((x <<< b.val) ||| (x >>> (32 - b.val))) >>> b.val) |||
      (((x <<< b.val) ||| (x >>> (32 - b.val))) <<< (32 - b.val)) = x := by
  apply BitVec.eq_of_getLsbD_eq
  intro i hi
  have hb := b.isLt
  simp only [BitVec.getLsbD_or, BitVec.getLsbD_ushiftRight, BitVec.getLsbD_shiftLeft]
  by_cases h : i < 32 - b.val
  · have h1 : b.val + i < 32 := by omega
    have h2 : ¬ b.val + i < b.val := by omega
    simp only [h1, h2, h, hi, decide_true, decide_false, Bool.not_false, Bool.not_true, Bool.and_true,
      Bool.true_and, Bool.and_false, Bool.false_and, Bool.or_false,
      show b.val + i - b.val = i by omega]
    rw [BitVec.getLsbD_of_ge x (32 - b.val + (b.val + i)) (by omega), Bool.or_false]
  · have h1 : ¬ b.val + i < 32 := by omega
    have h2 : i - (32 - b.val) < 32 := by omega
    have h3 : i - (32 - b.val) < b.val := by omega
    simp only [h1, h2, h3, h, hi, decide_true, decide_false, Bool.not_false, Bool.not_true,
      Bool.and_true, Bool.true_and, Bool.and_false, Bool.false_and, Bool.or_false, Bool.false_or,
      show 32 - b.val + (i - (32 - b.val)) = i by omega]
    rw [BitVec.getLsbD_of_ge x _ (by omega), Bool.false_or]

theorem linear_undo (q : Quad) : serpent_linearinv (serpent_linear q) = q := by
  obtain ⟨a, b, c, d⟩ := q
  have h1 := fun x => rot32_undo x 1
  have h3 := fun x => rot32_undo x 3
  have h5 := fun x => rot32_undo x 5
  have h7 := fun x => rot32_undo x 7
  have h13 := fun x => rot32_undo x 13
  have h22 := fun x => rot32_undo x 22
  simp only [Fin.coe_ofNat_eq_mod, Nat.reduceMod] at h1 h3 h5 h7 h13 h22
  simp only [serpent_linearinv, serpent_linear, h1, h3, h5, h7, h13, h22, xx, xx4]

theorem xor4_undo (q k : Quad) : serpent_xor4 (serpent_xor4 q k) k = q := by
  obtain ⟨a, b, c, d⟩ := q
  simp only [serpent_xor4, xx]

theorem serpent_round_undo (ctx : Serpent) (q : Quad) (i : Fin 31) :
    serpent_unround ctx (serpent_round ctx q i) i = q := by
  rw [serpent_unround, serpent_round, linear_undo, sb_undo, xor4_undo]

theorem serpent_inv (ctx : Serpent) (b : Vector Byte 16) :
    serpent_decrypt ctx (serpent_encrypt ctx b) = b := by
  simp only [serpent_decrypt, serpent_encrypt, load_store4le, xor4_undo, box_7_undo]
  rw [foldl_undo (serpent_round ctx) (serpent_unround ctx) (serpent_round_undo ctx)]
  exact store_load4le b

end Torsion.Blkc
