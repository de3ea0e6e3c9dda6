import Verif.Ecc.Point
import Verif.Ecc.Recode

/-!
# Model: scalar multiplication on short Weierstrass curves

Scalars are numbers below the group order, as in `Ecc/Recode`; `sc_add` and `sc_mul` are written as operations
modulo `n` and `sc_mulshift` as the rounded quotient; that the limb code computes these numbers is shown in
`Ecc/Scalar`. Loops which run downwards over the digits are recursions on the index plus one.
-/
namespace Torsion

section
variable {F : Type} [Field F] [DecidableEq F]

/-- src/ecc.c:331-339, `endo_def_t`: the constants of the endomorphism as imported by `wei_init`. `lambda`, `b1`
and `b2` hold the negatives of the numbers with these names. -/
structure Endo (F : Type) where
  beta : F
  lambda : Nat
  b1 : Nat
  b2 : Nat
  g1 : Nat
  g2 : Nat
  prec : Nat

/-- src/ecc.c:365-399, `wei_t`: the fields which the multiplication uses. -/
structure Wei (F : Type) extends Curve F where
  n : Nat
  bits : Nat
  ebits : Nat
  g : Wge F
  blind : Nat
  unblind : Jge F
  wndFixed : List (Wge F)
  wndNaf : List (Wge F)
  endo : Option (Endo F)
  wndEndo : List (Wge F)

/-- src/ecc.c:4018-4087 `wei_init`, the part which concerns these fields; `sc->endo_bits` from
`scalar_field_init`. -/
def wei_init (c : Curve F) (n : Nat) (g : Wge F) (endo : Option (Endo F)) : C (Wei F) := do
  let bits := n.size
  let wndFixed ← wge_fixed_points_var c bits g
  let wndNaf ← wge_naf_points_var c g 12
  let wndEndo := match endo with
    | some e => wndNaf.map (wge_endo_beta e.beta)
    | none => []
  return { toCurve := c, n := n, bits := bits, ebits := (bits + 1) / 2 + 1, g := g, blind := 0,
           unblind := jge_zero, wndFixed := wndFixed, wndNaf := wndNaf, endo := endo, wndEndo := wndEndo }

/-- src/ecc.c:4164-4243 `wei_endo_split`; `n` is the order in `ec->sc`. -/
def wei_endo_split (n : Nat) (e : Endo F) (k : Nat) : Nat × Nat :=
  let c1 := (k * e.g1 + 2 ^ (e.prec - 1)) / 2 ^ e.prec
  let c2 := (k * e.g2 + 2 ^ (e.prec - 1)) / 2 ^ e.prec
  let c1 := c1 * e.b1 % n
  let c2 := c2 * e.b2 % n
  let k2 := (c1 + c2) % n
  let k1 := k2 * e.lambda % n
  let k1 := (k1 + k) % n
  (k1, k2)

/-! ### Fixed base -/

/-- src/ecc.c:4273-4274, `wei_jmul_g`, the inner loop: entry `b` of the 16 entries from `off` on. -/
def fixed_select (wnds : List (Wge F)) (off b : Nat) (t : Wge F) : C (Wge F) :=
  (List.range 16).foldlM (fun t j => do
    let w ← C.rd wnds (off + j)
    return wge_select t w (j == b)) t

/-- src/ecc.c:4270-4277, `wei_jmul_g`, the loop over the windows from `i` on. -/
def fixed_loop (ec : Wei F) (k0 : Nat) : Nat → Nat → Jge F → Wge F → C (Jge F)
  | 0, _, r, _ => .ok r
  | steps + 1, i, r, t => do
    let b := sc_get_bits k0 (i * 4) 4
    let t ← fixed_select ec.wndFixed (i * 16) b t
    fixed_loop ec k0 steps (i + 1) (jge_mixed_add ec.toCurve r t) t

/-- src/ecc.c:4245-4283 `wei_jmul_g`. -/
def wei_jmul_g (ec : Wei F) (k : Nat) : C (Jge F) :=
  let k0 := (k + ec.blind) % ec.n
  fixed_loop ec k0 ((ec.bits + 3) / 4) 0 ec.unblind wge_zero

/-- src/ecc.c:4285-4292 `wei_mul_g`. -/
def wei_mul_g (ec : Wei F) (k : Nat) : C (Wge F) := do
  let j ← wei_jmul_g ec k
  return wge_set_jge j

/-- src/ecc.c:4774-4793 `wei_randomize`, with the scalar `blind` which is drawn from the generator. -/
def wei_randomize (ec : Wei F) (blind : Nat) : C (Wei F) := do
  let unblind ← wei_jmul_g ec blind
  return { ec with blind := if blind = 0 then 0 else ec.n - blind, unblind := unblind }

/-! ### Variable base, constant time -/

/-- src/ecc.c:4311-4314, `wei_jmul_normal`, the table of the multiples `0` to `15`: from the entries so far, two
more, `fuel` times. -/
def wnd_table (c : Curve F) (p : Wge F) : Nat → List (Jge F) → C (List (Jge F))
  | 0, wnd => .ok wnd
  | fuel + 1, wnd => do
    let h ← C.rd wnd (wnd.length / 2)
    let d := jge_dbl c h
    wnd_table c p fuel (wnd ++ [d, jge_mixed_add c d p])

/-- src/ecc.c:4307-4314, `wei_jmul_normal`, the whole table. -/
def jmul_table (c : Curve F) (p : Wge F) : C (List (Jge F)) := wnd_table c p 7 [jge_zero, jge_set_wge p]

/-- src/ecc.c:4323-4324, `wei_jmul_normal`, the selection of entry `b`. -/
def wnd_select (wnd : List (Jge F)) (b : Nat) (t : Jge F) : C (Jge F) :=
  (List.range 16).foldlM (fun t j => do
    let w ← C.rd wnd j
    return jge_select t w (j == b)) t

/-- src/ecc.c:4320-4334, `wei_jmul_normal`, the loop. -/
def wnd_loop (ec : Wei F) (k : Nat) (wnd : List (Jge F)) (steps : Nat) : Nat → Jge F → Jge F → C (Jge F)
  | 0, r, _ => .ok r
  | i + 1, r, t => do
    let b := sc_get_bits k (i * 4) 4
    let t ← wnd_select wnd b t
    let r := if i = steps - 1 then t else jge_add ec.toCurve ((jge_dbl ec.toCurve)^[4] r) t
    wnd_loop ec k wnd steps i r t

/-- src/ecc.c:4294-4337 `wei_jmul_normal`. -/
def wei_jmul_normal (ec : Wei F) (p : Wge F) (k : Nat) : C (Jge F) := do
  let steps := (ec.bits + 3) / 4
  let wnd ← jmul_table ec.toCurve p
  wnd_loop ec k wnd steps steps jge_zero jge_zero

/-- src/ecc.c:4396-4414, `wei_jmul_endo`, the loop. -/
def endo_loop (ec : Wei F) (k1 k2 : Nat) (wnd1 wnd2 : List (Jge F)) (steps : Nat) :
    Nat → Jge F → Jge F → Jge F → C (Jge F)
  | 0, r, _, _ => .ok r
  | i + 1, r, t1, t2 => do
    let b1 := sc_get_bits k1 (i * 4) 4
    let b2 := sc_get_bits k2 (i * 4) 4
    let t1 ← wnd_select wnd1 b1 t1
    let t2 ← wnd_select wnd2 b2 t2
    let r := if i = steps - 1 then jge_add ec.toCurve t1 t2
      else
        let r := (jge_dbl ec.toCurve)^[4] r
        let r := jge_add ec.toCurve r t1
        jge_add ec.toCurve r t2
    endo_loop ec k1 k2 wnd1 wnd2 steps i r t1 t2

/-- src/ecc.c:4339-4423 `wei_jmul_endo`. Entry 0 of both tables is infinity and not negated. The two selections of one
step are independent and are made one after the other here. -/
def wei_jmul_endo (ec : Wei F) (e : Endo F) (p : Wge F) (k : Nat) : C (Jge F) := do
  let steps := (ec.ebits + 3) / 4
  let ks := wei_endo_split ec.n e k
  let m1 := sc_minimize_var ec.n ks.1
  let m2 := sc_minimize_var ec.n ks.2
  let wnd1 ← jmul_table ec.toCurve p
  let wnd2 := jge_zero :: (wnd1.drop 1).map (jge_endo_beta e.beta)
  let wnd1 := wnd1.take 1 ++ (wnd1.drop 1).map (jge_neg_cond · m1.2)
  let wnd2 := wnd2.take 1 ++ (wnd2.drop 1).map (jge_neg_cond · m2.2)
  endo_loop ec m1.1 m2.1 wnd1 wnd2 steps steps jge_zero jge_zero jge_zero

/-- src/ecc.c:4425-4431 `wei_jmul`. -/
def wei_jmul (ec : Wei F) (p : Wge F) (k : Nat) : C (Jge F) :=
  match ec.endo with
  | some e => wei_jmul_endo ec e p k
  | none => wei_jmul_normal ec p k

/-- src/ecc.c:4433-4440 `wei_mul`. -/
def wei_mul (ec : Wei F) (p : Wge F) (k : Nat) : C (Wge F) := do
  let j ← wei_jmul ec p k
  return wge_set_jge j

/-! ### Sums of multiples, variable time -/

/-- src/ecc.c:4479-4482, `wei_jmul_double_normal_var`, the addition of the multiple which the digit `z` stands for
from a table of affine points. -/
def digit_mixed (c : Curve F) (wnd : List (Wge F)) (z : Int) (r : Jge F) : C (Jge F) :=
  if z > 0 then do
    let w ← C.rd wnd ((z - 1) / 2).toNat
    return jge_mixed_add_var c r w
  else if z < 0 then do
    let w ← C.rd wnd ((-z - 1) / 2).toNat
    return jge_mixed_sub_var c r w
  else .ok r

/-- src/ecc.c:4484-4487, `wei_jmul_double_normal_var`, the same from a table of Jacobian points. -/
def digit_jac (c : Curve F) (wnd : List (Jge F)) (z : Int) (r : Jge F) : C (Jge F) :=
  if z > 0 then do
    let w ← C.rd wnd ((z - 1) / 2).toNat
    return jge_add_var c r w
  else if z < 0 then do
    let w ← C.rd wnd ((-z - 1) / 2).toNat
    return jge_sub_var c r w
  else .ok r

/-- src/ecc.c:4472-4488, `wei_jmul_double_normal_var`, the loop; `m` is `max`. -/
def double_loop (ec : Wei F) (naf1 naf2 : List Int) (wnd2 : List (Jge F)) (m : Nat) : Nat → Jge F → C (Jge F)
  | 0, r => .ok r
  | i + 1, r => do
    let z1 ← C.rd naf1 i
    let z2 ← C.rd naf2 i
    let r := if i ≠ m - 1 then jge_dbl_var ec.toCurve r else r
    let r ← digit_mixed ec.toCurve ec.wndNaf z1 r
    let r ← digit_jac ec.toCurve wnd2 z2 r
    double_loop ec naf1 naf2 wnd2 m i r

/-- src/ecc.c:4442-4489 `wei_jmul_double_normal_var`. -/
def wei_jmul_double_normal_var (ec : Wei F) (k1 : Nat) (p2 : Wge F) (k2 : Nat) : C (Jge F) := do
  let r1 ← sc_naf_var ec.bits k1 12
  let r2 ← sc_naf_var ec.bits k2 5
  let m := max r1.2 r2.2
  let wnd2 := jge_naf_points_var ec.toCurve p2 5
  double_loop ec r1.1 r2.1 wnd2 m m jge_zero

/-- src/ecc.c:4529-4551, `wei_jmul_double_endo_var`, the loop. -/
def double_endo_loop (ec : Wei F) (naf1 naf2 naf3 : List Int) (wnd3 : List (Jge F)) (m : Nat) :
    Nat → Jge F → C (Jge F)
  | 0, r => .ok r
  | i + 1, r => do
    let z1 ← C.rd naf1 i
    let z2 ← C.rd naf2 i
    let z3 ← C.rd naf3 i
    let r := if i ≠ m - 1 then jge_dbl_var ec.toCurve r else r
    let r ← digit_mixed ec.toCurve ec.wndNaf z1 r
    let r ← digit_mixed ec.toCurve ec.wndEndo z2 r
    let r ← digit_jac ec.toCurve wnd3 z3 r
    double_endo_loop ec naf1 naf2 naf3 wnd3 m i r

/-- src/ecc.c:4491-4552 `wei_jmul_double_endo_var`. -/
def wei_jmul_double_endo_var (ec : Wei F) (e : Endo F) (k1 : Nat) (p2 : Wge F) (k2 : Nat) : C (Jge F) := do
  let c12 := wei_endo_split ec.n e k1
  let c34 := wei_endo_split ec.n e k2
  let r1 ← sc_naf_endo_var ec.n ec.ebits c12.1 c12.2 12
  let r2 ← sc_jsf_endo_var ec.n ec.ebits c34.1 c34.2
  let m := max r1.2.2 r2.2
  let wnd3 ← jge_jsf_points_endo_var ec.toCurve e.beta p2
  double_endo_loop ec r1.1 r1.2.1 r2.1 wnd3 m m jge_zero

/-- src/ecc.c:4554-4564 `wei_jmul_double_var`. -/
def wei_jmul_double_var (ec : Wei F) (k1 : Nat) (p2 : Wge F) (k2 : Nat) : C (Jge F) :=
  match ec.endo with
  | some e => wei_jmul_double_endo_var ec e k1 p2 k2
  | none => wei_jmul_double_normal_var ec k1 p2 k2

/-- src/ecc.c:4566-4577 `wei_mul_double_var`. -/
def wei_mul_double_var (ec : Wei F) (k1 : Nat) (p2 : Wge F) (k2 : Nat) : C (Wge F) := do
  let j ← wei_jmul_double_var ec k1 p2 k2
  wge_set_jge_var j

/-- src/ecc.c:4608-4617, `wei_jmul_multi_normal_var`, the forms and tables of the pairs, and the largest length. -/
def multi_pairs (ec : Wei F) : List (Wge F × Nat) → Nat → C (List (List Int × List (Jge F)) × Nat)
  | (p, a) :: (q, b) :: rest, m => do
    let r ← sc_jsf_var ec.bits a b
    let s ← multi_pairs ec rest (max m r.2)
    return ((r.1, jge_jsf_points_var ec.toCurve p q) :: s.1, s.2)
  | _, m => .ok ([], m)

/-- src/ecc.c:4619-4631, `wei_jmul_multi_normal_var`, the last term when the number of terms is odd. -/
def multi_last (ec : Wei F) : List (Wge F × Nat) → Nat → C (List Int × List (Jge F) × Nat)
  | [(p, a)], m => do
    let r ← sc_naf_var ec.bits a 5
    return (r.1, jge_naf_points_var ec.toCurve p 5, max m r.2)
  | _ :: _ :: rest, m => multi_last ec rest m
  | [], m => .ok (List.replicate m 0, [], m)

/-- src/ecc.c:4650-4657, `wei_jmul_multi_normal_var`, the inner loop at digit `i`. -/
def multi_digits (c : Curve F) (i : Nat) : List (List Int × List (Jge F)) → Jge F → C (Jge F)
  | [], r => .ok r
  | t :: ts, r => do
    let z ← C.rd t.1 i
    let r ← digit_jac c t.2 z r
    multi_digits c i ts r

/-- src/ecc.c:4638-4663, `wei_jmul_multi_normal_var`, the loop. -/
def multi_loop (ec : Wei F) (naf0 naf1 : List Int) (ts : List (List Int × List (Jge F))) (wnd1 : List (Jge F))
    (m : Nat) : Nat → Jge F → C (Jge F)
  | 0, r => .ok r
  | i + 1, r => do
    let z0 ← C.rd naf0 i
    let z1 ← C.rd naf1 i
    let r := if i ≠ m - 1 then jge_dbl_var ec.toCurve r else r
    let r ← digit_mixed ec.toCurve ec.wndNaf z0 r
    let r ← multi_digits ec.toCurve i ts r
    let r ← digit_jac ec.toCurve wnd1 z1 r
    multi_loop ec naf0 naf1 ts wnd1 m i r

/-- src/ecc.c:4579-4664 `wei_jmul_multi_normal_var`; `size` is `scratch->size`. -/
def wei_jmul_multi_normal_var (ec : Wei F) (k0 : Nat) (terms : List (Wge F × Nat)) (size : Nat) : C (Jge F) := do
  C.check (decide (terms.length ≤ size))
  let r0 ← sc_naf_var ec.bits k0 12
  let s ← multi_pairs ec terms r0.2
  let l ← multi_last ec terms s.2
  multi_loop ec r0.1 l.1 s.1 l.2.1 l.2.2 l.2.2 jge_zero

/-- src/ecc.c:4700-4712, `wei_jmul_multi_endo_var`, the forms and tables. -/
def multi_endo_terms (ec : Wei F) (e : Endo F) :
    List (Wge F × Nat) → Nat → C (List (List Int × List (Jge F)) × Nat)
  | (p, a) :: rest, m => do
    let k := wei_endo_split ec.n e a
    let r ← sc_jsf_endo_var ec.n ec.ebits k.1 k.2
    let w ← jge_jsf_points_endo_var ec.toCurve e.beta p
    let s ← multi_endo_terms ec e rest (max m r.2)
    return ((r.1, w) :: s.1, s.2)
  | [], m => .ok ([], m)

/-- src/ecc.c:4717-4742, `wei_jmul_multi_endo_var`, the loop. -/
def multi_endo_loop (ec : Wei F) (naf0 naf1 : List Int) (ts : List (List Int × List (Jge F))) (m : Nat) :
    Nat → Jge F → C (Jge F)
  | 0, r => .ok r
  | i + 1, r => do
    let z0 ← C.rd naf0 i
    let z1 ← C.rd naf1 i
    let r := if i ≠ m - 1 then jge_dbl_var ec.toCurve r else r
    let r ← digit_mixed ec.toCurve ec.wndNaf z0 r
    let r ← digit_mixed ec.toCurve ec.wndEndo z1 r
    let r ← multi_digits ec.toCurve i ts r
    multi_endo_loop ec naf0 naf1 ts m i r

/-- src/ecc.c:4666-4743 `wei_jmul_multi_endo_var`. -/
def wei_jmul_multi_endo_var (ec : Wei F) (e : Endo F) (k0 : Nat) (terms : List (Wge F × Nat)) (size : Nat) :
    C (Jge F) := do
  C.check (decide (terms.length ≤ size))
  let k := wei_endo_split ec.n e k0
  let r0 ← sc_naf_endo_var ec.n ec.ebits k.1 k.2 12
  let s ← multi_endo_terms ec e terms r0.2.2
  multi_endo_loop ec r0.1 r0.2.1 s.1 s.2 s.2 jge_zero

/-- src/ecc.c:4745-4757 `wei_jmul_multi_var`. -/
def wei_jmul_multi_var (ec : Wei F) (k0 : Nat) (terms : List (Wge F × Nat)) (size : Nat) : C (Jge F) :=
  match ec.endo with
  | some e => wei_jmul_multi_endo_var ec e k0 terms size
  | none => wei_jmul_multi_normal_var ec k0 terms size

end
end Torsion
