import Verif.Ecc.Ristretto

/-!
# Model of `rge_export_batch`, src/ecc.c: the codes of the doubles of up to sixteen Ristretto points, with one inversion

The function writes into `out[i]`; the model returns the list of the outputs.
-/
namespace Torsion

/-- src/ecc.c:8395-8402, `struct rge_state_s`. -/
structure RgeState (F : Type) where
  e : F
  f : F
  g : F
  h : F
  eg : F
  fh : F

section
variable {F : Type} [Field F] [DecidableEq F]

/-- src/ecc.c:8406-8443, `rge_export_batch`, the state of one point. -/
def rge_batch_state (ec : Edwards F) (p : Xge F) : RgeState F :=
  let xx := p.x * p.x
  let yy := p.y * p.y
  let zz := p.z * p.z
  let dtt := edwards_mul_d ec (p.t * p.t)
  let e := (p.y + p.y) * p.x
  let f := zz + dtt
  let g := yy - edwards_mul_a ec xx
  let h := zz - dtt
  ⟨e, f, g, h, e * g, f * h⟩

/-- src/ecc.c:8452-8458, `rge_export_batch`, the products from the left: `invs` and the last `acc`. -/
def rge_batch_left : List F → F → List F × F
  | [], acc => ([], acc)
  | x :: xs, acc =>
    let zero := fe_is_zero x
    let inv := fe_select acc 0 zero
    let tmp := fe_select x 1 zero
    let r := rge_batch_left xs (acc * tmp)
    (inv :: r.1, r.2)

/-- src/ecc.c:8462-8468, `rge_export_batch`, the loop from the right over `prod[i]` and `invs[i]`: the new `invs` and `acc`. -/
def rge_batch_right : List (F × F) → F → List F × F
  | [], acc => ([], acc)
  | xv :: r, acc =>
    let t := rge_batch_right r acc
    let zero := fe_is_zero xv.1
    (xv.2 * t.2 :: t.1, t.2 * fe_select xv.1 1 zero)

end

section
variable {fe : FieldCode} [Fact fe.p.Prime]

/-- src/ecc.c:8472-8526, `rge_export_batch`, the number of one point. -/
def rge_batch_num (ec : Edwards (ZMod fe.p)) (rs : Ristretto (ZMod fe.p)) (st : RgeState (ZMod fe.p)) (inv : ZMod fe.p) : ZMod fe.p :=
  let zinv := st.eg * inv
  let tinv := st.fh * inv
  let rotate := decide (ec.h = 8) && fe_is_odd fe (st.eg * zinv)
  let e := fe_select st.e st.g rotate
  let g := fe_select st.g (-st.e) rotate
  let h := fe_select st.h (st.f * rs.qnr) rotate
  let magic := if ec.h = 8 then fe_select rs.amdsi rs.qnr rotate else rs.adm1si
  let g := fe_neg_cond g (fe_is_odd fe (h * e * zinv))
  fe_set_odd fe ((h - g) * magic * g * tinv) false

/-- src/ecc.c:8355-8531 `rge_export_batch`. The arrays have sixteen entries: more points are undefined behaviour (in debug builds an
assertion stops the program). -/
def rge_export_batch (ec : Edwards (ZMod fe.p)) (rs : Ristretto (ZMod fe.p)) (points : List (Xge (ZMod fe.p))) : C (List (List Byte)) := do
  if points.length > 16 then .ub
  else do
    let states := points.map (rge_batch_state ec)
    let prod := states.map fun st => st.eg * st.fh
    let l := rge_batch_left prod 1
    let acc := fe_invert l.2
    C.check acc.2
    let r := rge_batch_right (prod.zip l.1) acc.1
    return (states.zip r.1).map fun x => fe_export_le fe (rge_batch_num ec rs x.1 x.2)

end

end Torsion
