import Verif.Mpi.Div

/-!
# Model of src/mpi.c: signed integers (`mpz_t`), arithmetic and division

An `mpz_t` is its sign and its `|size|` limbs; `alloc` is not part of a value. Functions return the
integers they write instead of writing through a pointer; where the C code tests whether two pointers are
the same (to work on a copy, or to square), the branches compute the same from the operands, and the
operands are read before they are overwritten. Output pointers that may be `NULL` are optional
destinations; the value returned for a `NULL` output has no meaning.

Heap memory is taken to be there when `mpz_grow` asks for it (allocation failure aborts in C). Integers set
up by `mpz_init_vla` live on the stack and must never be resized: `Dest` tells the two kinds apart, and
growing a `vla` beyond its size is `ub`. `mp_size_t` and `mp_bits_t` are natural numbers: sizes stay far
below `2^63` for integers that fit in memory.
-/
namespace Torsion

/-- `mpz_t`, include/torsion/mpi.h:404-410: sign (`size < 0`) and limbs. -/
structure Mpz where
  neg : Bool
  mag : List Limb
deriving DecidableEq, Repr

/-- `z->size = neg ? -zn : zn` with the limbs of `zp`: the sign is lost when there are no limbs,
as in src/mpi.c:5576. -/
def mpz_make (neg : Bool) (zp : List Limb) : Mpz := ⟨neg && !zp.isEmpty, zp⟩

/-- `x->size`, include/torsion/mpi.h:404-410. -/
def Mpz.size (x : Mpz) : Int := if x.neg then -(x.mag.length : Int) else x.mag.length

/-- The memory an `mpz_t` is written to: from `mpz_init` (heap) or from src/mpi.c:5133-5140 `mpz_init_vla`
with the given number of limbs (stack). -/
inductive Dest where
  | heap
  | vla (n : Nat)

/-- src/mpi.c:5133-5140 `mpz_init_vla`. -/
def mpz_init_vla (n : Nat) : Dest := .vla (max 1 n)

/-- src/mpi.c:5261-5271 `mpz_grow`; reallocating stack memory is `ub`. -/
def mpz_grow (z : Dest) (n : Nat) : C Unit :=
  match z with
  | .heap => .ok ()
  | .vla a => if n > a then .ub else .ok ()

/-- `if (z != NULL) ...`, src/mpi.c:5941: an output that may be absent (`none`). -/
def ifDest {α : Type} (z : Option Dest) (a : α) (f : Dest → C α) : C α :=
  match z with
  | some d => f d
  | none => .ok a

/-- src/mpi.c:5273-5279 `mpz_add_size`. -/
def mpz_add_size (x y : Mpz) : Nat := max x.mag.length y.mag.length + 1

/-- `zn -= (zp[zn - 1] == 0)`, src/mpi.c:5741. -/
def trimTop (zp : List Limb) : C (List Limb) :=
  match zp.getLast? with
  | none => .ub
  | some t => .ok (if t = 0 then zp.dropLast else zp)

/-- `zp[xn] = c; xn + (zp[xn] != 0)`, src/mpi.c:5511-5513. -/
def pushTop (zp : List Limb) (c : Limb) : List Limb := if c ≠ 0 then zp ++ [c] else zp

/-- The first limb `x->limbs[0]`, src/mpi.c:5381. -/
def limb0 (x : Mpz) : C Limb := C.rd x.mag 0

/-! ### Assignment, conversion, comparison -/

/-- src/mpi.c:5285-5295 `mpz_set`. -/
def mpz_set (z : Dest) (x : Mpz) : C Mpz := do
  mpz_grow z x.mag.length
  .ok x

/-- src/mpi.c:5311-5320 `mpz_roinit_n`: an integer from a vector of limbs. -/
def mpz_roinit_n (xp : List Limb) (neg : Bool) : Mpz := mpz_make neg (mpn_strip xp)

/-- src/mpi.c:5322-5326 `mpz_set_ui`. -/
def mpz_set_ui (x : Limb) : Mpz := ⟨false, if x ≠ 0 then [x] else []⟩

/-- src/mpi.c:5328-5334 `mpz_set_si`. -/
def mpz_set_si (x : BitVec 64) : Mpz := mpz_make (x.slt 0) (if x ≠ 0 then [mp_limb_cast x] else [])

/-- src/mpi.c:5380-5386 `mpz_get_ui`. -/
def mpz_get_ui (x : Mpz) : C Limb := if x.size = 0 then .ok 0 else limb0 x

/-- src/mpi.c:5388-5391 `mpz_get_si`. -/
def mpz_get_si (x : Mpz) : C (BitVec 64) := do
  let t ← mpz_get_ui x
  .ok (mp_long_cast t x.size)

/-- src/mpi.c:5437-5443 `mpz_sgn`. -/
def mpz_sgn (x : Mpz) : Int := if x.size = 0 then 0 else if x.size < 0 then -1 else 1

/-- src/mpi.c:5445-5454 `mpz_cmp`. -/
def mpz_cmp (x y : Mpz) : Int :=
  if x.size ≠ y.size then (if x.size < y.size then -1 else 1)
  else if x.size < 0 then -mpn_cmp x.mag y.mag
  else mpn_cmp x.mag y.mag

/-- src/mpi.c:5456-5462 `mpz_cmp_ui`. -/
def mpz_cmp_ui (x : Mpz) (y : Limb) : Int :=
  if x.size < 0 then -1 else mpn_cmp_1 x.mag y

/-- src/mpi.c:5480-5484 `mpz_cmpabs`. -/
def mpz_cmpabs (x y : Mpz) : Int := mpn_cmp2 x.mag y.mag

/-- src/mpi.c:5486-5489 `mpz_cmpabs_ui`. -/
def mpz_cmpabs_ui (x : Mpz) (y : Limb) : Int := mpn_cmp_1 x.mag y

/-- src/mpi.c:5491-5494 `mpz_cmpabs_si`. -/
def mpz_cmpabs_si (x : Mpz) (y : BitVec 64) : Int := mpz_cmpabs_ui x (mp_limb_cast y)

/-- src/mpi.c:5464-5474 `mpz_cmp_si`. -/
def mpz_cmp_si (x : Mpz) (y : BitVec 64) : Int :=
  if y.slt 0 then
    if x.size < 0 then -mpz_cmpabs_si x y else 1
  else mpz_cmp_ui x y

/-- src/mpi.c:7359-7363 `mpz_abs`. -/
def mpz_abs (z : Dest) (x : Mpz) : C Mpz := do
  let t ← mpz_set z x
  .ok ⟨false, t.mag⟩

/-- src/mpi.c:7365-7369 `mpz_neg`. -/
def mpz_neg (z : Dest) (x : Mpz) : C Mpz := do
  let t ← mpz_set z x
  .ok (mpz_make (!t.neg) t.mag)

/-! ### Addition and subtraction -/

/-- src/mpi.c:5500-5514 `mpz_addabs`: the limbs of `|x| + |y|`. -/
def mpz_addabs (z : Dest) (x y : Mpz) : C (List Limb) := do
  let p := if x.mag.length < y.mag.length then (y, x) else (x, y)
  mpz_grow z (p.1.mag.length + 1)
  let t ← mpn_add p.1.mag p.2.mag
  .ok (pushTop t.1 t.2)

/-- src/mpi.c:5516-5524 `mpz_addabs_ui`. -/
def mpz_addabs_ui (z : Dest) (x : Mpz) (y : Limb) : C (List Limb) := do
  mpz_grow z (x.mag.length + 1)
  let t := mpn_add_1 x.mag y
  .ok (pushTop t.1 t.2)

/-- src/mpi.c:5526-5535 `mpz_subabs`: the limbs of `|x| - |y|`. -/
def mpz_subabs (z : Dest) (x y : Mpz) : C (List Limb) := do
  mpz_grow z x.mag.length
  let t ← mpn_sub x.mag y.mag
  .ok (mpn_strip t.1)

/-- src/mpi.c:5537-5548 `mpz_subabs_ui`. -/
def mpz_subabs_ui (z : Dest) (x : Mpz) (y : Limb) : C (List Limb) := do
  mpz_grow z x.mag.length
  let t := mpn_sub_1 x.mag y
  if x.mag.length = 0 then .ok [] else trimTop t.1

/-- src/mpi.c:5554-5581 `mpz_add`. -/
def mpz_add (z : Dest) (x y : Mpz) : C Mpz :=
  if x.neg = y.neg then do
    let zp ← mpz_addabs z x y
    .ok (mpz_make x.neg zp)
  else
    let cmp := mpz_cmpabs x y
    if cmp = 0 then .ok ⟨false, []⟩
    else if cmp < 0 then do
      let zp ← mpz_subabs z y x
      .ok (mpz_make (!x.neg) zp)
    else do
      let zp ← mpz_subabs z x y
      .ok (mpz_make x.neg zp)

/-- src/mpi.c:5583-5602 `mpz_add_ui`. -/
def mpz_add_ui (z : Dest) (x : Mpz) (y : Limb) : C Mpz :=
  if x.size ≥ 0 then do
    let zp ← mpz_addabs_ui z x y
    .ok (mpz_make false zp)
  else if mpz_cmpabs_ui x y < 0 then do
    let x0 ← limb0 x
    .ok ⟨false, [y - x0]⟩
  else do
    let zp ← mpz_subabs_ui z x y
    .ok (mpz_make true zp)

/-- src/mpi.c:5619-5646 `mpz_sub`. -/
def mpz_sub (z : Dest) (x y : Mpz) : C Mpz :=
  if x.neg ≠ y.neg then do
    let zp ← mpz_addabs z x y
    .ok (mpz_make x.neg zp)
  else
    let cmp := mpz_cmpabs x y
    if cmp = 0 then .ok ⟨false, []⟩
    else if cmp < 0 then do
      let zp ← mpz_subabs z y x
      .ok (mpz_make (!x.neg) zp)
    else do
      let zp ← mpz_subabs z x y
      .ok (mpz_make x.neg zp)

/-- src/mpi.c:5648-5671 `mpz_sub_ui`. -/
def mpz_sub_ui (z : Dest) (x : Mpz) (y : Limb) : C Mpz :=
  if x.size < 0 then do
    let zp ← mpz_addabs_ui z x y
    .ok (mpz_make true zp)
  else if x.size = 0 then .ok (mpz_make true (if y ≠ 0 then [y] else []))
  else if mpz_cmpabs_ui x y < 0 then do
    let x0 ← limb0 x
    .ok ⟨true, [y - x0]⟩
  else do
    let zp ← mpz_subabs_ui z x y
    .ok (mpz_make false zp)

/-- src/mpi.c:5604-5613 `mpz_add_si`. -/
def mpz_add_si (z : Dest) (x : Mpz) (y : BitVec 64) : C Mpz :=
  if y.slt 0 then mpz_sub_ui z x (mp_limb_cast y) else mpz_add_ui z x y

/-- src/mpi.c:5673-5682 `mpz_sub_si`. -/
def mpz_sub_si (z : Dest) (x : Mpz) (y : BitVec 64) : C Mpz :=
  if y.slt 0 then mpz_add_ui z x (mp_limb_cast y) else mpz_sub_ui z x y

/-- src/mpi.c:5684-5689 `mpz_ui_sub`. -/
def mpz_ui_sub (z : Dest) (x : Limb) (y : Mpz) : C Mpz := do
  let t ← mpz_sub_ui z y x
  mpz_neg z t

/-- src/mpi.c:5691-5696 `mpz_si_sub`. -/
def mpz_si_sub (z : Dest) (x : BitVec 64) (y : Mpz) : C Mpz := do
  let t ← mpz_sub_si z y x
  mpz_neg z t

/-! ### Multiplication -/

/-- src/mpi.c:177-181, `mp_alloca_max` with 64-bit limbs. -/
def mp_alloca_max : Nat := 2 * 4096 / 64 + 2

/-- src/mpi.c:5776-5816 `mpz_sqr`. `alias` says whether `z` and `x` are the same integer. -/
def mpz_sqr (z : Dest) (x : Mpz) (alias : Bool := false) : C Mpz :=
  if x.size = 0 then .ok ⟨false, []⟩
  else do
    let xn := x.mag.length
    let zn := xn * 2
    mpz_grow z zn
    let zp ← (if xn = 1 then do
        let x0 ← limb0 x
        let t := mp_sqr x0
        .ok [t.2, t.1]
      else if alias then .ok (mpn_sqr x.mag)
      else if zn ≤ mp_alloca_max then .ok (mpn_sqr x.mag)
      else .ok (mpn_mul x.mag x.mag))
    let zp ← trimTop zp
    .ok ⟨false, zp⟩

/-- src/mpi.c:5702-5745 `mpz_mul` for two different integers (`mpz_mul(z, x, x)` is `mpz_sqr(z, x)`). -/
def mpz_mul (z : Dest) (x y : Mpz) : C Mpz :=
  if x.size = 0 ∨ y.size = 0 then .ok ⟨false, []⟩
  else do
    let p := if x.mag.length < y.mag.length then (y, x) else (x, y)
    mpz_grow z (x.mag.length + y.mag.length)
    let zp ← (if p.2.mag.length = 1 then do
        let y0 ← limb0 p.2
        let t := mpn_mul_1 p.1.mag y0
        .ok (t.1 ++ [t.2])
      else .ok (mpn_mul p.1.mag p.2.mag))
    let zp ← trimTop zp
    .ok (mpz_make (x.neg != y.neg) zp)

/-- src/mpi.c:5747-5766 `mpz_mul_ui`. -/
def mpz_mul_ui (z : Dest) (x : Mpz) (y : Limb) : C Mpz :=
  if x.size = 0 ∨ y = 0 then .ok ⟨false, []⟩
  else do
    mpz_grow z (x.mag.length + 1)
    let t := mpn_mul_1 x.mag y
    let zp ← trimTop (t.1 ++ [t.2])
    .ok (mpz_make x.neg zp)

/-- src/mpi.c:5768-5774 `mpz_mul_si`. -/
def mpz_mul_si (z : Dest) (x : Mpz) (y : BitVec 64) : C Mpz := do
  let t ← mpz_mul_ui z x (mp_limb_cast y)
  if y.slt 0 then mpz_neg z t else .ok t

/-- src/mpi.c:5818-5829 `mpz_addmul`: the new `z` from the old. -/
def mpz_addmul (d : Dest) (z x y : Mpz) : C Mpz :=
  if x.size = 0 ∨ y.size = 0 then .ok z
  else do
    let t ← mpz_mul (mpz_init_vla (x.mag.length + y.mag.length)) x y
    mpz_add d z t

/-- src/mpi.c:5831-5842 `mpz_addmul_ui`. -/
def mpz_addmul_ui (d : Dest) (z x : Mpz) (y : Limb) : C Mpz :=
  if x.size = 0 ∨ y = 0 then .ok z
  else do
    let t ← mpz_mul_ui (mpz_init_vla (x.mag.length + 1)) x y
    mpz_add d z t

/-- src/mpi.c:5852-5863 `mpz_submul`. -/
def mpz_submul (d : Dest) (z x y : Mpz) : C Mpz :=
  if x.size = 0 ∨ y.size = 0 then .ok z
  else do
    let t ← mpz_mul (mpz_init_vla (x.mag.length + y.mag.length)) x y
    mpz_sub d z t

/-- src/mpi.c:5865-5876 `mpz_submul_ui`. -/
def mpz_submul_ui (d : Dest) (z x : Mpz) (y : Limb) : C Mpz :=
  if x.size = 0 ∨ y = 0 then .ok z
  else do
    let t ← mpz_mul_ui (mpz_init_vla (x.mag.length + 1)) x y
    mpz_sub d z t

/-- src/mpi.c:5844-5850 `mpz_addmul_si`. -/
def mpz_addmul_si (d : Dest) (z x : Mpz) (y : BitVec 64) : C Mpz :=
  if y.slt 0 then mpz_submul_ui d z x (mp_limb_cast y) else mpz_addmul_ui d z x y

/-- src/mpi.c:5878-5884 `mpz_submul_si`. -/
def mpz_submul_si (d : Dest) (z x : Mpz) (y : BitVec 64) : C Mpz :=
  if y.slt 0 then mpz_addmul_ui d z x (mp_limb_cast y) else mpz_submul_ui d z x y

/-! ### Division -/

/-- src/mpi.c:5914-5955 `mpz_quorem` for `q != r`: quotient and remainder. A `none` stands for `NULL`: no
memory is asked for. -/
def mpz_quorem (q r : Option Dest) (n d : Mpz) : C (Mpz × Mpz) :=
  if (q.isNone ∧ r.isNone) ∨ d.mag.length = 0 then .abort
  else if mpn_cmp2 n.mag d.mag < 0 then do
    let _ ← ifDest r n fun r => mpz_set r n
    .ok (⟨false, []⟩, n)
  else do
    ifDest q () fun q => mpz_grow q (n.mag.length - d.mag.length + 1)
    ifDest r () fun r => mpz_grow r d.mag.length
    let t ← mpn_divmod n.mag d.mag
    let qp ← trimTop t.1
    .ok (mpz_make (n.neg != d.neg) qp, mpz_make n.neg (mpn_strip t.2))

/-- src/mpi.c:5957-5960 `mpz_quo`. -/
def mpz_quo (q : Dest) (n d : Mpz) : C Mpz := do
  let t ← mpz_quorem (some q) none n d
  .ok t.1

/-- src/mpi.c:5962-5965 `mpz_rem`. -/
def mpz_rem (r : Dest) (n d : Mpz) : C Mpz := do
  let t ← mpz_quorem none (some r) n d
  .ok t.2

/-- src/mpi.c:5967-6001 `mpz_quo_ui`: quotient and returned limb. -/
def mpz_quo_ui (q : Option Dest) (n : Mpz) (d : Limb) : C (Mpz × Limb) :=
  if d = 0 then .abort
  else if n.mag.length = 0 then .ok (⟨false, []⟩, 0)
  else do
    let n0 ← limb0 n
    if n.mag.length = 1 ∧ n0 < d then .ok (⟨false, []⟩, n0)
    else do
      ifDest q () fun q => mpz_grow q n.mag.length
      let t ← mpn_divmod_1 n.mag d
      let qp ← trimTop t.1
      .ok (mpz_make n.neg qp, t.2)

/-- src/mpi.c:6003-6006 `mpz_rem_ui`. -/
def mpz_rem_ui (n : Mpz) (d : Limb) : C Limb := do
  let t ← mpz_quo_ui none n d
  .ok t.2

/-- src/mpi.c:6008-6020 `mpz_quo_si`. The limb is converted to `mp_long_t` by keeping its bits. -/
def mpz_quo_si (q : Option Dest) (n : Mpz) (d : BitVec 64) : C (Mpz × BitVec 64) := do
  let t ← mpz_quo_ui q n (mp_limb_cast d)
  let z ← ifDest q t.1 fun q => if d.slt 0 then mpz_neg q t.1 else .ok t.1
  .ok (z, if n.size < 0 then -t.2 else t.2)

/-- src/mpi.c:6022-6025 `mpz_rem_si`. -/
def mpz_rem_si (n : Mpz) (d : BitVec 64) : C (BitVec 64) := do
  let t ← mpz_quo_si none n d
  .ok t.2

/-- src/mpi.c:6031-6071 `mpz_divmod`. The copy of `d` made when `d` is also an output has the size it needs
(`mpz_set` into `mpz_init_vla(td, |d->size|)`). -/
def mpz_divmod (q r : Option Dest) (n d : Mpz) : C (Mpz × Mpz) :=
  if n.size < 0 then do
    let rd := r.getD (mpz_init_vla (d.mag.length + 1))
    let t ← mpz_quorem q (some rd) n d
    if t.2.size < 0 then do
      let zq ← ifDest q t.1 fun q => if d.size < 0 then mpz_add_ui q t.1 1 else mpz_sub_ui q t.1 1
      let zr ← (if d.size < 0 then mpz_sub rd t.2 d else mpz_add rd t.2 d)
      .ok (zq, zr)
    else .ok t
  else mpz_quorem q r n d

/-- src/mpi.c:6073-6076 `mpz_div`. -/
def mpz_div (q : Dest) (n d : Mpz) : C Mpz := do
  let t ← mpz_divmod (some q) none n d
  .ok t.1

/-- src/mpi.c:6078-6081 `mpz_mod`. -/
def mpz_mod (r : Dest) (n d : Mpz) : C Mpz := do
  let t ← mpz_divmod none (some r) n d
  .ok t.2

/-- src/mpi.c:6083-6096 `mpz_div_ui`. -/
def mpz_div_ui (q : Option Dest) (n : Mpz) (d : Limb) : C (Mpz × Limb) := do
  let t ← mpz_quo_ui q n d
  if n.size < 0 ∧ t.2 ≠ 0 then do
    let z ← ifDest q t.1 fun q => mpz_sub_ui q t.1 1
    .ok (z, d - t.2)
  else .ok t

/-- src/mpi.c:6098-6101 `mpz_mod_ui`. -/
def mpz_mod_ui (n : Mpz) (d : Limb) : C Limb := do
  let t ← mpz_div_ui none n d
  .ok t.2

/-- src/mpi.c:6103-6122 `mpz_div_si`. -/
def mpz_div_si (q : Option Dest) (n : Mpz) (d : BitVec 64) : C (Mpz × BitVec 64) := do
  let t ← mpz_quo_si q n d
  if t.2.slt 0 then do
    let z ← ifDest q t.1 fun q => if d.slt 0 then mpz_add_ui q t.1 1 else mpz_sub_ui q t.1 1
    .ok (z, if d.slt 0 then t.2 - d else t.2 + d)
  else .ok t

/-- src/mpi.c:6124-6127 `mpz_mod_si`. -/
def mpz_mod_si (n : Mpz) (d : BitVec 64) : C (BitVec 64) := do
  let t ← mpz_div_si none n d
  .ok t.2

/-- src/mpi.c:6162-6181 `mpz_divexact`. -/
def mpz_divexact (q : Dest) (n d : Mpz) : C Mpz :=
  if n.mag.length < d.mag.length then .ok ⟨false, []⟩
  else do
    mpz_grow q (n.mag.length - d.mag.length + 1)
    let t ← mpn_divexact n.mag d.mag
    let qp ← trimTop t
    .ok (mpz_make (n.neg != d.neg) qp)

/-- src/mpi.c:6183-6204 `mpz_divexact_ui`. -/
def mpz_divexact_ui (q : Dest) (n : Mpz) (d : Limb) : C Mpz :=
  if d = 0 then .abort
  else if n.mag.length = 0 then .ok ⟨false, []⟩
  else do
    mpz_grow q n.mag.length
    let t ← mpn_divexact_1 n.mag d
    let qp ← trimTop t
    .ok (mpz_make n.neg qp)

/-- src/mpi.c:6206-6212 `mpz_divexact_si`. -/
def mpz_divexact_si (q : Dest) (n : Mpz) (d : BitVec 64) : C Mpz := do
  let t ← mpz_divexact_ui q n (mp_limb_cast d)
  if d.slt 0 then mpz_neg q t else .ok t

/-- src/mpi.c:6237-6249 `mpz_divround_ui`. -/
def mpz_divround_ui (q : Dest) (n : Mpz) (d : Limb) : C Mpz := do
  let t ← mpz_quo_ui (some q) n d
  let h := d >>> 1
  if t.2 > h ∨ (t.2 = h ∧ (d &&& 1) = 0) then
    if n.size < 0 then mpz_sub_ui q t.1 1 else mpz_add_ui q t.1 1
  else .ok t.1

/-- src/mpi.c:6251-6257 `mpz_divround_si`. -/
def mpz_divround_si (q : Dest) (n : Mpz) (d : BitVec 64) : C Mpz := do
  let t ← mpz_divround_ui q n (mp_limb_cast d)
  if d.slt 0 then mpz_neg q t else .ok t

/-- src/mpi.c:6263-6283 `mpz_divisible_p`. -/
def mpz_divisible_p (n d : Mpz) : C Bool :=
  if n.size = 0 then .ok true
  else if d.size = 0 then .ok false
  else do
    let r ← mpz_rem (mpz_init_vla d.mag.length) n d
    .ok (r.size = 0)

/-- src/mpi.c:6285-6294 `mpz_divisible_ui_p`. -/
def mpz_divisible_ui_p (n : Mpz) (d : Limb) : C Bool :=
  if n.size = 0 then .ok true
  else if d = 0 then .ok false
  else do
    let r ← mpz_rem_ui n d
    .ok (r = 0)

/-- src/mpi.c:6324-6341 `mpz_congruent_p`. -/
def mpz_congruent_p (x y d : Mpz) : C Bool :=
  if d.size = 0 then .ok (mpz_cmp x y = 0)
  else do
    let t ← mpz_sub (mpz_init_vla (mpz_add_size x y)) x y
    mpz_divisible_p t d

/-- src/mpi.c:6343-6360 `mpz_congruent_ui_p`. -/
def mpz_congruent_ui_p (x y : Mpz) (d : Limb) : C Bool :=
  if d = 0 then .ok (mpz_cmp x y = 0)
  else do
    let t ← mpz_sub (mpz_init_vla (mpz_add_size x y)) x y
    mpz_divisible_ui_p t d

/-! ### Powers -/

/-- The loop of src/mpi.c:6385-6439 `mpz_pow_ui` for powers of two. -/
def mpz_pow_ui_sqr (y : Limb) (z : Mpz) : C Mpz :=
  if _h : y = 0 then .ok z
  else do
    let t ← mpz_sqr .heap z
    mpz_pow_ui_sqr (y >>> 1) t
termination_by y.toNat
decreasing_by
  rw [BitVec.toNat_ushiftRight, Nat.shiftRight_eq_div_pow]
  have : y.toNat ≠ 0 := fun e => _h (BitVec.eq_of_toNat_eq e)
  omega

/-- The loop of src/mpi.c:6385-6439 `mpz_pow_ui` for other exponents. -/
def mpz_pow_ui_bin (y : Limb) (z u : Mpz) : C Mpz :=
  if _h : y = 0 then .ok z
  else do
    let z ← (if y &&& 1 ≠ 0 then mpz_mul .heap z u else .ok z)
    let u ← mpz_sqr .heap u
    mpz_pow_ui_bin (y >>> 1) z u
termination_by y.toNat
decreasing_by
  rw [BitVec.toNat_ushiftRight, Nat.shiftRight_eq_div_pow]
  have : y.toNat ≠ 0 := fun e => _h (BitVec.eq_of_toNat_eq e)
  omega

/-- src/mpi.c:6385-6439 `mpz_pow_ui` into a heap integer (the result is swapped with a heap integer). -/
def mpz_pow_ui (x : Mpz) (y : Limb) : C Mpz :=
  if y = 0 then .ok (mpz_set_ui 1)
  else if y = 1 then .ok x
  else if x.size = 0 then .ok ⟨false, []⟩
  else if y &&& (y - 1) = 0 then mpz_pow_ui_sqr (y - 1) x
  else mpz_pow_ui_bin y (mpz_set_ui 1) x

/-- src/mpi.c:6441-6445 `mpz_ui_pow_ui`. -/
def mpz_ui_pow_ui (x y : Limb) : C Mpz := mpz_pow_ui (mpz_set_ui x) y

end Torsion
