import Verif.Mpi.Limb

/-!
# Model of src/mpi.c: vectors of limbs

A limb vector `(xp, xn)` is the list of its `xn` limbs, lowest first. Functions that write a vector
return it together with the carry. Loops unrolled four-fold in C (a prologue of `n & 3` limbs, then
groups of four) are modelled as the loop over single limbs, which executes the same steps in the same
order; each step reads its limbs before writing, so calls with `zp == xp` compute the same. Loops from
the top limb down are modelled by a recursion that treats the upper limbs first. Two vectors of one
length are two lists of one length; the functions are total and drop limbs otherwise, and the theorems
assume the lengths.
-/
namespace Torsion

/-- src/mpi.c:1248-1254 `mpn_zero`. -/
def mpn_zero (zn : Nat) : List Limb := List.replicate zn 0

/-- src/mpi.c:1275-1281 `mpn_strip`; the vector without its leading zero limbs instead of the new length. -/
def mpn_strip : List Limb → List Limb
  | [] => []
  | x :: xs =>
    match mpn_strip xs with
    | [] => if x = 0 then [] else [x]
    | y :: ys => x :: y :: ys

/-- src/mpi.c:1287-1294 `mpn_set_1`. -/
def mpn_set_1 (zn : Nat) (x : Limb) : List Limb := x :: mpn_zero (zn - 1)

/-- src/mpi.c:1316-1326 `mpn_zero_p`. -/
def mpn_zero_p : List Limb → Bool
  | [] => true
  | x :: xs => if x ≠ 0 then false else mpn_zero_p xs

/-- src/mpi.c:1328-1338 `mpn_cmp`. -/
def mpn_cmp : List Limb → List Limb → Int
  | x :: xs, y :: ys =>
    let r := mpn_cmp xs ys
    if r ≠ 0 then r
    else if x ≠ y then (if x < y then -1 else 1)
    else 0
  | _, _ => 0

/-- src/mpi.c:1340-1347 `mpn_cmp2`. -/
def mpn_cmp2 (xp yp : List Limb) : Int :=
  if xp.length ≠ yp.length then (if xp.length < yp.length then -1 else 1)
  else mpn_cmp xp yp

/-- src/mpi.c:1349-1362 `mpn_cmp_1`. -/
def mpn_cmp_1 (xp : List Limb) (y : Limb) : Int :=
  match xp with
  | _ :: _ :: _ => 1
  | [] => if (0 : Limb) ≠ y then (if (0 : Limb) < y then -1 else 1) else 0
  | [x] => if x ≠ y then (if x < y then -1 else 1) else 0

/-! ### Addition -/

/-- src/mpi.c:1368-1388 `mpn_add_1`; the argument `c` is the carry, initially `y`. -/
def mpn_add_1 : List Limb → Limb → List Limb × Limb
  | [], c => ([], c)
  | x :: xs, c =>
    if c = 0 then (x :: xs, c)
    else
      let z := x + c
      let c := flag (z < c)
      let r := mpn_add_1 xs c
      (z :: r.1, r.2)

/-- The loop of src/mpi.c:1390-1424 `mpn_add_n` with the carry `c`. -/
def mpn_add_nc : Limb → List Limb → List Limb → List Limb × Limb
  | c, x :: xs, y :: ys =>
    let s := mp_add_1 x y c
    let r := mpn_add_nc s.2 xs ys
    (s.1 :: r.1, r.2)
  | c, _, _ => ([], c)

/-- src/mpi.c:1390-1424 `mpn_add_n`. -/
def mpn_add_n (xp yp : List Limb) : List Limb × Limb := mpn_add_nc 0 xp yp

/-- src/mpi.c:1426-1439 `mpn_add`. -/
def mpn_add (xp yp : List Limb) : C (List Limb × Limb) := do
  C.check (yp.length ≤ xp.length)
  let lo := mpn_add_n (xp.take yp.length) yp
  if yp.length < xp.length then
    let hi := mpn_add_1 (xp.drop yp.length) lo.2
    .ok (lo.1 ++ hi.1, hi.2)
  else .ok lo

/-- src/mpi.c:1445-1481 `mpn_sec_add_1`; the first limb is added `y`, each further limb the carry. -/
def mpn_sec_add_1 : List Limb → Limb → List Limb × Limb
  | [], y => ([], y)
  | x :: xs, y =>
    let s := mp_add x y
    let r := mpn_sec_add_1 xs s.2
    (s.1 :: r.1, r.2)

/-- src/mpi.c:1483-1496 `mpn_sec_add`. -/
def mpn_sec_add (xp yp : List Limb) : C (List Limb × Limb) := do
  C.check (yp.length ≤ xp.length)
  let lo := mpn_add_n (xp.take yp.length) yp
  if yp.length < xp.length then
    let hi := mpn_sec_add_1 (xp.drop yp.length) lo.2
    .ok (lo.1 ++ hi.1, hi.2)
  else .ok lo

/-! ### Subtraction -/

/-- src/mpi.c:1502-1522 `mpn_sub_1`; the argument `c` is the borrow, initially `y`. -/
def mpn_sub_1 : List Limb → Limb → List Limb × Limb
  | [], c => ([], c)
  | x :: xs, c =>
    if c = 0 then (x :: xs, c)
    else
      let z := x - c
      let c := flag (z > x)
      let r := mpn_sub_1 xs c
      (z :: r.1, r.2)

/-- The loop of src/mpi.c:1524-1558 `mpn_sub_n` with the borrow `c`. -/
def mpn_sub_nc : Limb → List Limb → List Limb → List Limb × Limb
  | c, x :: xs, y :: ys =>
    let s := mp_sub_1 x y c
    let r := mpn_sub_nc s.2 xs ys
    (s.1 :: r.1, r.2)
  | c, _, _ => ([], c)

/-- src/mpi.c:1524-1558 `mpn_sub_n`. -/
def mpn_sub_n (xp yp : List Limb) : List Limb × Limb := mpn_sub_nc 0 xp yp

/-- src/mpi.c:1560-1573 `mpn_sub`. -/
def mpn_sub (xp yp : List Limb) : C (List Limb × Limb) := do
  C.check (yp.length ≤ xp.length)
  let lo := mpn_sub_n (xp.take yp.length) yp
  if yp.length < xp.length then
    let hi := mpn_sub_1 (xp.drop yp.length) lo.2
    .ok (lo.1 ++ hi.1, hi.2)
  else .ok lo

/-- src/mpi.c:1575-1588 `mpn_sub_mod`. -/
def mpn_sub_mod (xp yp mp : List Limb) : List Limb :=
  if mpn_cmp xp yp ≥ 0 then (mpn_sub_n xp yp).1
  else (mpn_sub_n mp (mpn_sub_n yp xp).1).1

/-- src/mpi.c:1594-1630 `mpn_sec_sub_1`. -/
def mpn_sec_sub_1 : List Limb → Limb → List Limb × Limb
  | [], y => ([], y)
  | x :: xs, y =>
    let s := mp_sub x y
    let r := mpn_sec_sub_1 xs s.2
    (s.1 :: r.1, r.2)

/-- src/mpi.c:1632-1645 `mpn_sec_sub`. -/
def mpn_sec_sub (xp yp : List Limb) : C (List Limb × Limb) := do
  C.check (yp.length ≤ xp.length)
  let lo := mpn_sub_n (xp.take yp.length) yp
  if yp.length < xp.length then
    let hi := mpn_sec_sub_1 (xp.drop yp.length) lo.2
    .ok (lo.1 ++ hi.1, hi.2)
  else .ok lo

/-! ### Multiplication -/

/-- The loop of src/mpi.c:1651-1678 `mpn_mul_1` with the carry `c`. -/
def mpn_mul_1c (y : Limb) : Limb → List Limb → List Limb × Limb
  | c, [] => ([], c)
  | c, x :: xs =>
    let s := mp_mul_1 x y c
    let r := mpn_mul_1c y s.2 xs
    (s.1 :: r.1, r.2)

/-- src/mpi.c:1651-1678 `mpn_mul_1`. -/
def mpn_mul_1 (xp : List Limb) (y : Limb) : List Limb × Limb := mpn_mul_1c y 0 xp

/-- The loop of src/mpi.c:1680-1707 `mpn_addmul_1` with the carry `c`. -/
def mpn_addmul_1c (y : Limb) : Limb → List Limb → List Limb → List Limb × Limb
  | c, z :: zs, x :: xs =>
    let s := mp_addmul_1 z x y c
    let r := mpn_addmul_1c y s.2 zs xs
    (s.1 :: r.1, r.2)
  | c, _, _ => ([], c)

/-- src/mpi.c:1680-1707 `mpn_addmul_1`. -/
def mpn_addmul_1 (zp xp : List Limb) (y : Limb) : List Limb × Limb := mpn_addmul_1c y 0 zp xp

/-- The loop of src/mpi.c:1709-1736 `mpn_submul_1` with the borrow `c`. -/
def mpn_submul_1c (y : Limb) : Limb → List Limb → List Limb → List Limb × Limb
  | c, z :: zs, x :: xs =>
    let s := mp_submul_1 z x y c
    let r := mpn_submul_1c y s.2 zs xs
    (s.1 :: r.1, r.2)
  | c, _, _ => ([], c)

/-- src/mpi.c:1709-1736 `mpn_submul_1`. -/
def mpn_submul_1 (zp xp : List Limb) (y : Limb) : List Limb × Limb := mpn_submul_1c y 0 zp xp

/-- The loop of src/mpi.c:1745-1759 `mpn_mul`. The list `wp` is `zp[i - 1 .. i + xn - 1]`, the limbs the last
round has written; its lowest limb is final, the others are what `mpn_addmul_1` adds to. -/
def mpn_mul_loop (xp : List Limb) : List Limb → List Limb → List Limb
  | wp, [] => wp
  | [], _ :: _ => []
  | w :: wp, y :: ys =>
    let s := mpn_addmul_1 wp xp y
    w :: mpn_mul_loop xp (s.1 ++ [s.2]) ys

/-- src/mpi.c:1745-1759 `mpn_mul`. -/
def mpn_mul (xp yp : List Limb) : List Limb :=
  match yp with
  | [] => mpn_zero xp.length
  | y :: ys =>
    let s := mpn_mul_1 xp y
    mpn_mul_loop xp (s.1 ++ [s.2]) ys

/-- src/mpi.c:1738-1743 `mpn_mul_n`. -/
def mpn_mul_n (xp yp : List Limb) : List Limb := mpn_mul xp yp

/-! ### Shifts -/

/-- The loop of src/mpi.c:3279-3295 `mpn_lshift`; `x` is the limb below. -/
def mpn_lshift_loop (bits : Nat) : Limb → List Limb → List Limb × Limb
  | x, [] => ([], x >>> (64 - bits))
  | x, y :: ys =>
    let r := mpn_lshift_loop bits y ys
    (((y <<< bits) ||| (x >>> (64 - bits))) :: r.1, r.2)

/-- src/mpi.c:3279-3295 `mpn_lshift`; the vector must not be empty (assertion). -/
def mpn_lshift (xp : List Limb) (bits : Nat) : List Limb × Limb :=
  match xp with
  | [] => ([], 0)
  | x :: xs =>
    let r := mpn_lshift_loop bits x xs
    ((x <<< bits) :: r.1, r.2)

/-- The loop of src/mpi.c:3301-3317 `mpn_rshift` and the store after it. -/
def mpn_rshift_loop (bits : Nat) : List Limb → List Limb
  | [] => []
  | [x] => [x >>> bits]
  | x :: y :: ys => ((y <<< (64 - bits)) ||| (x >>> bits)) :: mpn_rshift_loop bits (y :: ys)

/-- src/mpi.c:3301-3317 `mpn_rshift`; the vector must not be empty (assertion). -/
def mpn_rshift (xp : List Limb) (bits : Nat) : List Limb × Limb :=
  match xp with
  | [] => ([], 0)
  | x :: xs => (mpn_rshift_loop bits (x :: xs), (x <<< (64 - bits)) >>> (64 - bits))

/-! ### Squaring -/

/-- The loop of src/mpi.c:1761-1790 `mpn_sqr` for `tp`: `done = xp[0 .. i - 1]`, `tp = tp[0 .. 2 * i - 2]`. -/
def mpn_sqr_loop : List Limb → List Limb → List Limb → List Limb
  | _, tp, [] => tp
  | done, tp, x :: xs =>
    let tp := tp ++ [0]
    let s := mpn_addmul_1 (tp.drop done.length) done x
    mpn_sqr_loop (done ++ [x]) (tp.take done.length ++ s.1 ++ [s.2]) xs

/-- The squares of the limbs, src/mpi.c:1761-1790 `mpn_sqr`. -/
def mpn_sqr_diag : List Limb → List Limb
  | [] => []
  | x :: xs =>
    let s := mp_sqr x
    s.2 :: s.1 :: mpn_sqr_diag xs

/-- src/mpi.c:1761-1790 `mpn_sqr`. -/
def mpn_sqr (xp : List Limb) : List Limb :=
  match xp with
  | [] => []
  | [x] =>
    let s := mp_sqr x
    [s.2, s.1]
  | x0 :: x1 :: xs =>
    let zp := mpn_sqr_diag (x0 :: x1 :: xs)
    let s := mp_mul x0 x1
    let tp := mpn_sqr_loop [x0, x1] [0, s.2, s.1] xs
    let r := mpn_lshift (tp.drop 1) 1
    let tp := tp.take 1 ++ r.1 ++ [r.2]
    (mpn_add_n zp tp).1

/-! ### Negation, constant time selection -/

/-- The loop of src/mpi.c:3477-3508 `mpn_neg` with the carry `c`. -/
def mpn_neg_c : Limb → List Limb → List Limb × Limb
  | c, [] => ([], c)
  | c, x :: xs =>
    let s := mp_neg_1 x c
    let r := mpn_neg_c s.2 xs
    (s.1 :: r.1, r.2)

/-- src/mpi.c:3477-3508 `mpn_neg`. -/
def mpn_neg (xp : List Limb) : List Limb × Limb :=
  let r := mpn_neg_c 1 xp
  (r.1, r.2 ^^^ 1)

/-- The mask `-mp_limb_barrier(cnd != 0)`, src/mpi.c:4530. -/
def cndMask (cnd : Limb) : Limb := -(flag (cnd ≠ 0))

/-- src/mpi.c:4529-4536 `mpn_cnd_zero`. -/
def mpn_cnd_zero (xp : List Limb) (cnd : Limb) : List Limb :=
  let m := cndMask cnd
  xp.map fun x => x &&& ~~~m

/-- src/mpi.c:4538-4548 `mpn_cnd_select`. -/
def mpn_cnd_select (xp yp : List Limb) (cnd : Limb) : List Limb :=
  let m := cndMask cnd
  List.zipWith (fun x y => (x &&& ~~~m) ||| (y &&& m)) xp yp

/-- src/mpi.c:4550-4562 `mpn_cnd_swap`. -/
def mpn_cnd_swap (xp yp : List Limb) (cnd : Limb) : List Limb × List Limb :=
  let m := cndMask cnd
  (List.zipWith (fun x y => x ^^^ ((x ^^^ y) &&& m)) xp yp,
   List.zipWith (fun x y => y ^^^ ((x ^^^ y) &&& m)) xp yp)

/-- The loop of src/mpi.c:4564-4581 `mpn_cnd_add_n` with mask `m` and carry `c`. -/
def mpn_cnd_add_nc (m : Limb) : Limb → List Limb → List Limb → List Limb × Limb
  | c, x :: xs, y :: ys =>
    let s := mp_add_1 x (y &&& m) c
    let r := mpn_cnd_add_nc m s.2 xs ys
    (s.1 :: r.1, r.2)
  | c, _, _ => ([], c)

/-- src/mpi.c:4564-4581 `mpn_cnd_add_n`. -/
def mpn_cnd_add_n (xp yp : List Limb) (cnd : Limb) : List Limb × Limb :=
  mpn_cnd_add_nc (cndMask cnd) 0 xp yp

/-- The loop of src/mpi.c:4583-4600 `mpn_cnd_sub_n` with mask `m` and borrow `c`. -/
def mpn_cnd_sub_nc (m : Limb) : Limb → List Limb → List Limb → List Limb × Limb
  | c, x :: xs, y :: ys =>
    let s := mp_sub_1 x (y &&& m) c
    let r := mpn_cnd_sub_nc m s.2 xs ys
    (s.1 :: r.1, r.2)
  | c, _, _ => ([], c)

/-- src/mpi.c:4583-4600 `mpn_cnd_sub_n`. -/
def mpn_cnd_sub_n (xp yp : List Limb) (cnd : Limb) : List Limb × Limb :=
  mpn_cnd_sub_nc (cndMask cnd) 0 xp yp

/-- The loop of src/mpi.c:4602-4617 `mpn_cnd_neg` with mask `m` and carry `c`. -/
def mpn_cnd_neg_c (m : Limb) : Limb → List Limb → List Limb × Limb
  | c, [] => ([], c)
  | c, x :: xs =>
    let z := (x ^^^ m) + c
    let c := flag (z < c)
    let r := mpn_cnd_neg_c m c xs
    (z :: r.1, r.2)

/-- src/mpi.c:4602-4617 `mpn_cnd_neg`. -/
def mpn_cnd_neg (xp : List Limb) (cnd : Limb) : List Limb × Limb :=
  let m := cndMask cnd
  let r := mpn_cnd_neg_c m (1 &&& m) xp
  (r.1, (r.2 ^^^ 1) &&& m)

/-- The loop of src/mpi.c:4619-4629 `mpn_sec_tabselect` from entry `i`; the table is the list of its entries. -/
def mpn_sec_tabselect_loop (which : Nat) : Nat → List Limb → List (List Limb) → List Limb
  | _, zp, [] => zp
  | i, zp, t :: ts => mpn_sec_tabselect_loop which (i + 1) (mpn_cnd_select zp t (flag (i = which))) ts

/-- src/mpi.c:4619-4629 `mpn_sec_tabselect`. -/
def mpn_sec_tabselect (zp : List Limb) (tp : List (List Limb)) (which : Nat) : List Limb :=
  mpn_sec_tabselect_loop which 0 zp tp

/-- src/mpi.c:4631-4643 `mpn_sec_zero_p`. -/
def mpn_sec_zero_p (xp : List Limb) : Limb :=
  let w := xp.foldl (fun w x => w ||| x) 0
  let w := (w >>> 1) ||| (w &&& 1)
  (w - 1) >>> 63

/-- src/mpi.c:4645-4657 `mpn_sec_equal_p`. -/
def mpn_sec_equal_p (xp yp : List Limb) : Limb :=
  let w := (List.zipWith (fun x y => x ^^^ y) xp yp).foldl (fun w x => w ||| x) 0
  let w := (w >>> 1) ||| (w &&& 1)
  (w - 1) >>> 63

/-- One round of src/mpi.c:4659-4675 `mpn_sec_compare` on the half limbs `a` and `b`; the state is `(lt, eq)`. -/
def mpn_sec_compare_step (a b : Limb) (s : Limb × Limb) : Limb × Limb :=
  (s.1 ||| (s.2 &&& ((a - b) >>> 63)), s.2 &&& (((a ^^^ b) - 1) >>> 63))

/-- The loop of src/mpi.c:4659-4675 `mpn_sec_compare`: `(lt, eq)`. -/
def mpn_sec_compare_loop : List Limb → List Limb → Limb × Limb
  | x :: xs, y :: ys =>
    let s := mpn_sec_compare_loop xs ys
    let s := mpn_sec_compare_step ((x >>> 32) &&& MP_LOW_MASK) ((y >>> 32) &&& MP_LOW_MASK) s
    mpn_sec_compare_step (x &&& MP_LOW_MASK) (y &&& MP_LOW_MASK) s
  | _, _ => (0, 1)

/-- src/mpi.c:4659-4675 `mpn_sec_compare`. -/
def mpn_sec_compare (xp yp : List Limb) : Limb :=
  let s := mpn_sec_compare_loop xp yp
  (s.1 <<< 1) ||| s.2

/-- src/mpi.c:4677-4685 `mpn_sec_lt_p`. -/
def mpn_sec_lt_p (xp yp : List Limb) : Limb :=
  let cmp := mpn_sec_compare xp yp
  let lt := cmp >>> 1
  let eq := cmp &&& 1
  lt &&& (eq ^^^ 1)

/-- src/mpi.c:4687-4695 `mpn_sec_lte_p`. -/
def mpn_sec_lte_p (xp yp : List Limb) : Limb :=
  let cmp := mpn_sec_compare xp yp
  let lt := cmp >>> 1
  let eq := cmp &&& 1
  lt ||| eq

/-- src/mpi.c:4697-4705 `mpn_sec_gt_p`. -/
def mpn_sec_gt_p (xp yp : List Limb) : Limb :=
  let cmp := mpn_sec_compare xp yp
  let lt := cmp >>> 1
  let eq := cmp &&& 1
  (lt ||| eq) ^^^ 1

/-- src/mpi.c:4707-4715 `mpn_sec_gte_p`. -/
def mpn_sec_gte_p (xp yp : List Limb) : Limb :=
  let cmp := mpn_sec_compare xp yp
  let lt := cmp >>> 1
  let eq := cmp &&& 1
  (lt ^^^ 1) ||| eq

/-- src/mpi.c:4717-4725 `mpn_sec_cmp`. -/
def mpn_sec_cmp (xp yp : List Limb) : Int :=
  let cmp := mpn_sec_compare xp yp
  let lt := cmp >>> 1
  let eq := cmp &&& 1
  (1 - 2 * (lt.toNat : Int)) * (1 - (eq.toNat : Int))

/-! ### Bits -/

/-- The mask `MP_MASK(bits)`, include/torsion/mpi.h:348. -/
def mpMask (bits : Nat) : Limb := ((1 : Limb) <<< bits) - 1

/-- src/mpi.c:3323-3331 `mpn_getbit`. -/
def mpn_getbit (xp : List Limb) (pos : Nat) : Limb :=
  match xp[pos / 64]? with
  | none => 0
  | some x => (x >>> (pos % 64)) &&& 1

/-- src/mpi.c:3333-3355 `mpn_getbits`. -/
def mpn_getbits (xp : List Limb) (pos width : Nat) : Limb :=
  let s := pos / 64
  match xp[s]? with
  | none => 0
  | some x =>
    let r := pos % 64
    let z := (x >>> r) &&& mpMask width
    if r + width > 64 ∧ s + 1 < xp.length then
      match xp[s + 1]? with
      | none => z
      | some y =>
        let m := r + width - 64
        let b := y &&& mpMask m
        z ||| (b <<< (64 - r))
    else z

/-- src/mpi.c:3357-3360 `mpn_tstbit`; a position beyond the vector is `ub`. -/
def mpn_tstbit (xp : List Limb) (pos : Nat) : C Limb := do
  let x ← C.rd xp (pos / 64)
  .ok ((x >>> (pos % 64)) &&& 1)

/-- src/mpi.c:3362-3365 `mpn_setbit`. -/
def mpn_setbit (zp : List Limb) (pos : Nat) : C (List Limb) := do
  let z ← C.rd zp (pos / 64)
  C.wr zp (pos / 64) (z ||| ((1 : Limb) <<< (pos % 64)))

/-- src/mpi.c:3367-3370 `mpn_clrbit`. -/
def mpn_clrbit (zp : List Limb) (pos : Nat) : C (List Limb) := do
  let z ← C.rd zp (pos / 64)
  C.wr zp (pos / 64) (z &&& ~~~((1 : Limb) <<< (pos % 64)))

/-- src/mpi.c:3372-3380 `mpn_combit`. -/
def mpn_combit (zp : List Limb) (pos : Nat) : C (List Limb) := do
  let s := pos / 64
  let r := pos % 64
  let z ← C.rd zp s
  let b := (z >>> r) &&& 1
  let zp ← C.wr zp s (z &&& ~~~((1 : Limb) <<< r))
  let z ← C.rd zp s
  C.wr zp s (z ||| ((b ^^^ 1) <<< r))

/-- src/mpi.c:3428-3437 `mpn_popcount`. -/
def mpn_popcount (xp : List Limb) : Nat := xp.foldl (fun c x => c + mp_popcount x) 0

/-- src/mpi.c:3439-3448 `mpn_hamdist`. -/
def mpn_hamdist (xp yp : List Limb) : Nat :=
  (List.zipWith (fun x y => x ^^^ y) xp yp).foldl (fun c x => c + mp_popcount x) 0

/-- src/mpi.c:3450-3471 `mpn_mask`. -/
def mpn_mask (xp : List Limb) (bits : Nat) : List Limb :=
  let zn := bits / 64
  let lo := bits % 64
  if zn ≥ xp.length then xp
  else if lo ≠ 0 then
    match xp[zn]? with
    | none => xp
    | some x => xp.take zn ++ [x &&& mpMask lo] ++ mpn_zero (xp.length - (zn + 1))
  else xp.take zn ++ mpn_zero (xp.length - zn)

/-- src/mpi.c:4458-4468 `mpn_ctz`. -/
def mpn_ctz : List Limb → Nat
  | [] => 0
  | x :: xs => if x ≠ 0 then mp_ctz x else 64 + mpn_ctz xs

/-- src/mpi.c:4470-4480 `mpn_bitlen`. -/
def mpn_bitlen : List Limb → Nat
  | [] => 0
  | x :: xs =>
    match mpn_bitlen xs with
    | 0 => if x ≠ 0 then mp_bitlen x else 0
    | n + 1 => 64 + (n + 1)

/-- src/mpi.c:4482-4485 `mpn_bytelen`. -/
def mpn_bytelen (xp : List Limb) : Nat := (mpn_bitlen xp + 7) / 8

/-- src/mpi.c:3514-3529 `mpn_reduce_weak`. -/
def mpn_reduce_weak (xp np : List Limb) (hi : Limb) : List Limb × Bool :=
  let t := mpn_sub_n xp np
  let c := flag (hi < t.2)
  (mpn_cnd_select xp t.1 (flag (c = 0)), decide (c = 0))

/-- src/mpi.c:1796-1835 `mpn_mulshift`; `tp` is the double-length product. -/
def mpn_mulshift (xp yp : List Limb) (bits : Nat) : C (List Limb × Limb) := do
  let n := xp.length
  let s := bits / 64
  let r := bits % 64
  let tp := mpn_mul_n xp yp
  let zn := n * 2 - s
  let b ← mpn_tstbit tp (bits - 1)
  let zp := if r ≠ 0 then (mpn_rshift (tp.drop s) r).1 else tp.drop s
  let zp := zp ++ mpn_zero (n - zn)
  .ok (mpn_sec_add_1 zp b)

end Torsion
