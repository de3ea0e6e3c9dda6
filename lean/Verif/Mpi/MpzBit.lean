import Verif.Mpi.Mpz

/-!
# Model of the bit operations on integers of src/mpi.c

Bit positions and shift counts (`mp_bits_t`) are natural numbers. The functions follow the conventions of
`Verif.Mpi.Mpz`: a destination is heap memory, which grows as needed, or a stack temporary of fixed size.
-/
namespace Torsion

/-! ### Limb vectors -/

/-- src/mpi.c:3155-3163 `mpn_and_n`. -/
def mpn_and_n (xp yp : List Limb) : List Limb := List.zipWith (fun x y => x &&& y) xp yp

/-- src/mpi.c:3169-3177 `mpn_ior_n`. -/
def mpn_ior_n (xp yp : List Limb) : List Limb := List.zipWith (fun x y => x ||| y) xp yp

/-- src/mpi.c:3183-3191 `mpn_xor_n`. -/
def mpn_xor_n (xp yp : List Limb) : List Limb := List.zipWith (fun x y => x ^^^ y) xp yp

/-- src/mpi.c:3197-3205 `mpn_andn_n`. -/
def mpn_andn_n (xp yp : List Limb) : List Limb := List.zipWith (fun x y => x &&& ~~~y) xp yp

/-- src/mpi.c:3211-3219 `mpn_iorn_n`. -/
def mpn_iorn_n (xp yp : List Limb) : List Limb := List.zipWith (fun x y => x ||| ~~~y) xp yp

/-- src/mpi.c:3225-3233 `mpn_nand_n`. -/
def mpn_nand_n (xp yp : List Limb) : List Limb := List.zipWith (fun x y => ~~~(x &&& y)) xp yp

/-- src/mpi.c:3239-3247 `mpn_nior_n`. -/
def mpn_nior_n (xp yp : List Limb) : List Limb := List.zipWith (fun x y => ~~~(x ||| y)) xp yp

/-- src/mpi.c:3253-3261 `mpn_xnor_n`. -/
def mpn_xnor_n (xp yp : List Limb) : List Limb := List.zipWith (fun x y => ~~~(x ^^^ y)) xp yp

/-- src/mpi.c:3267-3273 `mpn_com`. -/
def mpn_com (xp : List Limb) : List Limb := xp.map (fun x => ~~~x)

/-- The constant `MP_BITS_MAX`, include/torsion/mpi.h:345. -/
def mp_bits_max : Nat := 2 ^ 63 - 1

/-- The loop of src/mpi.c:3382-3416 `mpn_scan` over the limbs above the first; `s` is the index of the next limb. -/
def mpn_scan_loop (m : Limb) : Nat → Limb → List Limb → Nat
  | s, _, [] => if m = 0 then mp_bits_max else s * 64
  | s, c, x :: xs =>
    let t := mp_sub x c
    if t.1 = m then mpn_scan_loop m (s + 1) t.2 xs
    else s * 64 + mp_ctz (t.1 ^^^ m)

/-- src/mpi.c:3382-3416 `mpn_scan`. -/
def mpn_scan (xp : List Limb) (m c : Limb) (pos : Nat) : Nat :=
  let s := pos / 64
  let m := m - 1
  match xp.drop s with
  | [] => if m = 0 then mp_bits_max else pos
  | x :: xs =>
    let t := mp_sub x c
    let r := pos % 64
    let z := (t.1 ^^^ m) &&& ~~~(mpMask r)
    if z ≠ 0 ∧ mp_ctz z ≥ r then s * 64 + mp_ctz z
    else mpn_scan_loop m (s + 1) t.2 xs

/-- src/mpi.c:3418-3421 `mpn_scan0`. -/
def mpn_scan0 (xp : List Limb) (pos : Nat) : Nat := mpn_scan xp 0 0 pos

/-- src/mpi.c:3423-3426 `mpn_scan1`. -/
def mpn_scan1 (xp : List Limb) (pos : Nat) : Nat := mpn_scan xp 1 0 pos

/-! ### Logic -/

/-- The two loops shared by src/mpi.c:6660-6735 `mpz_and`, src/mpi.c:6766-6836 `mpz_ior` and src/mpi.c:6888-6947 `mpz_xor`:
`f` combines two limbs from which the borrows `cx`, `cy` have been subtracted (first loop), `g` is what the
second loop does with the limbs of the longer operand alone, and `cz` is the carry added to the results.
Loops without an addition are those with `cz = 0`. The longer operand comes first. -/
def mpz_bit_loop (f : Limb → Limb → Limb) (g : Limb → Limb) : Limb → Limb → Limb → List Limb → List Limb →
    List Limb × Limb
  | _, _, cz, [], _ => ([], cz)
  | cx, cy, cz, x :: xs, [] =>
    let zx := mp_sub x cx
    let z := mp_add (g zx.1) cz
    let t := mpz_bit_loop f g zx.2 cy z.2 xs []
    (z.1 :: t.1, t.2)
  | cx, cy, cz, x :: xs, y :: ys =>
    let zx := mp_sub x cx
    let zy := mp_sub y cy
    let z := mp_add (f zx.1 zy.1) cz
    let t := mpz_bit_loop f g zx.2 zy.2 z.2 xs ys
    (z.1 :: t.1, t.2)

/-- src/mpi.c:6660-6735 `mpz_and` after the swap that puts the longer operand first. -/
def mpz_and_sorted (z : Dest) (x y : Mpz) : C Mpz := do
  mpz_grow z (x.mag.length + 1)
  if x.neg ∧ y.neg then
    let t := mpz_bit_loop (fun zx zy => zx ||| zy) (fun zx => zx) 1 1 1 x.mag y.mag
    .ok (mpz_make true (mpn_strip (t.1 ++ [t.2])))
  else if x.neg ∨ y.neg then
    let cx := flag x.neg
    let cy := flag y.neg
    let fx := -cx
    let fy := -cy
    let t := mpz_bit_loop (fun zx zy => (zx ^^^ fx) &&& (zy ^^^ fy)) (fun zx => (zx ^^^ fx) &&& fy) cx cy 0
      x.mag y.mag
    .ok (mpz_make false (mpn_strip t.1))
  else
    .ok (mpz_make false (mpn_strip (mpn_and_n x.mag y.mag)))

/-- src/mpi.c:6660-6735 `mpz_and`. -/
def mpz_and (z : Dest) (x y : Mpz) : C Mpz :=
  if x.mag.length < y.mag.length then mpz_and_sorted z y x else mpz_and_sorted z x y

/-- src/mpi.c:6737-6748 `mpz_and_ui`. -/
def mpz_and_ui (x : Mpz) (y : Limb) : C Limb := do
  if x.size < 0 then do
    let a ← limb0 x
    .ok (y &&& ~~~(a - 1))
  else if x.size = 0 then .ok 0
  else do
    let a ← limb0 x
    .ok (a &&& y)

/-- src/mpi.c:6750-6760 `mpz_and_si`. -/
def mpz_and_si (z : Dest) (x : Mpz) (y : BitVec 64) : C Mpz := do
  if y.slt 0 then mpz_and z x (mpz_set_si y)
  else do
    let t ← mpz_and_ui x y
    .ok (mpz_set_ui t)

/-- src/mpi.c:6766-6836 `mpz_ior` after the swap that puts the longer operand first. -/
def mpz_ior_sorted (z : Dest) (x y : Mpz) : C Mpz := do
  mpz_grow z (x.mag.length + 1)
  if x.neg ∨ y.neg then
    let cx := flag x.neg
    let cy := flag y.neg
    let fx := (-(cx ^^^ 1)) &&& (-(cx ^^^ cy))
    let fy := (-(cy ^^^ 1)) &&& (-(cx ^^^ cy))
    let t := mpz_bit_loop (fun zx zy => (zx ^^^ fx) &&& (zy ^^^ fy)) (fun zx => (zx ^^^ fx) &&& fy) cx cy 1
      x.mag y.mag
    .ok (mpz_make true (mpn_strip (t.1 ++ [t.2])))
  else
    .ok (mpz_make false (mpn_strip (mpn_ior_n x.mag y.mag ++ x.mag.drop y.mag.length)))

/-- src/mpi.c:6766-6836 `mpz_ior`. -/
def mpz_ior (z : Dest) (x y : Mpz) : C Mpz :=
  if x.mag.length < y.mag.length then mpz_ior_sorted z y x else mpz_ior_sorted z x y

/-- src/mpi.c:6838-6852 `mpz_ior_ui`. -/
def mpz_ior_ui (z : Dest) (x : Mpz) (y : Limb) : C Mpz := do
  if x.size < 0 then mpz_ior z x (mpz_set_ui y)
  else if x.size = 0 then .ok (mpz_set_ui y)
  else do
    let t ← mpz_set z x
    let a ← limb0 t
    .ok ⟨t.neg, t.mag.set 0 (a ||| y)⟩

/-- src/mpi.c:6854-6882 `mpz_ior_si`. -/
def mpz_ior_si (z : Dest) (x : Mpz) (y : BitVec 64) : C Mpz := do
  if y.slt 0 then do
    let v := mp_limb_cast y
    let r ← (if x.size < 0 then do
        let a ← limb0 x
        .ok (((a - 1) &&& (v - 1)) + 1)
      else if x.size > 0 then do
        let a ← limb0 x
        .ok (((v - 1) &&& ~~~a) + 1)
      else .ok v)
    mpz_neg z (mpz_set_ui r)
  else mpz_ior_ui z x y

/-- src/mpi.c:6888-6947 `mpz_xor` after the swap that puts the longer operand first. -/
def mpz_xor_sorted (z : Dest) (x y : Mpz) : C Mpz := do
  mpz_grow z (x.mag.length + 1)
  if x.neg ∨ y.neg then
    let cx := flag x.neg
    let cy := flag y.neg
    let cz := cx ^^^ cy
    let t := mpz_bit_loop (fun zx zy => zx ^^^ zy) (fun zx => zx) cx cy cz x.mag y.mag
    .ok (mpz_make (x.neg != y.neg) (mpn_strip (t.1 ++ [t.2])))
  else
    .ok (mpz_make false (mpn_strip (mpn_xor_n x.mag y.mag ++ x.mag.drop y.mag.length)))

/-- src/mpi.c:6888-6947 `mpz_xor`. -/
def mpz_xor (z : Dest) (x y : Mpz) : C Mpz :=
  if x.mag.length < y.mag.length then mpz_xor_sorted z y x else mpz_xor_sorted z x y

/-- src/mpi.c:6949-6964 `mpz_xor_ui`. -/
def mpz_xor_ui (z : Dest) (x : Mpz) (y : Limb) : C Mpz := do
  if x.size < 0 then mpz_xor z x (mpz_set_ui y)
  else if x.size = 0 then .ok (mpz_set_ui y)
  else do
    let t ← mpz_set z x
    let a ← limb0 t
    let zp ← trimTop (t.mag.set 0 (a ^^^ y))
    .ok (mpz_make t.neg zp)

/-- src/mpi.c:6966-6976 `mpz_xor_si`. -/
def mpz_xor_si (z : Dest) (x : Mpz) (y : BitVec 64) : C Mpz := do
  if y.slt 0 then mpz_xor z x (mpz_set_si y)
  else mpz_xor_ui z x y

/-- src/mpi.c:6982-6993 `mpz_com`. -/
def mpz_com (z : Dest) (x : Mpz) : C Mpz := do
  if x.size < 0 then do
    let t ← mpz_neg z x
    mpz_sub_ui z t 1
  else do
    let t ← mpz_add_ui z x 1
    mpz_neg z t

/-! ### Powers of two -/

/-- src/mpi.c:6999-7035 `mpz_mul_2exp`. -/
def mpz_mul_2exp (z : Dest) (x : Mpz) (bits : Nat) : C Mpz := do
  if x.size = 0 then .ok ⟨false, []⟩
  else if bits = 0 then mpz_set z x
  else do
    let s := bits / 64
    let r := bits % 64
    mpz_grow z (x.mag.length + s + (if r ≠ 0 then 1 else 0))
    let hi := if r ≠ 0 then
        let t := mpn_lshift x.mag r
        pushTop t.1 t.2
      else x.mag
    .ok (mpz_make x.neg (mpn_zero s ++ hi))

/-- src/mpi.c:7041-7080 `mpz_quo_2exp`. -/
def mpz_quo_2exp (z : Dest) (x : Mpz) (bits : Nat) : C Mpz := do
  if x.size = 0 then .ok ⟨false, []⟩
  else if bits = 0 then mpz_set z x
  else do
    let s := bits / 64
    let r := bits % 64
    if x.mag.length ≤ s then .ok ⟨false, []⟩
    else do
      mpz_grow z (x.mag.length - s)
      let zp ← (if r ≠ 0 then trimTop (mpn_rshift (x.mag.drop s) r).1 else .ok (x.mag.drop s))
      .ok (mpz_make x.neg zp)

/-- The masking of the top limb in src/mpi.c:7082-7119 `mpz_rem_2exp` and src/mpi.c:7143-7192 `mpz_mod_2exp`. -/
def maskTop (zp : List Limb) (lo : Nat) : C (List Limb) := do
  if lo ≠ 0 then do
    let a ← C.rd zp (zp.length - 1)
    C.wr zp (zp.length - 1) (a &&& mpMask lo)
  else .ok zp

/-- src/mpi.c:7082-7119 `mpz_rem_2exp`. -/
def mpz_rem_2exp (z : Dest) (x : Mpz) (bits : Nat) : C Mpz := do
  if x.size = 0 ∨ bits = 0 then .ok ⟨false, []⟩
  else do
    let xn := x.mag.length
    let zn := (bits + 64 - 1) / 64
    let lo := bits % 64
    if zn > xn then do
      mpz_grow z xn
      .ok (mpz_make x.neg (mpn_strip x.mag))
    else do
      mpz_grow z zn
      let zp ← maskTop (x.mag.take zn) lo
      .ok (mpz_make x.neg (mpn_strip zp))

/-- src/mpi.c:7125-7141 `mpz_div_2exp`. -/
def mpz_div_2exp (z : Dest) (x : Mpz) (bits : Nat) : C Mpz := do
  if x.size < 0 then do
    let t ← mpz_neg z x
    let t ← mpz_sub_ui z t 1
    let t ← mpz_quo_2exp z t bits
    let t ← mpz_add_ui z t 1
    mpz_neg z t
  else mpz_quo_2exp z x bits

/-- src/mpi.c:7143-7192 `mpz_mod_2exp`. -/
def mpz_mod_2exp (z : Dest) (x : Mpz) (bits : Nat) : C Mpz := do
  if x.size = 0 ∨ bits = 0 then .ok ⟨false, []⟩
  else do
    let xn := x.mag.length
    let zn := (bits + 64 - 1) / 64
    let lo := bits % 64
    if x.size < 0 then do
      mpz_grow z zn
      let zp := if zn > xn then (mpn_sub_1 x.mag 1).1 ++ mpn_zero (zn - xn)
        else (mpn_sub_1 (x.mag.take zn) 1).1
      let zp ← maskTop (mpn_com zp) lo
      .ok (mpz_make false (mpn_strip zp))
    else if zn > xn then do
      mpz_grow z xn
      .ok (mpz_make false (mpn_strip x.mag))
    else do
      mpz_grow z zn
      let zp ← maskTop (x.mag.take zn) lo
      .ok (mpz_make false (mpn_strip zp))

/-- src/mpi.c:6296-6318 `mpz_divisible_2exp_p`. -/
def mpz_divisible_2exp_p (n : Mpz) (bits : Nat) : C Bool := do
  let s := bits / 64
  if n.size = 0 then .ok true
  else if s ≥ n.mag.length then .ok false
  else do
    let r := bits % 64
    let a ← C.rd n.mag s
    if a &&& mpMask r ≠ 0 then .ok false
    else .ok ((n.mag.take s).all (fun b => b = 0))

/-- src/mpi.c:6362-6379 `mpz_congruent_2exp_p`. -/
def mpz_congruent_2exp_p (x y : Mpz) (bits : Nat) : C Bool := do
  if bits = 0 then .ok true
  else do
    let t ← mpz_sub (mpz_init_vla (mpz_add_size x y)) x y
    mpz_divisible_2exp_p t bits

/-- src/mpi.c:6218-6235 `mpz_divround`. -/
def mpz_divround (q : Dest) (n d : Mpz) : C Mpz := do
  let tv := mpz_init_vla (mpz_add_size n d)
  let t ← mpz_quo_2exp tv d 1
  let t ← (if n.neg != d.neg then mpz_sub tv n t else mpz_add tv n t)
  mpz_quo q t d

/-! ### Single bits -/

/-- src/mpi.c:7198-7212 `mpz_tstbit`. -/
def mpz_tstbit (x : Mpz) (pos : Nat) : C Bool := do
  let s := pos / 64
  if s ≥ x.mag.length then .ok x.neg
  else do
    let a ← C.rd x.mag s
    let b := decide ((a >>> (pos % 64)) &&& 1 ≠ 0)
    if x.size < 0 then do
      let d ← mpz_divisible_2exp_p x pos
      .ok (b != !d)
    else .ok b

/-- src/mpi.c:7214-7231 `mpz_setbit_abs`. -/
def mpz_setbit_abs (z : Mpz) (pos : Nat) : C Mpz := do
  let s := pos / 64
  let r := pos % 64
  let zp := z.mag ++ mpn_zero (s + 1 - z.mag.length)
  let a ← C.rd zp s
  let zp ← C.wr zp s (a ||| ((1 : Limb) <<< r))
  .ok ⟨z.neg, zp⟩

/-- src/mpi.c:7233-7247 `mpz_clrbit_abs`. -/
def mpz_clrbit_abs (z : Mpz) (pos : Nat) : C Mpz := do
  let s := pos / 64
  let r := pos % 64
  if s < z.mag.length then do
    let a ← C.rd z.mag s
    let zp ← C.wr z.mag s (a &&& ~~~((1 : Limb) <<< r))
    .ok (mpz_make z.neg (mpn_strip zp))
  else .ok z

/-- src/mpi.c:7249-7255 `mpz_setbit`. -/
def mpz_setbit (z : Mpz) (pos : Nat) : C Mpz := do
  let d ← mpz_divisible_2exp_p z pos
  if z.size < 0 ∧ ¬ d then mpz_clrbit_abs z pos else mpz_setbit_abs z pos

/-- src/mpi.c:7257-7263 `mpz_clrbit`. -/
def mpz_clrbit (z : Mpz) (pos : Nat) : C Mpz := do
  let d ← mpz_divisible_2exp_p z pos
  if z.size < 0 ∧ ¬ d then mpz_setbit_abs z pos else mpz_clrbit_abs z pos

/-- src/mpi.c:7265-7271 `mpz_combit`. -/
def mpz_combit (z : Mpz) (pos : Nat) : C Mpz := do
  let b ← mpz_tstbit z pos
  if ¬ b then mpz_setbit z pos else mpz_clrbit z pos

/-- src/mpi.c:7273-7286 `mpz_scan0`. -/
def mpz_scan0 (x : Mpz) (pos : Nat) : Nat :=
  let s := pos / 64
  if s ≥ x.mag.length then (if x.neg then mp_bits_max else pos)
  else if x.size < 0 then mpn_scan x.mag 1 (flag (mpn_zero_p (x.mag.take s))) pos
  else mpn_scan x.mag 0 0 pos

/-- src/mpi.c:7288-7301 `mpz_scan1`. -/
def mpz_scan1 (x : Mpz) (pos : Nat) : Nat :=
  let s := pos / 64
  if s ≥ x.mag.length then (if x.neg then pos else mp_bits_max)
  else if x.size < 0 then mpn_scan x.mag 0 (flag (mpn_zero_p (x.mag.take s))) pos
  else mpn_scan x.mag 1 0 pos

/-- src/mpi.c:7303-7309 `mpz_popcount`. -/
def mpz_popcount (x : Mpz) : Nat := if x.size < 0 then mp_bits_max else mpn_popcount x.mag

/-- The two loops of src/mpi.c:7311-7353 `mpz_hamdist` for negative operands. -/
def mpz_hamdist_loop : Limb → Limb → List Limb → List Limb → Nat
  | _, _, [], _ => 0
  | cx, cy, x :: xs, [] =>
    let zx := mp_sub x cx
    mp_popcount zx.1 + mpz_hamdist_loop zx.2 cy xs []
  | cx, cy, x :: xs, y :: ys =>
    let zx := mp_sub x cx
    let zy := mp_sub y cy
    mp_popcount (zx.1 ^^^ zy.1) + mpz_hamdist_loop zx.2 zy.2 xs ys

/-- src/mpi.c:7311-7353 `mpz_hamdist` after the swap that puts the longer operand first. -/
def mpz_hamdist_sorted (x y : Mpz) : Nat :=
  if x.size < 0 then mpz_hamdist_loop 1 1 x.mag y.mag
  else mpn_hamdist x.mag y.mag + mpn_popcount (x.mag.drop y.mag.length)

/-- src/mpi.c:7311-7353 `mpz_hamdist`. `(x->size ^ y->size) < 0` holds iff exactly one is negative. -/
def mpz_hamdist (x y : Mpz) : Nat :=
  if x.neg != y.neg then mp_bits_max
  else if x.mag.length < y.mag.length then mpz_hamdist_sorted y x
  else mpz_hamdist_sorted x y

/-- src/mpi.c:8948-8954 `mpz_odd_p`. -/
def mpz_odd_p (x : Mpz) : C Bool := do
  if x.size = 0 then .ok false
  else do
    let a ← limb0 x
    .ok (decide (a &&& 1 ≠ 0))

/-- src/mpi.c:8956-8959 `mpz_even_p`. -/
def mpz_even_p (x : Mpz) : C Bool := do
  let b ← mpz_odd_p x
  .ok (!b)

/-- src/mpi.c:8961-8964 `mpz_ctz`. -/
def mpz_ctz (x : Mpz) : Nat := mpn_ctz x.mag

/-- src/mpi.c:8966-8974 `mpz_bitlen`. -/
def mpz_bitlen (x : Mpz) : C Nat := do
  if x.mag.length = 0 then .ok 0
  else do
    let a ← C.rd x.mag (x.mag.length - 1)
    .ok (x.mag.length * 64 - mp_clz a)

/-- src/mpi.c:8976-8979 `mpz_bytelen`. -/
def mpz_bytelen (x : Mpz) : C Nat := do
  let n ← mpz_bitlen x
  .ok ((n + 7) / 8)

/-- src/mpi.c:5890-5908 `mpz_mulshift`. -/
def mpz_mulshift (z : Dest) (x y : Mpz) (bits : Nat) : C Mpz := do
  let t ← mpz_mul z x y
  if bits > 0 then do
    let t ← mpz_abs z t
    let b ← mpz_tstbit t (bits - 1)
    let t ← mpz_quo_2exp z t bits
    let t ← mpz_add_ui z t (flag b)
    if x.neg != y.neg then mpz_neg z t else .ok t
  else .ok t

/-! ### Compact form -/

/-- src/mpi.c:5350-5374 `mpz_set_compact`. -/
def mpz_set_compact (x : Limb) : C Mpz := do
  if x = 0 then .ok (mpz_set_ui 0)
  else do
    let exponent := ((x >>> 24) &&& 0xff).toNat
    let negative := (x >>> 23) &&& 1
    let mantissa := x &&& 0x7fffff
    let z ← (if exponent ≤ 3 then .ok (mpz_set_ui (mantissa >>> (8 * (3 - exponent))))
      else mpz_mul_2exp .heap (mpz_set_ui mantissa) (8 * (exponent - 3)))
    if negative ≠ 0 then mpz_neg .heap z else .ok z

/-- src/mpi.c:5393-5431 `mpz_get_compact`. `MP_LOW_MASK` is `2^32 - 1`. -/
def mpz_get_compact (x : Mpz) : C Limb := do
  if x.size = 0 then .ok 0
  else do
    let exponent ← mpz_bytelen x
    let mantissa ← (if exponent ≤ 3 then do
        let m ← mpz_get_ui x
        .ok (m <<< (8 * (3 - exponent)))
      else do
        let t ← mpz_quo_2exp .heap x (8 * (exponent - 3))
        mpz_get_ui t)
    let big := mantissa &&& 0x800000 ≠ 0
    let exponent := BitVec.ofNat 64 (if big then exponent + 1 else exponent) &&& 0xff
    let mantissa := (if big then mantissa >>> 8 else mantissa) &&& 0xffffffff
    let z := (exponent <<< 24) ||| mantissa
    .ok (if x.size < 0 then z ||| 0x800000 else z)

end Torsion
