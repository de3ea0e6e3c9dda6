import Mathlib.Data.Nat.Digits.Defs
import Verif.Mpi.Str
import Verif.Common.Proto

/-!
# Model: random integers (src/mpi.c)

The first argument of a loop bounds its rounds; `R.spin` means that it is still drawing.
-/
namespace Torsion

/-- The `mpz_t` holding an integer. Used where a value crosses from a part modelled on integers
(src/asn1.c:154-209 `asn1_read_mpz`) to this part. -/
def mpz_of (i : Int) : Mpz :=
  mpz_make (decide (i < 0)) ((Nat.digits (2 ^ 64) i.natAbs).map (BitVec.ofNat 64))

/-- src/mpi.c:5087-5090 `mpn_random`: the bytes are written over the limbs, which are little-endian. -/
def mpn_random {S : Type} (rng : ByteGen S) (s : S) (zn : Nat) : C (List Limb × S) := do
  let z ← mpn_import_le (rng.gen s (zn * 8)).1 zn 0
  .ok (z, (rng.gen s (zn * 8)).2)

/-- The loop of src/mpi.c:5092-5113 `mpn_randomm`; `sh` is the number of leading zero bits of the bound. -/
def mpn_randomm_loop {S : Type} (rng : ByteGen S) (xp : List Limb) (sh : Nat) : Nat → S → R (List Limb × S)
  | 0, _ => .spin
  | fuel + 1, s => do
    let zs ← mpn_random rng s xp.length
    let top ← C.rd zs.1 (xp.length - 1)
    let zp ← C.wr zs.1 (xp.length - 1) (top >>> sh)
    if mpn_cmp zp xp ≥ 0 then mpn_randomm_loop rng xp sh fuel zs.2 else .ok (zp, zs.2)

/-- src/mpi.c:5092-5113 `mpn_randomm`. -/
def mpn_randomm {S : Type} (rng : ByteGen S) (fuel : Nat) (s : S) (xp : List Limb) : R (List Limb × S) :=
  let xs := mpn_strip xp
  let n := xs.length
  if n > 0 then do
    let top ← C.rd xs (n - 1)
    let zs ← mpn_randomm_loop rng xs (mp_clz top) fuel s
    .ok (zs.1 ++ List.replicate (xp.length - n) 0, zs.2)
  else .ok (List.replicate xp.length 0, s)

/-- src/mpi.c:9201-9213 `mpz_urandomb`. -/
def mpz_urandomb {S : Type} (rng : ByteGen S) (s : S) (bits : Nat) : C (Mpz × S) := do
  let zn := (bits + 63) / 64
  let lo := bits % 64
  let zs ← mpn_random rng s zn
  if lo ≠ 0 then do
    let top ← C.rd zs.1 (zn - 1)
    let zp ← C.wr zs.1 (zn - 1) (top &&& mpMask lo)
    .ok (mpz_make false (mpn_strip zp), zs.2)
  else .ok (mpz_make false (mpn_strip zs.1), zs.2)

/-- src/mpi.c:9215-9237 `mpz_urandomm`, for a destination which is not the bound. -/
def mpz_urandomm {S : Type} (rng : ByteGen S) (fuel : Nat) (s : S) (x : Mpz) : R (Mpz × S) :=
  if x.size = 0 then .ok (⟨false, []⟩, s)
  else do
    let zs ← mpn_randomm rng fuel s x.mag
    .ok (mpz_make (decide (x.size < 0)) (mpn_strip zs.1), zs.2)

end Torsion
