import Verif.Mpi.Gcd

/-!
# Model of src/mpi.c: `mpn_gcdext` and the tests whether an integer fits a word

The outputs `gp` and `sp` are returned as vectors of the lengths the function writes.
-/
namespace Torsion

/-- src/mpi.c:3839-3883 `mpn_gcdext`: `gp` (`yn` limbs), `sp` (`yn + 1` limbs), `sn` and the returned `gn`.
`mpz_roset_n` (src/mpi.c:5304-5309) makes an integer of a vector without copying it; the vector `xp` is
stripped first, `yp` is not. -/
def mpn_gcdext (xp yp : List Limb) : C (List Limb × List Limb × Int × Nat) := do
  let xn := xp.length
  let yn := yp.length
  if xn = 0 then .abort
  else if yn = 0 then .abort
  else do
    let top ← C.rd yp (yn - 1)
    if top = 0 then .abort
    else if xn < yn then .abort
    else do
      let r ← mpz_gcdext ⟨false, mpn_strip xp⟩ ⟨false, yp⟩
      let b ← mpz_rem .heap r.2.1 ⟨false, yp⟩
      let gn := r.1.mag.length
      let bn := b.mag.length
      C.check (decide (gn ≤ yn))
      C.check (decide (bn ≤ yn + 1))
      .ok (r.1.mag ++ List.replicate (yn - gn) 0, b.mag ++ List.replicate (yn + 1 - bn) 0, b.size, gn)

/-- src/mpi.c:8929-8932 `mpz_fits_ui_p`. -/
def mpz_fits_ui_p (x : Mpz) : Bool := decide (x.mag.length ≤ 1)

/-- src/mpi.c:8934-8946 `mpz_fits_si_p`. -/
def mpz_fits_si_p (x : Mpz) : C Bool :=
  if x.mag.length > 1 then .ok false
  else if x.size = 0 then .ok true
  else if x.size < 0 then do
    let l ← C.rd x.mag 0
    .ok (decide (l ≤ 0x8000000000000000))
  else do
    let l ← C.rd x.mag 0
    .ok (decide (l < 0x8000000000000000))

end Torsion
