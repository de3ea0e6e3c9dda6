import Verif.Common.Buffer

/-!
# Model: calls which can fail and loops which draw until a draw is acceptable

The functions of src/rsa.c and src/dsa.c return 1 with their outputs or 0, and draw random numbers in loops
without a bound.
-/
namespace Torsion

/-- How a call ends, for example of src/rsa.c:1669-1734 `rsa_sign`.

* `ok a`   it returns 1 with the outputs `a`;
* `fail`   it returns 0 (what it leaves in the output buffers is not modelled);
* `spin`   it is still in a loop which draws random numbers, after as many rounds as the model was given;
* `abort`, `ub` as for `C`. -/
inductive R (α : Type) where
  | ok (a : α)
  | fail
  | spin
  | abort
  | ub
deriving Repr, DecidableEq

namespace R
protected def bind {α β : Type} (x : R α) (f : α → R β) : R β :=
  match x with
  | ok a => f a
  | fail => fail
  | spin => spin
  | abort => abort
  | ub => ub

instance : Monad R where
  pure := ok
  bind := R.bind

@[simp] theorem pure_eq {α : Type} (a : α) : (pure a : R α) = ok a := rfl
@[simp] theorem ok_bind {α β : Type} (a : α) (f : α → R β) : (ok a >>= f) = f a := rfl
@[simp] theorem fail_bind {α β : Type} (f : α → R β) : ((fail : R α) >>= f) = fail := rfl
@[simp] theorem spin_bind {α β : Type} (f : α → R β) : ((spin : R α) >>= f) = spin := rfl
@[simp] theorem abort_bind {α β : Type} (f : α → R β) : ((abort : R α) >>= f) = abort := rfl
@[simp] theorem ub_bind {α β : Type} (f : α → R β) : ((ub : R α) >>= f) = ub := rfl
theorem bind_assoc {α β γ : Type} (x : R α) (f : α → R β) (g : β → R γ) :
    (x >>= f >>= g) = (x >>= fun a => f a >>= g) := by cases x <;> rfl

/-- A call which cannot fail, for example of src/mpi.c:5702-5745 `mpz_mul`. -/
def lift {α : Type} (x : C α) : R α :=
  match x with
  | .ok a => ok a
  | .abort => abort
  | .ub => ub

instance : MonadLift C R := ⟨lift⟩

@[simp] theorem lift_ok {α : Type} (a : α) : lift (C.ok a) = ok a := rfl
@[simp] theorem lift_abort {α : Type} : lift (C.abort : C α) = abort := rfl
@[simp] theorem lift_ub {α : Type} : lift (C.ub : C α) = ub := rfl
@[simp] theorem monadLift_eq {α : Type} (x : C α) : (MonadLift.monadLift x : R α) = lift x := rfl
@[simp] theorem liftM_eq {α : Type} (x : C α) : (liftM x : R α) = lift x := rfl

/-- `if (!b) goto fail;`, for example in src/rsa.c:1669-1734 `rsa_sign`. -/
def need (b : Bool) : R Unit := if b then ok () else fail

@[simp] theorem need_true : need true = ok () := rfl
@[simp] theorem need_false : need false = fail := rfl

/-- The result 1 or 0 of a call as a truth value, for example in src/rsa.c:1500-1533 `rsa_privkey_import`. -/
def test {α : Type} (x : R α) : R Bool :=
  match x with
  | ok _ => ok true
  | fail => ok false
  | spin => spin
  | abort => abort
  | ub => ub

@[simp] theorem test_ok {α : Type} (a : α) : test (ok a) = ok true := rfl
@[simp] theorem test_fail {α : Type} : test (fail : R α) = ok false := rfl

theorem need_bind {α : Type} {b : Bool} {f : Unit → R α} {a : α} :
    (need b >>= f) = ok a ↔ b = true ∧ f () = ok a := by
  cases b <;> simp

theorem bind_ok {α β : Type} {x : R α} {f : α → R β} {b : β} :
    (x >>= f) = ok b ↔ ∃ a, x = ok a ∧ f a = ok b := by
  cases x <;> simp

theorem lift_eq_ok {α : Type} {x : C α} {a : α} : lift x = ok a ↔ x = .ok a := by
  cases x <;> simp

end R

/-- A source of random bytes: the callback of type include/torsion/mpi.h:376, `mp_rng_f` with its state, which
returns the asked number of bytes. -/
structure ByteGen (S : Type) where
  gen : S → Nat → List Byte × S
  len : ∀ s n, (gen s n).1.length = n

/-- A generator seeded with bytes, as include/torsion/drbg.h:79-83, `drbg_init` and `drbg_generate`. In src/rsa.c and
src/dsa.c it is the HMAC-DRBG of src/drbg.c (modelled in Drbg/Model.lean); the theorems hold for every generator. -/
structure Source (S : Type) extends ByteGen S where
  init : List Byte → S

end Torsion
