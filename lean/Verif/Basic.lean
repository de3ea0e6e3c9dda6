/-!
# Shared vocabulary of the model
-/
namespace Torsion

/-- `uint8_t` / `unsigned char`. -/
abbrev Byte := BitVec 8

/-- Outcome of a C computation.

* `ok a`   the function returned normally with `a`;
* `abort`  a `CHECK`/`ASSERT`/`torsion_abort` fired (src/internal.h, `CHECK`);
* `ub`     the computation did something C leaves undefined (out-of-range access). -/
inductive C (α : Type) where
  | ok (a : α)
  | abort
  | ub
deriving Repr, DecidableEq

namespace C
protected def bind {α β : Type} (x : C α) (f : α → C β) : C β :=
  match x with
  | ok a => f a
  | abort => abort
  | ub => ub

instance : Monad C where
  pure := ok
  bind := C.bind

@[simp] theorem pure_eq {α : Type} (a : α) : (pure a : C α) = ok a := rfl
@[simp] theorem ok_bind {α β : Type} (a : α) (f : α → C β) : (ok a >>= f) = f a := rfl
@[simp] theorem abort_bind {α β : Type} (f : α → C β) : ((abort : C α) >>= f) = abort := rfl
@[simp] theorem ub_bind {α β : Type} (f : α → C β) : ((ub : C α) >>= f) = ub := rfl
theorem bind_assoc {α β γ : Type} (x : C α) (f : α → C β) (g : β → C γ) :
    (x >>= f >>= g) = (x >>= fun a => f a >>= g) := by cases x <;> rfl

/-- `CHECK(b)`: abort unless `b`. -/
def check (b : Bool) : C Unit := if b then ok () else abort

/-- Checked array read. -/
def rd {α : Type} (xs : List α) (i : Nat) : C α :=
  match xs[i]? with
  | some a => ok a
  | none => ub

/-- Checked array write. -/
def wr {α : Type} (xs : List α) (i : Nat) (v : α) : C (List α) :=
  if i < xs.length then ok (xs.set i v) else ub

end C
end Torsion
