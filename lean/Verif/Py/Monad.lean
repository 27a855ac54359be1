import Verif.Py.Basic
/-!
# Python functions with state and exceptions

A method call is a function from the state of the world to a result (value or exception)
and a new state.  As in Python, state changes made before an exception survive it.
-/
namespace Py

/-- A computation that may change the state `σ` and either returns or raises. -/
def PyM (σ α : Type) : Type := σ → Except Exc α × σ

namespace PyM
variable {σ α β : Type}

def ret (a : α) : PyM σ α := fun s => (.ok a, s)

def andThen (m : PyM σ α) (f : α → PyM σ β) : PyM σ β := fun s =>
  match m s with
  | (.ok a, s') => f a s'
  | (.error e, s') => (.error e, s')

instance : Monad (PyM σ) where
  pure := ret
  bind := andThen

/-- `raise e` -/
def throw (e : Exc) : PyM σ α := fun s => (.error e, s)
/-- read the state -/
def get : PyM σ σ := fun s => (.ok s, s)
/-- assign to attributes -/
def modify (f : σ → σ) : PyM σ Unit := fun s => (.ok (), f s)
/-- a call that cannot raise -/
def lift (f : σ → α × σ) : PyM σ α := fun s => (.ok (f s).1, (f s).2)
/-- a call that does not touch the state -/
def ofExcept (x : Except Exc α) : PyM σ α := fun s => (x, s)

@[simp] theorem pure_apply (a : α) (s : σ) : (pure a : PyM σ α) s = (.ok a, s) := rfl
@[simp] theorem throw_apply (e : Exc) (s : σ) : (throw e : PyM σ α) s = (.error e, s) := rfl
@[simp] theorem get_apply (s : σ) : (get : PyM σ σ) s = (.ok s, s) := rfl
@[simp] theorem modify_apply (f : σ → σ) (s : σ) : modify f s = (.ok (), f s) := rfl
@[simp] theorem lift_apply (f : σ → α × σ) (s : σ) : lift f s = (.ok (f s).1, (f s).2) := rfl
@[simp] theorem ofExcept_apply (x : Except Exc α) (s : σ) : ofExcept x s = (x, s) := rfl

theorem bind_apply (m : PyM σ α) (f : α → PyM σ β) (s : σ) :
    (m >>= f) s = match m s with
      | (.ok a, s') => f a s'
      | (.error e, s') => (.error e, s') := rfl

/-- Sequencing after a call that returned. -/
theorem bind_ok {m : PyM σ α} {f : α → PyM σ β} {s s' : σ} {a : α} (h : m s = (.ok a, s')) :
    (m >>= f) s = f a s' := by simp [bind_apply, h]

/-- Sequencing after a call that raised. -/
theorem bind_error {m : PyM σ α} {f : α → PyM σ β} {s s' : σ} {e : Exc}
    (h : m s = (.error e, s')) : (m >>= f) s = (.error e, s') := by simp [bind_apply, h]

end PyM
end Py
