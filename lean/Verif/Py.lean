/-!
# Python conventions

Exceptions as values, a state monad whose state survives exceptions, and the few Python/numpy
primitives the whole model shares.
-/

namespace Verif

/-- The exceptions the modelled code can raise.  Messages are not modelled. -/
inductive Err where
  | valueError
  | typeError
  | indexError
  | keyError
  | attributeError
  | zeroDivisionError
  | memoryError
  | fileNotFound
  | syntaxError
  | overflowError
  | recursionError
  /-- `DuplicatedFeatures`, `/repo/ruleskit/condition.py` lines 9-10 -/
  | duplicatedFeatures
  deriving DecidableEq, Repr, Inhabited

deriving instance DecidableEq for Except

/-- Stateful Python code: state changes made before an exception are kept. -/
def Py (σ α : Type) : Type := σ → Except Err α × σ

namespace Py

/-- Run stateful code and keep its result only. -/
def result {σ α} (m : Py σ α) (s : σ) : Except Err α := (m s).1

/-- Run stateful code and keep the final state only. -/
def final {σ α} (m : Py σ α) (s : σ) : σ := (m s).2

protected def pure {σ α} (a : α) : Py σ α := fun s => (.ok a, s)

protected def bind {σ α β} (m : Py σ α) (f : α → Py σ β) : Py σ β := fun s =>
  match m s with
  | (.ok a, s') => f a s'
  | (.error e, s') => (.error e, s')

instance {σ} : Monad (Py σ) where
  pure := Py.pure
  bind := Py.bind

/-- `raise` -/
def throw {σ α} (e : Err) : Py σ α := fun s => (.error e, s)

/-- Read the state. -/
def get {σ} : Py σ σ := fun s => (.ok s, s)

/-- Change the state. -/
def modify {σ} (f : σ → σ) : Py σ Unit := fun s => (.ok (), f s)

/-- A computation without state which may raise. -/
def ofExcept {σ α} (x : Except Err α) : Py σ α := fun s => (x, s)

@[simp] theorem pure_run {σ α} (a : α) (s : σ) : (pure a : Py σ α) s = (.ok a, s) := rfl
@[simp] theorem throw_run {σ α} (e : Err) (s : σ) : (throw e : Py σ α) s = (.error e, s) := rfl
@[simp] theorem get_run {σ} (s : σ) : (get : Py σ σ) s = (.ok s, s) := rfl
@[simp] theorem modify_run {σ} (f : σ → σ) (s : σ) : (modify f : Py σ Unit) s = (.ok (), f s) := rfl
@[simp] theorem ofExcept_run {σ α} (x : Except Err α) (s : σ) :
    (ofExcept x : Py σ α) s = (x, s) := rfl

theorem bind_run {σ α β} (m : Py σ α) (f : α → Py σ β) (s : σ) :
    (m >>= f) s = match m s with
      | (.ok a, s') => f a s'
      | (.error e, s') => (.error e, s') := rfl

theorem bind_ok {σ α β} {m : Py σ α} {f : α → Py σ β} {s s' : σ} {a : α}
    (h : m s = (.ok a, s')) : (m >>= f) s = f a s' := by
  rw [bind_run, h]

theorem bind_err {σ α β} {m : Py σ α} {f : α → Py σ β} {s s' : σ} {e : Err}
    (h : m s = (.error e, s')) : (m >>= f) s = (.error e, s') := by
  rw [bind_run, h]

/-- Splitting a successful sequence. -/
theorem bind_eq_ok {σ α β} {m : Py σ α} {f : α → Py σ β} {s s'' : σ} {b : β}
    (h : (m >>= f) s = (.ok b, s'')) :
    ∃ a s', m s = (.ok a, s') ∧ f a s' = (.ok b, s'') := by
  rw [bind_run] at h
  rcases hm : m s with ⟨r, s'⟩
  cases r with
  | error e => simp [hm] at h
  | ok a => exact ⟨a, s', rfl, by simpa [hm] using h⟩

end Py

end Verif
