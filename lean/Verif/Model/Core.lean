/-!
# Basic vocabulary of the model

`Res` makes the outcome of a Go call explicit: a value, a returned `error`, or a
run-time `panic` (explicit `panic(..)`, index out of range, nil dereference).
-/

namespace Golearn

/-- Outcome of a Go call. The text of errors and panics is not modelled. -/
inductive Res (α : Type) where
  | ok (a : α)
  | err
  | panic
  deriving DecidableEq, Repr

namespace Res

/-- Sequencing: an error or panic stops the computation. -/
def bind {α β : Type} (r : Res α) (f : α → Res β) : Res β :=
  match r with
  | ok a => f a
  | err => err
  | panic => panic

/-- Apply a function to a successful outcome. -/
def map {α β : Type} (f : α → β) (r : Res α) : Res β := r.bind (fun a => ok (f a))

/-- `true` iff the outcome is a value. -/
def isOk {α : Type} : Res α → Bool
  | ok _ => true
  | _ => false

instance : Monad Res where
  pure := Res.ok
  bind := Res.bind

@[simp] theorem bind_ok {α β : Type} (a : α) (f : α → Res β) : (ok a).bind f = f a := rfl
@[simp] theorem bind_err {α β : Type} (f : α → Res β) : (err : Res α).bind f = err := rfl
@[simp] theorem bind_panic {α β : Type} (f : α → Res β) : (panic : Res α).bind f = panic := rfl
@[simp] theorem map_ok {α β : Type} (a : α) (f : α → β) : (ok a).map f = ok (f a) := rfl

theorem bind_eq_ok {α β : Type} {r : Res α} {f : α → Res β} {b : β} :
    r.bind f = ok b ↔ ∃ a, r = ok a ∧ f a = ok b := by
  cases r <;> simp

theorem map_eq_ok {α β : Type} {r : Res α} {f : α → β} {b : β} :
    r.map f = ok b ↔ ∃ a, r = ok a ∧ f a = b := by
  cases r <;> simp [map]

/-- Run a list of computations in order, collecting the values. -/
def mapM' {α β : Type} (f : α → Res β) : List α → Res (List β)
  | [] => ok []
  | a :: as => (f a).bind fun b => (mapM' f as).map (b :: ·)

end Res

/-- A Go `byte`. -/
abbrev Byte := BitVec 8
/-- A Go `[]byte`, as a value (Model/Memory treats sharing between slices). -/
abbrev Bytes := List Byte
/-- A Go `uint64`, also used for the bit pattern of a `float64`. -/
abbrev U64 := BitVec 64

end Golearn
