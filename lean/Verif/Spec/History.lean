import Verif.Model.History
import Verif.Spec.Cells

/-!
# What a history of calls should produce

Only the list of calls is consulted, never the storage.
-/

namespace Golearn

/-- If the call writes cell (`h`-th specification, row `r`), the value it writes. -/
def writes (h r : Nat) : Op → Option Bytes
  | .set h' r' v => if h' = h ∧ r' = r then some v else none
  | _ => none

/-- The value of the most recent write to the cell. -/
def lastWrite (ops : List Op) (h r : Nat) : Option Bytes :=
  ops.reverse.findSome? (writes h r)

/-- Rows requested by one call. -/
def rowsOf : Op → Nat
  | .extend n => n
  | _ => 0

/-- Total number of rows requested. -/
def totalRows (ops : List Op) : Nat := (ops.map rowsOf).sum

/-- No attribute is pushed into a named group after the first `Extend`. -/
def noLateGroupAdd (ops : List Op) : Prop :=
  ∀ pre n post, ops = pre ++ Op.extend n :: post → ∀ a ag, Op.addTo a ag ∉ post

/-- The history uses only `AddAttribute`, `Extend`, `Set` and the class-attribute calls, that is
everything but user-named attribute groups. -/
def basicOp : Op → Bool
  | .create _ _ => false
  | .addTo _ _ => false
  | _ => true

/-- Attributes added by `AddAttribute`, in order. -/
def addedAttrs (ops : List Op) : List Attr :=
  ops.filterMap fun | .add a => some a | _ => none

/-- How an attribute is stored by default: one bit for binary attributes, eight bytes otherwise. -/
def defaultKind (a : Attr) : GKind := if a.isBin then .binary else .fixed 8

end Golearn
