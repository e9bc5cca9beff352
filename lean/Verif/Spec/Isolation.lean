import Verif.Model.Isolation
import Verif.Spec.Cart

/-! # Specification vocabulary: isolation forests -/

namespace Golearn

variable {K : Type} [Field K] [LinearOrder K]

/-- Two rows differ. -/
def SomeDiffer (data : List (List K)) : Prop := ∃ x ∈ data, ∃ y ∈ data, x ≠ y

/-- The tree isolates the rows within a number of levels: a node has a column in which the rows differ and a threshold, keeps
the number of rows on both sides, and its children isolate the two sides; it ends where the levels end, where one row
or none is left, or where all rows are the same. -/
def CNode.Isolates (w : Nat) : CNode K Nat → Nat → List (List K) → Prop
  | .nil, levels, data => levels = 0 ∨ data.length ≤ 1 ∨ ¬ SomeDiffer data
  | .node l r t f a b _, levels, data =>
    f < w ∧ (∃ x ∈ data, ∃ y ∈ data, x.getD f 0 ≠ y.getD f 0) ∧
    ∃ k, levels = k + 1 ∧
      a = (data.filter fun x => decide (x.getD f 0 ≤ t)).length ∧
      b = (data.filter fun x => decide (t < x.getD f 0)).length ∧
      l.Isolates w k (data.filter fun x => decide (x.getD f 0 ≤ t)) ∧
      r.Isolates w k (data.filter fun x => decide (t < x.getD f 0))

/-- The number of tests for a row. -/
def CNode.steps : CNode K Nat → List K → Nat
  | .nil, _ => 0
  | .node l r t f _ _ _, x => 1 + if x.getD f 0 ≤ t then l.steps x else r.steps x

/-- The number of training rows that take the same way as `x`. -/
def CNode.company : CNode K Nat → List K → List (List K) → Nat
  | .nil, _, data => data.length
  | .node l r t f _ _ _, x, data =>
    if x.getD f 0 ≤ t then l.company x (data.filter fun y => decide (y.getD f 0 ≤ t))
    else r.company x (data.filter fun y => decide (t < y.getD f 0))

end Golearn
