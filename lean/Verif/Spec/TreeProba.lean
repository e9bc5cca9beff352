import Verif.Model.TreeProba
import Verif.Spec.Tree

/-! # Specification vocabulary: class probabilities of a decision tree -/

namespace Golearn

/-- Following branches down from a node that the training rows `rows` reach ends at a leaf that the rows `R` reach. At each
test the branch is that of the value `take` if there is one, and any other branch if there is none. -/
def Tree.EndsAt (key : Rule → Nat → String) (take : Rule → String) : Tree → List Nat → List Nat → Prop
  | .leaf _ _, rows, R => R = rows
  | .split _ _ r keys child, rows, R =>
    ∃ b ∈ keys, (take r ∈ keys → b = take r) ∧
      (child b).EndsAt key take (rows.filter fun q => key r q == b) R

/-- The branch that row `row` of another table takes at a rule: its value in the column that a look-up of the attribute
finds. -/
def Grid.branchLike (fo : FloatOps) (g : Grid) (row : Nat) (r : Rule) : String :=
  match g.getAttribute r.attr with
  | .ok s => g.branch fo ⟨s.attr, r.val⟩ row
  | _ => ""

/-- What sorting by descending probability may do. NaN compares as not greater. -/
def SortsDescending (srt : List ClassProba → List ClassProba) : Prop :=
  ∀ l, (srt l).Perm l ∧ ((∀ p ∈ l, ∃ q, p.prob = some q) →
    (srt l).Pairwise fun a b => ∀ x y, a.prob = some x → b.prob = some y → y ≤ x)

/-- The share of the rows `R` with label `c`. -/
def labelShare (lab : Nat → String) (R : List Nat) (c : String) : ℚ := ((R.map lab).count c : ℚ) / (R.length : ℚ)

end Golearn
