import Verif.Spec.Tree

/-! # Specification vocabulary: a row of one table and a row of another -/

namespace Golearn

/-- Both tables have columns under the names of `as`. Row `r` of the first and row `r'` of the second have the same numbers in the numeric
ones, and the same texts in the others. -/
def SameRow (fo : FloatOps) (g g' : Grid) (r r' : Nat) (as : List Attr) : Prop :=
  ∀ a ∈ as, ∃ b ∈ g.allAttributes, ∃ b' ∈ g'.allAttributes, g.getAttribute a = g.getAttribute b ∧
    g'.getAttribute a = g'.getAttribute b' ∧ b'.isFloat = b.isFloat ∧
    if b.isFloat then g'.cell b' r' = g.cell b r else b'.getString fo (g'.cell b' r') = b.getString fo (g.cell b r)

end Golearn
