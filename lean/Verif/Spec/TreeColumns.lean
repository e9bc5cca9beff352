import Verif.Spec.Tree

/-! # Specification vocabulary: the columns a decision tree looks at -/

namespace Golearn

/-- Both tables have columns under the names of `as`, with the same numbers if they are numeric, and with the same texts if not. -/
def SameContents (fo : FloatOps) (g g' : Grid) (m : Nat) (as : List Attr) : Prop :=
  ∀ a ∈ as, ∃ b ∈ g.allAttributes, ∃ b' ∈ g'.allAttributes, g.getAttribute a = g.getAttribute b ∧
    g'.getAttribute a = g'.getAttribute b' ∧ b'.isFloat = b.isFloat ∧
    ∀ r, r < m → if b.isFloat then g'.cell b' r = g.cell b r else b'.getString fo (g'.cell b' r) = b.getString fo (g.cell b r)

/-- Two runs of `Predict` with the same functions, the same order of the rows and the same orders of branches. The order of the
attributes, which comes from a map, and the sort may differ. -/
structure SameRun (p p' : PredEnv) (what what' : Grid) : Prop where
  fo : p'.fo = p.fo
  parse : p'.parse = p.parse
  page : p'.pg = p.pg
  branches : p'.ord = p.ord
  rows : p'.order what' = p.order what

end Golearn
