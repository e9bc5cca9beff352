import Verif.Spec.NaiveBayes
import Verif.Spec.Knn

/-! # Specification vocabulary: naive Bayes with columns in another order -/

namespace Golearn

/-- In the columns of `as`, the rows of both tables have the same features. -/
def SameFeatures (g g' : Grid) (n : Nat) (as : List Attr) : Prop :=
  ∀ a ∈ as, ∀ r, r < n → g'.hasFeature a r = g.hasFeature a r

/-- A table of `n` rows with the binary columns `as`, to predict the classes of. -/
structure ToPredict (what : Grid) (n : Nat) (as : List Attr) : Prop where
  table : what.Presents n
  finds : what.Finds as
  bytes : ∀ a ∈ as, ∀ r, r < n → ∃ b, what.cell a r = [b]

end Golearn
