import Verif.Model.Perceptron
import Verif.Spec.Knn
import Verif.Spec.Labels
import Mathlib.Algebra.BigOperators.Group.List.Defs

/-! # Specification vocabulary: the perceptron -/

namespace Golearn

section
variable {K : Type} [Field K] [LinearOrder K]

/-- The weighted sum of the numbers of a row reaches the threshold. -/
def Perceptron.Positive (p : Perceptron K) (x : List K) : Prop :=
  p.threshold ≤ (List.zipWith (fun w v => v * w) p.weights x).sum

/-- A data set of `n` rows with one class attribute of two values, whose rows have the classes `k 0, k 1, ...`. -/
structure TwoClasses (fo : FloatOps) (g : Grid) (n : Nat) (c : Attr) (s0 s1 : String) (k : Nat → String) : Prop where
  table : g.Presents n
  typed : g.typed n
  cls : g.allClassAttributes = [c]
  two : ∃ nm, c.body = .cat nm [s0, s1]
  known : c ∈ g.allAttributes
  labels : ReadsAs fo g c n k
end

end Golearn
