import Verif.Model.Eval

/-! # What a confusion matrix must be -/

namespace Golearn

/-- `c` counts the pairs (reference label, predicted label): the entry for `(a, b)` is how often that
pair occurs, a row or an entry is present exactly when it is needed, and no key occurs twice. -/
structure Counts (c : ConfMat) (pairs : List (String × String)) : Prop where
  entry : ∀ a b, c.at a b = pairs.count (a, b)
  row : ∀ a, a ∈ c.map Prod.fst ↔ ∃ b, (a, b) ∈ pairs
  cell : ∀ a b, b ∈ c.rowKeys a ↔ (a, b) ∈ pairs
  keys : (c.map Prod.fst).Nodup
  rowKeys : ∀ a, (c.rowKeys a).Nodup

/-- Number of pairs with reference label `a`. -/
def refCount (pairs : List (String × String)) (a : String) : Nat := pairs.countP fun p => p.1 == a

/-- Number of pairs with predicted label `b`. -/
def predCount (pairs : List (String × String)) (b : String) : Nat := pairs.countP fun p => p.2 == b

/-- Number of pairs in which the prediction is right. -/
def rightCount (pairs : List (String × String)) : Nat := pairs.countP fun p => p.1 == p.2

/-- The mean of a list of numbers. -/
def meanOf (l : List ℚ) : ℚ := l.sum / (l.length : ℚ)

/-- The mean squared deviation from the mean. -/
def varianceOf (l : List ℚ) : ℚ := (l.map fun x => (x - meanOf l) * (x - meanOf l)).sum / (l.length : ℚ)

end Golearn
