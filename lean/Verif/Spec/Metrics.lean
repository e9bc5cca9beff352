import Verif.Model.Metrics

/-! # Specification vocabulary: metrics -/

namespace Golearn

/-- Same shape and same entries. -/
def Mat.Same (x y : Mat) : Prop :=
  x.rows = y.rows ∧ x.cols = y.cols ∧ ∀ i j, i < x.rows → j < x.cols → x.entry i j = y.entry i j

/-- A metric on the matrices of every shape; matrices of different shapes panic. -/
structure IsMetric (dist : Mat → Mat → Res ℝ) : Prop where
  defined : ∀ x y, x.sameShape y = true → ∃ d, dist x y = Res.ok d
  mismatch : ∀ x y, x.sameShape y = false → dist x y = Res.panic
  nonneg : ∀ x y d, dist x y = Res.ok d → 0 ≤ d
  zero : ∀ x y, dist x y = Res.ok 0 ↔ x.Same y
  symm : ∀ x y, dist x y = dist y x
  triangle : ∀ x y z a b c, dist x y = Res.ok a → dist y z = Res.ok b → dist x z = Res.ok c → c ≤ a + b

end Golearn
