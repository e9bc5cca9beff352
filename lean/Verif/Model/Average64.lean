import Verif.Model.Eval64
import Verif.Model.Knn
import Mathlib.Algebra.Order.Ring.Rat

/-!
# Averages, losses and thresholds with `float64` rounding

knn/knn.go, trees/cart_regressor.go, trees/cart_classifier.go, trees/isolation.go, with every operation on
`float64`s rounded as Go rounds it.
-/

namespace Golearn

/-- `average`, trees/cart_regressor.go:43-50: a running sum divided by the number of values. No values give
0/0, NaN. -/
def mean64 (y : List ℚ) : Option ℚ := fquo (fadds y) (ofInt64 y.length)

/-- `KNNRegressor.Predict`, knn/knn.go:440-475, after the distance function has been recognised; the distances
are what that function computes. -/
def knnRegress64 (sortKeys : (Nat → ℚ) → List Nat → List Nat) (dist : List ℚ → List ℚ → ℚ) (data : List (List ℚ))
    (values : List ℚ) (x : List ℚ) (k : Nat) : Res (Option ℚ) :=
  let sorted := sortIntMap sortKeys (regressDists dist data x)
  if k > sorted.length then Res.panic
  else Res.ok (fquo (fadds ((sorted.take k).map fun i => values.getD i 0)) (ofInt64 k))

/-- `meanAbsoluteError`, trees/cart_regressor.go:53-60. -/
def meanAbsErr64 (y : List ℚ) (yBar : ℚ) : Option ℚ :=
  fquo (fadds (y.map fun t => |fsub t yBar|)) (ofInt64 y.length)

/-- `meanSquaredError`, trees/cart_regressor.go:69-77. `math.Pow(d, 2)` is taken to be the rounded square. -/
def meanSqErr64 (y : List ℚ) (yBar : ℚ) : Option ℚ :=
  fquo (fadds (y.map fun t => fmul (fsub t yBar) (fsub t yBar))) (ofInt64 y.length)

/-- `computeMaeImpurityAndAverage`, trees/cart_regressor.go:63-66. -/
def maeLoss64 (y : List ℚ) : Option ℚ := (mean64 y).bind (meanAbsErr64 y)

/-- `computeMseImpurityAndAverage`, trees/cart_regressor.go:80-83. -/
def mseLoss64 (y : List ℚ) : Option ℚ := (mean64 y).bind (meanSqErr64 y)

/-- `subLoss`, trees/cart_regressor.go:238, and `subGini`, trees/cart_classifier.go:258: the losses of the two sides, weighted
by their sizes. -/
def subLoss64 (leftLoss rightLoss : ℚ) (left right num : Nat) : Option ℚ :=
  (fquo (fmul leftLoss (ofInt64 left)) (ofInt64 num)).bind fun a =>
    (fquo (fmul rightLoss (ofInt64 right)) (ofInt64 num)).map fun b => fadd a b

/-- `(unique[j] + unique[j+1]) / 2`, trees/cart_regressor.go:223 and trees/cart_classifier.go:239. -/
def midpoint64 (a b : ℚ) : ℚ := round64 (fadd a b / 2)

/-- The `float64` written 0.000001. -/
def millionth64 : ℚ := round64 (1 / 1000000)

/-- `min + (rand.Float64() * (max - min))`, trees/isolation.go:43; `u` is the random number. -/
def drawn64 (u mn mx : ℚ) : ℚ := fadd mn (fmul u (fsub mx mn))

/-- `selectValue`, trees/isolation.go:42-50. -/
def selectValue64 (u mn mx : ℚ) : ℚ :=
  if drawn64 u mn mx = mn then fadd (drawn64 u mn mx) millionth64
  else if drawn64 u mn mx = mx then fsub (drawn64 u mn mx) millionth64
  else drawn64 u mn mx

end Golearn
