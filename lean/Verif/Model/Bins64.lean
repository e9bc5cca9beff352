import Verif.Model.Discretise
import Verif.Model.Cart
import Verif.Model.Eval64

/-!
# Equal-width bins and CART impurities with `float64` rounding

The functions of `Verif.Model.Discretise` and `Verif.Model.Cart` once more, with every operation rounded as Go rounds it.
-/

namespace Golearn

/-- The `float64` written 0.0001. -/
def tenThousandth64 : ℚ := round64 (1 / 10000)

/-- The width of a bin, filters/binning.go:89 and 112, for a positive number of bins. -/
def binWidth64 (bins : Nat) (mn mx : ℚ) : ℚ := round64 (fsub mx mn / ofInt64 bins)

/-- The bin of a value, filters/binning.go:85-95; `none` if the width is zero: then Go converts an infinity to an `int`, which the
language leaves open. -/
def binOf64 (bins : Nat) (mn mx v : ℚ) : Option Int :=
  if v ≤ mn then some 0
  else (fquo (fsub v mn) (binWidth64 bins mn mx)).map fun q => ⌊fadd q tenThousandth64⌋

/-- The `i`-th edge, whose text is the label of bin `i`, filters/binning.go:115. -/
def binEdge64 (bins : Nat) (mn mx : ℚ) (i : Nat) : ℚ := fadd (fmul (ofInt64 i) (binWidth64 bins mn mx)) mn

/-- The share of a label, trees/cart_classifier.go:65 and 82. -/
def share64 (m : GoMap Int Nat) (n : Nat) (l : Int) : ℚ := round64 (ofInt64 ((m.get? l).getD 0) / ofInt64 n)

/-- The loss of `computeGiniImpurityAndModeLabel`, trees/cart_classifier.go:55-69; there are rows
(trees/cart_classifier.go:93-95). -/
def gini64 (labels y : List Int) : ℚ :=
  fadds (labels.map fun l => fmul (share64 (convertToMap y labels) y.length l) (fsub 1 (share64 (convertToMap y labels) y.length l)))

/-- The loss of `computeEntropyAndModeLabel`, trees/cart_classifier.go:72-90. `lg` is `math.Log2`. -/
def entropy64 (lg : ℚ → ℚ) (labels y : List Int) : ℚ :=
  fadds (labels.map fun l =>
    let p := share64 (convertToMap y labels) y.length l
    fmul (-p) (if p = 0 then 0 else lg p))

end Golearn
