import Verif.Model.Eval
import Verif.Model.Float64

/-!
# The metrics with `float64` rounding (evaluation/confusion.go, evaluation/cross_fold.go)

The functions of `Verif.Model.Eval` once more, with every conversion to `float64`, every sum and every
quotient rounded as Go rounds it. A map is iterated in the order of its association list. `none` is NaN.
-/

namespace Golearn

/-- `ret := 0.0; for ... { ret += x }` on `float64`. -/
def fadds (l : List ℚ) : ℚ := l.foldl fadd 0

/-- The same when a summand may be NaN, which makes the sum NaN. -/
def faddsNaN : ℚ → List (Option ℚ) → Option ℚ
  | acc, [] => some acc
  | acc, x :: xs => x.bind fun a => faddsNaN (fadd acc a) xs

/-- `float64(n)` for an `int`. -/
def ofInt64 (n : Nat) : ℚ := round64 n

/-- `GetTruePositives`, evaluation/confusion.go:42-44. -/
def truePos64 (cls : String) (c : ConfMat) : ℚ := ofInt64 (c.at cls cls)

/-- `GetFalsePositives`, evaluation/confusion.go:48-57. -/
def falsePos64 (cls : String) (c : ConfMat) : ℚ :=
  fadds (((c.map Prod.fst).filter fun k => k ≠ cls).map fun k => ofInt64 (c.at k cls))

/-- `GetFalseNegatives`, evaluation/confusion.go:61-70. -/
def falseNeg64 (cls : String) (c : ConfMat) : ℚ :=
  fadds (((c.rowKeys cls).filter fun k => k ≠ cls).map fun k => ofInt64 (c.at cls k))

/-- `GetPrecision`, evaluation/confusion.go:92-97. -/
def precision64 (cls : String) (c : ConfMat) : Option ℚ :=
  fquo (truePos64 cls c) (fadd (truePos64 cls c) (falsePos64 cls c))

/-- `GetRecall`, evaluation/confusion.go:101-106. -/
def recall64 (cls : String) (c : ConfMat) : Option ℚ :=
  fquo (truePos64 cls c) (fadd (truePos64 cls c) (falseNeg64 cls c))

/-- `GetF1Score`, evaluation/confusion.go:110-114. -/
def f1Score64 (cls : String) (c : ConfMat) : Option ℚ :=
  (precision64 cls c).bind fun p => (recall64 cls c).bind fun r => fquo (fmul 2 (fmul p r)) (fadd p r)

/-- `GetAccuracy`, evaluation/confusion.go:118-130: the counts are summed as `int`s. -/
def accuracy64 (c : ConfMat) : Option ℚ :=
  fquo (ofInt64 ((c.map Prod.fst).map fun i => ((c.rowKeys i).map fun j => if i = j then c.at i j else 0).sum).sum)
    (ofInt64 ((c.map Prod.fst).map fun i => ((c.rowKeys i).map fun j => c.at i j).sum).sum)

/-- `GetMicroPrecision`, evaluation/confusion.go:134-142. -/
def microPrecision64 (c : ConfMat) : Option ℚ :=
  let t := fadds ((c.map Prod.fst).map fun k => truePos64 k c)
  let f := fadds ((c.map Prod.fst).map fun k => falsePos64 k c)
  fquo t (fadd t f)

/-- `GetMicroRecall`, evaluation/confusion.go:156-164. -/
def microRecall64 (c : ConfMat) : Option ℚ :=
  let t := fadds ((c.map Prod.fst).map fun k => truePos64 k c)
  let f := fadds ((c.map Prod.fst).map fun k => falseNeg64 k c)
  fquo t (fadd t f)

/-- `GetMacroPrecision`, evaluation/confusion.go:146-152. -/
def macroPrecision64 (c : ConfMat) : Option ℚ :=
  (faddsNaN 0 ((c.map Prod.fst).map fun k => precision64 k c)).bind fun s => fquo s (ofInt64 c.length)

/-- `GetMacroRecall`, evaluation/confusion.go:168-174. -/
def macroRecall64 (c : ConfMat) : Option ℚ :=
  (faddsNaN 0 ((c.map Prod.fst).map fun k => recall64 k c)).bind fun s => fquo s (ofInt64 c.length)

/-- The mean of `GetCrossValidatedMetric`, evaluation/cross_fold.go:10-22, on the scores of the folds. -/
def crossMean64 (scores : List (Option ℚ)) : Option ℚ :=
  (faddsNaN 0 scores).bind fun s => fquo s (ofInt64 scores.length)

/-- The variance, evaluation/cross_fold.go:23-29. -/
def crossVariance64 (scores : List (Option ℚ)) : Option ℚ :=
  (crossMean64 scores).bind fun m =>
    (faddsNaN 0 (scores.map fun s => s.map fun x => fmul (fsub x m) (fsub x m))).bind fun s =>
      fquo s (ofInt64 scores.length)

end Golearn
