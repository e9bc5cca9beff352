import Verif.Model.Instances
import Mathlib.Data.Rat.Defs
import Mathlib.Algebra.Order.Field.Rat

/-!
# Evaluation (evaluation/confusion.go, evaluation/cross_fold.go)

Floating point values are rational numbers, and `none` is NaN: the only divisions by zero in these
functions divide zero by zero. Counts are exact in `float64` up to 2^53; the rounding of the quotients is
not modelled. A map is iterated in the order of its association list; the specification
`Counts` fixes the map only up to that order, so every result proved from it holds for every order.
-/

namespace Golearn

/-- `ConfusionMatrix`, evaluation/confusion.go:13. -/
abbrev ConfMat := GoMap String (GoMap String Nat)

/-- `c[a][b]`: a missing entry, or a missing row, reads as zero. -/
def ConfMat.at (c : ConfMat) (a b : String) : Nat := (((c.get? a).getD []).get? b).getD 0

/-- One round of the loop at evaluation/confusion.go:30-35. -/
def confStep (m : ConfMat) (r p : String) : ConfMat :=
  match m.get? r with
  | some row => m.set r (incr row p)
  | none => m.set r [(p, 1)]

/-- The loop at evaluation/confusion.go:27-36. -/
def confLoop (fo : FloatOps) (ref gen : Grid) : List Nat → ConfMat → Res ConfMat
  | [], m => Res.ok m
  | i :: is, m =>
    (getClass fo ref i).bind fun r => (getClass fo gen i).bind fun p =>
      confLoop fo ref gen is (confStep m r p)

/-- `GetConfusionMatrix`, evaluation/confusion.go:17-38. -/
def getConfusionMatrix (fo : FloatOps) (ref gen : Grid) : Res ConfMat :=
  if ref.size.2 ≠ gen.size.2 then Res.err else confLoop fo ref gen (List.range ref.size.2) []

/-- `GetTruePositives`, evaluation/confusion.go:42-44. -/
def truePos (cls : String) (c : ConfMat) : Nat := c.at cls cls

/-- `GetFalsePositives`, evaluation/confusion.go:48-57. -/
def falsePos (cls : String) (c : ConfMat) : Nat :=
  ((c.map Prod.fst).map fun k => if k = cls then 0 else c.at k cls).sum

/-- The keys of a row, none for a missing one. -/
def ConfMat.rowKeys (c : ConfMat) (k : String) : List String := ((c.get? k).getD []).map Prod.fst

/-- `GetFalseNegatives`, evaluation/confusion.go:61-70. -/
def falseNeg (cls : String) (c : ConfMat) : Nat :=
  ((c.rowKeys cls).map fun k => if k = cls then 0 else c.at cls k).sum

/-- `GetTrueNegatives`, evaluation/confusion.go:74-88. -/
def trueNeg (cls : String) (c : ConfMat) : Nat :=
  ((c.map Prod.fst).map fun k => if k = cls then 0 else
    ((c.rowKeys k).map fun l => if l = cls then 0 else c.at k l).sum).sum

/-- `float64` division when the only division by zero is 0/0. -/
def fdiv (a b : ℚ) : Option ℚ := if b = 0 then none else some (a / b)

/-- `GetPrecision`, evaluation/confusion.go:92-97. -/
def precision (cls : String) (c : ConfMat) : Option ℚ :=
  fdiv (truePos cls c) (truePos cls c + falsePos cls c)

/-- `GetRecall`, evaluation/confusion.go:101-106. -/
def recall (cls : String) (c : ConfMat) : Option ℚ :=
  fdiv (truePos cls c) (truePos cls c + falseNeg cls c)

/-- `GetF1Score`, evaluation/confusion.go:110-114. -/
def f1Score (cls : String) (c : ConfMat) : Option ℚ :=
  (precision cls c).bind fun p => (recall cls c).bind fun r => fdiv (2 * (p * r)) (p + r)

/-- `GetAccuracy`, evaluation/confusion.go:118-130. -/
def accuracy (c : ConfMat) : Option ℚ :=
  fdiv (((c.map Prod.fst).map fun i => ((c.rowKeys i).map fun j => if i = j then c.at i j else 0).sum).sum : Nat)
    (((c.map Prod.fst).map fun i => ((c.rowKeys i).map fun j => c.at i j).sum).sum : Nat)

/-- `GetMicroPrecision`, evaluation/confusion.go:134-142. -/
def microPrecision (c : ConfMat) : Option ℚ :=
  let t := ((c.map Prod.fst).map fun k => truePos k c).sum
  let f := ((c.map Prod.fst).map fun k => falsePos k c).sum
  fdiv t (t + f)

/-- `GetMicroRecall`, evaluation/confusion.go:156-164. -/
def microRecall (c : ConfMat) : Option ℚ :=
  let t := ((c.map Prod.fst).map fun k => truePos k c).sum
  let f := ((c.map Prod.fst).map fun k => falseNeg k c).sum
  fdiv t (t + f)

/-- A sum of floats, NaN as soon as one summand is. -/
def fsum : List (Option ℚ) → Option ℚ
  | [] => some 0
  | x :: xs => x.bind fun a => (fsum xs).map fun b => a + b

/-- `GetMacroPrecision`, evaluation/confusion.go:146-152. -/
def macroPrecision (c : ConfMat) : Option ℚ :=
  (fsum ((c.map Prod.fst).map fun k => precision k c)).bind fun s => fdiv s c.length

/-- `GetMacroRecall`, evaluation/confusion.go:168-174. -/
def macroRecall (c : ConfMat) : Option ℚ :=
  (fsum ((c.map Prod.fst).map fun k => recall k c)).bind fun s => fdiv s c.length

/-! ## Cross validation -/

/-- `GetCrossValidatedMetric`, evaluation/cross_fold.go:10-30, on the scores of the folds. -/
def crossMean (scores : List (Option ℚ)) : Option ℚ := (fsum scores).bind fun s => fdiv s scores.length

/-- The variance computed at evaluation/cross_fold.go:23-29. -/
def crossVariance (scores : List (Option ℚ)) : Option ℚ :=
  (crossMean scores).bind fun m =>
    (fsum (scores.map fun s => s.map fun x => (x - m) * (x - m))).bind fun s => fdiv s scores.length

/-- `inverseFoldMap[f]`, evaluation/cross_fold.go:38-47: the rows drawn into fold `f`, in order; the
zero value of a missing key is the empty slice. `draw i` is the result of the `i`-th
`rand.Intn(folds)`. -/
def foldRows (draw : Nat → Nat) (rows f : Nat) : List Nat :=
  (List.range rows).filter fun i => draw i == f

/-- `otherRows`, evaluation/cross_fold.go:55-61. -/
def otherRows (draw : Nat → Nat) (rows folds f : Nat) : List Nat :=
  (List.range folds).flatMap fun j => if f = j then [] else foldRows draw rows j

/-- A classifier with internal state `σ`, base/classifier.go:8-25. -/
structure ClassifierOps (σ : Type) where
  fit : σ → Grid → Res σ
  predict : σ → Grid → Res (σ × Grid)

/-- The loop at evaluation/cross_fold.go:52-79 over the remaining folds. -/
def crossLoop {σ : Type} (fo : FloatOps) (srt : List Spec → List Spec) (cls : ClassifierOps σ) (data : Grid)
    (draw : Nat → Nat) (folds : Nat) : σ → List Nat → Res (List ConfMat)
  | _, [] => Res.ok []
  | s, f :: fs =>
    (data.resolve srt data.allAttributes).bind fun specs1 =>
      let test := Grid.viewFromVisible data (foldRows draw data.size.2 f) specs1
      (data.resolve srt data.allAttributes).bind fun specs2 =>
        let train := Grid.viewFromVisible data (otherRows draw data.size.2 folds f) specs2
        (cls.fit s train).bind fun s1 =>
          (cls.predict s1 test).bind fun q =>
            (getConfusionMatrix fo test q.2).bind fun cf =>
              (crossLoop fo srt cls data draw folds q.1 fs).map fun rest => cf :: rest

/-- `GenerateCrossFoldValidationConfusionMatrices`, evaluation/cross_fold.go:34-81. `rand.Intn` panics
when `folds` is not positive and there is a row. -/
def crossValidate {σ : Type} (fo : FloatOps) (srt : List Spec → List Spec) (cls : ClassifierOps σ) (s : σ)
    (data : Grid) (draw : Nat → Nat) (folds : Nat) : Res (List ConfMat) :=
  if folds = 0 ∧ data.size.2 ≠ 0 then Res.panic
  else crossLoop fo srt cls data draw folds s (List.range folds)

end Golearn
