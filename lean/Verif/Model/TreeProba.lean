import Verif.Model.Tree

/-! # Class probabilities of a decision tree (trees/id3.go). Probabilities are exact; `none` is NaN. -/

namespace Golearn

/-- `ClassProba`, trees/id3.go:414-417. -/
structure ClassProba where
  prob : Option ℚ
  cls : String
  deriving DecidableEq

/-- Quotient of two counts as floats: zero divided by zero is NaN (a count is at most the total). -/
def countRatio (k total : Nat) : Option ℚ := if total = 0 then none else some ((k : ℚ) / (total : ℚ))

/-- The two loops at trees/id3.go:448-455. `ord` is the order of the second iteration over the distribution; the sum does
not depend on the order of the first. -/
def leafProbas (ord : List String → List String) (dist : GoMap String Nat) : List ClassProba :=
  (ord (dist.map Prod.fst)).map fun c => ⟨countRatio ((dist.get? c).getD 0) (dist.map Prod.snd).sum, c⟩

/-- The descent at trees/id3.go:446-495 for one row, ending in the distribution of a leaf. -/
def treeDistAt (fo : FloatOps) (g : Grid) (ord : List String → List String) (row : Nat) : Tree → Res (GoMap String Nat)
  | .leaf d _ => Res.ok d
  | .split _ _ r keys child =>
    (g.getAttribute r.attr).orPanic.bind fun s =>
      (g.get s row).bind fun v =>
        (if s.attr.isFloat then thresholdKey fo r.val v else s.attr.getString fo v).bind fun k =>
          if k ∈ keys then treeDistAt fo g ord row (child k)
          else if bestChild k (ord keys) "" ∈ keys then treeDistAt fo g ord row (child (bestChild k (ord keys) ""))
          else Res.panic

/-- `PredictProba`, trees/id3.go:433-499. `sortProbas` is `sort.Sort` with `Less` at trees/id3.go:427-429, `classOrd` the order of
iteration over the distribution. -/
def treePredictProba (e : PredEnv) (sortProbas : List ClassProba → List ClassProba)
    (classOrd : List String → List String) (t : Tree) (what : Grid) : Res (List ClassProba) :=
  (generatePredictionVector e.pg what).bind fun _ =>
    (what.resolve e.srt (e.normal what.normalAttrs)).bind fun as =>
      if what.size.2 > 1 then Res.panic
      else
        keepState (what.mapOverRows as (e.order what) (fun out _ row =>
          (treeDistAt e.fo what (e.ord row) row t).map fun d => (sortProbas (out ++ leafProbas classOrd d), Ctl.cont)) []) []

end Golearn
