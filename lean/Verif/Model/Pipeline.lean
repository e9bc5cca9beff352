import Verif.Model.Eval
import Verif.Model.SaveKnn
import Verif.Model.NaiveBayes
import Verif.Model.Id3

/-! # Classifiers as cross validation sees them (base/classifier.go) -/

namespace Golearn

section
variable {R : Type} [Field R] [LinearOrder R]

/-- `KNNClassifier` as a `Classifier`: `Fit`, knn/knn.go:46-49, stores the data, `Predict`, knn/knn.go:102-266, returns the
predictions. The arbitrary choices of a prediction may depend on the training data and on the data to predict. -/
def knnOps (M : KnnMetrics R) (e : Grid → Grid → KnnEnv R) (c : Grid → Grid → KnnChoices R) : ClassifierOps KnnModel where
  fit m train := Res.ok { m with train := train }
  predict m what := (knnPredict M (e m.train what) (c m.train what) m what).map fun d => (m, .dense d)
end

/-- The arbitrary choices and library functions naive Bayes depends on: `order` are the orders of the rows of a grid, `ordC` the
orders of iteration over the classes when training on a grid, `ordP` those for a row of the data to predict, and `low` is
`-math.MaxFloat64`. -/
structure NbEnv (K : Type) where
  fo : FloatOps
  parse : String → Option U64
  pg : Nat
  srt : List Spec → List Spec
  order : Grid → List Nat
  ordC : Grid → List String → List String
  ordP : Grid → Nat → List String → List String
  log : K → K
  low : K

/-- `BernoulliNBClassifier` as a `Classifier`: `Fit`, naive/bernoulli_nb.go:189-266, with the conditional probabilities of earlier
calls left in place, and `Predict`, naive/bernoulli_nb.go:321-334. -/
def nbOps {K : Type} [Field K] [LinearOrder K] (e : NbEnv K) : ClassifierOps (NB K) where
  fit nb train := nbFit e.fo e.srt (e.order train) (e.ordC train) nb.condProb train
  predict nb what := (nbPredict e.log e.low e.fo e.parse e.pg e.srt (e.order what) (e.ordP what) nb what).map fun d => (nb, .dense d)

/-- `RandomTree` as a `Classifier`: `Fit`, trees/random.go:71-74, replaces the tree, and `Predict`, trees/random.go:77-79, leaves it.
Before training the tree is nil and cannot be asked. The arbitrary choices may depend on the data. -/
def randomTreeOps (e : Grid → TreeEnv) (p : Grid → PredEnv) : ClassifierOps (Option Tree) where
  fit _ train := (inferID3 (e train) train).map some
  predict t what :=
    match t with
    | none => Res.panic
    | some t => (treePredict (p what) t what).map fun d => (some t, .dense d)

/-- `ID3DecisionTree` as a `Classifier`: `Fit`, trees/id3.go:538-547, and `Predict`, trees/id3.go:550-552. -/
def id3Ops (e : Grid → Id3Env) (prune : Bool) (pct : Int) (p : Grid → PredEnv) : ClassifierOps (Option Tree) where
  fit _ train := (id3Fit (e train) prune pct train).map fun q => some q.1
  predict t what :=
    match t with
    | none => Res.panic
    | some t => (treePredict (p what) t what).map fun d => (some t, .dense d)

end Golearn
