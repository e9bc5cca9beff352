import Verif.Model.SaveBag
import Verif.Model.Knn

/-! # The k nearest neighbours classifier as a whole: dispatch, saving and loading (knn/knn.go) -/

namespace Golearn

/-- `KNNClassifier`, knn/knn.go:24-32, after `Fit`. A negative number of neighbours is not modelled. -/
structure KnnModel where
  distance : String
  algorithm : String
  neighbours : Nat
  weighted : Bool
  allowOpt : Bool
  train : Grid

/-- `NewKnnClassifier`, knn/knn.go:35-43, and `Fit`, knn/knn.go:46-49. -/
def KnnModel.new (distance algorithm : String) (neighbours : Nat) (train : Grid) : KnnModel :=
  ⟨distance, algorithm, neighbours, false, true, train⟩

/-! ## Prediction -/

/-- The distance functions of metrics/pairwise. -/
structure KnnMetrics (R : Type) where
  euclidean : List R → List R → R
  manhattan : List R → List R → R
  cosine : List R → List R → R

/-- The distance function with a name, knn/knn.go:104-114. -/
def KnnMetrics.named {R : Type} (M : KnnMetrics R) (s : String) : Option (List R → List R → R) :=
  if s = "euclidean" then some M.euclidean
  else if s = "manhattan" then some M.manhattan
  else if s = "cosine" then some M.cosine
  else none

/-- What a prediction depends on besides a `KnnEnv`: `ord` are the orders of iteration over the votes, `srtKd` is the sort of
the k-d tree, `orderB` the row order of the iteration that collects its points, `srtD` the sort of the optimised path,
`layout` the order of the groups when the layouts are compared and `names` the orders of the groups in the optimised path. -/
structure KnnChoices (R : Type) where
  ord : Nat → List String → List String
  srtKd : List (List R) → Nat → List Nat → List Nat
  orderB : List Nat
  srtD : List (R × Nat) → List (R × Nat)
  layout : List String
  names : Nat → List String

section
variable {R : Type} [Field R] [LinearOrder R]

/-- Whether the optimised path is taken, knn/knn.go:129-135, and with which dense instances. -/
def knnOptimised (c : KnnChoices R) (m : KnnModel) (what : Grid) : Res (Option (Dense × Dense)) :=
  if m.algorithm = "linear" ∧ m.allowOpt = true ∧ m.distance = "euclidean" then
    match what, m.train with
    | .dense pr, .dense tr => (canUseOptimisations pr tr c.layout).map fun b => if b then some (pr, tr) else none
    | _, _ => Res.ok none
  else Res.ok none

/-- The rest of `Predict`, knn/knn.go:137-266. -/
def knnGeneral (e : KnnEnv R) (c : KnnChoices R) (m : KnnModel) (what : Grid) : Res Dense :=
  if m.algorithm = "linear" then
    if m.weighted then
      knnPredictLinear e m.neighbours m.train what (fun r out v => weightedVote e.fo m.train (c.ord r) v out) []
    else
      knnPredictLinear e m.neighbours m.train what (fun r out v => vote e.fo m.train (c.ord r) v (out.map Prod.fst)) []
  else
    if m.weighted then
      knnPredictTree e c.srtKd c.orderB m.neighbours m.train what (fun r out v => weightedVote e.fo m.train (c.ord r) v out) []
    else
      knnPredictTree e c.srtKd c.orderB m.neighbours m.train what
        (fun r out v => vote e.fo m.train (c.ord r) v (out.map Prod.fst)) []

/-- `Predict`, knn/knn.go:102-266. The distance function of `e` is not used. -/
def knnPredict (M : KnnMetrics R) (e : KnnEnv R) (c : KnnChoices R) (m : KnnModel) (what : Grid) : Res Dense :=
  match M.named m.distance with
  | none => Res.err
  | some dist =>
    if m.algorithm ≠ "linear" ∧ m.algorithm ≠ "kdtree" then Res.err
    else
      match checkCompatible what m.train with
      | none => Res.err
      | some _ =>
        (knnOptimised c m what).bind fun
          | some (pr, tr) => optimisedPredict e.fo e.parse e.pg e.val c.srtD c.ord m.neighbours tr pr c.names
          | none => knnGeneral { e with dist := dist } c m what
end

/-! ## Files -/

/-- `GetMetadata`, knn/knn.go:329-344: the parameters. -/
def knnParams (m : KnnModel) : Json :=
  .obj [("distance_func", .str m.distance), ("algorithm", .str m.algorithm), ("neighbours", .num m.neighbours),
    ("weighted", .bool m.weighted), ("allow_optimizations", .bool m.allowOpt)]

/-- `KNNClassifier.SaveWithPrefix`, knn/knn.go:357-364. `order` is the row order of the training data. The file is closed. -/
def saveKnn (G : GridEnv) (nilVals : Bool) (order : List Nat) (m : KnnModel) (w : Writer) (pre : String) : Res Writer :=
  if w.closed then Res.err
  else (serializeInstances G.srt nilVals (G.cls m.train) (G.nrm m.train) order m.train (tarPrefix pre "TrainingInstances")).bind fun es =>
    Writer.close { w with entries := w.entries ++ es }

/-- `KNNClassifier.Save`, knn/knn.go:347-354: the entries of the file. -/
def saveKnnFile (G : GridEnv) (nilVals : Bool) (order : List Nat) (m : KnnModel) : Res Archive :=
  (saveKnn G nilVals order m (newWriter (metadataJson "KNN" "1.0" (knnParams m))) "").map Writer.entries

/-- `x.(string)`; anything else is a panic, also a missing entry. -/
def assertString : Option Json → Res String
  | some (.str s) => Res.ok s
  | _ => Res.panic

/-- `x.(bool)`. -/
def assertBool : Option Json → Res Bool
  | some (.bool b) => Res.ok b
  | _ => Res.panic

/-- `int(x.(float64))`: whole numbers pass through `float64`. Other numbers, and negative ones, are not modelled. -/
def assertInt (viaFloat : Int → Int) : Option Json → Res Nat
  | some (.num n) => Res.ok (viaFloat n).toNat
  | _ => Res.panic

/-- `KNNClassifier.LoadWithPrefix`, knn/knn.go:377-405. -/
def loadKnn (G : GridEnv) (viaFloat : Int → Int) (ar : Archive) (pre : String) : Res KnnModel :=
  (readMetadataAt ar pre).bind fun j =>
    (jsonStringField j "classifier").bind fun name => (jsonStringField j "ClassifierVersion").bind fun version =>
    if name ≠ "KNN" then Res.err
    else if version ≠ "1.0" then Res.err
    else
      let param := fun k => (j.field "classifier_metadata").bind fun p => p.field k
      (assertString (param "distance_func")).bind fun distance =>
        (assertString (param "algorithm")).bind fun algorithm =>
          (assertBool (param "weighted")).bind fun weighted =>
            (assertBool (param "allow_optimizations")).bind fun allowOpt =>
              (assertInt viaFloat (param "neighbours")).bind fun neighbours =>
                (getInstancesForKey G viaFloat ar (tarPrefix pre "TrainingInstances")).map fun d =>
                  ⟨distance, algorithm, neighbours, weighted, allowOpt, .dense d⟩

/-- `KNNClassifier.Load`, knn/knn.go:367-374, and `ReloadKNNClassifier`, knn/knn.go:408-415. -/
def loadKnnFile (G : GridEnv) (viaFloat : Int → Int) (ar : Archive) : Res KnnModel :=
  (readStub ar).bind fun ar => loadKnn G viaFloat ar ""

end Golearn
