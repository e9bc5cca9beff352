import Verif.Model.SaveKnn
import Verif.Model.SaveSvc

/-!
# Loading into a classifier that is in use

`LoadWithPrefix` and `Load` are methods of a classifier and change it as they go. Here they give the classifier as it is afterwards, and the
outcome. After a panic the classifier is as it was left, for a caller that recovers.
-/

namespace Golearn

/-- The outcome alone. -/
def Res.void {α : Type} (r : Res α) : Res Unit := r.map fun _ => ()

/-- A classifier afterwards, and the outcome. -/
abbrev After (σ : Type) := σ × Res Unit

/-- `ReadSerializedClassifierStub` comes first; if it fails the classifier is as before. For trees: trees/id3.go:581-587,
trees/random.go:110-116; knn/knn.go:367-374; naive/bernoulli_nb.go:82-89; linear_models/linearsvc.go:294-304; meta/bagging.go:214-223. -/
def reloadFile {σ : Type} (reload : σ → Archive → After σ) (old : σ) (ar : Archive) : After σ :=
  match readStub ar with
  | .ok ar' => reload old ar'
  | r => (old, r.void)

/-- The root of an `ID3DecisionTree` or a `RandomTree` and its class attribute, `none` for nil. -/
structure RootNode where
  tree : Tree
  cls : Option AttrBody

/-- `LoadWithPrefix` of `ID3DecisionTree` (trees/id3.go:589-592) and `RandomTree` (trees/random.go:119-122), with that of `DecisionTreeNode`
(trees/id3.go:167-187). The old root is replaced by an empty node first. `junk` is what `json.Unmarshal` leaves when it fails. -/
def reloadTree (L : LoadEnv) (junk : Json → Tree) (pre : String) (_old : Option RootNode) (ar : Archive) : After (Option RootNode) :=
  match getNamedFile ar (tarPrefix pre "tree") with
  | .ok (.json j) =>
    match treeOfJson L (j.depth + 1) [] j with
    | .ok t =>
      match getAttributeForKey L.viaFloat ar (tarPrefix pre "treeClassAttr") with
      | .ok a => (some ⟨t, some a⟩, Res.ok ())
      | r => (some ⟨t, none⟩, r.void)
    | r => (some ⟨junk j, none⟩, r.void)
  | .ok (.bytes _) => (some ⟨.leaf [] "", none⟩, Res.err)
  | r => (some ⟨.leaf [] "", none⟩, r.void)

/-- A `KNNClassifier`, knn/knn.go:24-32; the training data is `none` for nil. -/
structure KnnHolder where
  distance : String
  algorithm : String
  neighbours : Nat
  weighted : Bool
  allowOpt : Bool
  train : Option Grid

/-- A fitted classifier. -/
def KnnModel.holder (m : KnnModel) : KnnHolder := ⟨m.distance, m.algorithm, m.neighbours, m.weighted, m.allowOpt, some m.train⟩

/-- The assignments at knn/knn.go:391-402, one after the other. -/
def knnAssign (viaFloat : Int → Int) (param : String → Option Json) (s : KnnHolder) : After KnnHolder :=
  match assertString (param "distance_func") with
  | .ok x =>
    let s := { s with distance := x }
    match assertString (param "algorithm") with
    | .ok x =>
      let s := { s with algorithm := x }
      match assertBool (param "weighted") with
      | .ok x =>
        let s := { s with weighted := x }
        match assertBool (param "allow_optimizations") with
        | .ok x =>
          let s := { s with allowOpt := x }
          match assertInt viaFloat (param "neighbours") with
          | .ok x => ({ s with neighbours := x }, Res.ok ())
          | r => (s, r.void)
        | r => (s, r.void)
      | r => (s, r.void)
    | r => (s, r.void)
  | r => (s, r.void)

/-- `KNNClassifier.LoadWithPrefix`, knn/knn.go:377-405. The training data is assigned also when it cannot be read. -/
def reloadKnn (G : GridEnv) (viaFloat : Int → Int) (pre : String) (old : KnnHolder) (ar : Archive) : After KnnHolder :=
  match (readMetadataAt ar pre).bind fun j =>
      (jsonStringField j "classifier").bind fun name => (jsonStringField j "ClassifierVersion").bind fun version =>
        if name ≠ "KNN" then Res.err else if version ≠ "1.0" then Res.err else Res.ok j with
  | .ok j =>
    let r := knnAssign viaFloat (fun k => (j.field "classifier_metadata").bind fun p => p.field k) old
    match r.2 with
    | .ok _ =>
      match getInstancesForKey G viaFloat ar (tarPrefix pre "TrainingInstances") with
      | .ok d => ({ r.1 with train := some (.dense d) }, Res.ok ())
      | .err => ({ r.1 with train := none }, Res.err)
      | .panic => (r.1, Res.panic)
    | _ => r
  | r => (old, r.void)

section
variable {K : Type}

/-- `BernoulliNBClassifier.LoadWithPrefix`, naive/bernoulli_nb.go:91-136: nothing is assigned before everything has been read. -/
def reloadNB (G : GridEnv) (viaFloat : Int → Int) (val : U64 → K) (pre : String) (old : NB K × Dense) (ar : Archive) : After (NB K × Dense) :=
  match loadNB G viaFloat val ar pre with
  | .ok m => (m, Res.ok ())
  | r => (old, r.void)

variable [Field K] [LinearOrder K]

/-- `LinearSVC.LoadWithPrefix`, linear_models/linearsvc.go:306-331. The parameters are read in place; `junk` is what is left when that fails. The
model is replaced by an empty one before it is read. -/
def reloadSvc (E : SvcEnv K) (junk : Option (SvcParams K) → Json → Option (SvcParams K)) (pre : String) (old : SvcModel K) (ar : Archive) :
    After (SvcModel K) :=
  match getJsonForKey ar (tarPrefix pre "PARAMETERS") with
  | .ok j =>
    match svcParamsOfJson E j with
    | .ok params =>
      match getNamedFile ar (tarPrefix pre "MODEL") with
      | .ok (.bytes b) =>
        match (E.parse b).bind (loadModelText E.rnd) with
        | .ok m => (⟨params, some m⟩, Res.ok ())
        | r => (⟨params, none⟩, r.void)
      | .ok (.json _) => (⟨params, none⟩, Res.err)
      | r => (⟨params, old.model⟩, r.void)
    | r => (⟨junk old.params j, old.model⟩, r.void)
  | r => (old, r.void)
end

/-- The fields of a `BaggedModel`, meta/bagging.go:18-25; `fitOn` is `none` for nil. -/
structure BagHolder (μ : Type) where
  features : U64
  models : List μ
  fitOn : Option Dense
  selected : GoMap Nat (List Attr)

/-- The loop over the classifiers, meta/bagging.go:308-314; it stops at the first error. -/
def reloadEach {μ : Type} (reload : Nat → μ → After μ) : Nat → List μ → After (List μ)
  | _, [] => ([], Res.ok ())
  | i, m :: ms =>
    match reload i m with
    | (m', .ok _) => let r := reloadEach reload (i + 1) ms; (m' :: r.1, r.2)
    | (m', r) => (m' :: ms, r)

/-- `BaggedModel.LoadWithPrefix`, meta/bagging.go:292-350. `partly` is what is in the new map of the selected attributes when reading it stops
with an error. -/
def reloadBag {μ : Type} (G : GridEnv) (viaFloat : Int → Int) (reload : Nat → String → μ → Archive → After μ)
    (partly : GoMap Nat (List Attr)) (pre : String) (old : BagHolder μ) (ar : Archive) : After (BagHolder μ) :=
  match getU64ForKey ar (tarPrefix pre "NUM_RANDOM_FEATURES") with
  | .ok features =>
    let r := reloadEach (fun i m => reload i (bagKey pre i) m ar) 0 old.models
    let s : BagHolder μ := { old with features := features, models := r.1 }
    match r.2 with
    | .ok _ =>
      match getInstancesForKey G viaFloat ar (tarPrefix pre "REFERENCE_INSTANCES") with
      | .ok d =>
        let s : BagHolder μ := { s with fitOn := some d }
        match getNamedFile ar (tarPrefix pre "SELECTED_ATTRIBUTES") with
        | .ok (.json (.obj l)) =>
          match mapRes (selectedOfJson viaFloat d) l with
          | .ok sel => ({ s with selected := sel }, Res.ok ())
          | r => ({ s with selected := partly }, r.void)
        | .ok (.json .null) => ({ s with selected := [] }, Res.ok ())
        | .ok _ => (s, Res.err)
        | r => (s, r.void)
      | r => (s, r.void)
    | e => (s, e)
  | r => (old, r.void)

/-! ## Loading a node in place -/

/-- Reading a map of counts into a map that is there: `encoding/json` keeps the other entries, and `null` empties it. -/
def distInto (old : GoMap String Nat) : Option Json → Res (GoMap String Nat)
  | none => Res.ok old
  | some .null => Res.ok []
  | some (.obj l) => (mapRes countOfJson l).map fun ps => ps.foldl (fun m p => m.set p.1 p.2) old
  | some _ => Res.err

/-- Reading children into a map of children that is there: those with the same keys are replaced by new nodes, the others are kept. -/
def childrenInto (old : Tree) (new : List (String × Tree)) : List (String × Tree) :=
  match old with
  | .leaf _ _ => new
  | .split _ _ _ keys child => new ++ (keys.filter fun k => decide (k ∉ new.map Prod.fst)).map fun k => (k, child k)

/-- `DecisionTreeNode.Load`, trees/id3.go:156-187, for the document of the tree: `json.Unmarshal` into the node itself. All fields are in the document;
missing ones are not modelled. -/
def nodeInto (L : LoadEnv) (old : Tree) : Json → Res Tree
  | .obj l =>
    (jsonStringField (.obj l) "class_string").bind fun c =>
      (distInto old.dist ((Json.obj l).field "class_dist")).bind fun d =>
        (ruleOfJson L (L.fresh []) ((Json.obj l).field "decision_tree_rule")).bind fun r =>
          match (Json.obj l).field "children" with
          | some .null => Res.ok (.leaf d c)
          | some (.obj ch) =>
            (mapRes (fun p => (treeOfJson L ((Json.obj l).depth) [p.1] p.2).map fun t => (p.1, t)) ch).bind fun ts =>
              nodeOf d c r (childrenInto old ts)
          | _ => Res.err
  | _ => Res.err

end Golearn
