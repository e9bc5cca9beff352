import Verif.Model.Entropy
import Verif.Model.Bagging

/-!
# Random forests (ensemble/randomforest.go)

A forest is a bagged model of ID3 trees. The goroutines of `Fit` share nothing but the map of selected attributes, which
Model/Bagging models, so what each of them computes is a function of the number of the model.
-/

namespace Golearn

/-- What growing the trees of a forest depends on besides the data, for each model. -/
structure ForestEnv (K : Type) where
  fo : FloatOps
  srt : List Spec → List Spec
  /-- The order of iteration over the set of the attributes that are not class attributes. -/
  attrs : Nat → List Attr → List Attr
  /-- The draws of attributes. -/
  pick : Nat → Nat → Nat
  /-- The draws of rows. -/
  rows : Nat → Nat → Nat
  /-- The order in which `MapOverRows` visits the rows, at each node of the tree. -/
  order : Nat → List String → Grid → List Nat
  /-- The order of iteration over the class distribution, at each node. -/
  classes : Nat → List String → List String → List String
  /-- What the rule generator depends on, at each node. -/
  rule : Nat → List String → RuleEnv K

section
variable {K : Type} [Field K] [LinearOrder K]

/-- What building the tree of model `i` depends on. `NewID3DecisionTree`, trees/id3.go:517-524, sets the generator of
information gain. -/
def ForestEnv.treeEnv (e : ForestEnv K) (i : Nat) : TreeEnv :=
  ⟨e.fo, e.srt, e.order i, e.classes i, fun p => infoGain (e.rule i p)⟩

/-- The goroutine of model `i`, meta/bagging.go:88-92: the attributes it selects and the tree it fits. The trees are made
at ensemble/randomforest.go:48 with a `PruneSplit` of zero, so fitting one is `InferID3Tree` (trees/id3.go:538-547).
`none` means that the given number of draws did not complete the selection of the attributes. -/
def forestTree (e : ForestEnv K) (features fuel : Nat) (g : Grid) (i : Nat) : Option (Res (List Attr × Tree)) :=
  (trainingAttrs (e.attrs i g.normalAttrs) g.allClassAttributes features (e.pick i) fuel).map fun r =>
    r.bind fun sel => (trainingInstances e.srt (e.rows i) g sel).bind fun v =>
      (inferID3 (e.treeEnv i) v).map fun t => (sel, t)

end

/-- The bagged model made of trees: `ID3DecisionTree.Predict`, trees/id3.go:550-552, for each. -/
def treesBag (p : Nat → PredEnv) (trees : List Tree) (selected : GoMap Nat (List Attr)) : Bagged :=
  ⟨trees.zipIdx.map fun x l => (treePredict (p x.2) x.1 l).map Grid.dense, selected⟩

end Golearn
