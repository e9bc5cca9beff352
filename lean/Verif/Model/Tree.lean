import Verif.Model.Knn
import Verif.Model.Eval
import Verif.Model.Regression

/-!
# ID3 decision trees (trees/id3.go)

A node whose `Children` are `nil` is `leaf`, whatever its `Type`; any other node is `split`. A Go map is its list of
keys and a function. Every iteration over a map may use another order, so the orders are parameters that can
depend on the place of the node in the tree, given as the path of branch names from the root, and on the row.
-/

namespace Golearn

/-- `DecisionTreeRule`, trees/id3.go:30-33. -/
structure Rule where
  attr : Attr
  val : U64
  deriving DecidableEq

/-- `DecisionTreeNode`, trees/id3.go:105-112. The class attribute is left out: it is only used to save the tree. -/
inductive Tree where
  | leaf (dist : GoMap String Nat) (cls : String)
  | split (dist : GoMap String Nat) (cls : String) (rule : Rule) (keys : List String) (child : String → Tree)

/-- `ClassDist`. -/
def Tree.dist : Tree → GoMap String Nat
  | .leaf d _ => d
  | .split d _ _ _ _ => d

/-- `Class`. -/
def Tree.cls : Tree → String
  | .leaf _ c => c
  | .split _ c _ _ _ => c

/-- What building a tree depends on besides the data. -/
structure TreeEnv where
  fo : FloatOps
  srt : List Spec → List Spec
  /-- The order in which `MapOverRows` visits the rows. -/
  order : List String → Grid → List Nat
  /-- The order of iteration over the class distribution. -/
  classes : List String → List String → List String
  /-- `GenerateSplitRule`; `none` is a nil rule or a rule with a nil attribute. -/
  gen : List String → Grid → Res (Option Rule)

/-- The loop at trees/id3.go:214-221, in the given order. -/
def majorityClass (classes : GoMap String Nat) (order : List String) : String :=
  (argmaxLoop (fun c => (classes.get? c).getD 0) order ("", 0)).1

/-- The split at trees/id3.go:256-262. -/
def splitOn (e : TreeEnv) (path : List String) (g : Grid) (r : Rule) : Res (GoMap String Grid) :=
  if r.attr.isFloat then decomposeThreshold e.fo e.srt g r.attr r.val (e.order path g)
  else decomposeValues e.fo e.srt g r.attr (e.order path g)

/-- `InferID3Tree`, trees/id3.go:191-271. Every split removes an attribute, so the recursion ends; the number of attributes
bounds it, and `inferID3` gives one step more than that. -/
def inferLoop (e : TreeEnv) : Nat → List String → Grid → Res Tree
  | 0, _, _ => Res.panic
  | fuel + 1, path, g =>
    (getClassDistribution e.fo g).bind fun classes =>
      match g.allClassAttributes with
      | [] => Res.panic
      | _ :: _ =>
        match classes with
        | [(c, n)] => Res.ok (.leaf [(c, n)] c)
        | _ =>
          let cls := majorityClass classes (e.classes path (classes.map Prod.fst))
          if g.size.1 = 2 then Res.ok (.leaf classes cls)
          else
            (e.gen path g).bind fun rule =>
              match rule with
              | none => Res.ok (.leaf classes cls)
              | some r =>
                (splitOn e path g r).bind fun parts =>
                  (mapRes (fun p => (inferLoop e fuel (path ++ [p.1]) p.2).map fun t => (p.1, t)) parts).map fun ch =>
                    .split classes cls r (ch.map Prod.fst) fun k => (GoMap.get? ch k).getD (.leaf [] "")

/-- `InferID3Tree`. -/
def inferID3 (e : TreeEnv) (g : Grid) : Res Tree := inferLoop e (g.allAttributes.length + 1) [] g

/-! ## Prediction -/

/-- The loop at trees/id3.go:398-404: the first branch, in the order of iteration, that comes after the value, else the
last branch; the empty string if there are none. -/
def bestChild (v : String) : List String → String → String
  | [], best => best
  | c :: cs, _ => if v < c then c else bestChild v cs c

/-- The descent at trees/id3.go:366-408 for one row. `ord` is the order of iteration over the children. A map without
children is not `nil`, and indexing it gives a nil node, which panics. -/
def treeClass (fo : FloatOps) (g : Grid) (ord : List String → List String) (row : Nat) : Tree → Res String
  | .leaf _ c => Res.ok c
  | .split _ _ r keys child =>
    (g.getAttribute r.attr).orPanic.bind fun s =>
      (g.get s row).bind fun v =>
        (if s.attr.isFloat then thresholdKey fo r.val v else s.attr.getString fo v).bind fun k =>
          if k ∈ keys then treeClass fo g ord row (child k)
          else if bestChild k (ord keys) "" ∈ keys then treeClass fo g ord row (child (bestChild k (ord keys) ""))
          else Res.panic

/-- What a prediction depends on besides the tree and the data. -/
structure PredEnv where
  fo : FloatOps
  parse : String → Option U64
  pg : Nat
  srt : List Spec → List Spec
  /-- The order of iteration over the set of the attributes that are not class attributes. -/
  normal : List Attr → List Attr
  /-- The order in which `MapOverRows` visits the rows. -/
  order : Grid → List Nat
  /-- The order of iteration over the children, for a row. -/
  ord : Nat → List String → List String

/-- `DecisionTreeNode.Predict`, trees/id3.go:356-412. Storing the class is `SetClass`: the value of the string in the class
attribute of the predictions. The predictions have the class attributes of the input. -/
def treePredict (e : PredEnv) (t : Tree) (what : Grid) : Res Dense :=
  (generatePredictionVector e.pg what).bind fun ret =>
    (what.resolve e.srt (e.normal what.normalAttrs)).bind fun as =>
      keepState (what.mapOverRows as (e.order what) (fun d _ row =>
        (treeClass e.fo what (e.ord row) row t).bind fun c => (setClass e.fo e.parse d row c).map fun d' => (d', Ctl.cont)) ret) ret

/-! ## Pruning -/

/-- `computeAccuracy`, trees/id3.go:310-313: an error leaves a nil matrix, whose accuracy is NaN. -/
def treeAccuracy (e : PredEnv) (t : Tree) (using' : Grid) : Res (Option ℚ) :=
  (treePredict e t using').bind fun p =>
    match getConfusionMatrix e.fo using' (.dense p) with
    | .ok cf => Res.ok (accuracy cf)
    | .err => Res.ok (accuracy [])
    | .panic => Res.panic

/-- `<` on floats, false if one is NaN. -/
def flt (a b : Option ℚ) : Bool :=
  match a, b with
  | some x, some y => decide (x < y)
  | _, _ => false

/-- What pruning depends on: the environment of a prediction at a node, and the order of the rows in the decomposition. -/
structure PruneEnv where
  fo : FloatOps
  srt : List Spec → List Spec
  order : List String → Grid → List Nat
  /-- `false` for the prediction with the children, `true` for the one without. -/
  pred : List String → Bool → PredEnv

/-- `Prune`, trees/id3.go:316-353. The decomposition is by values even if the rule is a threshold. -/
def pruneTree (e : PruneEnv) : Tree → List String → Grid → Res Tree
  | .leaf d c, _, _ => Res.ok (.leaf d c)
  | .split d c r keys child, path, g =>
    (decomposeValues e.fo e.srt g r.attr (e.order path g)).bind fun sub =>
      (mapRes (fun k =>
        match GoMap.get? sub k with
        | none => Res.ok (k, child k)
        | some s =>
          if s.size.1 = 0 ∨ s.size.2 = 0 then Res.ok (k, child k)
          else (pruneTree e (child k) (path ++ [k]) s).map fun t => (k, t)) keys).bind fun ch =>
        let t := Tree.split d c r keys fun k => (GoMap.get? ch k).getD (child k)
        (treeAccuracy (e.pred path false) t g).bind fun baseline =>
          (treeAccuracy (e.pred path true) (.leaf d c) g).map fun new =>
            if flt new baseline then t else .leaf d c

end Golearn
