import Verif.Model.Regression
import Mathlib.Algebra.Field.Defs
import Mathlib.Order.Defs.LinearOrder
import Mathlib.Data.List.Sort

/-!
# CART decision trees (trees/cart_classifier.go, trees/cart_regressor.go, trees/cart_utils.go)

The classifier and the regressor are the same code with different types of label, so they are modelled once, with the loss as
a parameter; line numbers of both are given. Numbers are elements of an ordered field `K`: nothing is rounded, and there is
no NaN. Labels are in `Y`, with a zero, the value of a fresh node.
-/

namespace Golearn

section
variable {K : Type} [Field K] [LinearOrder K] {Y : Type}

/-! ## Losses -/

/-- A loss with the label or number to predict. -/
abbrev Loss (K Y : Type) := List Y → Res (K × Y)

/-- `convertToMap`, trees/cart_classifier.go:43-52. -/
def convertToMap (y labels : List Int) : GoMap Int Nat :=
  y.foldl (fun m v => m.set v ((m.get? v).getD 0 + 1)) (labels.foldl (fun m l => m.set l 0) [])

/-- The choice of the most frequent label, trees/cart_classifier.go:62-64 and 79-81. -/
def modeStep (m : GoMap Int Nat) (best label : Int) : Int :=
  if (m.get? best).getD 0 < (m.get? label).getD 0 then label else best

/-- `computeGiniImpurityAndModeLabel`, trees/cart_classifier.go:55-69. -/
def giniLoss (labels y : List Int) : K × Int :=
  let m := convertToMap y labels
  labels.foldl (fun (acc : K × Int) l =>
    let p : K := (((m.get? l).getD 0 : Nat) : K) / ((y.length : Nat) : K)
    (acc.1 + p * (1 - p), modeStep m acc.2 l)) (0, 0)

/-- `computeEntropyAndModeLabel`, trees/cart_classifier.go:72-90. `lg` is `math.Log2`. -/
def entropyLoss (lg : K → K) (labels y : List Int) : K × Int :=
  let m := convertToMap y labels
  labels.foldl (fun (acc : K × Int) l =>
    let p : K := (((m.get? l).getD 0 : Nat) : K) / ((y.length : Nat) : K)
    (acc.1 + -p * (if p = 0 then 0 else lg p), modeStep m acc.2 l)) (0, 0)

/-- The criteria, after `strings.ToLower`. -/
inductive Criterion where
  | gini | entropy | mae | mse | other
  deriving DecidableEq

/-- `calculateClassificationLoss`, trees/cart_classifier.go:92-105. -/
def classLoss (lg : K → K) (labels : List Int) (c : Criterion) : Loss K Int := fun y =>
  if y = [] then Res.err
  else
    match c with
    | .gini => Res.ok (giniLoss labels y)
    | .entropy => Res.ok (entropyLoss lg labels y)
    | _ => Res.err

/-- `average`, trees/cart_regressor.go:43-50. -/
def averageOf (y : List K) : K := y.foldl (· + ·) 0 / ((y.length : Nat) : K)

/-- `meanAbsoluteError`, trees/cart_regressor.go:53-60. -/
def meanAbsErr (y : List K) (yBar : K) : K :=
  y.foldl (fun e t => e + (if t - yBar < 0 then -(t - yBar) else t - yBar)) 0 / ((y.length : Nat) : K)

/-- `meanSquaredError`, trees/cart_regressor.go:69-77. -/
def meanSqErr (y : List K) (yBar : K) : K :=
  y.foldl (fun e t => e + (t - yBar) * (t - yBar)) 0 / ((y.length : Nat) : K)

/-- `calculateRegressionLoss`, trees/cart_regressor.go:85-95. An empty list gives NaN in Go; it is modelled as a panic, and the
theorems show that it does not come up. -/
def regLoss (c : Criterion) : Loss K K := fun y =>
  if y = [] then Res.panic
  else
    match c with
    | .mae => Res.ok (meanAbsErr y (averageOf y), averageOf y)
    | .mse => Res.ok (meanSqErr y (averageOf y), averageOf y)
    | _ => Res.panic

/-! ## Splits -/

/-- The two sides of a split, rows and labels. -/
structure Split (K Y : Type) where
  left : List (List K)
  right : List (List K)
  leftY : List Y
  rightY : List Y
  deriving DecidableEq

/-- The loop of `classifierCreateSplit`, trees/cart_classifier.go:114-123, and `regressorCreateSplit`,
trees/cart_regressor.go:104-113. -/
def createLoop (f : Nat) (thr : K) : List (List K) → List Y → Split K Y → Res (Split K Y)
  | [], _, acc => Res.ok acc
  | x :: xs, ys, acc =>
    match x[f]?, ys with
    | some v, y :: ys =>
      createLoop f thr xs ys
        (if v < thr then { acc with left := acc.left ++ [x], leftY := acc.leftY ++ [y] }
          else { acc with right := acc.right ++ [x], rightY := acc.rightY ++ [y] })
    | _, _ => Res.panic

/-- `classifierCreateSplit` and `regressorCreateSplit`. -/
def createSplit (data : List (List K)) (f : Nat) (y : List Y) (thr : K) : Res (Split K Y) :=
  createLoop f thr data y ⟨[], [], [], []⟩

/-- The loop of `classifierUpdateSplit`, trees/cart_classifier.go:160-165, and `regressorUpdateSplit`,
trees/cart_regressor.go:148-153, over the right side. -/
def updateLoop (f : Nat) (thr : K) : List (List K) → List Y → List (List K) → List Y → Res (Split K Y)
  | [], _, _, _ => Res.panic
  | x :: xs, ys, left, leftY =>
    match x[f]? with
    | none => Res.panic
    | some v =>
      if v < thr then
        match ys with
        | [] => Res.panic
        | y :: ys => updateLoop f thr xs ys (left ++ [x]) (leftY ++ [y])
      else Res.ok ⟨left, x :: xs, leftY, ys⟩

/-- `classifierUpdateSplit` and `regressorUpdateSplit`. -/
def updateSplit (s : Split K Y) (f : Nat) (thr : K) : Res (Split K Y) :=
  updateLoop f thr s.right s.rightY s.left s.leftY

/-- `findUnique`, trees/cart_utils.go:8-18, then `sort.Float64s`. -/
def sortedUnique (vals : List K) : List K :=
  (vals.foldl (fun u v => if v ∈ u then u else u ++ [v]) []).insertionSort (· ≤ ·)

/-- `getFeature`, trees/cart_utils.go:21-27. -/
def getFeature (data : List (List K)) (f : Nat) : Res (List K) :=
  mapRes (fun x => match x[f]? with | some v => Res.ok v | none => Res.panic) data

/-- `validate`, trees/cart_utils.go:31-40. The feature is stored as a float, which is exact for any number of columns. -/
def validate (tried : List (Nat × K)) (f : Nat) (thr : K) : Bool :=
  !tried.any fun s => s.1 == f && decide (s.2 = thr)

/-- An element of a slice; a panic if there is none. -/
def atIdx {α : Type} (l : List α) (i : Nat) : Res α :=
  match l[i]? with
  | some x => Res.ok x
  | none => Res.panic

/-- `classifierReOrderData`, trees/cart_classifier.go:140-155, and `regressorReOrderData`, trees/cart_regressor.go:128-143.
`sortIdx` is the order in which `sort.Sort` leaves the indexes. -/
def reorder (sortIdx : List K → List Nat) (vals : List K) (data : List (List K)) (y : List Y) :
    Res (List (List K) × List Y) :=
  (mapRes (atIdx data) (sortIdx vals)).bind fun d => (mapRes (atIdx y) (sortIdx vals)).map fun y' => (d, y')

/-- The thresholds tried: the midpoints of neighbours, trees/cart_classifier.go:237-239 and trees/cart_regressor.go:222-223. -/
def midpoints (u : List K) : List K := List.zipWith (fun a b => (a + b) / 2) u u.tail

/-! ## The best split of a node -/

/-- The variables of the search: the best split so far and the fields of the node it sets. -/
structure CartBest (K Y : Type) where
  loss : K
  split : Split K Y
  thr : K
  feat : Nat
  leftLabel : Y
  rightLabel : Y
  leftLoss : K
  rightLoss : K

/-- A loss whose error is ignored, trees/cart_classifier.go:254-255: both results are zero then. -/
def lossOr0 [Zero Y] (loss : Loss K Y) (y : List Y) : Res (K × Y) :=
  match loss y with
  | .ok p => Res.ok p
  | .err => Res.ok (0, 0)
  | .panic => Res.panic

/-- The first split of a feature is built, later ones are updates, trees/cart_classifier.go:244-249 and
trees/cart_regressor.go:225-230. -/
def nextSplit (cur : Option (Split K Y)) (data : List (List K)) (f : Nat) (y : List Y) (t : K) : Res (Split K Y) :=
  match cur with
  | none => createSplit data f y t
  | some s => updateSplit s f t

/-- The loop over the thresholds of feature `f`, trees/cart_classifier.go:237-276 and trees/cart_regressor.go:222-253. `cur` is
the current split, `none` before the first. -/
def thrLoop [Zero Y] (loss : Loss K Y) (num : Nat) (tried : List (Nat × K)) (f : Nat) (data : List (List K)) (y : List Y) :
    List K → Option (Split K Y) → CartBest K Y → Res (CartBest K Y)
  | [], _, b => Res.ok b
  | t :: ts, cur, b =>
    if validate tried f t then
      (nextSplit cur data f y t).bind fun s =>
        (lossOr0 loss s.leftY).bind fun l => (lossOr0 loss s.rightY).bind fun r =>
          let sub : K := l.1 * ((s.left.length : Nat) : K) / ((num : Nat) : K) +
            r.1 * ((s.right.length : Nat) : K) / ((num : Nat) : K)
          thrLoop loss num tried f data y ts (some s)
            (if sub < b.loss then ⟨sub, s, t, f, l.2, r.2, l.1, r.1⟩ else b)
    else thrLoop loss num tried f data y ts cur b

/-- The loop over the features, trees/cart_classifier.go:224-276 and trees/cart_regressor.go:209-254. -/
def featLoop [Zero Y] (loss : Loss K Y) (sortIdx : List K → List Nat) (tried : List (Nat × K)) (data : List (List K))
    (y : List Y) : List Nat → CartBest K Y → Res (CartBest K Y)
  | [], b => Res.ok b
  | f :: fs, b =>
    (getFeature data f).bind fun vals =>
      (reorder sortIdx vals data y).bind fun p =>
        (thrLoop loss data.length tried f p.1 p.2 (midpoints (sortedUnique vals)) none b).bind fun b' =>
          featLoop loss sortIdx tried data y fs b'

/-- `classifierNode`, trees/cart_classifier.go:21-29, and `regressorNode`, trees/cart_regressor.go:22-30; `nil` is the nil
pointer. -/
inductive CNode (K Y : Type) where
  | nil
  | node (left right : CNode K Y) (thr : K) (feat : Nat) (leftLabel rightLabel : Y) (needed : Bool)
  deriving DecidableEq

/-- A fresh node. -/
def CNode.empty [Zero Y] : CNode K Y := .node .nil .nil 0 0 0 0 false

/-- The pointer to a child: set only if the child is needed. -/
def CNode.ifNeeded : CNode K Y → CNode K Y
  | .node l r t f a b true => .node l r t f a b true
  | _ => .nil

/-- What the construction of a tree depends on. -/
structure CartEnv (K Y : Type) where
  loss : Loss K Y
  sortIdx : List K → List Nat
  maxDepth : Int

/-- `classifierBestSplit`, trees/cart_classifier.go:193-315, and `regressorBestSplit`, trees/cart_regressor.go:180-286. The
splits tried are added once for each side that is split further. Each side of a split is smaller than the
data, so the recursion ends; `cartFit` gives one step for each row and one more. -/
def bestSplit [Zero Y] (e : CartEnv K Y) : Nat → List (Nat × K) → List (List K) → List Y → Int → Res (CNode K Y)
  | 0, _, _, _, _ => Res.panic
  | fuel + 1, tried, data, y, depth =>
    if e.maxDepth ≠ -1 ∧ e.maxDepth < depth + 1 then Res.ok CNode.empty
    else
      match data with
      | [] => Res.panic
      | x :: xs =>
        (e.loss y).bind fun o =>
          (featLoop e.loss e.sortIdx tried (x :: xs) y (List.range x.length)
            ⟨o.1, ⟨x :: xs, x :: xs, y, y⟩, 0, 0, o.2, 0, o.1, o.1⟩).bind fun b =>
            if b.loss = o.1 then Res.ok (.node .nil .nil b.thr b.feat b.leftLabel b.rightLabel false)
            else if 0 < b.loss then
              (if 0 < b.leftLoss then
                (bestSplit e fuel (tried ++ [(b.feat, b.thr)]) b.split.left b.split.leftY (depth + 1)).map CNode.ifNeeded
                else Res.ok .nil).bind fun l =>
                (if 0 < b.rightLoss then
                  (bestSplit e fuel
                    (if 0 < b.leftLoss then tried ++ [(b.feat, b.thr)] ++ [(b.feat, b.thr)] else tried ++ [(b.feat, b.thr)])
                    b.split.right b.split.rightY (depth + 1)).map CNode.ifNeeded
                  else Res.ok .nil).map fun r =>
                  .node l r b.thr b.feat b.leftLabel b.rightLabel true
            else Res.ok (.node .nil .nil b.thr b.feat b.leftLabel b.rightLabel true)

/-- The call in `Fit`, trees/cart_classifier.go:182 and trees/cart_regressor.go:170. -/
def cartFit [Zero Y] (e : CartEnv K Y) (data : List (List K)) (y : List Y) : Res (CNode K Y) :=
  bestSplit e (data.length + 1) [] data y 0

/-! ## Prediction -/

/-- `classifierPredictSingle`, trees/cart_classifier.go:358-372, and `regressorPredictSingle`,
trees/cart_regressor.go:329-343. `none` is the case of a nil pointer, in which the caller answers. -/
def predictNode : CNode K Y → List K → Res (Option Y)
  | .nil, _ => Res.ok none
  | .node l r t f a b _, x =>
    match x[f]? with
    | none => Res.panic
    | some v =>
      if v < t then (predictNode l x).map fun o => some (o.getD a)
      else (predictNode r x).map fun o => some (o.getD b)

/-- A prediction with a root; a nil root panics. -/
def cartPredict (t : CNode K Y) (x : List K) : Res Y :=
  (predictNode t x).bind fun o => match o with | some y => Res.ok y | none => Res.panic

/-- `classifierPredictFromNode`, trees/cart_classifier.go:383-390, and `regressorPredictFromNode`,
trees/cart_regressor.go:355-362. -/
def cartPredictAll (t : CNode K Y) (test : List (List K)) : Res (List Y) := mapRes (cartPredict t) test

/-- `classifierEvaluateFromNode`, trees/cart_classifier.go:406-416. No rows give NaN, here `none`. -/
def cartEvaluate [DecidableEq Y] (t : CNode K Y) (test : List (List K)) (y : List Y) : Res (Option K) :=
  (cartPredictAll t test).bind fun preds =>
    (mapRes (fun p : Y × Nat => (atIdx y p.2).map fun l => decide (p.1 = l)) preds.zipIdx).map fun hits =>
      if y = [] then none else some (((hits.countP id : Nat) : K) / ((y.length : Nat) : K))

end

/-! ## From instances -/

section
variable {K : Type} [Field K] [LinearOrder K]

/-- `NonClassFloatAttributes`, base/util_attributes.go:12-32. -/
def Grid.nonClassFloats (g : Grid) : List Attr :=
  g.allAttributes.filter fun a => a.isFloat && !(g.allClassAttributes.any fun b => a.equals b)

/-- The row callback of `convertInstancesToProblemVec`, trees/cart_utils.go:53-63, and
`regressorConvertInstancesToProblemVec`, trees/cart_regressor.go:375-385. -/
def problemCallback (val : U64 → K) (m : Nat → List K) (vals : List Bytes) (row : Nat) : Res ((Nat → List K) × Ctl) :=
  (readRow val vals).map fun t => (setRow m row t, Ctl.cont)

/-- `convertInstancesToProblemVec`, trees/cart_utils.go:43-65. -/
def problemVec (val : U64 → K) (srt : List Spec → List Spec) (order : List Nat) (g : Grid) : Res (List (List K)) :=
  (g.resolve srt g.nonClassFloats).bind fun as =>
    (keepState (g.mapOverRows as order (problemCallback val) fun _ => []) fun _ => []).map fun m =>
      (List.range g.size.2).map m

/-- The row callback of `classifierConvertInstancesToLabelVec`, trees/cart_classifier.go:436-439, and
`regressorConvertInstancesToLabelVec`, trees/cart_regressor.go:407-410. -/
def labelCallback {Y : Type} (conv : U64 → Y) (m : Nat → Y) (vals : List Bytes) (row : Nat) : Res ((Nat → Y) × Ctl) :=
  match vals with
  | v :: _ => (unpackFloatBits v).map fun u => (setRow m row (conv u), Ctl.cont)
  | [] => Res.panic

/-- `classifierConvertInstancesToLabelVec`, trees/cart_classifier.go:419-441, with `conv` the conversion to an integer, and
`regressorConvertInstancesToLabelVec`, trees/cart_regressor.go:390-412, with `conv` the identity. -/
def labelVec {Y : Type} [Zero Y] (conv : U64 → Y) (srt : List Spec → List Spec) (order : List Nat) (g : Grid) : Res (List Y) :=
  match g.allClassAttributes with
  | [c] =>
    if c.isFloat then
      (g.resolve srt [c]).bind fun cs =>
        (keepState (g.mapOverRows cs order (labelCallback conv) fun _ => 0) fun _ => 0).map fun m => (List.range g.size.2).map m
    else Res.err
  | _ => Res.err

/-- `CARTDecisionTreeClassifier.Fit`, trees/cart_classifier.go:172-189, and `CARTDecisionTreeRegressor.Fit`,
trees/cart_regressor.go:160-176. -/
def cartFitGrid {Y : Type} [Zero Y] (e : CartEnv K Y) (val : U64 → K) (conv : U64 → Y) (srt : List Spec → List Spec)
    (order order' : List Nat) (g : Grid) : Res (CNode K Y) :=
  (problemVec val srt order g).bind fun data => (labelVec conv srt order' g).bind fun y => cartFit e data y

/-- `Predict`, trees/cart_classifier.go:375-379 and trees/cart_regressor.go:347-351. -/
def cartPredictGrid {Y : Type} (val : U64 → K) (srt : List Spec → List Spec) (order : List Nat) (t : CNode K Y) (g : Grid) :
    Res (List Y) :=
  (problemVec val srt order g).bind fun test => cartPredictAll t test

end

end Golearn
