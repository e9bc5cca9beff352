import Verif.Model.Cart
import Verif.Model.Predict
import Verif.Model.Instances

/-! # Linear support vector machines and logistic regression: linear_models

The Go half of the package and the parts of the bundled liblinear that decide what is trained and what is predicted.
The numerical solvers behind `train_one` are a parameter. -/

namespace Golearn

/-! ## Parameters -/

/-- `L2R_LR`, linear_models/liblinear.go:23 and linear_models/linear.h:22. -/
def solverL2LR : Nat := 0
/-- `L2R_L2LOSS_SVC_DUAL`, linear_models/liblinear.go:24 and linear_models/linear.h:22. -/
def solverL2L2Dual : Nat := 1
/-- `L2R_L2LOSS_SVC`, linear_models/liblinear.go:25 and linear_models/linear.h:22. -/
def solverL2L2 : Nat := 2
/-- `L2R_L1LOSS_SVC_DUAL`, linear_models/liblinear.go:26 and linear_models/linear.h:22. -/
def solverL2L1Dual : Nat := 3
/-- `L1R_L2LOSS_SVC`, linear_models/liblinear.go:28 and linear_models/linear.h:22. -/
def solverL1L2 : Nat := 5
/-- `L1R_LR`, linear_models/liblinear.go:29 and linear_models/linear.h:22. -/
def solverL1LR : Nat := 6

/-- `LinearSVCParams`, linear_models/linearsvc.go:30-37. -/
structure SvcParams (K : Type) where
  solver : Nat
  weights : Option (List K)
  c : K
  eps : K
  auto : Bool
  dual : Bool
deriving DecidableEq

/-- The errors `SetKindFromStrings` returns, linear_models/linearsvc.go:65, 94, 91, 72, 86 and 99. -/
inductive KindErr where
  | loss | penalty | combination | toDual | toPrimal | invalid
deriving DecidableEq

/-- `Copy`, linear_models/linearsvc.go:40-54. -/
def SvcParams.copy {K : Type} (p : SvcParams K) : SvcParams K :=
  { solver := p.solver, c := p.c, eps := p.eps, auto := p.auto, dual := p.dual,
    weights := match p.weights with
      | none => none
      | some ws => some ws }

/-- The end of `SetKindFromStrings`, linear_models/linearsvc.go:97-101. -/
def setKindEnd {K : Type} (p : SvcParams K) (ret : Option KindErr) : SvcParams K × Option KindErr :=
  if p.solver = 0 then (p, some .invalid) else (p, ret)

/-- `SetKindFromStrings`, linear_models/linearsvc.go:58-102: the parameters afterwards and the error, if any. -/
def SvcParams.setKind {K : Type} (p0 : SvcParams K) (loss penalty : String) : SvcParams K × Option KindErr :=
  let p := { p0 with solver := 0 }
  if loss ≠ "l1" ∧ loss ≠ "l2" then (p, some .loss)
  else if penalty = "l2" then
    if loss = "l1" then
      setKindEnd { p with solver := solverL2L1Dual, dual := true } (if p.dual then none else some .toDual)
    else if p.dual then setKindEnd { p with solver := solverL2L2Dual } none
    else setKindEnd { p with solver := solverL2L2 } none
  else if penalty = "l1" then
    if loss = "l2" then
      setKindEnd { p with solver := solverL1L2, dual := false } (if p.dual then some .toPrimal else none)
    else (p, some .combination)
  else (p, some .penalty)

/-- `Parameter` without the weights, linear_models/liblinear.go:14-16 and linear_models/linear.h:24-35. -/
structure LParam (K : Type) where
  solver : Nat
  c : K
  eps : K
deriving DecidableEq

/-- `convertToNativeFormat`, linear_models/linearsvc.go:106-108, with `NewParameter`, linear_models/liblinear.go:33-43. -/
def SvcParams.native {K : Type} (p : SvcParams K) : LParam K := ⟨p.solver, p.c, p.eps⟩

/-- `LinearSVC` before training, linear_models/linearsvc.go:111-115. -/
structure Svc (K : Type) where
  param : LParam K
  params : SvcParams K

/-- `NewLinearSVCFromParams`, linear_models/linearsvc.go:139-146. -/
def newSvcFromParams {K : Type} (p : SvcParams K) : Svc K := ⟨p.native, p⟩

/-- `NewLinearSVC`, linear_models/linearsvc.go:126-136. -/
def newLinearSVC {K : Type} (loss penalty : String) (dual : Bool) (c eps : K) : Res (Svc K) :=
  let r := SvcParams.setKind { solver := 0, weights := none, c := c, eps := eps, auto := false, dual := dual } loss penalty
  match r.2 with
  | some _ => Res.err
  | none => Res.ok (newSvcFromParams r.1)

/-- `NewLogisticRegression`, linear_models/logistic.go:14-28. -/
def newLogistic {K : Type} (penalty : String) (c eps : K) : Res (LParam K) :=
  if penalty = "l2" then Res.ok ⟨solverL2LR, c, eps⟩
  else if penalty = "l1" then Res.ok ⟨solverL1LR, c, eps⟩
  else Res.err

/-! ## Sparse vectors -/

section
variable {K : Type} [Field K] [LinearOrder K]

/-- `struct feature_node`, linear_models/linear.h:8-12. -/
structure FNode (K : Type) where
  index : Int
  value : K
deriving DecidableEq

/-- A fresh node: memory from `make` is zero. Go language, used at linear_models/liblinear.go:99 and 129. -/
def FNode.zero : FNode K := ⟨0, 0⟩

/-- Storing into a node of a slice, which panics past the end. Go language, used at linear_models/liblinear.go:103-113 and
140-150. Index and value are stored together; the end marker leaves the value as it is, here 0. -/
def storeNode (space : List (FNode K)) (cursor : Nat) (nd : FNode K) : Res (List (FNode K)) :=
  if cursor < space.length then Res.ok (space.set cursor nd) else Res.panic

/-- The loop of `convert_vector`, linear_models/liblinear.go:101-107, from position `i`. -/
def vectorLoop : List K → Nat → List (FNode K) → Nat → Res (List (FNode K) × Nat)
  | [], _, space, j => Res.ok (space, j)
  | x :: xs, i, space, j =>
    if 0 < x then (storeNode space j ⟨(i : Int) + 1, x⟩).bind fun space => vectorLoop xs (i + 1) space (j + 1)
    else vectorLoop xs (i + 1) space j

/-- `convert_vector`, linear_models/liblinear.go:90-115: the nodes the returned pointer points to. -/
def convertVector (x : List K) (bias : K) : Res (List (FNode K)) :=
  let nEle := (x.countP fun v => decide (0 < v)) + 2
  (vectorLoop x 0 (List.replicate nEle FNode.zero) 0).bind fun p =>
    (if 0 < bias then (storeNode p.1 p.2 ⟨0, 0⟩).map fun s => (s, p.2 + 1) else Res.ok p).bind fun p =>
      storeNode p.1 p.2 ⟨-1, 0⟩

/-- The inner loop of `convert_features`, linear_models/liblinear.go:138-149, from column `j`. -/
def featuresRow (bias : K) : List K → Nat → List (FNode K) → Nat → Res (List (FNode K) × Nat)
  | [], _, space, cursor => Res.ok (space, cursor)
  | x :: xs, j, space, cursor =>
    (if x ≠ 0 then (storeNode space cursor ⟨(j : Int) + 1, x⟩).map fun s => (s, cursor + 1) else Res.ok (space, cursor)).bind
      fun p => (if 0 < bias then (storeNode p.1 p.2 ⟨0, bias⟩).map fun s => (s, p.2 + 1) else Res.ok p).bind
        fun p => featuresRow bias xs (j + 1) p.1 p.2

/-- The outer loop of `convert_features`, linear_models/liblinear.go:135-152: the nodes and where every row starts. -/
def featuresLoop (bias : K) : List (List K) → List (FNode K) → Nat → List Nat → Res (List (FNode K) × List Nat)
  | [], space, _, ptrs => Res.ok (space, ptrs)
  | row :: rows, space, cursor, ptrs =>
    if cursor < space.length then
      (featuresRow bias row 0 space cursor).bind fun p =>
        (storeNode p.1 p.2 ⟨-1, 0⟩).bind fun space => featuresLoop bias rows space (p.2 + 1) (ptrs ++ [cursor])
    else Res.panic

/-- `convert_features`, linear_models/liblinear.go:116-155. Taking the address of the first of no rows panics. -/
def convertFeatures (rows : List (List K)) (bias : K) : Res (List (FNode K) × List Nat) :=
  let nElements := (rows.map fun r => (r.countP fun v => decide (v ≠ 0)) + r.length).sum
  (featuresLoop bias rows (List.replicate (nElements + rows.length) FNode.zero) 0 []).bind fun p =>
    if p.2 = [] then Res.panic else Res.ok p

/-- `Problem`, linear_models/liblinear.go:10-12 and linear_models/linear.h:14-20. -/
structure LProblem (K : Type) where
  l : Nat
  n : Nat
  y : List K
  space : List (FNode K)
  x : List Nat
  bias : K

/-- `NewProblem`, linear_models/liblinear.go:45-59. -/
def newProblem (rows : List (List K)) (y : List K) (bias : K) : Res (LProblem K) :=
  match rows with
  | [] => Res.panic
  | r0 :: _ =>
    (convertFeatures rows bias).bind fun p =>
      if y = [] then Res.panic else
        Res.ok { l := rows.length, n := r0.length + 1, y := y, space := p.1, x := p.2, bias := -1 }

/-- How liblinear reads a row: the nodes from a pointer on until the index is −1, linear_models/linear.cpp:2505-2514. `none`
is a read past the end of the slice. -/
def readNodes : List (FNode K) → Option (List (FNode K))
  | [] => none
  | nd :: nds => if nd.index = -1 then some [] else (readNodes nds).map (nd :: ·)

/-- The `i`-th row of a problem as liblinear reads it, `prob->x[i]`, linear_models/linear.cpp:2353 and 2505-2514. -/
def LProblem.row (p : LProblem K) (i : Nat) : Option (List (FNode K)) :=
  match p.x[i]? with
  | none => none
  | some k => readNodes (p.space.drop k)

/-! ## Grouping the classes -/

/-- The first loop of `group_classes`, linear_models/linear.cpp:2116-2141: the labels in the order they first occur, how often
each occurs and the class number of every row. `toInt` is C's conversion of a double to an int. -/
def groupLoop (toInt : K → Int) : List K → List Int → List Nat → List Nat → List Int × List Nat × List Nat
  | [], label, count, dataLabel => (label, count, dataLabel)
  | y :: ys, label, count, dataLabel =>
    let j := label.findIdx fun l => decide (l = toInt y)
    if j = label.length then groupLoop toInt ys (label ++ [toInt y]) (count ++ [1]) (dataLabel ++ [j])
    else groupLoop toInt ys label (count.set j (count.getD j 0 + 1)) (dataLabel ++ [j])

/-- The swap for two classes −1 and 1 in this order, linear_models/linear.cpp:2148-2159. -/
def groupSwap (p : List Int × List Nat × List Nat) : List Int × List Nat × List Nat :=
  if p.1 = [-1, 1] then
    ([1, -1], p.2.1.reverse, p.2.2.map fun c => if c = 0 then 1 else 0)
  else p

/-- The starts of the classes, linear_models/linear.cpp:2161-2164 and 2170-2172: `start[i] = start[i-1]+count[i-1]`. -/
def groupStarts : List Nat → Nat → List Nat
  | [], _ => []
  | c :: cs, s => s :: groupStarts cs (s + c)

/-- The second loop of `group_classes`, linear_models/linear.cpp:2165-2169, from row `i`. -/
def permLoop : List Nat → Nat → List Nat → List Nat → List Nat
  | [], _, _, perm => perm
  | c :: cs, i, start, perm =>
    permLoop cs (i + 1) (start.set c (start.getD c 0 + 1)) (perm.set (start.getD c 0) i)

/-- What `group_classes` returns, linear_models/linear.cpp:2174-2177 and the argument `perm`. -/
structure Groups where
  label : List Int
  start : List Nat
  count : List Nat
  perm : List Nat

/-- `group_classes`, linear_models/linear.cpp:2106-2179. The growing of the arrays is left out. -/
def groupClasses (toInt : K → Int) (y : List K) : Groups :=
  let g := groupSwap (groupLoop toInt y [] [] [])
  { label := g.1, start := groupStarts g.2.1 0, count := g.2.1,
    perm := permLoop g.2.2 0 (groupStarts g.2.1 0) (List.replicate y.length 0) }

/-! ## Training -/

/-- The class weights given to liblinear: `weight_label[i]` is `i`, linear_models/linearsvc.go:166-169 and 177-179. Multiplies
them into the penalties, linear_models/linear.cpp:2335-2347, from weight `i`. -/
def weightedC (label : List Int) : List K → Nat → List K → List K
  | [], _, wc => wc
  | w :: ws, i, wc =>
    let j := label.findIdx fun l => decide ((i : Int) = l)
    weightedC label ws (i + 1) (if j = label.length then wc else wc.set j (wc.getD j 0 * w))

/-- A problem with two classes as `train_one` receives it: the rows and whether the label is +1. -/
abbrev SubProblem (K : Type) := List (List (FNode K) × Bool)

/-- The solvers: `train_one`, linear_models/linear.cpp:2181-2287, from the problem, the number of features, the solver, the
tolerance and the penalties `Cp` and `Cn`, to the weights. -/
abbrev Solver (K : Type) := SubProblem K → Nat → LParam K → K → K → Nat → K

/-- `struct model`, linear_models/linear.h:37-45. The weights beyond the end of the array are never read. -/
structure LModel (K : Type) where
  nrFeature : Nat
  nrClass : Nat
  w : Nat → K
  label : List Int
  bias : K

/-- The rows in the order of the permutation, linear_models/linear.cpp:2350-2364. `none` is a read past the end. -/
def permuted {α : Type} (rows : List α) (perm : List Nat) : Option (List α) := perm.mapM fun i => rows[i]?

/-- `train`, linear_models/linear.cpp:2293-2428, for the solvers golearn's constructors choose: neither regression nor
`MCSVM_CS`. The rows are read once at the start; a row that cannot be read is a panic here. -/
def train (solve : Solver K) (toInt : K → Int) (prob : LProblem K) (param : LParam K) (weights : List K) : Res (LModel K) :=
  let g := groupClasses toInt prob.y
  let wc := weightedC g.label weights 0 (List.replicate g.label.length param.c)
  (((List.range prob.l).mapM prob.row).bind fun rows => permuted rows g.perm).elim Res.panic fun xs =>
    let sub := fun (i : Nat) =>
      let si := g.start.getD i 0
      let ei := si + g.count.getD i 0
      (xs.zipIdx.map fun p => (p.1, decide (si ≤ p.2 ∧ p.2 < ei)) : SubProblem K)
    let nrFeature := if 0 ≤ prob.bias then prob.n - 1 else prob.n
    if g.label.length = 2 then
      Res.ok { nrFeature := nrFeature, nrClass := 2, label := g.label, bias := prob.bias,
               w := solve (sub 0) prob.n param (wc.getD 0 0) (wc.getD 1 0) }
    else
      Res.ok { nrFeature := nrFeature, nrClass := g.label.length, label := g.label, bias := prob.bias,
               w := fun k => solve (sub (k % g.label.length)) prob.n param (wc.getD (k % g.label.length) 0) param.c
                 (k / g.label.length) }

/-! ## Prediction -/

/-- The decision values, linear_models/linear.cpp:2490-2514: `w[(idx-1)*nr_w+i]*lx->value` added up. -/
def decValue (m : LModel K) (nds : List (FNode K)) (i : Nat) : K :=
  let n := if 0 ≤ m.bias then m.nrFeature + 1 else m.nrFeature
  let nrW := if m.nrClass = 2 then 1 else m.nrClass
  nds.foldl (fun acc nd => if nd.index ≤ (n : Int) then acc + m.w ((nd.index - 1).toNat * nrW + i) * nd.value else acc) 0

/-- The choice between more than two classes, linear_models/linear.cpp:2527-2532, from class `i` on. -/
def decMax (dec : Nat → K) : Nat → Nat → Nat → Nat
  | 0, _, best => best
  | k + 1, i, best => decMax dec k (i + 1) (if dec best < dec i then i else best)

/-- `predict_values`, linear_models/linear.cpp:2488-2535, for the same solvers. -/
def predictValues (m : LModel K) (nds : List (FNode K)) : Res Int :=
  if m.nrClass = 2 then
    ((if 0 < decValue m nds 0 then m.label[0]? else m.label[1]?).elim Res.panic Res.ok)
  else (m.label[decMax (decValue m nds) (m.nrClass - 1) 1 0]?).elim Res.panic Res.ok

/-- `Predict`, linear_models/liblinear.go:84-89. -/
def libPredict (m : LModel K) (x : List K) : Res Int :=
  (convertVector x 0).bind fun space => (readNodes space).elim Res.panic (predictValues m)

/-! ## From instances -/

/-- `convertInstancesToLabelVec`, linear_models/util.go:61-82: where trees return an error this one panics. -/
def linLabelVec (val : U64 → K) (srt : List Spec → List Spec) (order : List Nat) (g : Grid) : Res (List K) :=
  match labelVec val srt order g with
  | .err => Res.panic
  | r => r

/-- `generateClassWeightVectorFromDist`, linear_models/util.go:8-19. -/
def weightsFromDist (fo : FloatOps) (half : U64) (srt : List Spec → List Spec) (order : List Nat) (g : Grid) : Res (List K) :=
  (binFloatDist fo half srt g order).map fun d =>
    [d.1, d.2].map fun c : Nat => if c = 0 then 1 else 1 / (c : K)

/-- `generateClassWeightVectorFromFixed`, linear_models/util.go:21-35. -/
def weightsFixed (g : Grid) : Res (List K) :=
  match g.allClassAttributes with
  | [c] => if c.isFloat then Res.ok [1, 1] else Res.panic
  | _ => Res.panic

/-- The class weighting in `LinearSVC.Fit`, linear_models/linearsvc.go:155-164. -/
def classWeights (fo : FloatOps) (half : U64) (srt : List Spec → List Spec) (order : List Nat) (p : SvcParams K) (g : Grid) :
    Res (List K) :=
  match p.weights with
  | none => if p.auto then weightsFromDist fo half srt order g else weightsFixed g
  | some ws => Res.ok ws

/-- `LinearSVC.Fit`, linear_models/linearsvc.go:150-184. The problem vector is that of trees, whose text
linear_models/util.go:37-59 repeats. `order0`, `order1` and `order2` are the orders the three passes see. -/
def svcFit (solve : Solver K) (toInt : K → Int) (fo : FloatOps) (half : U64) (val : U64 → K) (srt : List Spec → List Spec)
    (order0 order1 order2 : List Nat) (lr : Svc K) (g : Grid) : Res (LModel K) :=
  (classWeights fo half srt order0 lr.params g).bind fun weights =>
  (problemVec val srt order1 g).bind fun rows =>
  (linLabelVec val srt order2 g).bind fun y =>
  (newProblem rows y 0).bind fun prob =>
  if weights = [] then Res.panic else train solve toInt prob lr.param weights

/-- `LogisticRegression.Fit`, linear_models/logistic.go:30-36. No weights are given. -/
def logisticFit (solve : Solver K) (toInt : K → Int) (val : U64 → K) (srt : List Spec → List Spec)
    (order1 order2 : List Nat) (param : LParam K) (g : Grid) : Res (LModel K) :=
  (problemVec val srt order1 g).bind fun rows =>
  (linLabelVec val srt order2 g).bind fun y =>
  (newProblem rows y 0).bind fun prob => train solve toInt prob param []

/-- The row callback of `Predict`, linear_models/linearsvc.go:204-212 and linear_models/logistic.go:54-62. -/
def svcCallback (val : U64 → K) (enc : Int → U64) (m : LModel K) (s : Spec) (ret : Dense) (vals : List Bytes) (row : Nat) :
    Res (Dense × Ctl) :=
  (readRow val vals).bind fun x => (libPredict m x).bind fun y =>
    (ret.set s row (packU64 (enc y))).map fun d => (d, Ctl.cont)

/-- `LinearSVC.Predict`, linear_models/linearsvc.go:187-215, and `LogisticRegression.Predict`,
linear_models/logistic.go:38-65. `enc` is the float bits of an integer. -/
def svcPredict (val : U64 → K) (enc : Int → U64) (srt : List Spec → List Spec) (pg : Nat) (order : List Nat) (m : LModel K)
    (g : Grid) : Res Dense :=
  match g.allClassAttributes with
  | [c] =>
    (generatePredictionVector pg g).bind fun ret =>
      ((Grid.dense ret).resolve srt [c]).bind fun cs =>
        (g.resolve srt g.nonClassFloats).bind fun as =>
          match cs with
          | s :: _ => keepState (g.mapOverRows as order (svcCallback val enc m s) ret) ret
          | [] => Res.panic
  | _ => Res.panic

end

end Golearn
