import Verif.Model.Predict
import Verif.Model.KdTree
import Mathlib.Algebra.Field.Rat
import Mathlib.Algebra.Order.Ring.Unbundled.Rat
import Mathlib.Algebra.Order.Monoid.WithTop
import Mathlib.Algebra.Order.Field.Basic
import Mathlib.Algebra.BigOperators.Group.List.Defs

/-!
# k nearest neighbours (utilities/utilities.go, knn/knn.go, knn/knn_opt_euclidean.go, knn/euclidean.c)

Numbers are elements of a linear order `R`; `val` is the number with a bit pattern. NaN is excluded and
nothing is rounded (the optimised path really accumulates in single precision).
-/

namespace Golearn

/-- `SortIntMap`, utilities/utilities.go:27-38. `sortKeys v l` is `sort.Sort` of `l` by the value `v`; the
keys come in the order of the map. -/
def sortIntMap {R : Type} [Zero R] (sortKeys : (Nat → R) → List Nat → List Nat) (m : GoMap Nat R) : List Nat :=
  sortKeys (fun k => (m.get? k).getD 0) (m.map Prod.fst)

/-! ## Voting -/

/-- The loops at knn/knn.go:291-296 and 319-324: the first of the keys, in the order of iteration, with
the largest value that is above the start value. -/
def argmaxLoop {V : Type} [LinearOrder V] (f : String → V) : List String → String × V → String × V
  | [], best => best
  | a :: as, best => argmaxLoop f as (if f a > best.2 then (a, f a) else best)

/-- The counting loop of `vote`, knn/knn.go:279-286. -/
def countVotes (fo : FloatOps) (train : Grid) : GoMap String Nat → List Nat → Res (GoMap String Nat)
  | m, [] => Res.ok m
  | m, v :: vs => (getClass fo train v).bind fun c => countVotes fo train (incr m c) vs

/-- `vote`, knn/knn.go:272-298. The map is kept between calls; `ord` is the order of iteration over it. -/
def vote (fo : FloatOps) (train : Grid) (ord : List String → List String) (m : GoMap String Nat) (values : List Nat) :
    Res (GoMap String Nat × String) :=
  (countVotes fo train (m.map fun p => (p.1, 0)) values).map fun m' =>
    (m', (argmaxLoop (fun a => (((m'.get? a).getD 0 : Nat) : Int)) (ord (m'.map Prod.fst)) ("", -1)).1)

section
variable {R : Type} [Field R] [LinearOrder R]

/-- `1 / length`, knn/knn.go:310: infinite for length zero. Lengths are not negative. -/
def invLength (l : R) : WithTop R := if l = 0 then ⊤ else ((1 / l : R) : WithTop R)

/-- `m[label] += w`, or `= w` for a new label, knn/knn.go:309-313. -/
def addWeight (m : GoMap String (WithTop R)) (c : String) (w : WithTop R) : GoMap String (WithTop R) :=
  m.set c ((m.get? c).getD 0 + w)

/-- The loop of `weightedVote`, knn/knn.go:307-314. -/
def sumWeights (fo : FloatOps) (train : Grid) :
    GoMap String (WithTop R) → List (Nat × R) → Res (GoMap String (WithTop R))
  | m, [] => Res.ok m
  | m, v :: vs => (getClass fo train v.1).bind fun c => sumWeights fo train (addWeight m c (invLength v.2)) vs

/-- `weightedVote`, knn/knn.go:300-326. -/
def weightedVote (fo : FloatOps) (train : Grid) (ord : List String → List String) (m : GoMap String (WithTop R))
    (values : List (Nat × R)) : Res (GoMap String (WithTop R) × String) :=
  (sumWeights fo train (m.map fun p => (p.1, 0)) values).map fun m' =>
    (m', (argmaxLoop (fun a => (m'.get? a).getD 0) (ord (m'.map Prod.fst)) ("", ((-1 : R) : WithTop R))).1)

end

/-! ## Prediction -/

section
variable {R : Type} [LinearOrder R] [Zero R]

/-- `UnpackBytesToFloat` of every value of a row, knn/knn.go:203-205 and 214-216. -/
def readRow (val : U64 → R) (vals : List Bytes) : Res (List R) :=
  mapRes (fun b => (unpackFloatBits b).map val) vals

/-- The numeric attributes, knn/knn.go:138-149: if all are numeric the last is left out. -/
def knnNumeric (all : List Attr) : Res (List Attr) :=
  let num := all.filter Attr.isFloat
  if num.length = all.length then (if num.isEmpty then Res.panic else Res.ok num.dropLast) else Res.ok num

/-- The row callback at knn/knn.go:212-222. -/
def distCallback (val : U64 → R) (dist : List R → List R → R) (x : List R) (m : GoMap Nat R) (vals : List Bytes)
    (row : Nat) : Res (GoMap Nat R × Ctl) :=
  (readRow val vals).map fun t => (m.set row (dist x t), Ctl.cont)

/-- The captured variables after `MapOverRows` when its error is ignored: what the callback has done is
kept. `MapOverRows` fails before the first row only. -/
def keepState {σ : Type} (r : Res (σ × Bool)) (s : σ) : Res σ :=
  match r with
  | .ok p => Res.ok p.1
  | .err => Res.ok s
  | .panic => Res.panic

/-- The linear search, knn/knn.go:210-230. The distance map is kept between rows. `sorted[:k]` panics
beyond the number of rows. -/
def linearSearch (val : U64 → R) (dist : List R → List R → R) (sortKeys : (Nat → R) → List Nat → List Nat) (k : Nat)
    (train : Grid) (specs : List Spec) (order : List Nat) (x : List R) (m : GoMap Nat R) :
    Res (GoMap Nat R × List (Nat × R)) :=
  (keepState (train.mapOverRows specs order (distCallback val dist x) m) m).bind fun m' =>
    let sorted := sortIntMap sortKeys m'
    if k > sorted.length then Res.panic
    else Res.ok (m', (sorted.take k).map fun v => (v, (m'.get? v).getD 0))

/-- The callback collecting the points for the k-d tree, knn/knn.go:177-186. -/
def pointCallback (val : U64 → R) (pts : List (Nat × List R)) (vals : List Bytes) (row : Nat) :
    Res (List (Nat × List R) × Ctl) :=
  (readRow val vals).map fun t => (pts ++ [(row, t)], Ctl.cont)

/-- The search in the k-d tree, knn/knn.go:240-250. An error stops the iteration over the rows. -/
def treeSearch (dist : List R → List R → R) (k : Nat) (pts : List (Nat × List R)) (root : KNode R) (x : List R) :
    Res (List (Nat × R)) :=
  (kdSearch (pts.map Prod.snd) root k dist x).map fun out =>
    out.map fun p => ((pts.map Prod.fst).getD p.1 0, p.2)

/-- What is carried from row to row: the predictions, and whatever search and vote keep. -/
structure KnnState (σ τ : Type) where
  ret : Dense
  search : σ
  votes : τ

/-- The callback over the rows to predict, knn/knn.go:195-263. `search` finds the neighbours, `votes`
picks the label; both may depend on the row, because the order of iteration over a map differs from time
to time. -/
def knnCallback {σ τ : Type} (fo : FloatOps) (parse : String → Option U64) (val : U64 → R)
    (search : Nat → List R → σ → Res (σ × List (Nat × R))) (votes : Nat → List (Nat × R) → τ → Res (τ × String))
    (s : KnnState σ τ) (vals : List Bytes) (row : Nat) : Res (KnnState σ τ × Ctl) :=
  (readRow val vals).bind fun x =>
    match search row x s.search with
    | .ok p =>
      (votes row p.2 s.votes).bind fun q =>
        (setClass fo parse s.ret row q.2).map fun d => (⟨d, p.1, q.1⟩, Ctl.cont)
    | .err => Res.ok (s, Ctl.error)
    | .panic => Res.panic

/-- The arbitrary choices and library functions a prediction depends on. -/
structure KnnEnv (R : Type) where
  fo : FloatOps
  parse : String → Option U64
  /-- the page size -/
  pg : Nat
  val : U64 → R
  /-- the distance function -/
  dist : List R → List R → R
  srt : List Spec → List Spec
  /-- `sort.Sort` of row numbers by distance, for each row to predict -/
  sortKeys : Nat → (Nat → R) → List Nat → List Nat
  /-- the row order of `MapOverRows` on the data to predict -/
  orderW : List Nat
  /-- the row order of `MapOverRows` on the training data, for each row to predict -/
  orderT : Nat → List Nat

/-- `Predict`, knn/knn.go:102-266, with the linear search and without optimisations, after the distance
function and the algorithm have been recognised. `votes` is `vote` or `weightedVote`. -/
def knnPredictLinear {τ : Type} (e : KnnEnv R) (k : Nat) (train what : Grid)
    (votes : Nat → List (Nat × R) → τ → Res (τ × String)) (v0 : τ) : Res Dense :=
  match checkCompatible what train with
  | none => Res.err
  | some all =>
    (knnNumeric all).bind fun num =>
      (generatePredictionVector e.pg what).bind fun ret =>
        (what.resolve e.srt num).bind fun ws =>
          (train.resolve e.srt num).bind fun ts =>
            (keepState (what.mapOverRows ws e.orderW (knnCallback e.fo e.parse e.val
              (fun row => linearSearch e.val e.dist (e.sortKeys row) k train ts (e.orderT row)) votes)
              ⟨ret, [], v0⟩) ⟨ret, [], v0⟩).map KnnState.ret

/-- `Predict`, knn/knn.go:102-266, with the k-d tree. `srtKd` is the sort used by `Build` on some points, `orderB` the row
order of the iteration over the training data. -/
def knnPredictTree {τ : Type} (e : KnnEnv R) (srtKd : List (List R) → Nat → List Nat → List Nat) (orderB : List Nat) (k : Nat)
    (train what : Grid) (votes : Nat → List (Nat × R) → τ → Res (τ × String)) (v0 : τ) : Res Dense :=
  match checkCompatible what train with
  | none => Res.err
  | some all =>
    (knnNumeric all).bind fun num =>
      (generatePredictionVector e.pg what).bind fun ret =>
        (what.resolve e.srt num).bind fun ws =>
          (train.resolve e.srt num).bind fun ts =>
            (keepState (train.mapOverRows ts orderB (pointCallback e.val) []) []).bind fun pts =>
              (kdBuild (srtKd (pts.map Prod.snd)) (pts.map Prod.snd)).bind fun root =>
                (keepState (what.mapOverRows ws e.orderW (knnCallback e.fo e.parse e.val
                  (fun _ x _ => (treeSearch e.dist k pts root x).map fun out => ((), out)) votes)
                  ⟨ret, (), v0⟩) ⟨ret, (), v0⟩).map KnnState.ret

end

/-! ## The optimised Euclidean path -/

section
variable {R : Type} [LinearOrder R] [Zero R] [Add R] [Sub R] [Mul R]

/-- The double at an index of the storage of a group. -/
def doubleAt (val : U64 → R) (alloc : Bytes) (i : Nat) : R :=
  match unpackFloatBits ((alloc.drop (i * 8)).take 8) with
  | .ok u => val u
  | _ => 0

/-- The inner loop, knn/euclidean.c:21-27. -/
def kernelInner (pred train : Nat → R) (cols row i : Nat) : Nat → R → R
  | 0, acc => acc
  | j + 1, acc =>
    let acc := kernelInner pred train cols row i j acc
    acc + (pred (row * cols + j) - train (i * cols + j)) * (pred (row * cols + j) - train (i * cols + j))

/-- `euclidean_distance`, knn/euclidean.c:9-29: `out` holds the distances and the row numbers. -/
def euclideanKernel (pred train : Nat → R) (cols row : Nat) (out : List (R × Nat)) : List (R × Nat) :=
  out.zipIdx.map fun p => (kernelInner pred train cols row p.2 cols p.1.1, p.2)

/-- The groups of the training data without class attributes, knn/knn_opt_euclidean.go:32-40. -/
def optGroups (tr : Dense) (names : List String) : List String :=
  names.filter fun n =>
    match tr.groupNamed n with
    | some g => (attrIntersect tr.allClassAttributes g.attrs).isEmpty
    | none => false

/-- The distances of one row from all the training rows, knn/knn_opt_euclidean.go:62-76; `names` are the
groups in the order of iteration. -/
def optDistances (val : U64 → R) (tr pr : Dense) (row : Nat) (old : List (R × Nat)) (names : List String) :
    List (R × Nat) :=
  names.foldl (fun out n =>
    match tr.groupNamed n, pr.groupNamed n with
    | some gt, some gp => euclideanKernel (doubleAt val gp.alloc) (doubleAt val gt.alloc) gp.attrs.length row out
    | _, _ => out) (old.map fun p => (0, p.2))

/-- The loop over the rows to predict, knn/knn_opt_euclidean.go:61-84. The sorted vector is used again for
the next row. `srtD` is `sort.Sort` by distance, `ord` the order of iteration over the votes and `names` the
groups in the order of iteration. The `Weighted` setting is not looked at. -/
def optLoop (fo : FloatOps) (parse : String → Option U64) (val : U64 → R) (srtD : List (R × Nat) → List (R × Nat))
    (ord : Nat → List String → List String) (k : Nat) (tr pr : Dense) (names : Nat → List String) :
    List Nat → Dense → List (R × Nat) → GoMap String Nat → Res Dense
  | [], ret, _, _ => Res.ok ret
  | row :: rows, ret, vec, m =>
    let vec := srtD (optDistances val tr pr row vec (names row))
    if k > vec.length then Res.panic
    else
      (vote fo (.dense tr) (ord row) m ((vec.take k).map Prod.snd)).bind fun q =>
        (setClass fo parse ret row q.2).bind fun d =>
          optLoop fo parse val srtD ord k tr pr names rows d vec q.1

/-- Taking the address of the first byte of a group panics when there is none, knn/knn_opt_euclidean.go:48-49. -/
def optNoStorage (tr pr : Dense) (n : String) : Bool :=
  match tr.groupNamed n, pr.groupNamed n with
  | some gt, some gp => gt.alloc.isEmpty || gp.alloc.isEmpty
  | _, _ => true

/-- `optimisedEuclideanPredict`, knn/knn_opt_euclidean.go:20-86; `names row` is the order of iteration over
the groups for a row. -/
def optimisedPredict (fo : FloatOps) (parse : String → Option U64) (pg : Nat) (val : U64 → R)
    (srtD : List (R × Nat) → List (R × Nat)) (ord : Nat → List String → List String) (k : Nat) (tr pr : Dense)
    (names : Nat → List String) : Res Dense :=
  (generatePredictionVector pg (.dense pr)).bind fun ret =>
    if (optGroups tr (names 0)).any (optNoStorage tr pr) then Res.panic
    else optLoop fo parse val srtD ord k tr pr (fun row => optGroups tr (names row)) (List.range pr.maxRow) ret
      (List.replicate tr.maxRow (0, 0)) []

/-- `NonClassAttributes`, base/util_attributes.go:36-40, of dense instances. -/
def Dense.normalAttrs (d : Dense) : List Attr := attrDifferenceRefs d.allAttributes d.allClassAttributes

/-- `canUseOptimisations`, knn/knn.go:51-99, for dense instances `pr` to predict and training data `tr`;
`names` is the order of iteration over the groups. -/
def canUseOptimisations (pr tr : Dense) (names : List String) : Res Bool :=
  (checkStrictlyCompatible (.dense pr) (.dense tr) names).map fun ok =>
    ok &&
    names.all (fun n => match pr.groupNamed n with
      | some g =>
        if g.attrs.any (fun a => pr.allClassAttributes.any fun c => a.equals c)
        then (attrIntersect pr.normalAttrs g.attrs).isEmpty else true
      | none => true) &&
    pr.normalAttrs.all Attr.isFloat

end

/-! ## Regression -/

section
variable {R : Type} [Field R] [LinearOrder R]

/-- The loop filling the distance map, knn/knn.go:457-461. -/
def regressDists (dist : List R → List R → R) (data : List (List R)) (x : List R) : GoMap Nat R :=
  (List.range data.length).foldl (fun m i => m.set i (dist (data.getD i []) x)) []

/-- `KNNRegressor.Predict`, knn/knn.go:440-475, after the distance function has been recognised. `sorted[:K]`
panics beyond the number of rows; for `K` zero the division gives NaN, `none`. -/
def knnRegress (sortKeys : (Nat → R) → List Nat → List Nat) (dist : List R → List R → R) (data : List (List R))
    (values : List R) (x : List R) (k : Nat) : Res (Option R) :=
  let sorted := sortIntMap sortKeys (regressDists dist data x)
  if k > sorted.length then Res.panic
  else Res.ok (if k = 0 then none else some (((sorted.take k).map fun i => values.getD i 0).sum / (k : R)))

end

end Golearn
